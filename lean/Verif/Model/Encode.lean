import Verif.Model.Core
import Verif.Model.Text
import Verif.Model.Enums
import Verif.Model.Printer

/-!
# The encoder of a model part (encoder.go and the encoders of the extensions)

An encoder function is modelled by the sequence of its calls of `EncodeToken` (`Op`), each with the values that
`SetAutoClose` and `SetSkipAttrEscape` had then.  `prec` is the float precision.  The errors of
the underlying writer, reported by `Flush`, are not modelled.
-/

namespace Go3mf

/-- An attribute without name space. -/
def attr (loc value : Str) : Attr := ⟨⟨[], loc⟩, value⟩

/-- An attribute that is written only if the condition holds. -/
def attrIf (c : Bool) (loc value : Str) : List Attr := if c then [attr loc value] else []

/-- A name without name space. -/
def coreName (loc : Str) : Name := ⟨[], loc⟩

/-- A start element that is closed by a later end element. -/
def opStart (n : Name) (as : List Attr) : Op := .start n as false false

/-- A start element in auto-close mode. -/
def opAuto (n : Name) (as : List Attr) : Op := .start n as true false

/-- A start element in auto-close mode without escaping. -/
def opFast (n : Name) (as : List Attr) : Op := .start n as true true

/-! ## Attribute groups -/

/-- `Marshal3MF` of the attribute groups (spec/unknown.go:19-22, production/encoder.go:13-40, slices/encoder.go:15-21): the
arguments of the successive calls of `append`. -/
def AttrGroup.appends : AttrGroup → List (List Attr)
  | .unknown _ attrs => [attrs]
  | .prodBuild u => [[⟨⟨nsProduction, b!"UUID"⟩, u⟩]]
  | .prodObject u => [[⟨⟨nsProduction, b!"UUID"⟩, u⟩]]
  | .prodItem u p => (if p ≠ [] then [[⟨⟨nsProduction, b!"path"⟩, p⟩]] else []) ++ [[⟨⟨nsProduction, b!"UUID"⟩, u⟩]]
  | .prodComponent u p => (if p ≠ [] then [[⟨⟨nsProduction, b!"path"⟩, p⟩]] else []) ++ [[⟨⟨nsProduction, b!"UUID"⟩, u⟩]]
  | .sliceObject i r => [[⟨⟨nsSlices, b!"slicestackid"⟩, formatUint i⟩, ⟨⟨nsSlices, b!"meshresolution"⟩, r.str⟩]]

/-- spec/spec.go:95-103 `AnyAttr.Marshal3MF`, on a start element that shares its attributes with no other. -/
def encodeAnyAttr (any : AnyAttr) : List Attr := (any.flatMap AttrGroup.appends).flatten

/-! ## Elements of the extensions -/

/-- `strings.Join(…, " ")` of the formatted values. -/
def joinWords {α : Type} (f : α → Str) (xs : List α) : Str := Str.join b!" " (xs.map f)

/-- materials/encoder.go:15-33, of `ColorGroup`. -/
def ColorGroup.ops (r : ColorGroup) : List Op :=
  opStart ⟨nsMaterials, b!"colorgroup"⟩ [attr b!"id" (formatUint r.id)] ::
    (r.colors.map fun c => opFast ⟨nsMaterials, b!"color"⟩ [attr b!"color" (formatRGBA c)]) ++
    [.stop ⟨nsMaterials, b!"colorgroup"⟩]

/-- materials/encoder.go:36-58, of `Texture2DGroup`. -/
def Texture2DGroup.ops (prec : Int) (r : Texture2DGroup) : List Op :=
  opStart ⟨nsMaterials, b!"texture2dgroup"⟩ [attr b!"id" (formatUint r.id), attr b!"texid" (formatUint r.textureID)] ::
    (r.coords.map fun c => opFast ⟨nsMaterials, b!"tex2coord"⟩ [attr b!"u" (c.x.format prec), attr b!"v" (c.y.format prec)]) ++
    [.stop ⟨nsMaterials, b!"texture2dgroup"⟩]

/-- materials/encoder.go:61-87, of `CompositeMaterials`. -/
def CompositeMaterials.ops (prec : Int) (r : CompositeMaterials) : List Op :=
  opStart ⟨nsMaterials, b!"compositematerials"⟩
      [attr b!"id" (formatUint r.id), attr b!"matid" (formatUint r.materialID),
       attr b!"matindices" (joinWords formatUint r.indices)] ::
    (r.composites.map fun c => opFast ⟨nsMaterials, b!"composite"⟩ [attr b!"values" (joinWords (F32.format prec) c)]) ++
    [.stop ⟨nsMaterials, b!"compositematerials"⟩]

/-- materials/encoder.go:90-120, of `MultiProperties`. -/
def MultiProperties.ops (r : MultiProperties) : List Op :=
  opStart ⟨nsMaterials, b!"multiproperties"⟩
      [attr b!"id" (formatUint r.id), attr b!"pids" (joinWords formatUint r.pids),
       attr b!"blendmethods" (joinWords BlendMethod.str r.blend)] ::
    (r.multis.map fun c => opFast ⟨nsMaterials, b!"multi"⟩ [attr b!"pindices" (joinWords formatUint c)]) ++
    [.stop ⟨nsMaterials, b!"multiproperties"⟩]

/-- materials/encoder.go:123-143, of `Texture2D`. -/
def Texture2D.ops (r : Texture2D) : List Op :=
  [opAuto ⟨nsMaterials, b!"texture2d"⟩
    ([attr b!"id" (formatUint r.id), attr b!"path" r.path, attr b!"contenttype" r.contentType.str] ++
      attrIf (r.tileU ≠ .wrap) b!"tilestyleu" r.tileU.str ++ attrIf (r.tileV ≠ .wrap) b!"tilestylev" r.tileV.str ++
      attrIf (r.filter ≠ .auto) b!"filter" r.filter.str)]

/-- slices/encoder.go:79-93: a segment.  The array of attributes is shared by all segments, but all its entries in use are
set before. -/
def Segment.op (s : Segment) : Op :=
  opFast ⟨nsSlices, b!"segment"⟩ (attr b!"v2" (formatUint s.v2) ::
    if s.pid ≠ 0 then
      [attr b!"pid" (formatUint s.pid), attr b!"p1" (formatUint s.p1)] ++ attrIf (s.p1 ≠ s.p2) b!"p2" (formatUint s.p2)
    else [])

/-- slices/encoder.go:62-98 `marshalPolygons`, one polygon. -/
def Polygon.ops (p : Polygon) : List Op :=
  Op.start ⟨nsSlices, b!"polygon"⟩ [attr b!"startv" (formatUint p.startV)] false true ::
    p.segments.map Segment.op ++ [.stop ⟨nsSlices, b!"polygon"⟩]

/-- slices/encoder.go:100-118 `marshalVertices`. -/
def sliceVerticesOps (prec : Int) (vs : List Point2D) : List Op :=
  opStart ⟨nsSlices, b!"vertices"⟩ [] ::
    (vs.map fun v => opFast ⟨nsSlices, b!"vertex"⟩ [attr b!"x" (v.x.format prec), attr b!"y" (v.y.format prec)]) ++
    [.stop ⟨nsSlices, b!"vertices"⟩]

/-- slices/encoder.go:50-60, of `Slice`. -/
def Slice.ops (prec : Int) (s : Slice) : List Op :=
  opStart ⟨nsSlices, b!"slice"⟩ [attr b!"ztop" (s.topZ.format prec)] :: sliceVerticesOps prec s.vertices ++
    s.polygons.flatMap Polygon.ops ++ [.stop ⟨nsSlices, b!"slice"⟩]

/-- slices/encoder.go:24-48, of `SliceStack`. -/
def SliceStack.ops (prec : Int) (s : SliceStack) : List Op :=
  opStart ⟨nsSlices, b!"slicestack"⟩
      (attr b!"id" (formatUint s.id) :: attrIf (!s.bottomZ.eq .zero) b!"zbottom" (s.bottomZ.format prec)) ::
    s.slices.flatMap (Slice.ops prec) ++
    (s.refs.map fun r => opAuto ⟨nsSlices, b!"sliceref"⟩
      [attr b!"slicestackid" (formatUint r.sliceStackID), attr b!"slicepath" r.path]) ++
    [.stop ⟨nsSlices, b!"slicestack"⟩]

/-- beamlattice/encoder.go:75-99: a beam.  `>` and `!=` are the comparisons of float32. -/
def Beam.op (prec : Int) (m : BeamLattice) (b : Beam) : Op :=
  opFast ⟨nsBeam, b!"beam"⟩
    ([attr b!"v1" (formatUint b.v1), attr b!"v2" (formatUint b.v2)] ++
      attrIf (F32.zero.lt b.r1 && !b.r1.eq m.radius) b!"r1" (b.r1.format prec) ++
      attrIf (F32.zero.lt b.r2 && !b.r2.eq m.radius) b!"r2" (b.r2.format prec) ++
      attrIf (b.cap1 ≠ m.capMode) b!"cap1" b.cap1.str ++ attrIf (b.cap2 ≠ m.capMode) b!"cap2" b.cap2.str)

/-- beamlattice/encoder.go:70-103 `marshalBeams`. -/
def BeamLattice.beamsOps (prec : Int) (m : BeamLattice) : List Op :=
  opStart ⟨nsBeam, b!"beams"⟩ [] :: m.beams.map (Beam.op prec m) ++ [.stop ⟨nsBeam, b!"beams"⟩]

/-- beamlattice/encoder.go:49-66: a beam set. -/
def BeamSet.ops (s : BeamSet) : List Op :=
  opStart ⟨nsBeam, b!"beamset"⟩ (attrIf (s.name ≠ []) b!"name" s.name ++ attrIf (s.identifier ≠ []) b!"identifier" s.identifier) ::
    (s.refs.map fun i => opAuto ⟨nsBeam, b!"ref"⟩ [attr b!"index" (formatUint i)]) ++ [.stop ⟨nsBeam, b!"beamset"⟩]

/-- beamlattice/encoder.go:46-68 `marshalBeamsets`. -/
def BeamLattice.setsOps (m : BeamLattice) : List Op :=
  opStart ⟨nsBeam, b!"beamsets"⟩ [] :: m.beamSets.flatMap BeamSet.ops ++ [.stop ⟨nsBeam, b!"beamsets"⟩]

/-- beamlattice/encoder.go:14-44, of `BeamLattice`. -/
def BeamLattice.ops (prec : Int) (m : BeamLattice) : List Op :=
  opStart ⟨nsBeam, b!"beamlattice"⟩
      ([attr b!"minlength" (m.minLength.format prec), attr b!"radius" (m.radius.format prec)] ++
        attrIf (m.clipMode ≠ .none) b!"clippingmode" m.clipMode.str ++
        attrIf (m.clippingMeshID ≠ 0) b!"clippingmesh" (formatUint m.clippingMeshID) ++
        attrIf (m.representationMeshID ≠ 0) b!"representationmesh" (formatUint m.representationMeshID) ++
        attrIf (m.capMode ≠ .sphere) b!"cap" m.capMode.str) ::
    m.beamsOps prec ++ m.setsOps ++ [.stop ⟨nsBeam, b!"beamlattice"⟩]

/-- A token of an unknown element. -/
def Token.op : Token → Op
  | .start n as => opStart n as
  | .stop n => .stop n
  | .chars s => .chars s

/-- spec/unknown.go:44-49, of `UnknownTokens`. -/
def tokensOps (ts : List Token) : List Op := ts.map Token.op

/-- The `Marshal3MF` methods of the resources of the extensions. -/
def ExtRes.ops (prec : Int) : ExtRes → List Op
  | .colorGroup r => r.ops
  | .texture2D r => r.ops
  | .texture2DGroup r => r.ops prec
  | .composite r => r.ops prec
  | .multi r => r.ops
  | .sliceStack r => r.ops prec

/-- The `Marshal3MF` methods of the elements of `spec.Any`. -/
def AnyElem.ops (prec : Int) : AnyElem → List Op
  | .tokens ts => tokensOps ts
  | .res r => r.ops prec
  | .beamLattice b => b.ops prec

/-- spec/spec.go:124-131 `Any.Marshal3MF`: the loop ends after the first element whose `Marshal3MF` returns nil, and all of
them do. -/
def encodeAny (prec : Int) : List AnyElem → List Op
  | [] => []
  | e :: _ => e.ops prec

/-! ## Core elements -/

/-- encoder.go:351-372: a metadata element. -/
def Metadata.ops (md : Metadata) : List Op :=
  [opStart (coreName b!"metadata")
    (attr b!"name" (if md.name.space ≠ [] then md.name.space ++ b!":" ++ md.name.loc else md.name.loc) ::
      (attrIf md.preserve b!"preserve" b!"true" ++ attrIf (md.type ≠ []) b!"type" md.type)),
   .chars md.value, .stop (coreName b!"metadata")]

/-- encoder.go:350-373 `writeMetadata`. -/
def encodeMetadata (mds : List Metadata) : List Op := mds.flatMap Metadata.ops

/-- encoder.go:283-289 `writeMetadataGroup`. -/
def MetadataGroup.ops (g : MetadataGroup) : List Op :=
  opStart (coreName b!"metadatagroup") (encodeAnyAttr g.anyAttr) :: encodeMetadata g.metadata ++
    [.stop (coreName b!"metadatagroup")]

/-- encoder.go:297-310: the attributes of an item. -/
def Item.attrs (i : Item) : List Attr :=
  attr b!"objectid" (formatUint i.objectID) ::
    (attrIf i.transform.isTransform b!"transform" i.transform.str ++ attrIf (i.partNumber ≠ []) b!"partnumber" i.partNumber ++
      encodeAnyAttr i.anyAttr)

/-- encoder.go:296-320: an item. -/
def Item.ops (i : Item) : List Op :=
  if i.metadata.metadata ≠ [] then
    opStart (coreName b!"item") i.attrs :: i.metadata.ops ++ [.stop (coreName b!"item")]
  else [opAuto (coreName b!"item") i.attrs]

/-- encoder.go:291-323 `writeBuild`. -/
def Build.ops (b : Build) : List Op :=
  opStart (coreName b!"build") (encodeAnyAttr b.anyAttr) :: b.items.flatMap Item.ops ++ [.stop (coreName b!"build")]

/-- encoder.go:424-435: a component. -/
def Component.op (c : Component) : Op :=
  opAuto (coreName b!"component") (attr b!"objectid" (formatUint c.objectID) ::
    (attrIf c.transform.isTransform b!"transform" c.transform.str ++ encodeAnyAttr c.anyAttr))

/-- encoder.go:419-438 `writeComponents`. -/
def Components.ops (cs : Components) : List Op :=
  opStart (coreName b!"components") (encodeAnyAttr cs.anyAttr) :: cs.component.map Component.op ++
    [.stop (coreName b!"components")]

/-- encoder.go:440-464 `writeVertices`. -/
def Mesh.verticesOps (prec : Int) (m : Mesh) : List Op :=
  opStart (coreName b!"vertices") (encodeAnyAttr m.verticesAttr) ::
    (m.vertices.map fun v => opFast (coreName b!"vertex")
      [attr b!"x" (v.x.format prec), attr b!"y" (v.y.format prec), attr b!"z" (v.z.format prec)]) ++
    [.stop (coreName b!"vertices")]

/-- encoder.go:473-481: the array of attributes shared by all triangles, at the beginning. -/
def triangleArray : List Attr :=
  [attr b!"v1" [], attr b!"v2" [], attr b!"v3" [], attr b!"pid" [], attr b!"p1" [], attr b!"p2" [], attr b!"p3" []]

/-- `attrs[i].Value = v` -/
def setValue (arr : List Attr) (i : Nat) (v : Str) : List Attr := arr.modify i fun a => { a with value := v }

/-- The attributes of a start element: the first `len` entries of the shared array, or a slice of its own. -/
structure AttrSlice where
  arr : List Attr
  own : Option (List Attr)
  len : Nat

/-- The attributes. -/
def AttrSlice.attrs (s : AttrSlice) : List Attr := s.own.getD (s.arr.take s.len)

/-- `append`: in place, overwriting what is there, if the shared array has room. -/
def AttrSlice.append (s : AttrSlice) (as : List Attr) : AttrSlice :=
  match s.own with
  | some l => { s with own := some (l ++ as) }
  | none =>
    if s.len + as.length ≤ s.arr.length then
      { s with arr := s.arr.take s.len ++ as ++ s.arr.drop (s.len + as.length), len := s.len + as.length }
    else { s with own := some (s.arr.take s.len ++ as) }

/-- encoder.go:485-501: the values of the shared array and the number of attributes for a triangle of an object with the
given `PID` and `PIndex`. -/
def Triangle.slice (pid pindex : UInt32) (arr : List Attr) (t : Triangle) : AttrSlice :=
  let arr := setValue (setValue (setValue arr 0 (formatUint t.v1)) 1 (formatUint t.v2)) 2 (formatUint t.v3)
  if t.pid ≠ 0 ∧ (t.p1 ≠ t.p2 ∨ t.p1 ≠ t.p3) then
    ⟨setValue (setValue (setValue (setValue arr 3 (formatUint t.pid)) 4 (formatUint t.p1)) 5 (formatUint t.p2)) 6
      (formatUint t.p3), none, 7⟩
  else if t.pid ≠ 0 ∧ (t.pid ≠ pid ∨ t.p1 ≠ pindex) then
    ⟨setValue (setValue arr 3 (formatUint t.pid)) 4 (formatUint t.p1), none, 5⟩
  else ⟨arr, none, 3⟩

/-- encoder.go:484-504: the loop over the triangles. -/
def trianglesLoop (pid pindex : UInt32) : List Attr → List Triangle → List Op
  | _, [] => []
  | arr, t :: ts =>
    let s := (t.anyAttr.flatMap AttrGroup.appends).foldl AttrSlice.append (t.slice pid pindex arr)
    opFast (coreName b!"triangle") s.attrs :: trianglesLoop pid pindex s.arr ts

/-- encoder.go:466-508 `writeTriangles`. -/
def Mesh.trianglesOps (pid pindex : UInt32) (m : Mesh) : List Op :=
  opStart (coreName b!"triangles") (encodeAnyAttr m.trianglesAttr) :: trianglesLoop pid pindex triangleArray m.triangles ++
    [.stop (coreName b!"triangles")]

/-- encoder.go:510-520 `writeMesh`. -/
def Mesh.ops (prec : Int) (pid pindex : UInt32) (m : Mesh) : List Op :=
  opStart (coreName b!"mesh") (encodeAnyAttr m.anyAttr) :: m.verticesOps prec ++ m.trianglesOps pid pindex ++
    encodeAny prec m.any ++ [.stop (coreName b!"mesh")]

/-- encoder.go:376-404: the attributes of an object. -/
def Object.attrs (o : Object) : List Attr :=
  attr b!"id" (formatUint o.id) ::
    (attrIf (o.type ≠ .model) b!"type" o.type.str ++ attrIf (o.thumbnail ≠ []) b!"thumbnail" o.thumbnail ++
      attrIf (o.partNumber ≠ []) b!"partnumber" o.partNumber ++ attrIf (o.name ≠ []) b!"name" o.name ++
      (if o.mesh.isSome then
        attrIf (o.pid ≠ 0) b!"pid" (formatUint o.pid) ++ attrIf (o.pindex ≠ 0) b!"pindex" (formatUint o.pindex)
       else []) ++ encodeAnyAttr o.anyAttr)

/-- encoder.go:411-415: the mesh or the components of an object. -/
def Object.shapeOps (prec : Int) (o : Object) : List Op :=
  match o.mesh, o.components with
  | some m, _ => m.ops prec o.pid o.pindex
  | none, some cs => cs.ops
  | none, none => []

/-- encoder.go:375-417 `writeObject`. -/
def Object.ops (prec : Int) (o : Object) : List Op :=
  opStart (coreName b!"object") o.attrs :: (if o.metadata.metadata ≠ [] then o.metadata.ops else []) ++ o.shapeOps prec ++
    [.stop (coreName b!"object")]

/-- encoder.go:529-539: a base material. -/
def Base.op (b : Base) : Op :=
  opAuto (coreName b!"base") (attr b!"name" b.name :: attr b!"displaycolor" (formatRGBA b.color) :: encodeAnyAttr b.anyAttr)

/-- encoder.go:522-543, of `BaseMaterials`. -/
def BaseMaterials.ops (r : BaseMaterials) : List Op :=
  opStart (coreName b!"basematerials") (attr b!"id" (formatUint r.id) :: encodeAnyAttr r.anyAttr) ::
    r.materials.map Base.op ++ [.stop (coreName b!"basematerials")]

/-- The `Marshal3MF` methods of the assets. -/
def Asset.ops (prec : Int) : Asset → List Op
  | .base r => r.ops
  | .unknown _ ts => tokensOps ts
  | .res r => r.ops prec

/-- encoder.go:325-348 `writeResources`. -/
def Resources.ops (prec : Int) (rs : Resources) : List Op :=
  opStart (coreName b!"resources") (encodeAnyAttr rs.anyAttr) :: rs.assets.flatMap (Asset.ops prec) ++
    rs.objects.flatMap (Object.ops prec) ++ [.stop (coreName b!"resources")]

/-- encoder.go:235-241: the sorted local names of the required extensions. -/
def Model.requiredNames (m : Model) : List Str :=
  ((m.extensions.filter (·.isRequired)).map (·.localName)).mergeSort Str.le

/-- encoder.go:220-248 `modelToken`: the attributes. -/
def Model.rootAttrs (m : Model) (isRoot : Bool) : List Attr :=
  [attr b!"xmlns" nsCore, attr b!"unit" m.units.str, ⟨⟨nsXML, b!"lang"⟩, m.language⟩] ++
    attrIf (isRoot && m.thumbnail ≠ []) b!"thumbnail" m.thumbnail ++
    (m.extensions.map fun x => ⟨⟨b!"xmlns", x.localName⟩, x.ns⟩) ++
    attrIf (m.requiredNames ≠ []) b!"requiredextensions" (Str.join b!" " m.requiredNames) ++ encodeAnyAttr m.anyAttr

/-- encoder.go:266-281 `writeModel`, between the start and the end of the root element. -/
def Model.bodyOps (prec : Int) (m : Model) : List Op :=
  encodeMetadata m.metadata ++ m.resources.ops prec ++ m.build.ops ++ encodeAny prec m.any

/-- encoder.go:266-281 `writeModel`. -/
def Model.ops (prec : Int) (m : Model) : List Op :=
  opStart (coreName b!"model") (m.rootAttrs true) :: m.bodyOps prec ++ [.stop (coreName b!"model")]

/-- encoder.go:250-264 `writeChildModel`. -/
def ChildModel.ops (prec : Int) (m : Model) (c : ChildModel) : List Op :=
  opStart (coreName b!"model") (m.rootAttrs false) :: c.resources.ops prec ++
    [opStart (coreName b!"build") [], .stop (coreName b!"build")] ++ encodeAny prec c.any ++ [.stop (coreName b!"model")]

/-- encoder.go:98-104 `MarshalModel`, with the precision of encoder.go:20. -/
def marshalModel (m : Model) : Str := printOps (fun _ => []) (m.ops 4)

/-- encoder.go:160-169: what `Encode` writes into the part of the root model. -/
def Model.partBytes (prec : Int) (m : Model) : Str := xmlHeader ++ printOps (fun _ => []) (m.ops prec)

/-- encoder.go:190-195: what `writeChildModels` writes into the part of a child model. -/
def ChildModel.partBytes (prec : Int) (m : Model) (c : ChildModel) : Str :=
  xmlHeader ++ printOps (fun _ => []) (c.ops prec m)

/-! ## Relationships -/

/-- encoder.go:38-49 `AddRelationship`. -/
def addRelationship (rels : List Relationship) (r : Relationship) : List Relationship :=
  if rels.any fun x => x.path = r.path then rels else rels ++ [r]

/-- The relationship added by an asset (materials/encoder.go:124). -/
def Asset.rels : Asset → List Relationship
  | .res (.texture2D t) => [⟨t.path, relTexture, []⟩]
  | _ => []

/-- encoder.go:382-383: the relationship added by an object. -/
def Object.rels (o : Object) : List Relationship := if o.thumbnail ≠ [] then [⟨o.thumbnail, relThumbnail, []⟩] else []

/-- The relationship added by the element of `spec.Any` that is written. -/
def anyRels : List AnyElem → List Relationship
  | .res (.texture2D t) :: _ => [⟨t.path, relTexture, []⟩]
  | _ => []

/-- The calls of `AddRelationship` while resources are written. -/
def Resources.rels (rs : Resources) : List Relationship :=
  rs.assets.flatMap Asset.rels ++
    rs.objects.flatMap fun o => o.rels ++ match o.mesh with
      | some m => anyRels m.any
      | none => []

/-- The relationships of the root part: encoder.go:163-174. -/
def Model.partRels (m : Model) : List Relationship :=
  (m.childs.map (fun c => (⟨c.1, relModel, []⟩ : Relationship)) ++ m.resources.rels ++ anyRels m.any).foldl addRelationship
    m.relationships

/-- The relationships of the part of a child model: encoder.go:195-202. -/
def ChildModel.partRels (c : ChildModel) : List Relationship :=
  (c.resources.rels ++ anyRels c.any).foldl addRelationship c.relationships

end Go3mf
