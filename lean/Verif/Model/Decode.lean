import Verif.Model.Attrs
import Verif.Model.Xml

/-!
# The decoder of a model part (read.go:64-159, decoder.go and the decoders of the extensions)

The Go decoders are objects on a stack.  In the model the stack holds their kinds (`Dec`) and their fields live in
registers (`Regs`).  One register per kind is enough because no decoder has a decoder of the same kind below itself:
the chain of `Child` methods goes strictly downwards.

* `Regs.res` is the target of the pointer `resourceDecoder.resources`; it is written back to the model at the end
  (nothing reads it through the model in between).
* Elements of extensions and unknown elements are appended to their list by `Child` and filled in place afterwards
  (`modLast`); objects, items, base materials, metadata, unknown assets, slices and beam sets are appended by `End`.
* The text of unknown elements is a slice of the buffer of the lexer, which is reused by later tokens.  What the stored
  text reads as in the end is given by the parameter `mem`.
* `none` is a panic.
-/

namespace Go3mf

/-- Decoders of the elements of the extensions. -/
inductive ExtDec where
  | colorGroup | color | texture2DGroup | coord | texture2D | compositeMaterials | composite | multiProperties | multi
  | sliceStack | sliceRef | slice | polygonVertices | polygonVertex | polygon | segment
  | beamLattice | beams | beam | beamSets | beamSet | beamRef
  deriving DecidableEq, Repr

/-- The list that holds an element of an extension or an unknown element. -/
inductive AnyLoc where
  | asset | modelAny | meshAny
  deriving DecidableEq, Repr

/-- The owner of a metadata group. -/
inductive MetaLoc where
  | item | object
  deriving DecidableEq, Repr

/-- The kinds of `spec.ElementDecoder`. -/
inductive Dec where
  | top | model | metadataGroup (loc : MetaLoc) | metadata (loc : Option MetaLoc) | build | item | resources
  | baseMaterials | base | mesh | vertices | vertex | triangles | triangle | object | components | component
  | unknownAsset (name : Name) | unknown (loc : AnyLoc) (name : Name) | ext (loc : AnyLoc) (k : ExtDec)
  deriving DecidableEq, Repr

/-- The fields of the decoders. -/
structure Regs where
  model : Model
  res : Option Resources
  md : Metadata := .zero
  item : Item := .zero
  base : BaseMaterials := .zero
  obj : Object := .zero
  unk : List Token := []
  unkID : UInt32 := 0
  slice : Slice := ⟨.zero, [], []⟩
  beamSet : BeamSet := ⟨[], [], []⟩

/-- The parameters of read.go:64-159 `decodeModelFile` that do not change. -/
structure DecCfg where
  env : Env
  isRoot : Bool
  /-- What the text of the token with the given number, kept by an unknown element, reads as in the end. -/
  mem : Nat → Str → Str

/-! ## Places -/

/-- Replace the last element. -/
def modLast {α : Type} (f : α → α) : List α → List α
  | [] => []
  | [a] => [f a]
  | a :: b :: l => a :: modLast f (b :: l)

/-- Change a resource seen as an element. -/
def Asset.modAny (f : AnyElem → AnyElem) : Asset → Asset
  | .res r => match f (.res r) with
    | .res r' => .res r'
    | _ => .res r
  | a => a

/-- Change the mesh of the object. -/
def Object.modMesh (f : Mesh → Mesh) (o : Object) : Object := { o with mesh := o.mesh.map f }

/-- Change the components of the object. -/
def Object.modComponents (f : Components → Components) (o : Object) : Object := { o with components := o.components.map f }

/-- Change the last element of a list of elements. -/
def Regs.modAny (f : AnyElem → AnyElem) (r : Regs) : AnyLoc → Regs
  | .asset => { r with res := r.res.map fun rs => { rs with assets := modLast (·.modAny f) rs.assets } }
  | .modelAny => { r with model := { r.model with any := modLast f r.model.any } }
  | .meshAny => { r with obj := r.obj.modMesh fun m => { m with any := modLast f m.any } }

/-- The last element of a list of elements. -/
def Regs.getAny (r : Regs) : AnyLoc → Option AnyElem
  | .asset => match r.res with
    | some rs => match rs.assets.getLast? with
      | some (.res x) => some (.res x)
      | _ => none
    | none => none
  | .modelAny => r.model.any.getLast?
  | .meshAny => match r.obj.mesh with
    | some m => m.any.getLast?
    | none => none

/-- The metadata group of an item or object. -/
def Regs.modMeta (f : MetadataGroup → MetadataGroup) (r : Regs) : MetaLoc → Regs
  | .item => { r with item := { r.item with metadata := f r.item.metadata } }
  | .object => { r with obj := { r.obj with metadata := f r.obj.metadata } }

/-- The metadata group of an item or object. -/
def Regs.getMeta (r : Regs) : MetaLoc → MetadataGroup
  | .item => r.item.metadata
  | .object => r.obj.metadata

/-! ## Child -/

/-- `NewElementDecoder` of the extensions (materials/decoder.go:19-36, slices/decoder.go:15-20,
beamlattice/decoder.go:18-23, production/decoder.go:15-17) for a name in their name space: the decoder and the empty
element. -/
def newExtElement : Ext → Str → Option (ExtDec × AnyElem)
  | .production, _ => none
  | .slices, n => if n = b!"slicestack" then some (.sliceStack, .res (.sliceStack ⟨0, .zero, [], []⟩)) else none
  | .beamlattice, n =>
    if n = b!"beamlattice" then some (.beamLattice, .beamLattice ⟨.none, 0, 0, [], [], .zero, .zero, .sphere⟩) else none
  | .materials, n =>
    if n = b!"colorgroup" then some (.colorGroup, .res (.colorGroup ⟨0, []⟩))
    else if n = b!"texture2dgroup" then some (.texture2DGroup, .res (.texture2DGroup ⟨0, 0, []⟩))
    else if n = b!"texture2d" then some (.texture2D, .res (.texture2D ⟨0, [], .unset, .wrap, .wrap, .auto⟩))
    else if n = b!"compositematerials" then some (.compositeMaterials, .res (.composite ⟨0, 0, [], []⟩))
    else if n = b!"multiproperties" then some (.multiProperties, .res (.multi ⟨0, [], [], []⟩))
    else none

/-- spec/spec.go:114-119 `NewElementDecoder`. -/
def newAnyElement (env : Env) (loc : AnyLoc) (n : Name) : Option (Dec × AnyElem) :=
  match env.load n.space with
  | some x => (newExtElement x n.loc).map fun p => (.ext loc p.1, p.2)
  | none => some (.unknown loc n, .tokens [])

/-- The `Child` methods of the extensions (materials/decoder.go:48-54, 132-138, 212-218 and 288-294,
slices/decoder.go:59-70, 133-144, 174-180 and 214-220, beamlattice/decoder.go:82-93, 106-112, 189-195 and 224-230): the
index and the decoder.  slices/decoder.go:217 counts the polygons, not the segments. -/
def extChild (r : Regs) (loc : AnyLoc) (k : ExtDec) (n : Name) : Option (Int × ExtDec) :=
  match k, r.getAny loc with
  | .colorGroup, some (.res (.colorGroup g)) =>
    if n = ⟨nsMaterials, b!"color"⟩ then some (g.colors.length, .color) else none
  | .texture2DGroup, some (.res (.texture2DGroup g)) =>
    if n = ⟨nsMaterials, b!"tex2coord"⟩ then some (g.coords.length, .coord) else none
  | .compositeMaterials, some (.res (.composite g)) =>
    if n = ⟨nsMaterials, b!"composite"⟩ then some (g.composites.length, .composite) else none
  | .multiProperties, some (.res (.multi g)) =>
    if n = ⟨nsMaterials, b!"multi"⟩ then some (g.multis.length, .multi) else none
  | .sliceStack, some (.res (.sliceStack g)) =>
    if n = ⟨nsSlices, b!"slice"⟩ then some (g.slices.length, .slice)
    else if n = ⟨nsSlices, b!"sliceref"⟩ then some (g.refs.length, .sliceRef) else none
  | .slice, _ =>
    if n = ⟨nsSlices, b!"vertices"⟩ then some (-1, .polygonVertices)
    else if n = ⟨nsSlices, b!"polygon"⟩ then some (r.slice.polygons.length, .polygon) else none
  | .polygonVertices, _ =>
    if n = ⟨nsSlices, b!"vertex"⟩ then some (r.slice.vertices.length, .polygonVertex) else none
  | .polygon, _ => if n = ⟨nsSlices, b!"segment"⟩ then some (r.slice.polygons.length, .segment) else none
  | .beamLattice, some (.beamLattice _) =>
    if n = ⟨nsBeam, b!"beams"⟩ then some (-1, .beams)
    else if n = ⟨nsBeam, b!"beamsets"⟩ then some (-1, .beamSets) else none
  | .beams, some (.beamLattice g) => if n = ⟨nsBeam, b!"beam"⟩ then some (g.beams.length, .beam) else none
  | .beamSets, some (.beamLattice g) => if n = ⟨nsBeam, b!"beamset"⟩ then some (g.beamSets.length, .beamSet) else none
  | .beamSet, _ => if n = ⟨nsBeam, b!"ref"⟩ then some (r.beamSet.refs.length, .beamRef) else none
  | _, _ => none

/-- Does the decoder implement `spec.ChildElementDecoder`? -/
def ExtDec.hasChild : ExtDec → Bool
  | .colorGroup | .texture2DGroup | .compositeMaterials | .multiProperties | .sliceStack | .slice | .polygonVertices
  | .polygon | .beamLattice | .beams | .beamSets | .beamSet => true
  | _ => false

/-- Does the decoder implement `spec.ChildElementDecoder`? -/
def Dec.hasChild : Dec → Bool
  | .top | .model | .metadataGroup _ | .build | .item | .resources | .baseMaterials | .mesh | .vertices | .triangles
  | .object | .components => true
  | .ext _ k => k.hasChild
  | _ => false

/-- The result of a `Child` method: the registers, and the index and decoder of the child unless it is nil. -/
abbrev ChildRes := Regs × Option (Int × Dec)

/-- decoder.go:24-51 `Child` of `modelDecoder`. -/
def modelChild (cfg : DecCfg) (r : Regs) (n : Name) : ChildRes :=
  if n.space = nsCore then
    if n.loc = b!"resources" then (r, some (-1, .resources))
    else if n.loc = b!"build" ∧ cfg.isRoot then (r, some (-1, .build))
    else if n.loc = b!"metadata" ∧ cfg.isRoot then
      ({ r with md := .zero }, some (r.model.metadata.length, .metadata none))
    else (r, none)
  else
    match newAnyElement cfg.env .modelAny n with
    | none => (r, none)
    | some (d, e) => ({ r with model := { r.model with any := r.model.any ++ [e] } }, some (-1, d))

/-- decoder.go:290-312 `Child` of `resourceDecoder`.  A beam lattice is not an `Asset`: the type assertion panics. -/
def resourcesChild (cfg : DecCfg) (r : Regs) (n : Name) : Option ChildRes :=
  if n.space = nsCore ∧ n.loc ≠ b!"object" ∧ n.loc ≠ b!"basematerials" then some (r, none)
  else
    match r.res with
    | none => none
    | some rs =>
      if n.space = nsCore then
        if n.loc = b!"object" then some ({ r with obj := .zero }, some (rs.objects.length, .object))
        else some ({ r with base := .zero }, some (rs.assets.length, .baseMaterials))
      else
        match newAnyElement cfg.env .asset n with
        | none => some (r, none)
        | some (.unknown _ _, _) =>
          some ({ r with unk := [], unkID := 0 }, some (rs.assets.length, .unknownAsset n))
        | some (d, .res x) =>
          some ({ r with res := some { rs with assets := rs.assets ++ [.res x] } }, some (rs.assets.length, d))
        | some _ => none

/-- decoder.go:411-429 `Child` of `meshDecoder`. -/
def meshChild (cfg : DecCfg) (r : Regs) (n : Name) : ChildRes :=
  if n.space = nsCore then
    if n.loc = b!"vertices" then (r, some (-1, .vertices))
    else if n.loc = b!"triangles" then (r, some (-1, .triangles))
    else (r, none)
  else
    match newAnyElement cfg.env .meshAny n with
    | none => (r, none)
    | some (d, e) => ({ r with obj := r.obj.modMesh fun m => { m with any := m.any ++ [e] } }, some (-1, d))

/-- A decoder with one kind of child. -/
def onlyChild (r r' : Regs) (n : Name) (loc : Str) (i : Int) (d : Dec) : ChildRes :=
  if n = ⟨nsCore, loc⟩ then (r', some (i, d)) else (r, none)

/-- The `Child` methods of the decoders (also decoder.go:117-123, 194-200, 226-232, 325-331, 451-457, 516-522, 624-638,
699-705 and 758-765). -/
def child (cfg : DecCfg) (r : Regs) (d : Dec) (n : Name) : Option ChildRes :=
  match d with
  | .top => some (onlyChild r r n b!"model" (-1) .model)
  | .model => some (modelChild cfg r n)
  | .metadataGroup loc =>
    some (onlyChild r { r with md := .zero } n b!"metadata" (r.getMeta loc).metadata.length (.metadata (some loc)))
  | .build => some (onlyChild r { r with item := .zero } n b!"item" r.model.build.items.length .item)
  | .item => some (onlyChild r r n b!"metadatagroup" (-1) (.metadataGroup .item))
  | .resources => resourcesChild cfg r n
  | .baseMaterials => some (onlyChild r r n b!"base" r.base.materials.length .base)
  | .mesh => some (meshChild cfg r n)
  | .vertices => some (onlyChild r r n b!"vertex" (r.obj.mesh.getD .zero).vertices.length .vertex)
  | .triangles => some (onlyChild r r n b!"triangle" (r.obj.mesh.getD .zero).triangles.length .triangle)
  | .object =>
    some (if n = ⟨nsCore, b!"mesh"⟩ then (r, some (-1, .mesh))
      else if n = ⟨nsCore, b!"components"⟩ then (r, some (-1, .components))
      else if n = ⟨nsCore, b!"metadatagroup"⟩ then (r, some (-1, .metadataGroup .object))
      else (r, none))
  | .components => some (onlyChild r r n b!"component" (r.obj.components.getD .zero).component.length .component)
  | .ext loc k =>
    some (match extChild r loc k n with
      | none => (r, none)
      | some (i, .slice) => ({ r with slice := ⟨.zero, [], []⟩ }, some (i, .ext loc .slice))
      | some (i, .beamSet) => ({ r with beamSet := ⟨[], [], []⟩ }, some (i, .ext loc .beamSet))
      | some (i, k') => (r, some (i, .ext loc k')))
  | _ => some (r, none)

/-! ## Start -/

/-- Change the element if it is a resource of an extension. -/
def AnyElem.modRes (f : ExtRes → ExtRes) : AnyElem → AnyElem
  | .res x => .res (f x)
  | e => e

/-- Change the element if it is a beam lattice. -/
def AnyElem.modBeam (f : BeamLattice → BeamLattice) : AnyElem → AnyElem
  | .beamLattice x => .beamLattice (f x)
  | e => e

/-- The colours of a colour group: materials/decoder.go:76-91. -/
def colorStart (attrs : List Attr) : List RGBA × List Leaf :=
  match attrs.find? fun a => a.name.space = [] ∧ a.name.loc = b!"color" with
  | some a => ([(colorAttr a).1], (colorAttr a).2)
  | none => ([], [])

/-- A number from the first attribute that satisfies the test, 0 if there is none. -/
def firstUint (attrs : List Attr) (p : Attr → Bool) : UInt32 × List Leaf :=
  match attrs.find? p with
  | some a => uintAttr true a
  | none => (0, [])

/-- materials/decoder.go:56-69 `Start` of `colorGroupDecoder`. -/
def ColorGroup.start (g : ColorGroup) (attrs : List Attr) : ColorGroup × List Leaf :=
  match firstID attrs with
  | some a => ({ g with id := (uintAttr true a).1 }, (uintAttr true a).2)
  | none => (g, [])

/-- slices/decoder.go:146-161 `Start` of `sliceDecoder`. -/
def Slice.start (s : Slice) (attrs : List Attr) : Slice × List Leaf :=
  match attrs.find? fun a => a.name.loc = b!"ztop" with
  | some a => ({ s with topZ := (floatAttr true a).1 }, (floatAttr true a).2)
  | none => (s, [])

/-- The `Start` methods of the resources of the extensions that are elements of a list of elements: materials/decoder.go:56-69,
140-163, 174-200, 220-251 and 296-326, slices/decoder.go:72-91. -/
def ExtRes.start (attrs : List Attr) : ExtRes → ExtRes × List Leaf
  | .colorGroup g => (.colorGroup (g.start attrs).1, (g.start attrs).2)
  | .texture2DGroup g => (.texture2DGroup (attrLoop texture2DGroupAttr g attrs).1, (attrLoop texture2DGroupAttr g attrs).2)
  | .texture2D g => (.texture2D (attrLoop texture2DAttr g attrs).1, (attrLoop texture2DAttr g attrs).2)
  | .composite g => (.composite (attrLoop compositeMaterialsAttr g attrs).1, (attrLoop compositeMaterialsAttr g attrs).2)
  | .multi g => (.multi (attrLoop multiPropertiesAttr g attrs).1, (attrLoop multiPropertiesAttr g attrs).2)
  | .sliceStack g => (.sliceStack (attrLoop sliceStackAttr g attrs).1, (attrLoop sliceStackAttr g attrs).2)

/-- The `Start` methods of the elements that `NewElementDecoder` creates (also beamlattice/decoder.go:34-80). -/
def AnyElem.start (attrs : List Attr) : AnyElem → AnyElem × List Leaf
  | .tokens ts => (.tokens ts, [])
  | .res x => (.res (x.start attrs).1, (x.start attrs).2)
  | .beamLattice b => (.beamLattice (attrLoop beamLatticeAttr b attrs).1, (attrLoop beamLatticeAttr b attrs).2)

/-- Append a colour. -/
def ExtRes.addColors (cs : List RGBA) : ExtRes → ExtRes
  | .colorGroup g => .colorGroup { g with colors := g.colors ++ cs }
  | x => x

/-- Append a texture coordinate. -/
def ExtRes.addCoord (p : Point2D) : ExtRes → ExtRes
  | .texture2DGroup g => .texture2DGroup { g with coords := g.coords ++ [p] }
  | x => x

/-- Append a composite. -/
def ExtRes.addComposite (c : List F32) : ExtRes → ExtRes
  | .composite g => .composite { g with composites := g.composites ++ [c] }
  | x => x

/-- Append a multi-property. -/
def ExtRes.addMulti (c : List UInt32) : ExtRes → ExtRes
  | .multi g => .multi { g with multis := g.multis ++ [c] }
  | x => x

/-- Append a slice. -/
def ExtRes.addSlice (s : Slice) : ExtRes → ExtRes
  | .sliceStack g => .sliceStack { g with slices := g.slices ++ [s] }
  | x => x

/-- Append a slice reference. -/
def ExtRes.addRef (s : SliceRef) : ExtRes → ExtRes
  | .sliceStack g => .sliceStack { g with refs := g.refs ++ [s] }
  | x => x

/-- beamlattice/decoder.go:119-182 `Start` of `beamDecoder`. -/
def BeamLattice.addBeam (attrs : List Attr) (b : BeamLattice) : BeamLattice :=
  { b with beams := b.beams ++ [(attrLoop beamAttr {} attrs).1.beam b.radius b.capMode] }

/-- The `Start` methods of the extensions. -/
def extStart (r : Regs) (loc : AnyLoc) (k : ExtDec) (attrs : List Attr) : Regs × List Leaf :=
  match k with
  | .colorGroup | .texture2DGroup | .texture2D | .compositeMaterials | .multiProperties | .sliceStack | .beamLattice =>
    (r.modAny (fun e => (e.start attrs).1) loc, ((r.getAny loc).map fun e => (e.start attrs).2).getD [])
  | .color => (r.modAny (·.modRes (·.addColors (colorStart attrs).1)) loc, (colorStart attrs).2)
  | .coord =>
    let v := attrLoop coordAttr ⟨.zero, .zero⟩ attrs
    (r.modAny (·.modRes (·.addCoord v.1)) loc, v.2)
  | .composite =>
    let v := attrLoop compositeAttr [] attrs
    (r.modAny (·.modRes (·.addComposite v.1)) loc, v.2)
  | .multi =>
    let v := attrLoop multiAttr [] attrs
    (r.modAny (·.modRes (·.addMulti v.1)) loc, v.2)
  | .sliceRef =>
    let v := attrLoop sliceRefAttr ⟨0, []⟩ attrs
    (r.modAny (·.modRes (·.addRef v.1)) loc, v.2)
  | .slice => ({ r with slice := (r.slice.start attrs).1 }, (r.slice.start attrs).2)
  | .polygonVertices => (r, [])
  | .polygonVertex =>
    let v := attrLoop pVertexAttr ⟨.zero, .zero⟩ attrs
    ({ r with slice := { r.slice with vertices := r.slice.vertices ++ [v.1] } }, v.2)
  | .polygon =>
    let v := firstUint attrs fun a => a.name.loc = b!"startv"
    ({ r with slice := { r.slice with polygons := r.slice.polygons ++ [⟨v.1, []⟩] } }, v.2)
  | .segment =>
    let v := attrLoop segmentAttr {} attrs
    ({ r with slice := { r.slice with
        polygons := modLast (fun p => { p with segments := p.segments ++ [v.1.seg] }) r.slice.polygons } }, v.2)
  | .beams => (r, [])
  | .beam => (r.modAny (·.modBeam (·.addBeam attrs)) loc, (attrLoop beamAttr {} attrs).2)
  | .beamSets => (r, [])
  | .beamSet => ({ r with beamSet := attrs.foldl beamSetAttr r.beamSet }, [])
  | .beamRef =>
    let v := firstUint attrs fun a => a.name.space = [] ∧ a.name.loc = b!"index"
    ({ r with beamSet := { r.beamSet with refs := r.beamSet.refs ++ [v.1] } }, v.2)

/-- The attributes of an element all of whose attributes go to `AnyAttr` (for example decoder.go:202-213). -/
def anyAttrs (env : Env) (parent : Str) (any : AnyAttr) (attrs : List Attr) : Option (AnyAttr × List Leaf) :=
  attrFold (anyAttrAdd env parent) any attrs

/-- The `Start` methods of the decoders (decoder.go:53-86, 125-136, 154-178, 202-213, 234-249, 277-288, 333-355,
362-390, 397-409, 437-449, 464-488, 496-514, 530-587, 607-622, 682-697, 712-743 and 773-786, spec/unknown.go:69-82). -/
def start (cfg : DecCfg) (r : Regs) (d : Dec) (attrs : List Attr) : Option (Regs × List Leaf) :=
  match d with
  | .top => some (r, [])
  | .model =>
    if cfg.isRoot then (modelStart cfg.env r.model attrs).map fun p => ({ r with model := p.1 }, p.2) else some (r, [])
  | .metadataGroup loc =>
    (anyAttrs cfg.env b!"metadatagroup" (r.getMeta loc).anyAttr attrs).map fun p =>
      (r.modMeta (fun g => { g with anyAttr := p.1 }) loc, p.2)
  | .metadata _ => some ({ r with md := attrs.foldl (metadataAttr r.model.extensions) r.md }, [])
  | .build =>
    (anyAttrs cfg.env b!"build" r.model.build.anyAttr attrs).map fun p =>
      ({ r with model := { r.model with build := { r.model.build with anyAttr := p.1 } } }, p.2)
  | .item => (attrFold (itemAttr cfg.env) r.item attrs).map fun p => ({ r with item := p.1 }, p.2)
  | .resources =>
    match r.res with
    | none => if attrs = [] then some (r, []) else none
    | some rs =>
      (anyAttrs cfg.env b!"resources" rs.anyAttr attrs).map fun p =>
        ({ r with res := some { rs with anyAttr := p.1 } }, p.2)
  | .baseMaterials => (attrFold (baseMaterialsAttr cfg.env) r.base attrs).map fun p => ({ r with base := p.1 }, p.2)
  | .base =>
    (attrFold (baseAttr cfg.env) ⟨[], .zero, []⟩ attrs).map fun p =>
      ({ r with base := { r.base with materials := r.base.materials ++ [p.1] } }, p.2)
  | .mesh =>
    (anyAttrs cfg.env b!"mesh" [] attrs).map fun p =>
      ({ r with obj := { r.obj with mesh := some { Mesh.zero with anyAttr := p.1 } } }, p.2)
  | .vertices =>
    (anyAttrs cfg.env b!"vertices" (r.obj.mesh.getD .zero).verticesAttr attrs).map fun p =>
      ({ r with obj := r.obj.modMesh fun m => { m with verticesAttr := p.1 } }, p.2)
  | .vertex =>
    let v := attrLoop vertexAttr ⟨.zero, .zero, .zero⟩ attrs
    some ({ r with obj := r.obj.modMesh fun m => { m with vertices := m.vertices ++ [v.1] } }, v.2)
  | .triangles =>
    (anyAttrs cfg.env b!"triangles" (r.obj.mesh.getD .zero).trianglesAttr attrs).map fun p =>
      ({ r with obj := r.obj.modMesh fun m => { m with trianglesAttr := p.1 } }, p.2)
  | .triangle =>
    (attrFold (triangleAttr cfg.env) {} attrs).map fun p =>
      ({ r with obj := r.obj.modMesh fun m =>
          { m with triangles := m.triangles ++ [p.1.triangle r.obj.pid r.obj.pindex] } }, p.2)
  | .object => (attrFold (objectAttr cfg.env) r.obj attrs).map fun p => ({ r with obj := p.1 }, p.2)
  | .components =>
    (anyAttrs cfg.env b!"components" [] attrs).map fun p =>
      ({ r with obj := { r.obj with components := some ⟨[], p.1⟩ } }, p.2)
  | .component =>
    (attrFold (componentAttr cfg.env) .zero attrs).map fun p =>
      ({ r with obj := r.obj.modComponents fun c => { c with component := c.component ++ [p.1] } }, p.2)
  | .unknownAsset name =>
    match firstID attrs with
    | some a =>
      some ({ r with unk := r.unk ++ [.start name attrs], unkID := (uintAttr true a).1 }, (uintAttr true a).2)
    | none => some ({ r with unk := r.unk ++ [.start name attrs] }, [])
  | .unknown loc name =>
    some (r.modAny (fun e => match e with | .tokens ts => .tokens (ts ++ [.start name attrs]) | e => e) loc, [])
  | .ext loc k => some (extStart r loc k attrs)

/-! ## End and tokens -/

/-- Append a token to an unknown element (spec/unknown.go:88-90 `AppendToken`). -/
def Regs.addToken (r : Regs) (d : Dec) (t : Token) : Regs :=
  match d with
  | .unknownAsset _ => { r with unk := r.unk ++ [t] }
  | .unknown loc _ => r.modAny (fun e => match e with | .tokens ts => .tokens (ts ++ [t]) | e => e) loc
  | _ => r

/-- The `End` methods (decoder.go:184-186, 222-224, 321-323, 603-605 and 788-792, spec/unknown.go:84-86,
slices/decoder.go:129-131, beamlattice/decoder.go:204-206). -/
def stop (r : Regs) (d : Dec) : Regs :=
  match d with
  | .metadata none => { r with model := { r.model with metadata := r.model.metadata ++ [r.md] } }
  | .metadata (some loc) => r.modMeta (fun g => { g with metadata := g.metadata ++ [r.md] }) loc
  | .item =>
    { r with model := { r.model with build := { r.model.build with items := r.model.build.items ++ [r.item] } } }
  | .baseMaterials => { r with res := r.res.map fun rs => { rs with assets := rs.assets ++ [.base r.base] } }
  | .object => { r with res := r.res.map fun rs => { rs with objects := rs.objects ++ [r.obj] } }
  | .unknownAsset name =>
    { r with
      unk := r.unk ++ [.stop name]
      res := r.res.map fun rs => { rs with assets := rs.assets ++ [.unknown r.unkID (r.unk ++ [.stop name])] } }
  | .unknown loc name => r.addToken (.unknown loc name) (.stop name)
  | .ext loc .slice => r.modAny (·.modRes (·.addSlice r.slice)) loc
  | .ext loc .beamSet => r.modAny (·.modBeam fun b => { b with beamSets := b.beamSets ++ [r.beamSet] }) loc
  | _ => r

/-! ## The stack machine -/

/-- The elements of the stack (read.go:66-70). -/
structure Frame where
  dec : Dec
  name : Name
  index : Int

/-- The variables of read.go:64-159 `decodeModelFile`. -/
structure DState where
  regs : Regs
  cur : Dec
  curName : Name
  /-- The top of the stack first. -/
  stack : List Frame
  errs : List Err

/-- read.go:89-92: the error wrapped by all the elements of the stack, the innermost first. -/
def wrapStack (st : List Frame) (l : Leaf) : Err :=
  .wrapped (st.map fun f => ⟨f.name.loc, f.index⟩) (.leaf l) []

/-- The callback for start elements (read.go:80-109). -/
def DState.onStart (cfg : DecCfg) (s : DState) (n : Name) (attrs : List Attr) : Option DState :=
  if s.cur.hasChild then
    match child cfg s.regs s.cur n with
    | none => none
    | some (r, none) => some { s with regs := r }
    | some (r, some (i, d)) =>
      match start cfg r d attrs with
      | none => none
      | some (r', e) =>
        some { regs := r', cur := d, curName := n, stack := ⟨d, n, i⟩ :: s.stack,
               errs := s.errs ++ e.map (wrapStack (⟨d, n, i⟩ :: s.stack)) }
  else some { s with regs := s.regs.addToken s.cur (.start n attrs) }

/-- The callback for end elements (read.go:110-122); the stack is sliced even if it is empty. -/
def DState.onEnd (s : DState) (n : Name) : Option DState :=
  if s.curName = n then
    match s.stack with
    | [] => none
    | [_] => some { s with regs := stop s.regs s.cur, stack := [] }
    | _ :: f :: st => some { s with regs := stop s.regs s.cur, cur := f.dec, curName := f.name, stack := f :: st }
  else some { s with regs := s.regs.addToken s.cur (.stop n) }

/-- The callback for character data (read.go:123-129), for the token with number `i`. -/
def DState.onChar (cfg : DecCfg) (s : DState) (i : Nat) (t : Str) : DState :=
  match s.cur with
  | .metadata _ => { s with regs := { s.regs with md := { s.regs.md with value := t } } }
  | d => { s with regs := s.regs.addToken d (.chars (cfg.mem i t)) }

/-- One token; `none` is a token without callback. -/
def DState.step (cfg : DecCfg) (s : DState) (i : Nat) : Option Event → Option DState
  | none => some s
  | some (.start n attrs) => s.onStart cfg n attrs
  | some (.stop n) => s.onEnd n
  | some (.chars t) => some (s.onChar cfg i t)

/-- How the loop of read.go:131-147 ends. -/
inductive LoopEnd where
  /-- `RawToken` failed. -/
  | token (e : LexErr)
  /-- An error in strict mode. -/
  | strict
  /-- The context is done. -/
  | ctx
  deriving DecidableEq, Repr

/-- read.go:131-147; `done i` tells whether the context is done when the token with number `i` has been read (it is
looked at every 1000 tokens, read.go:23 and read.go:136). -/
def runTokens (cfg : DecCfg) (strict : Bool) (done : Nat → Bool) (fin : LexErr) :
    Nat → DState → List (Option Event) → Option (DState × LoopEnd)
  | _, s, [] => some (s, .token fin)
  | i, s, ev :: evs =>
    match s.step cfg i ev with
    | none => none
    | some s' =>
      if strict && !s'.errs.isEmpty then some (s', .strict)
      else if i % 1000 == 0 && done i then some (s', .ctx)
      else runTokens cfg strict done fin (i + 1) s' evs

/-- What read.go:64-159 `decodeModelFile` returns. -/
inductive DecodeResult where
  | ok
  /-- A syntax error or a read error. -/
  | token (e : LexErr)
  | ctx
  /-- The first error. -/
  | first (e : Err)
  /-- Two or more errors. -/
  | list (es : List Err)
  deriving Repr

/-- read.go:148-158. -/
def decodeResult (strict : Bool) (errs : List Err) : LoopEnd → DecodeResult
  | .ctx => .ctx
  | .token .syntax => .token .syntax
  | .token .io => .token .io
  | .token .eof | .strict =>
    match errs with
    | [] => .ok
    | [e] => .first e
    | e :: es => if strict then .first e else .list (e :: es)

/-- The resources that `FindResources` points to (core.go:264-272). -/
def Model.setResources (m : Model) (path : Str) (rs : Resources) : Model :=
  if path = [] ∨ path = m.path ∨ (m.path = [] ∧ path = defaultModelPath) then { m with resources := rs }
  else { m with childs := m.childs.map fun c => if c.1 = path then (c.1, { c.2 with resources := rs }) else c }

/-- read.go:73-78. -/
def DState.init (m : Model) (path : Str) : DState :=
  { regs := { model := m, res := m.findResources path }, cur := .top, curName := ⟨[], []⟩, stack := [], errs := [] }

/-- The model after the loop. -/
def DState.result (s : DState) (path : Str) : Model :=
  match s.regs.res with
  | some rs => s.regs.model.setResources path rs
  | none => s.regs.model

/-- read.go:64-159 `decodeModelFile`, given the tokens of the lexer and the error that ends them. -/
def decodeEvents (cfg : DecCfg) (strict : Bool) (done : Nat → Bool) (m : Model) (path : Str)
    (evs : List (Option Event)) (fin : LexErr) : Option (Model × DecodeResult) :=
  (runTokens cfg strict done fin 0 (DState.init m path) evs).map fun p =>
    (p.1.result path, decodeResult strict p.1.errs p.2)

/-- read.go:196-200 `UnmarshalModel` with read.go:202-213 `processRootModel`; the name of the part is the default one
(read.go:339). -/
def unmarshalModel (env : Env) (mem : Nat → Str → Str) (data : Str) (m : Model) : Option (Model × DecodeResult) :=
  decodeEvents ⟨env, true, mem⟩ false (fun _ => false) m defaultModelPath (lex .eof (.new data)).1 (lex .eof (.new data)).2

end Go3mf
