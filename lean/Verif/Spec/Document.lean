import Verif.Model.Decode

/-!
# Specification of what a document means

A document is a tree of elements.  Two tables say which elements may be in which elements and which attributes they have;
they follow the schemas of the core specification and of the material, production, slice and beam lattice extensions.  From
them follow the faults of a document: the attributes that are not what their type demands, each with the path of names and
indices of the elements around it.  The functions `vertexOf`, …, `modelOf` give the content of the elements; they do not
depend on the order in which a decoder visits anything.  The readings of numbers, colours, matrices and words (`parseUint`,
`parseFloat`, `parseRGBA`, `parseMatrix`, …) are specified in C16, C17, C20, C21 and C61.
-/

namespace Go3mf.Spec

/-! ## Trees -/

/-- An element, a text or something without meaning (a processing instruction). -/
inductive Node where
  | elem (name : Name) (attrs : List Attr) (content : List Node)
  | text (t : Str)
  | other

mutual
/-- The tokens of a node. -/
def Node.events : Node → List (Option Event)
  | .elem n as c => some (.start n as) :: (treeEvents c ++ [some (.stop n)])
  | .text t => [some (.chars t)]
  | .other => [none]

/-- The tokens of a content. -/
def treeEvents : List Node → List (Option Event)
  | [] => []
  | x :: xs => x.events ++ treeEvents xs
end

mutual
/-- The tokens that are kept for an element that nobody knows. -/
def Node.tokens : Node → List Token
  | .elem n as c => .start n as :: (tokensOf c ++ [.stop n])
  | .text t => [.chars t]
  | .other => []

/-- The tokens that are kept for a content. -/
def tokensOf : List Node → List Token
  | [] => []
  | x :: xs => x.tokens ++ tokensOf xs
end

/-- The elements with a name: attributes and content. -/
def children (n : Name) (c : List Node) : List (List Attr × List Node) :=
  c.filterMap fun x => match x with
    | .elem m as c => if m = n then some (as, c) else none
    | _ => none

/-! ## Elements -/

/-- The types of elements. -/
inductive Kind where
  | model | childModel | metadata | metadataGroup | build | item | resources | baseMaterials | base | object | mesh
  | vertices | vertex | triangles | triangle | components | component
  | colorGroup | color | texture2DGroup | tex2Coord | texture2D | compositeMaterials | composite | multiProperties | multi
  | sliceStack | sliceRef | slice | polygonVertices | polygonVertex | polygon | segment
  | beamLattice | beams | beam | beamSets | beamSet | beamRef
  | foreign | foreignAsset
  deriving DecidableEq, Repr

/-- How the elements are counted. -/
inductive Mult where
  /-- There is at most one; it has no index. -/
  | single
  /-- They have no index. -/
  | free
  /-- The elements of the same name are counted. -/
  | many
  /-- All the assets are counted. -/
  | asset
  deriving DecidableEq, Repr

/-- A name of the core specification. -/
def core (l : Str) : Name := ⟨nsCore, l⟩
/-- A name of the materials extension. -/
def mat (l : Str) : Name := ⟨nsMaterials, l⟩
/-- A name of the slice extension. -/
def slc (l : Str) : Name := ⟨nsSlices, l⟩
/-- A name of the beam lattice extension. -/
def bml (l : Str) : Name := ⟨nsBeam, l⟩

/-- The elements in the elements of a type: their names and types and how they are counted. -/
def elements : Kind → List (Name × Kind × Mult)
  | .model =>
    [(core b!"resources", .resources, .single), (core b!"build", .build, .single), (core b!"metadata", .metadata, .many)]
  | .childModel => [(core b!"resources", .resources, .single)]
  | .metadataGroup => [(core b!"metadata", .metadata, .many)]
  | .build => [(core b!"item", .item, .many)]
  | .item => [(core b!"metadatagroup", .metadataGroup, .single)]
  | .resources => [(core b!"object", .object, .many), (core b!"basematerials", .baseMaterials, .asset)]
  | .baseMaterials => [(core b!"base", .base, .many)]
  | .object =>
    [(core b!"mesh", .mesh, .single), (core b!"components", .components, .single),
     (core b!"metadatagroup", .metadataGroup, .single)]
  | .mesh => [(core b!"vertices", .vertices, .single), (core b!"triangles", .triangles, .single)]
  | .vertices => [(core b!"vertex", .vertex, .many)]
  | .triangles => [(core b!"triangle", .triangle, .many)]
  | .components => [(core b!"component", .component, .many)]
  | .colorGroup => [(mat b!"color", .color, .many)]
  | .texture2DGroup => [(mat b!"tex2coord", .tex2Coord, .many)]
  | .compositeMaterials => [(mat b!"composite", .composite, .many)]
  | .multiProperties => [(mat b!"multi", .multi, .many)]
  | .sliceStack => [(slc b!"slice", .slice, .many), (slc b!"sliceref", .sliceRef, .many)]
  | .slice => [(slc b!"vertices", .polygonVertices, .single), (slc b!"polygon", .polygon, .many)]
  | .polygonVertices => [(slc b!"vertex", .polygonVertex, .many)]
  | .polygon => [(slc b!"segment", .segment, .many)]
  | .beamLattice => [(bml b!"beams", .beams, .single), (bml b!"beamsets", .beamSets, .single)]
  | .beams => [(bml b!"beam", .beam, .many)]
  | .beamSets => [(bml b!"beamset", .beamSet, .many)]
  | .beamSet => [(bml b!"ref", .beamRef, .many)]
  | _ => []

/-- The elements that the extensions add to models, resources and meshes. -/
def extElements : List (Name × Kind) :=
  [(mat b!"colorgroup", .colorGroup), (mat b!"texture2dgroup", .texture2DGroup), (mat b!"texture2d", .texture2D),
   (mat b!"compositematerials", .compositeMaterials), (mat b!"multiproperties", .multiProperties),
   (slc b!"slicestack", .sliceStack), (bml b!"beamlattice", .beamLattice)]

/-- Elements of all extensions may be in an element of this type. -/
def Kind.isOpen : Kind → Bool
  | .model | .childModel | .resources | .mesh => true
  | _ => false

/-- The type of an element in an element of type `k`, and how it is counted; `none` if it has no meaning there.  Elements of
extensions that are not registered are kept as they are. -/
def childKind (env : Env) (k : Kind) (n : Name) : Option (Kind × Mult) :=
  if k.isOpen = true ∧ n.space ≠ nsCore then
    let mu := if k = .resources then .asset else .free
    match env.load n.space with
    | some _ => (extElements.lookup n).map fun k' => (k', mu)
    | none => some (if k = .resources then .foreignAsset else .foreign, mu)
  else (elements k).lookup n

/-- The index of an element with the name `n` after the siblings `before`, −1 if it has none. -/
def indexOf (env : Env) (k : Kind) (before : List Node) (n : Name) : Mult → Int
  | .single => -1
  | .free => -1
  | .many => (children n before).length
  | .asset => (before.filter fun x => match x with
      | .elem m _ _ => (childKind env k m).any (·.2 = .asset)
      | _ => false).length

/-! ## Attributes -/

/-- The types of attributes. -/
inductive AttrType where
  | text | uint | float | matrix | color | units | objectType | clipMode | capMode | uints | floats | uuid | resolution
  deriving DecidableEq, Repr

/-- How many mistakes are in a value. -/
def mistakes : AttrType → Str → Nat
  | .text, _ => 0
  | .uint, v => if (parseUint v).isOk then 0 else 1
  | .float, v => if (parseFloat v).isOk then 0 else 1
  | .matrix, v => if (parseMatrix v).isSome then 0 else 1
  | .color, v => if (parseRGBA v).2 then 1 else 0
  | .units, v => if (newUnits v).isSome then 0 else 1
  | .objectType, v => if (newObjectType v).isSome then 0 else 1
  | .clipMode, v => if (newClipMode v).isSome then 0 else 1
  | .capMode, v => if (newCapMode v).isSome then 0 else 1
  | .uints, v => (fields v).countP fun f => !(parseUint f).isOk
  | .floats, v => (fields v).countP fun f => !(parseFloat f).isOk
  | .uuid, v => if uuidValid v then 0 else 1
  | .resolution, v => if (newMeshResolution v).isSome then 0 else 1

/-- The attributes without name space of the elements of a type: their names and types and whether they are required.  The
values of texture properties, blend methods and the caps of beams are never reported; unknown words mean the default. -/
def attributes : Kind → List (Str × AttrType × Bool)
  | .model => [(b!"unit", .units, false), (b!"thumbnail", .text, false), (b!"requiredextensions", .text, false)]
  | .metadata => [(b!"name", .text, true), (b!"type", .text, false), (b!"preserve", .text, false)]
  | .item => [(b!"objectid", .uint, true), (b!"transform", .matrix, false), (b!"partnumber", .text, false)]
  | .baseMaterials => [(b!"id", .uint, true)]
  | .base => [(b!"name", .text, true), (b!"displaycolor", .color, true)]
  | .object =>
    [(b!"id", .uint, true), (b!"type", .objectType, false), (b!"thumbnail", .text, false), (b!"name", .text, false),
     (b!"partnumber", .text, false), (b!"pid", .uint, false), (b!"pindex", .uint, false)]
  | .vertex => [(b!"x", .float, true), (b!"y", .float, true), (b!"z", .float, true)]
  | .triangle =>
    [(b!"v1", .uint, true), (b!"v2", .uint, true), (b!"v3", .uint, true), (b!"pid", .uint, false), (b!"p1", .uint, false),
     (b!"p2", .uint, false), (b!"p3", .uint, false)]
  | .component => [(b!"objectid", .uint, true), (b!"transform", .matrix, false)]
  | .foreignAsset => [(b!"id", .uint, true)]
  | .colorGroup => [(b!"id", .uint, true)]
  | .color => [(b!"color", .color, true)]
  | .texture2DGroup => [(b!"id", .uint, true), (b!"texid", .uint, true)]
  | .tex2Coord => [(b!"u", .float, true), (b!"v", .float, true)]
  | .texture2D =>
    [(b!"id", .uint, true), (b!"path", .text, true), (b!"contenttype", .text, true), (b!"tilestyleu", .text, false),
     (b!"tilestylev", .text, false), (b!"filter", .text, false)]
  | .compositeMaterials => [(b!"id", .uint, true), (b!"matid", .uint, true), (b!"matindices", .uints, true)]
  | .composite => [(b!"values", .floats, true)]
  | .multiProperties => [(b!"id", .uint, true), (b!"pids", .uints, true), (b!"blendmethods", .text, false)]
  | .multi => [(b!"pindices", .uints, true)]
  | .sliceStack => [(b!"id", .uint, true), (b!"zbottom", .float, false)]
  | .sliceRef => [(b!"slicestackid", .uint, true), (b!"slicepath", .text, true)]
  | .slice => [(b!"ztop", .float, true)]
  | .polygonVertex => [(b!"x", .float, true), (b!"y", .float, true)]
  | .polygon => [(b!"startv", .uint, true)]
  | .segment => [(b!"v2", .uint, true), (b!"pid", .uint, false), (b!"p1", .uint, false), (b!"p2", .uint, false)]
  | .beamLattice =>
    [(b!"radius", .float, true), (b!"minlength", .float, true), (b!"precision", .float, true), (b!"clippingmode", .clipMode, false),
     (b!"clipping", .clipMode, false), (b!"clippingmesh", .uint, false), (b!"representationmesh", .uint, false),
     (b!"cap", .capMode, false)]
  | .beam =>
    [(b!"v1", .uint, true), (b!"v2", .uint, true), (b!"r1", .float, false), (b!"r2", .float, false), (b!"cap1", .text, false),
     (b!"cap2", .text, false)]
  | .beamSet => [(b!"name", .text, false), (b!"identifier", .text, false)]
  | .beamRef => [(b!"index", .uint, true)]
  | _ => []

/-- The attributes that the production extension adds. -/
def productionAttributes : Kind → List (Str × AttrType × Bool)
  | .build | .object => [(b!"UUID", .uuid, true)]
  | .item | .component => [(b!"UUID", .uuid, true), (b!"path", .text, false)]
  | _ => []

/-- The attributes that the slice extension adds. -/
def sliceAttributes : Kind → List (Str × AttrType × Bool)
  | .object => [(b!"slicestackid", .uint, true), (b!"meshresolution", .resolution, false)]
  | _ => []

/-- The type of an attribute of an element of type `k`, and whether it is required; `none` if it has no meaning there. -/
def attrType (env : Env) (k : Kind) (n : Name) : Option (AttrType × Bool) :=
  if n.space = [] then (attributes k).lookup n.loc
  else match env.load n.space with
    | some .production => (productionAttributes k).lookup n.loc
    | some .slices => (sliceAttributes k).lookup n.loc
    | _ => none

/-- The faults of one attribute. -/
def attrFault (env : Env) (k : Kind) (a : Attr) : List Leaf :=
  match attrType env k a.name with
  | some (ty, req) => List.replicate (mistakes ty a.value) (.parseAttr a.name.loc req)
  | none => []

/-- The faults of the attributes of an element. -/
def attrFaults (env : Env) (k : Kind) (as : List Attr) : List Leaf := as.flatMap (attrFault env k)

/-! ## Faults -/

/-- A fault: the elements around it, the innermost first, and what it is. -/
abbrev Fault := List Level × Leaf

/-- The fault as seen from outside of an element. -/
def Fault.up (l : Level) (f : Fault) : Fault := (f.1 ++ [l], f.2)

mutual
/-- The faults of a node in an element of type `k` after the siblings `before`. -/
def nodeFaults (env : Env) (k : Kind) (before : List Node) : Node → List Fault
  | .elem n as c =>
    match childKind env k n with
    | none => []
    | some (k', mu) =>
      ((attrFaults env k' as).map (fun l => (([], l) : Fault)) ++ contentFaults env k' [] c).map
        (Fault.up ⟨n.loc, indexOf env k before n mu⟩)
  | _ => []

/-- The faults of the content of an element of type `k`. -/
def contentFaults (env : Env) (k : Kind) (before : List Node) : List Node → List Fault
  | [] => []
  | x :: xs => nodeFaults env k before x ++ contentFaults env k (before ++ [x]) xs
end

/-! ## Values of attributes -/

/-- The value of an attribute. -/
def attr? (as : List Attr) (n : Name) : Option Str := (as.find? fun a => a.name = n).map (·.value)

/-- An attribute without name space. -/
def plain? (as : List Attr) (l : Str) : Option Str := attr? as ⟨[], l⟩

/-- A text, empty if it is missing. -/
def textAt (as : List Attr) (l : Str) : Str := (plain? as l).getD []

/-- A number, 0 if it is missing or malformed and the greatest number if it is out of range. -/
def uintAt (as : List Attr) (l : Str) : UInt32 := ((plain? as l).map parseUintVal).getD 0

/-- A number, 0 if it is missing or malformed and infinite if it is out of range. -/
def floatAt (as : List Attr) (l : Str) : F32 := ((plain? as l).map parseFloatVal).getD .zero

/-- A word from a list, the default if it is missing or unknown. -/
def wordAt {α : Type} (word : Str → Option α) (dflt : α) (as : List Attr) (l : Str) : α :=
  ((plain? as l).bind word).getD dflt

/-- A transform, zero if it is missing or malformed. -/
def matrixAt (as : List Attr) (l : Str) : Matrix := wordAt parseMatrix .zero as l

/-- A list of numbers. -/
def uintsAt (as : List Attr) (l : Str) : List UInt32 := (fields (textAt as l)).map parseUintVal

/-- A list of numbers. -/
def floatsAt (as : List Attr) (l : Str) : List F32 := (fields (textAt as l)).map parseFloatVal

/-- A UUID, empty if it is missing or malformed. -/
def uuidAt (as : List Attr) : Str :=
  match attr? as ⟨nsProduction, b!"UUID"⟩ with
  | some v => if uuidValid v then v else []
  | none => []

/-- The attributes of one name space. -/
def groupOf (env : Env) (k : Kind) (as : List Attr) (ns : Str) : AttrGroup :=
  match env.load ns with
  | some .slices =>
    .sliceObject (((attr? as ⟨ns, b!"slicestackid"⟩).bind fun v => (parseUint v).toOption).getD 0)
      (((attr? as ⟨ns, b!"meshresolution"⟩).bind newMeshResolution).getD .full)
  | some _ =>
    match k with
    | .build => .prodBuild (uuidAt as)
    | .item => .prodItem (uuidAt as) ((attr? as ⟨ns, b!"path"⟩).getD [])
    | .object => .prodObject (uuidAt as)
    | _ => .prodComponent (uuidAt as) ((attr? as ⟨ns, b!"path"⟩).getD [])
  | none => .unknown ns (as.filter fun a => a.name.space = ns)

/-- The attributes of extensions: a group for each name space, in the order in which they first appear. -/
def groupsOf (env : Env) (k : Kind) (as : List Attr) : AnyAttr :=
  (as.map (·.name.space)).eraseDups.map (groupOf env k as)

/-- The attributes of extensions of an element that has attributes of its own. -/
def extAttrs (env : Env) (k : Kind) (as : List Attr) : AnyAttr :=
  groupsOf env k (as.filter fun a => a.name.space ≠ [])

/-! ## Values of elements -/

/-- The text of a content. -/
def docText (c : List Node) : Str :=
  (c.filterMap fun x => match x with
    | .text t => some t
    | _ => none).flatten

/-- The name of a metadata: it has a prefix if that is the prefix of an extension. -/
def metaName (exts : List Extension) (v : Str) : Name :=
  match v.dropWhile (· ≠ 58) with
  | [] => ⟨[], v⟩
  | _ :: l => if v.takeWhile (· ≠ 58) ∈ exts.map (·.localName) then ⟨v.takeWhile (· ≠ 58), l⟩ else ⟨[], v⟩

/-- Metadata. -/
def metadataOf (exts : List Extension) (e : List Attr × List Node) : Metadata where
  name := ((plain? e.1 b!"name").map (metaName exts)).getD ⟨[], []⟩
  value := docText e.2
  type := textAt e.1 b!"type"
  preserve := textAt e.1 b!"preserve" ∈ ([b!"1", b!"t", b!"T", b!"TRUE", b!"true", b!"True"] : List Str)

/-- A group of metadata; empty if it is missing. -/
def metadataGroupOf (env : Env) (exts : List Extension) : Option (List Attr × List Node) → MetadataGroup
  | some e => ⟨(children (core b!"metadata") e.2).map (metadataOf exts), groupsOf env .metadataGroup e.1⟩
  | none => ⟨[], []⟩

/-- The element with the name, if there is one. -/
def child? (n : Name) (c : List Node) : Option (List Attr × List Node) := (children n c).head?

/-- A build item. -/
def itemOf (env : Env) (exts : List Extension) (e : List Attr × List Node) : Item where
  objectID := uintAt e.1 b!"objectid"
  transform := matrixAt e.1 b!"transform"
  partNumber := textAt e.1 b!"partnumber"
  metadata := metadataGroupOf env exts (child? (core b!"metadatagroup") e.2)
  anyAttr := extAttrs env .item e.1

/-- The build; empty if it is missing. -/
def buildOf (env : Env) (exts : List Extension) : Option (List Attr × List Node) → Build
  | some e => ⟨(children (core b!"item") e.2).map (itemOf env exts), groupsOf env .build e.1⟩
  | none => ⟨[], []⟩

/-- A base material. -/
def baseOf (env : Env) (e : List Attr × List Node) : Base where
  name := textAt e.1 b!"name"
  color := ((plain? e.1 b!"displaycolor").map fun v => (parseRGBA v).1).getD ⟨0, 0, 0, 0⟩
  anyAttr := extAttrs env .base e.1

/-- A group of base materials. -/
def baseMaterialsOf (env : Env) (e : List Attr × List Node) : BaseMaterials where
  id := uintAt e.1 b!"id"
  materials := (children (core b!"base") e.2).map (baseOf env)
  anyAttr := extAttrs env .baseMaterials e.1

/-- A vertex. -/
def vertexOf (as : List Attr) : Point3D := ⟨floatAt as b!"x", floatAt as b!"y", floatAt as b!"z"⟩

/-- A triangle of an object with the given default property.  The properties of the second and third vertex are those of
the first if they are missing. -/
def triangleOf (env : Env) (pid pindex : UInt32) (as : List Attr) : Triangle :=
  let p1 := ((plain? as b!"p1").map parseUintVal).getD pindex
  { v1 := uintAt as b!"v1", v2 := uintAt as b!"v2", v3 := uintAt as b!"v3"
    pid := ((plain? as b!"pid").map parseUintVal).getD pid
    p1 := p1
    p2 := ((plain? as b!"p2").map parseUintVal).getD p1
    p3 := ((plain? as b!"p3").map parseUintVal).getD p1
    anyAttr := extAttrs env .triangle as }

/-- A component. -/
def componentOf (env : Env) (as : List Attr) : Component where
  objectID := uintAt as b!"objectid"
  transform := matrixAt as b!"transform"
  anyAttr := extAttrs env .component as

/-- The components of an object. -/
def componentsOf (env : Env) (e : List Attr × List Node) : Components :=
  ⟨(children (core b!"component") e.2).map fun x => componentOf env x.1, groupsOf env .components e.1⟩

/-! ### Materials -/

/-- A group of colours. -/
def colorGroupOf (e : List Attr × List Node) : ColorGroup :=
  ⟨uintAt e.1 b!"id", (children (mat b!"color") e.2).map fun x => (parseRGBA (textAt x.1 b!"color")).1⟩

/-- A group of texture coordinates. -/
def texture2DGroupOf (e : List Attr × List Node) : Texture2DGroup :=
  ⟨uintAt e.1 b!"id", uintAt e.1 b!"texid",
    (children (mat b!"tex2coord") e.2).map fun x => ⟨floatAt x.1 b!"u", floatAt x.1 b!"v"⟩⟩

/-- A texture. -/
def texture2DOf (as : List Attr) : Texture2D :=
  ⟨uintAt as b!"id", textAt as b!"path", wordAt newTexture2DType .unset as b!"contenttype",
    wordAt newTileStyle .wrap as b!"tilestyleu", wordAt newTileStyle .wrap as b!"tilestylev",
    wordAt newTextureFilter .auto as b!"filter"⟩

/-- A group of composite materials. -/
def compositeMaterialsOf (e : List Attr × List Node) : CompositeMaterials :=
  ⟨uintAt e.1 b!"id", uintAt e.1 b!"matid", uintsAt e.1 b!"matindices",
    (children (mat b!"composite") e.2).map fun x => floatsAt x.1 b!"values"⟩

/-- A group of multi-properties. -/
def multiPropertiesOf (e : List Attr × List Node) : MultiProperties :=
  ⟨uintAt e.1 b!"id", uintsAt e.1 b!"pids", (fields (textAt e.1 b!"blendmethods")).map fun f => (newBlendMethod f).getD .mix,
    (children (mat b!"multi") e.2).map fun x => uintsAt x.1 b!"pindices"⟩

/-! ### Slices -/

/-- A segment; the second property is the first if it is missing. -/
def segmentOf (as : List Attr) : Segment :=
  ⟨uintAt as b!"v2", uintAt as b!"pid", uintAt as b!"p1",
    ((plain? as b!"p2").map parseUintVal).getD (uintAt as b!"p1")⟩

/-- A polygon. -/
def polygonOf (e : List Attr × List Node) : Polygon :=
  ⟨uintAt e.1 b!"startv", (children (slc b!"segment") e.2).map fun x => segmentOf x.1⟩

/-- A vertex of a slice. -/
def polygonVertexOf (as : List Attr) : Point2D := ⟨floatAt as b!"x", floatAt as b!"y"⟩

/-- A slice. -/
def sliceOf (e : List Attr × List Node) : Slice where
  topZ := floatAt e.1 b!"ztop"
  vertices := match child? (slc b!"vertices") e.2 with
    | some v => (children (slc b!"vertex") v.2).map fun x => polygonVertexOf x.1
    | none => []
  polygons := (children (slc b!"polygon") e.2).map polygonOf

/-- A slice reference. -/
def sliceRefOf (as : List Attr) : SliceRef := ⟨uintAt as b!"slicestackid", textAt as b!"slicepath"⟩

/-- A slice stack. -/
def sliceStackOf (e : List Attr × List Node) : SliceStack :=
  ⟨uintAt e.1 b!"id", floatAt e.1 b!"zbottom", (children (slc b!"slice") e.2).map sliceOf,
    (children (slc b!"sliceref") e.2).map fun x => sliceRefOf x.1⟩

/-! ### Beam lattice -/

/-- A number unless it is zero. -/
def orElse (x y : F32) : F32 := if x.eq .zero then y else x

/-- A beam of a lattice with the given default radius and cap.  The second radius is the first if it is missing. -/
def beamOf (radius : F32) (cap : CapMode) (as : List Attr) : Beam :=
  let r1 := orElse (floatAt as b!"r1") radius
  { v1 := uintAt as b!"v1", v2 := uintAt as b!"v2", r1 := r1, r2 := orElse (floatAt as b!"r2") r1
    cap1 := wordAt newCapMode cap as b!"cap1", cap2 := wordAt newCapMode cap as b!"cap2" }

/-- A set of beams. -/
def beamSetOf (e : List Attr × List Node) : BeamSet :=
  ⟨(children (bml b!"ref") e.2).map fun x => uintAt x.1 b!"index", textAt e.1 b!"name", textAt e.1 b!"identifier"⟩

/-- A beam lattice.  Two attributes have an older name. -/
def beamLatticeOf (e : List Attr × List Node) : BeamLattice where
  clipMode := (((plain? e.1 b!"clippingmode").or (plain? e.1 b!"clipping")).bind newClipMode).getD .none
  clippingMeshID := uintAt e.1 b!"clippingmesh"
  representationMeshID := uintAt e.1 b!"representationmesh"
  beams := match child? (bml b!"beams") e.2 with
    | some v => (children (bml b!"beam") v.2).map fun x =>
        beamOf (floatAt e.1 b!"radius") (wordAt newCapMode .sphere e.1 b!"cap") x.1
    | none => []
  beamSets := match child? (bml b!"beamsets") e.2 with
    | some v => (children (bml b!"beamset") v.2).map beamSetOf
    | none => []
  minLength := (((plain? e.1 b!"minlength").or (plain? e.1 b!"precision")).map parseFloatVal).getD .zero
  radius := floatAt e.1 b!"radius"
  capMode := wordAt newCapMode .sphere e.1 b!"cap"

/-! ### Objects and resources -/

/-- A resource of an extension. -/
def extResOf (k : Kind) (e : List Attr × List Node) : Option ExtRes :=
  match k with
  | .colorGroup => some (.colorGroup (colorGroupOf e))
  | .texture2DGroup => some (.texture2DGroup (texture2DGroupOf e))
  | .texture2D => some (.texture2D (texture2DOf e.1))
  | .compositeMaterials => some (.composite (compositeMaterialsOf e))
  | .multiProperties => some (.multi (multiPropertiesOf e))
  | .sliceStack => some (.sliceStack (sliceStackOf e))
  | _ => none

/-- An element of an extension in a model or mesh. -/
def anyOf (env : Env) (k : Kind) : Node → Option AnyElem
  | .elem n as c =>
    match childKind env k n with
    | some (.foreign, _) => some (.tokens (Node.elem n as c).tokens)
    | some (.beamLattice, _) => some (.beamLattice (beamLatticeOf (as, c)))
    | some (k', _) => (extResOf k' (as, c)).map .res
    | none => none
  | _ => none

/-- The mesh of an object with the given default property. -/
def meshOf (env : Env) (pid pindex : UInt32) (e : List Attr × List Node) : Mesh where
  vertices := match child? (core b!"vertices") e.2 with
    | some v => (children (core b!"vertex") v.2).map fun x => vertexOf x.1
    | none => []
  verticesAttr := match child? (core b!"vertices") e.2 with
    | some v => groupsOf env .vertices v.1
    | none => []
  triangles := match child? (core b!"triangles") e.2 with
    | some v => (children (core b!"triangle") v.2).map fun x => triangleOf env pid pindex x.1
    | none => []
  trianglesAttr := match child? (core b!"triangles") e.2 with
    | some v => groupsOf env .triangles v.1
    | none => []
  anyAttr := groupsOf env .mesh e.1
  any := e.2.filterMap (anyOf env .mesh)

/-- An object. -/
def objectOf (env : Env) (exts : List Extension) (e : List Attr × List Node) : Object where
  id := uintAt e.1 b!"id"
  name := textAt e.1 b!"name"
  partNumber := textAt e.1 b!"partnumber"
  thumbnail := textAt e.1 b!"thumbnail"
  pid := uintAt e.1 b!"pid"
  pindex := uintAt e.1 b!"pindex"
  type := wordAt newObjectType .model e.1 b!"type"
  metadata := metadataGroupOf env exts (child? (core b!"metadatagroup") e.2)
  mesh := (child? (core b!"mesh") e.2).map (meshOf env (uintAt e.1 b!"pid") (uintAt e.1 b!"pindex"))
  components := (child? (core b!"components") e.2).map (componentsOf env)
  anyAttr := extAttrs env .object e.1

/-- An asset. -/
def assetOf (env : Env) : Node → Option Asset
  | .elem n as c =>
    match childKind env .resources n with
    | some (.baseMaterials, _) => some (.base (baseMaterialsOf env (as, c)))
    | some (.foreignAsset, _) => some (.unknown (uintAt as b!"id") (Node.elem n as c).tokens)
    | some (k', _) => (extResOf k' (as, c)).map .res
    | none => none
  | _ => none

/-- The resources; empty if they are missing. -/
def resourcesOf (env : Env) (exts : List Extension) : Option (List Attr × List Node) → Resources
  | some e => ⟨e.2.filterMap (assetOf env), (children (core b!"object") e.2).map (objectOf env exts), groupsOf env .resources e.1⟩
  | none => ⟨[], [], []⟩

/-! ### Models -/

/-- The extensions: the declared prefixes; those that are listed are required. -/
def extensionsOf (as : List Attr) : List Extension :=
  (as.filter fun a => a.name.space = b!"xmlns").map fun a =>
    ⟨a.value, a.name.loc, a.name.loc ∈ fields (textAt as b!"requiredextensions")⟩

/-- The attributes of extensions of the root element. -/
def modelAttrs (env : Env) (as : List Attr) : AnyAttr :=
  groupsOf env .model (as.filter fun a => a.name.space ≠ [] ∧ a.name.space ≠ nsXML ∧ a.name.space ≠ b!"xmlns")

/-- The root part `e` of the package `m`. -/
def modelOf (env : Env) (m : Model) (e : List Attr × List Node) : Model :=
  { m with
    units := wordAt newUnits .millimeter e.1 b!"unit"
    thumbnail := textAt e.1 b!"thumbnail"
    language := (attr? e.1 ⟨nsXML, b!"lang"⟩).getD []
    extensions := extensionsOf e.1
    anyAttr := modelAttrs env e.1
    metadata := (children (core b!"metadata") e.2).map (metadataOf (extensionsOf e.1))
    build := buildOf env (extensionsOf e.1) (child? (core b!"build") e.2)
    any := e.2.filterMap (anyOf env .model)
    resources := resourcesOf env (extensionsOf e.1) (child? (core b!"resources") e.2) }

/-! ## Conditions -/

/-- The element is one of the core specification that can hold attributes of extensions. -/
def Kind.holder : Kind → Option Str
  | .model => some b!"model"
  | .metadataGroup => some b!"metadatagroup"
  | .build => some b!"build"
  | .item => some b!"item"
  | .resources => some b!"resources"
  | .baseMaterials => some b!"basematerials"
  | .base => some b!"base"
  | .object => some b!"object"
  | .mesh => some b!"mesh"
  | .vertices => some b!"vertices"
  | .triangles => some b!"triangles"
  | .triangle => some b!"triangle"
  | .components => some b!"components"
  | .component => some b!"component"
  | _ => none

/-- The registered extensions that have attributes for an element. -/
def Allowed (env : Env) (k : Kind) (ns : Str) : Prop :=
  match env.load ns with
  | none => True
  | some .production => k ∈ ([.build, .item, .object, .component] : List Kind)
  | some .slices => k = .object
  | some _ => False

/-- The elements of which all attributes are taken for numbers. -/
def Kind.strictAttrs : Kind → Bool
  | .vertex | .triangle | .tex2Coord | .polygonVertex | .segment => true
  | _ => false

/-- The elements of the slice extension. -/
def Kind.ofSlices : Kind → Bool
  | .sliceStack | .sliceRef | .slice | .polygonVertices | .polygonVertex | .polygon | .segment => true
  | _ => false

/-- What the attributes of an element of type `k` must be like for the document to be read as it should. -/
structure AttrsFit (env : Env) (k : Kind) (as : List Attr) : Prop where
  /-- As XML demands. -/
  distinct : (as.map (·.name)).Nodup
  /-- Attributes of registered extensions only where they have a meaning (C26). -/
  allowed : k.holder.isSome = true → ∀ a ∈ as, Allowed env k a.name.space
  /-- No other attributes without name space, as the schema demands. -/
  closed : k.strictAttrs = true → ∀ a ∈ as, a.name.space = [] → a.name.loc ∈ (attributes k).map (·.1)
  /-- No attributes of other name spaces. -/
  plain : k.ofSlices = true → ∀ a ∈ as, a.name.space = []
  /-- A colour has a value. -/
  color : k = .color → (plain? as b!"color").isSome = true
  /-- Segments have no faults, as their indices are wrong (C53). -/
  segment : k = .segment → attrFaults env k as = []
  /-- Not both names. -/
  lattice : k = .beamLattice → ¬ ((plain? as b!"minlength").isSome ∧ (plain? as b!"precision").isSome) ∧
    ¬ ((plain? as b!"clippingmode").isSome ∧ (plain? as b!"clipping").isSome)

/-- The number of texts. -/
def texts (c : List Node) : Nat := c.countP fun x => match x with
  | .text _ => true
  | _ => false

/-- Elements that nobody knows. -/
def Kind.isForeign : Kind → Bool
  | .foreign | .foreignAsset => true
  | _ => false

mutual
/-- A node that is passed over, or kept as it is, in an element of type `k` and name `n`: nothing in it has a meaning there
or is called like the element around it, because the decoder does not count the elements that it passes over (C53).  The
proposition `kept` says that the texts of unknown elements are kept (C37). -/
def Passed (env : Env) (kept : Prop) (k : Kind) (n : Name) : Node → Prop
  | .elem m _ c => childKind env k m = none ∧ m ≠ n ∧ PassedAll env kept k n c
  | .text _ => k.isForeign = true → kept
  | .other => True

/-- The same for all the nodes of a content. -/
def PassedAll (env : Env) (kept : Prop) (k : Kind) (n : Name) : List Node → Prop
  | [] => True
  | x :: xs => Passed env kept k n x ∧ PassedAll env kept k n xs
end

/-- The elements that may be there at most once are there at most once, and a metadata element has at most one text. -/
def Once (env : Env) (k : Kind) (c : List Node) : Prop :=
  (∀ n k', childKind env k n = some (k', .single) → (children n c).length ≤ 1) ∧ (k = .metadata → texts c ≤ 1)

mutual
/-- What a node in an element of type `k` and name `n` must be like for the document to be read as it should. -/
def NodeOk (env : Env) (kept : Prop) (k : Kind) (n : Name) : Node → Prop
  | .elem m as c =>
    match childKind env k m with
    | none => k ≠ .metadata ∧ m ≠ n ∧ PassedAll env kept k n c
    | some (k', _) =>
      ¬ (k = .resources ∧ k' = .beamLattice) ∧ AttrsFit env k' as ∧ Once env k' c ∧ ContentOk env kept k' m c
  | .text _ => k.isForeign = true → kept
  | .other => True

/-- The same for all the nodes of a content. -/
def ContentOk (env : Env) (kept : Prop) (k : Kind) (n : Name) : List Node → Prop
  | [] => True
  | x :: xs => NodeOk env kept k n x ∧ ContentOk env kept k n xs
end

end Go3mf.Spec
