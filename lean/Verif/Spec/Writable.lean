import Verif.Spec.Round
import Verif.Model.Validate
import Verif.Props.C18
import Verif.Props.C20

/-!
# The models that can be written and read back

Conditions on the texts and names of a model.  `env` says which extensions are registered.  Nothing here refers to the
encoder or to the decoder.
-/

namespace Go3mf.Spec

/-- The name space belongs to a registered extension. -/
def Known (env : Env) (ns : Str) : Prop :=
  (env.production = true ∧ ns = nsProduction) ∨ (env.slices = true ∧ ns = nsSlices) ∨
  (env.beamlattice = true ∧ ns = nsBeam) ∨ (env.materials = true ∧ ns = nsMaterials)

/-- The name space has a prefix in the model. -/
def Declared (exts : List Extension) (ns : Str) : Prop := ns ≠ [] ∧ ∃ x ∈ exts, x.ns = ns

/-- The name space of the prefix `xml`. -/
def xmlSpace : Str := b!"http://www.w3.org/XML/1998/namespace"

/-- Printable ASCII without the characters that XML escapes. -/
def Simple (s : Str) : Prop := ∀ b ∈ s, 32 ≤ b ∧ b < 127 ∧ b ∉ [34, 38, 39, 60, 62]

/-! ## Attributes of extensions -/

/-- An attribute in a name space. -/
structure SpaceAttr (exts : List Extension) (a : Attr) : Prop where
  space : a.name.space = xmlSpace ∨ Declared exts a.name.space
  name : PlainName a.name.loc
  value : Text a.value

/-- The name space of a group of attributes. -/
def groupSpace : AttrGroup → Str
  | .unknown space _ => space
  | .prodBuild _ => nsProduction
  | .prodItem _ _ => nsProduction
  | .prodObject _ => nsProduction
  | .prodComponent _ _ => nsProduction
  | .sliceObject _ _ => nsSlices

/-- A group of attributes of the element `parent`: attributes in one name space that no extension knows, or the ones of an
extension that is registered and has a prefix. -/
def GroupOk (env : Env) (exts : List Extension) (parent : Str) : AttrGroup → Prop
  | .unknown space attrs => ¬ Known env space ∧ attrs ≠ [] ∧ ∀ a ∈ attrs, a.name.space = space ∧ SpaceAttr exts a
  | .prodBuild u => env.production = true ∧ Declared exts nsProduction ∧ parent = b!"build" ∧ IsUUID u
  | .prodItem u p => env.production = true ∧ Declared exts nsProduction ∧ parent = b!"item" ∧ IsUUID u ∧ Text p
  | .prodObject u => env.production = true ∧ Declared exts nsProduction ∧ parent = b!"object" ∧ IsUUID u
  | .prodComponent u p => env.production = true ∧ Declared exts nsProduction ∧ parent = b!"component" ∧ IsUUID u ∧ Text p
  | .sliceObject _ _ => env.slices = true ∧ Declared exts nsSlices ∧ parent = b!"object"

/-- The attribute groups of an element, one for each name space. -/
structure AttrsOk (env : Env) (exts : List Extension) (parent : Str) (any : AnyAttr) : Prop where
  distinct : (any.map groupSpace).Nodup
  groups : ∀ g ∈ any, GroupOk env exts parent g

/-- The values of the unknown attributes. -/
def unknownValues (any : AnyAttr) : List Str :=
  any.flatMap fun g => match g with
    | .unknown _ attrs => attrs.map (·.value)
    | _ => []

/-! ## Unknown elements -/

/-- An attribute of an unknown element. -/
structure ElemAttr (exts : List Extension) (a : Attr) : Prop where
  space : a.name.space = [] ∨ a.name.space = xmlSpace ∨ Declared exts a.name.space
  name : PlainName a.name.loc
  plain : a.name.space = [] → a.name.loc ≠ b!"xmlns"
  value : Text a.value

/-- The name of an element below an unknown one. -/
structure ElemName (exts : List Extension) (n : Name) : Prop where
  space : n.space = nsCore ∨ Declared exts n.space
  name : PlainName n.loc
  plain : n.loc ≠ b!"xmlns"

/-- Complete elements without text; none has the name `n`. -/
inductive Content (exts : List Extension) (n : Name) : List Token → Prop
  | nil : Content exts n []
  | elem {m : Name} {as : List Attr} {ts rest : List Token} : m ≠ n → ElemName exts m → (∀ a ∈ as, ElemAttr exts a) →
      Content exts n ts → Content exts n rest → Content exts n (.start m as :: (ts ++ .stop m :: rest))

/-- A complete element of an unknown extension. -/
structure Element (env : Env) (exts : List Extension) (n : Name) (as : List Attr) (ts : List Token) : Prop where
  name : ElemName exts n
  core : n.space ≠ nsCore
  unknown : ¬ Known env n.space
  attrs : ∀ a ∈ as, ElemAttr exts a
  tokens : ∃ body, Content exts n body ∧ ts = .start n as :: (body ++ [.stop n])

/-- `id` is the identifier in the attributes: the first one counts. -/
def IdOf (as : List Attr) (id : UInt32) : Prop :=
  (∃ pre a post, as = pre ++ a :: post ∧ a.name = ⟨[], b!"id"⟩ ∧ (∀ x ∈ pre, x.name ≠ ⟨[], b!"id"⟩) ∧
    a.value ≠ [] ∧ (∀ b ∈ a.value, 48 ≤ b ∧ b ≤ 57) ∧ id.toNat = decimalValue a.value) ∨
  (id = 0 ∧ ∀ x ∈ as, x.name ≠ ⟨[], b!"id"⟩)

/-! ## Resources of extensions -/

/-- The extension of a resource is registered and has a prefix, and its texts are texts. -/
def ResWritable (env : Env) (exts : List Extension) : ExtRes → Prop
  | .texture2D t => env.materials = true ∧ Declared exts nsMaterials ∧ Text t.path
  | .sliceStack s => env.slices = true ∧ Declared exts nsSlices ∧ ∀ x ∈ s.refs, Text x.path
  | _ => env.materials = true ∧ Declared exts nsMaterials

def ElemWritable (env : Env) (exts : List Extension) : AnyElem → Prop
  | .tokens ts => ∃ n as, Element env exts n as ts
  | .res x => ResWritable env exts x
  | .beamLattice b => env.beamlattice = true ∧ Declared exts nsBeam ∧ ∀ s ∈ b.beamSets, Text s.name ∧ Text s.identifier

def AssetWritable (env : Env) (exts : List Extension) : Asset → Prop
  | .base r => AttrsOk env exts b!"basematerials" r.anyAttr ∧
      ∀ b ∈ r.materials, Text b.name ∧ AttrsOk env exts b!"base" b.anyAttr
  | .unknown id ts => ∃ n as, Element env exts n as ts ∧ IdOf as id
  | .res x => ResWritable env exts x

/-! ## The core -/

/-- A metadata: its name space is a prefix of the model, and a name without name space does not start with one. -/
structure MetadataWritable (exts : List Extension) (md : Metadata) : Prop where
  space : Text md.name.space
  loc : Text md.name.loc
  type : Text md.type
  value : Text md.value
  pref : (md.name.space ≠ [] ∧ 58 ∉ md.name.space ∧ ∃ x ∈ exts, x.localName = md.name.space) ∨
    (md.name.space = [] ∧ ∀ p l, md.name.loc = p ++ b!":" ++ l → 58 ∉ p → ∀ x ∈ exts, x.localName ≠ p)

/-- A group of metadata; attributes need a metadata.  `known` are the prefixes that the reader knows when it reads it. -/
structure GroupWritable (env : Env) (exts known : List Extension) (g : MetadataGroup) : Prop where
  metadata : ∀ md ∈ g.metadata, MetadataWritable known md
  attrs : AttrsOk env exts b!"metadatagroup" g.anyAttr
  empty : g.metadata = [] → g.anyAttr = []

/-- A triangle.  The values of its unknown attributes need no escapes. -/
structure TriangleWritable (env : Env) (exts : List Extension) (t : Triangle) : Prop where
  attrs : AttrsOk env exts b!"triangle" t.anyAttr
  simple : ∀ v ∈ unknownValues t.anyAttr, Simple v

/-- The number of attributes of a triangle besides the unknown ones: the vertices, then also `pid` and `p1`, then also `p2`
and `p3`. -/
def triangleWidth (pid pindex : UInt32) (t : Triangle) : Nat :=
  if t.pid = 0 then 3
  else if t.p1 ≠ t.p2 ∨ t.p1 ≠ t.p3 then 7
  else if t.pid ≠ pid ∨ t.p1 ≠ pindex then 5
  else 3

/-- The unknown attributes of the first name space replace names that this triangle does not need: there are seven names in
an array that all triangles of a mesh share. -/
def Spills (pid pindex : UInt32) (t : Triangle) : Prop :=
  ∃ space attrs gs, t.anyAttr = .unknown space attrs :: gs ∧ triangleWidth pid pindex t + attrs.length ≤ 7

/-- No triangle needs a name that was replaced for an earlier one. -/
def Undisturbed (pid pindex : UInt32) (ts : List Triangle) : Prop :=
  ts.Pairwise fun t u => Spills pid pindex t → triangleWidth pid pindex u ≤ triangleWidth pid pindex t

structure MeshWritable (env : Env) (exts : List Extension) (m : Mesh) : Prop where
  attrs : AttrsOk env exts b!"mesh" m.anyAttr
  vertices : AttrsOk env exts b!"vertices" m.verticesAttr
  triangles : AttrsOk env exts b!"triangles" m.trianglesAttr
  triangle : ∀ t ∈ m.triangles, TriangleWritable env exts t
  any : ∀ e ∈ m.any, ElemWritable env exts e

structure ComponentsWritable (env : Env) (exts : List Extension) (c : Components) : Prop where
  attrs : AttrsOk env exts b!"components" c.anyAttr
  component : ∀ x ∈ c.component, AttrsOk env exts b!"component" x.anyAttr

structure ObjectWritable (env : Env) (exts known : List Extension) (o : Object) : Prop where
  name : Text o.name
  partNumber : Text o.partNumber
  thumbnail : Text o.thumbnail
  metadata : GroupWritable env exts known o.metadata
  mesh : ∀ m, o.mesh = some m → MeshWritable env exts m
  components : ∀ c, o.components = some c → ComponentsWritable env exts c
  attrs : AttrsOk env exts b!"object" o.anyAttr
  triangles : ∀ m, o.mesh = some m → Undisturbed o.pid o.pindex m.triangles

structure ItemWritable (env : Env) (exts : List Extension) (i : Item) : Prop where
  partNumber : Text i.partNumber
  metadata : GroupWritable env exts exts i.metadata
  attrs : AttrsOk env exts b!"item" i.anyAttr

/-- A prefix and its name space. -/
structure ExtensionWritable (x : Extension) : Prop where
  name : PlainName x.localName
  text : Text x.localName
  xml : x.localName ≠ b!"xml" ∧ x.localName ≠ b!"xmlns"
  space : Text x.ns ∧ x.ns ≠ b!"xmlns"
  word : x.isRequired = true → Word x.localName

/-- The texts and names of the root model part. -/
structure Writable (env : Env) (m : Model) : Prop where
  extensions : ∀ x ∈ m.extensions, ExtensionWritable x
  distinct : (m.extensions.map (·.localName)).Nodup
  language : Text m.language
  thumbnail : Text m.thumbnail
  attrs : AttrsOk env m.extensions b!"model" m.anyAttr
  noXml : ∀ g ∈ m.anyAttr, groupSpace g ≠ xmlSpace
  metadata : ∀ md ∈ m.metadata, MetadataWritable m.extensions md
  assets : ∀ a ∈ m.resources.assets, AssetWritable env m.extensions a
  objects : ∀ o ∈ m.resources.objects, ObjectWritable env m.extensions m.extensions o
  resourcesAttrs : AttrsOk env m.extensions b!"resources" m.resources.anyAttr
  items : ∀ i ∈ m.build.items, ItemWritable env m.extensions i
  buildAttrs : AttrsOk env m.extensions b!"build" m.build.anyAttr
  any : ∀ e ∈ m.any, ElemWritable env m.extensions e

end Go3mf.Spec
