import Verif.Model.Core

/-!
# Models the additional attributes of which have distinct names
-/

namespace Go3mf.Spec

/-- The names of the attributes that a group stands for. -/
def groupNames : AttrGroup → List Name
  | .unknown _ as => as.map (·.name)
  | .prodBuild _ => [⟨nsProduction, b!"UUID"⟩]
  | .prodObject _ => [⟨nsProduction, b!"UUID"⟩]
  | .prodItem _ _ => [⟨nsProduction, b!"path"⟩, ⟨nsProduction, b!"UUID"⟩]
  | .prodComponent _ _ => [⟨nsProduction, b!"path"⟩, ⟨nsProduction, b!"UUID"⟩]
  | .sliceObject _ _ => [⟨nsSlices, b!"slicestackid"⟩, ⟨nsSlices, b!"meshresolution"⟩]

/-- The additional attributes of an element have distinct names, all of them in a name space. -/
def DistinctAttrs (any : AnyAttr) : Prop := (any.flatMap groupNames).Nodup ∧ ∀ n ∈ any.flatMap groupNames, n.space ≠ []

/-- In every tag of an unknown element the names of the attributes are distinct. -/
def DistinctTokens (ts : List Token) : Prop := ∀ n as, Token.start n as ∈ ts → (as.map (·.name)).Nodup

/-- The same for the unknown elements of a list. -/
def DistinctAny (any : List AnyElem) : Prop := ∀ ts, AnyElem.tokens ts ∈ any → DistinctTokens ts

/-- A mesh whose triangles have no additional attributes, and whose other additional attributes are distinct. -/
def DistinctMesh (m : Mesh) : Prop :=
  DistinctAttrs m.verticesAttr ∧ DistinctAttrs m.trianglesAttr ∧ DistinctAttrs m.anyAttr ∧ DistinctAny m.any ∧
  ∀ t ∈ m.triangles, t.anyAttr = []

/-- An object with distinct additional attributes. -/
def DistinctObject (o : Object) : Prop :=
  DistinctAttrs o.anyAttr ∧ DistinctAttrs o.metadata.anyAttr ∧ (∀ m, o.mesh = some m → DistinctMesh m) ∧
  ∀ cs, o.components = some cs → DistinctAttrs cs.anyAttr ∧ ∀ c ∈ cs.component, DistinctAttrs c.anyAttr

/-- An asset with distinct additional attributes. -/
def DistinctAsset : Asset → Prop
  | .base r => DistinctAttrs r.anyAttr ∧ ∀ b ∈ r.materials, DistinctAttrs b.anyAttr
  | .unknown _ ts => DistinctTokens ts
  | .res _ => True

/-- Resources with distinct additional attributes. -/
def DistinctResources (r : Resources) : Prop :=
  DistinctAttrs r.anyAttr ∧ (∀ a ∈ r.assets, DistinctAsset a) ∧ ∀ o ∈ r.objects, DistinctObject o

/-- The prefixes of the extensions are distinct, and so are the additional attributes of the root element, none of which is
a declaration or the language. -/
def DistinctRoot (m : Model) : Prop :=
  DistinctAttrs m.anyAttr ∧ (m.extensions.map (·.localName)).Nodup ∧
  ∀ n ∈ m.anyAttr.flatMap groupNames, n.space ≠ b!"xmlns" ∧ n ≠ ⟨nsXML, b!"lang"⟩

/-- A model with distinct additional attributes. -/
def DistinctModel (m : Model) : Prop :=
  DistinctRoot m ∧ DistinctResources m.resources ∧ DistinctAny m.any ∧ DistinctAttrs m.build.anyAttr ∧
  ∀ i ∈ m.build.items, DistinctAttrs i.anyAttr ∧ DistinctAttrs i.metadata.anyAttr

/-- A child model with distinct additional attributes. -/
def DistinctChild (c : ChildModel) : Prop := DistinctResources c.resources ∧ DistinctAny c.any

end Go3mf.Spec
