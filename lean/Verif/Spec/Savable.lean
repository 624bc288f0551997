import Verif.Spec.Document
import Verif.Spec.Writable

/-!
# The documents whose model can be saved

Conditions on a document under which the model that it describes can be written without loss.  Names and texts are what XML
demands, and all name spaces have a prefix in the root element, as the encoder has no other place for declarations.
`exts` are the declarations of the root element.
-/

namespace Go3mf.Spec

/-- The root element. -/
structure RootClean (as : List Attr) : Prop where
  /-- The declared prefixes. -/
  decls : ∀ a ∈ as, a.name.space = b!"xmlns" → PlainName a.name.loc ∧ Text a.name.loc ∧ a.name.loc ≠ b!"xml" ∧
    a.name.loc ≠ b!"xmlns" ∧ Text a.value ∧ a.value ≠ b!"xmlns"
  /-- The other attributes, with the default name space. -/
  attrs : ∀ a ∈ as, a.name.space ≠ b!"xmlns" →
    (a.name.space = [] ∨ a.name.space = xmlSpace ∨ Declared (extensionsOf as) a.name.space) ∧ PlainName a.name.loc ∧ Text a.value

/-- What an element of type `k` must be like besides, because the model cannot be written otherwise. -/
structure Storable (env : Env) (k : Kind) (as : List Attr) (c : List Node) : Prop where
  /-- With attributes of the production extension there is a UUID (`C36_empty_false`). -/
  production : k ∈ ([.build, .item, .object, .component] : List Kind) → (∃ a ∈ as, env.load a.name.space = some .production) →
    ∃ v, attr? as ⟨nsProduction, b!"UUID"⟩ = some v ∧ IsUUID v
  /-- Elements without attributes in the schema have no attributes without name space. -/
  bare : k ∈ ([.metadataGroup, .build, .resources, .mesh, .vertices, .triangles, .components] : List Kind) →
    ∀ a ∈ as, a.name.space ≠ []
  /-- Triangles have no attributes of extensions (`C29_alias_false`, `C30_triangle_false`). -/
  triangle : k = .triangle → ∀ a ∈ as, a.name.space = []
  /-- Groups of metadata with attributes have a metadata (`C30_empty_false`). -/
  group : k = .metadataGroup → children (core b!"metadata") c = [] → as = []
  /-- The identifier of an unknown resource is a number. -/
  id : k = .foreignAsset → attrFaults env k as = []

mutual
/-- A node in an element of type `k`.  There is no text in unknown elements (`C31_text_false`). -/
def NodeClean (env : Env) (exts : List Extension) (k : Kind) : Node → Prop
  | .elem n as c => ElemName exts n ∧ (∀ a ∈ as, ElemAttr exts a) ∧
    match childKind env k n with
    | none => ContentClean env exts k c
    | some (k', _) => Storable env k' as c ∧ ContentClean env exts k' c
  | .text t => Text t ∧ k.isForeign = false
  | .other => True

/-- The content of an element of type `k`. -/
def ContentClean (env : Env) (exts : List Extension) (k : Kind) : List Node → Prop
  | [] => True
  | x :: xs => NodeClean env exts k x ∧ ContentClean env exts k xs
end

end Go3mf.Spec
