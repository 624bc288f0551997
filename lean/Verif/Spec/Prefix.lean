import Verif.Spec.Document

/-!
# Specification of a change of the name-space prefixes

The prefixes of a document are a matter of taste: what counts are the name spaces that they stand for.  In a 3MF document
prefixes occur in three places that an XML parser does not resolve: in the declarations themselves (which become the
extensions of the model), in the list `requiredextensions` and in the names of metadata.  A renaming changes all of them alike.
-/

namespace Go3mf.Spec

/-- Other prefixes: different ones stay different, and none gets or loses a colon or becomes empty. -/
structure Renaming (ρ : Str → Str) : Prop where
  inj : ∀ p q, ρ p = ρ q → p = q
  plain : ∀ p, 58 ∉ p → 58 ∉ ρ p
  empty : ρ [] = []

/-! ## Documents -/

/-- The prefix before the first colon is renamed. -/
def renameValue (ρ : Str → Str) (v : Str) : Str :=
  if 58 ∈ v then ρ (v.takeWhile (· ≠ 58)) ++ v.dropWhile (· ≠ 58) else v

/-- The elements with a name are changed. -/
def changeElem (n : Name) (f : List Attr × List Node → List Attr × List Node) : Node → Node
  | .elem m as c => if m = n then .elem m (f (as, c)).1 (f (as, c)).2 else .elem m as c
  | x => x

/-- The attributes of metadata. -/
def renameAttr (ρ : Str → Str) (a : Attr) : Attr :=
  if a.name = ⟨[], b!"name"⟩ then ⟨a.name, renameValue ρ a.value⟩ else a

/-- An element `metadata`. -/
def renameMetaElem (ρ : Str → Str) (e : List Attr × List Node) : List Attr × List Node := (e.1.map (renameAttr ρ), e.2)

/-- An element `metadatagroup`. -/
def renameGroupElem (ρ : Str → Str) (e : List Attr × List Node) : List Attr × List Node :=
  (e.1, e.2.map (changeElem (core b!"metadata") (renameMetaElem ρ)))

/-- An element `item` or `object`. -/
def renameHolderElem (ρ : Str → Str) (e : List Attr × List Node) : List Attr × List Node :=
  (e.1, e.2.map (changeElem (core b!"metadatagroup") (renameGroupElem ρ)))

/-- The element `build`. -/
def renameBuildElem (ρ : Str → Str) (e : List Attr × List Node) : List Attr × List Node :=
  (e.1, e.2.map (changeElem (core b!"item") (renameHolderElem ρ)))

/-- The element `resources`. -/
def renameResourcesElem (ρ : Str → Str) (e : List Attr × List Node) : List Attr × List Node :=
  (e.1, e.2.map (changeElem (core b!"object") (renameHolderElem ρ)))

/-- The content of the root element of the root part. -/
def renameContent (ρ : Str → Str) (c : List Node) : List Node :=
  ((c.map (changeElem (core b!"metadata") (renameMetaElem ρ))).map (changeElem (core b!"build") (renameBuildElem ρ))).map
    (changeElem (core b!"resources") (renameResourcesElem ρ))

/-- An attribute of the root element. -/
def RenamedAttr (ρ : Str → Str) (a a' : Attr) : Prop :=
  if a.name.space = b!"xmlns" then a' = ⟨⟨b!"xmlns", ρ a.name.loc⟩, a.value⟩
  else if a.name = ⟨[], b!"requiredextensions"⟩ then a'.name = a.name ∧ fields a'.value = (fields a.value).map ρ
  else a' = a

/-- The attributes of the root element. -/
def RenamedAttrs (ρ : Str → Str) (as as' : List Attr) : Prop := List.Forall₂ (RenamedAttr ρ) as as'

/-! ## Models -/

/-- The name of metadata: the prefix if there is one, else what looks like one. -/
def renameName (ρ : Str → Str) (n : Name) : Name :=
  if n.space = [] then ⟨[], renameValue ρ n.loc⟩ else ⟨ρ n.space, n.loc⟩

/-- Metadata. -/
def renameMetadata (ρ : Str → Str) (x : Metadata) : Metadata := { x with name := renameName ρ x.name }

/-- Groups of metadata. -/
def renameGroup (ρ : Str → Str) (g : MetadataGroup) : MetadataGroup := { g with metadata := g.metadata.map (renameMetadata ρ) }

/-- Items. -/
def renameItem (ρ : Str → Str) (x : Item) : Item := { x with metadata := renameGroup ρ x.metadata }

/-- Objects. -/
def renameObject (ρ : Str → Str) (x : Object) : Object := { x with metadata := renameGroup ρ x.metadata }

/-- Resources. -/
def renameResources (ρ : Str → Str) (rs : Resources) : Resources := { rs with objects := rs.objects.map (renameObject ρ) }

/-- The root part of a model. -/
def renameModel (ρ : Str → Str) (m : Model) : Model :=
  { m with
    extensions := m.extensions.map fun x => { x with localName := ρ x.localName }
    metadata := m.metadata.map (renameMetadata ρ)
    build := { m.build with items := m.build.items.map (renameItem ρ) }
    resources := renameResources ρ m.resources }

end Go3mf.Spec
