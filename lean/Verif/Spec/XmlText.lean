import Verif.Model.Core
import Verif.Spec.Utf8

/-!
# Texts of XML characters, and the names that a model brings along

The writer takes most names of elements and attributes from the specification.  The others come from the model: the prefixes
of the extensions, and the attributes and elements that were unknown to the reader.
-/

namespace Go3mf.Spec

/-- A sequence of characters of XML 1.0, in UTF-8. -/
def XmlText (s : Str) : Prop := ∃ cs : List Nat, (∀ c ∈ cs, XmlChar c) ∧ s = utf8s cs

/-- The names of unknown attributes are texts. -/
def NamedAttrs (any : AnyAttr) : Prop :=
  ∀ s as, AttrGroup.unknown s as ∈ any → ∀ a ∈ as, XmlText a.name.loc ∧ XmlText a.name.space

/-- The names and values of all additional attributes are texts. -/
def TextAttrs (any : AnyAttr) : Prop :=
  ∀ g ∈ any, match g with
    | .unknown _ as => ∀ a ∈ as, XmlText a.name.loc ∧ XmlText a.name.space ∧ XmlText a.value
    | .prodBuild u => XmlText u
    | .prodObject u => XmlText u
    | .prodItem u p => XmlText u ∧ XmlText p
    | .prodComponent u p => XmlText u ∧ XmlText p
    | .sliceObject _ _ => True

/-- The names in an unknown element are texts. -/
def NamedTokens (ts : List Token) : Prop :=
  ∀ t ∈ ts, match t with
    | .start n as => XmlText n.loc ∧ ∀ a ∈ as, XmlText a.name.loc ∧ XmlText a.name.space
    | .stop n => XmlText n.loc
    | .chars _ => True

/-- The names in the unknown elements are texts. -/
def NamedAny (any : List AnyElem) : Prop := ∀ ts, AnyElem.tokens ts ∈ any → NamedTokens ts

/-- The names in a mesh are texts, and so are the values of the additional attributes of its triangles. -/
def NamedMesh (m : Mesh) : Prop :=
  NamedAttrs m.verticesAttr ∧ NamedAttrs m.trianglesAttr ∧ NamedAttrs m.anyAttr ∧ NamedAny m.any ∧
  ∀ t ∈ m.triangles, TextAttrs t.anyAttr

/-- The names in an object are texts. -/
def NamedObject (o : Object) : Prop :=
  NamedAttrs o.anyAttr ∧ NamedAttrs o.metadata.anyAttr ∧ (∀ m, o.mesh = some m → NamedMesh m) ∧
  ∀ cs, o.components = some cs → NamedAttrs cs.anyAttr ∧ ∀ c ∈ cs.component, NamedAttrs c.anyAttr

/-- The names in an asset are texts. -/
def NamedAsset : Asset → Prop
  | .base r => NamedAttrs r.anyAttr ∧ ∀ b ∈ r.materials, NamedAttrs b.anyAttr
  | .unknown _ ts => NamedTokens ts
  | .res _ => True

/-- The names in the resources are texts. -/
def NamedResources (r : Resources) : Prop :=
  NamedAttrs r.anyAttr ∧ (∀ a ∈ r.assets, NamedAsset a) ∧ ∀ o ∈ r.objects, NamedObject o

/-- The names that the root element takes from a model are texts. -/
def NamedRoot (m : Model) : Prop := NamedAttrs m.anyAttr ∧ ∀ x ∈ m.extensions, XmlText x.localName

/-- The names in a model are texts. -/
def NamedModel (m : Model) : Prop :=
  NamedRoot m ∧ NamedResources m.resources ∧ NamedAny m.any ∧ NamedAttrs m.build.anyAttr ∧
  ∀ i ∈ m.build.items, NamedAttrs i.anyAttr ∧ NamedAttrs i.metadata.anyAttr

/-- The names in a child model are texts. -/
def NamedChild (c : ChildModel) : Prop := NamedResources c.resources ∧ NamedAny c.any

end Go3mf.Spec
