import Verif.Spec.Markup
import Verif.Spec.XmlText

/-!
# Well-formed documents

The definition of XML 1.0 (section 2.1), complete: beyond the grammar of `Spec.MarkupOf` the tags match, there is one root
element, no tag has two attributes of the same name, and all characters are allowed.
-/

namespace Go3mf.Spec

/-- The content of elements (production 43), with the constraint that the name in the end tag is that in the start tag. -/
inductive ContentOf : List MarkupItem → Prop where
  | nil : ContentOf []
  | chars {t : Str} {rest : List MarkupItem} : ContentOf rest → ContentOf (.chars t :: rest)
  | other {rest : List MarkupItem} : ContentOf rest → ContentOf (.other :: rest)
  | element {n : Name} {as : List Attr} {body rest : List MarkupItem} : ContentOf body → ContentOf rest →
      ContentOf (.start n as :: (body ++ .stop n :: rest))

/-- What may surround the root element (production 27). -/
def MiscItem : MarkupItem → Prop
  | .other => True
  | .chars t => White t
  | _ => False

/-- One root element (production 1). -/
def DocumentOf (is : List MarkupItem) : Prop :=
  ∃ before n as body after, is = before ++ .start n as :: (body ++ .stop n :: after) ∧ ContentOf body ∧
    (∀ i ∈ before, MiscItem i) ∧ ∀ i ∈ after, MiscItem i

/-- The bytes are a well-formed document that consists of the items. -/
structure WellFormed (s : Str) (is : List MarkupItem) : Prop where
  text : XmlText s
  markup : MarkupOf .xml s is
  document : DocumentOf is
  unique : ∀ n as, MarkupItem.start n as ∈ is → (as.map (·.name)).Nodup

/-- A prefix that is declared by the attributes of a tag, or needs no declaration. -/
def PrefixIn (as : List Attr) (p : Str) : Prop := p = [] ∨ p = b!"xml" ∨ ∃ a ∈ as, a.name = ⟨b!"xmlns", p⟩

/-- The constraint "Prefix Declared" of Namespaces in XML 1.0, with all declarations in the root element, the first one. -/
def PrefixesDeclared (is : List MarkupItem) : Prop :=
  ∃ before n as rest, is = before ++ .start n as :: rest ∧ (∀ i ∈ before, MiscItem i) ∧
    ∀ k bs, MarkupItem.start k bs ∈ is → PrefixIn as k.space ∧ ∀ b ∈ bs, b.name.space = b!"xmlns" ∨ PrefixIn as b.name.space

end Go3mf.Spec
