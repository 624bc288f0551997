import Verif.Spec.Utf8
import Verif.Model.Types

/-!
# The markup of XML 1.0

A grammar for the documents that XML 1.0 (fifth edition) calls well formed, with the reading that the recommendation
gives to them.  It is written from the recommendation (the productions are quoted), not from the code.  Names are byte
strings and may start with any name character, all characters are allowed in texts, uniqueness of attributes, the
matching of tags (see `C24_balanced`) and the single root are not asked for: this makes the grammar larger, and what is
proved about its documents stronger.

The grammar has a mode, because the reader differs from the recommendation.  `xml` is the recommendation, `reader` what
`internal/xml` implements, `common` what they share: it has the rules of both that do not ask for a mode.
-/

namespace Go3mf.Spec

/-- Whose rules. -/
inductive Mode where
  | common
  | xml
  | reader
  deriving DecidableEq

/-- White space (production 3). -/
def IsWhite (b : Byte) : Prop := b = 0x20 ∨ b = 0x9 ∨ b = 0xD ∨ b = 0xA

instance (b : Byte) : Decidable (IsWhite b) := inferInstanceAs (Decidable (_ ∨ _))

/-- A run of white space, possibly empty. -/
def White (s : Str) : Prop := ∀ b ∈ s, IsWhite b

instance (s : Str) : Decidable (White s) := inferInstanceAs (Decidable (∀ b ∈ s, _))

/-- The bytes of names without colon: letters, digits, `.`, `-`, `_`, and the bytes of the characters beyond ASCII
(production 4a is smaller). -/
def NcByte (b : Byte) : Prop :=
  b ∈ (b!"ABCDEFGHIJKLMNOPQRSTUVWXYZabcdefghijklmnopqrstuvwxyz0123456789._-" : Str) ∨ 0x80 ≤ b

instance (b : Byte) : Decidable (NcByte b) := inferInstanceAs (Decidable (_ ∨ _))

/-- A name without colon. -/
def NcToken (s : Str) : Prop := s ≠ [] ∧ ∀ b ∈ s, NcByte b

instance (s : Str) : Decidable (NcToken s) := inferInstanceAs (Decidable (_ ∧ _))

/-- The bytes of names, with colon. -/
def AnyByte (b : Byte) : Prop := NcByte b ∨ b = 0x3A

instance (b : Byte) : Decidable (AnyByte b) := inferInstanceAs (Decidable (_ ∨ _))

/-- Qualified names (Namespaces in XML 1.0, productions 7 to 9): the source and its prefix and local part.  The reader
splits at the first colon and allows empty parts and further colons. -/
inductive QNameOf (m : Mode) : Str → Name → Prop where
  | plain {l : Str} : NcToken l → QNameOf m l ⟨[], l⟩
  | prefixed {p l : Str} : NcToken p → NcToken l → QNameOf m (p ++ b!":" ++ l) ⟨p, l⟩
  | lenient {p l : Str} : m = .reader → (∀ b ∈ p, NcByte b) → (∀ b ∈ l, AnyByte b) → QNameOf m (p ++ b!":" ++ l) ⟨p, l⟩

/-- A digit in a base up to 16. -/
def DigitOf (base : Nat) (b : Byte) (d : Nat) : Prop :=
  d < base ∧ ((b!"0123456789abcdef" : Str)[d]? = some b ∨ (b!"0123456789ABCDEF" : Str)[d]? = some b)

/-- A numeral, without sign. -/
inductive NumeralOf (base : Nat) : Str → Nat → Prop where
  | one {b : Byte} {d : Nat} : DigitOf base b d → NumeralOf base [b] d
  | snoc {s : Str} {n : Nat} {b : Byte} {d : Nat} : NumeralOf base s n → DigitOf base b d →
      NumeralOf base (s ++ [b]) (n * base + d)

/-- References (productions 66 and 68): the character meant.  Only the five entities of section 4.6 are declared.  The
reader also allows references to characters that XML forbids, and reads surrogates as U+FFFD. -/
inductive ReferenceOf (m : Mode) : Str → Nat → Prop where
  | lt : ReferenceOf m b!"&lt;" 0x3C
  | gt : ReferenceOf m b!"&gt;" 0x3E
  | amp : ReferenceOf m b!"&amp;" 0x26
  | apos : ReferenceOf m b!"&apos;" 0x27
  | quot : ReferenceOf m b!"&quot;" 0x22
  | dec {s : Str} {c : Nat} : NumeralOf 10 s c → XmlChar c → ReferenceOf m (b!"&#" ++ s ++ b!";") c
  | hex {s : Str} {c : Nat} : NumeralOf 16 s c → XmlChar c → ReferenceOf m (b!"&#x" ++ s ++ b!";") c
  | lenientDec {s : Str} {c : Nat} : m = .reader → NumeralOf 10 s c → c ≤ 0x10FFFF →
      ReferenceOf m (b!"&#" ++ s ++ b!";") (if Scalar c then c else 0xFFFD)
  | lenientHex {s : Str} {c : Nat} : m = .reader → NumeralOf 16 s c → c ≤ 0x10FFFF →
      ReferenceOf m (b!"&#x" ++ s ++ b!";") (if Scalar c then c else 0xFFFD)

/-- Tabs and line ends are kept (as line feeds): between tags, and by the reader also in attribute values. -/
def Keeps (m : Mode) (q : Option Byte) : Prop := q = none ∨ m = .reader

/-- Tabs and line ends are read as blanks: in attribute values (3.3.3). -/
def Blanks (m : Mode) (q : Option Byte) : Prop := q ≠ none ∧ m = .xml

/-- Character data and references, between tags (`q = none`, productions 14 and 43) or in an attribute value between
quotes (`q = some c`, production 10), and what they mean after the normalisations of 2.11 and 3.3.3. -/
inductive TextOf (m : Mode) (q : Option Byte) : Str → Str → Prop where
  | nil : TextOf m q [] []
  | plain {b : Byte} {s t : Str} : b ≠ 0x3C → b ≠ 0x26 → q ≠ some b → b ≠ 0x9 → b ≠ 0xD → b ≠ 0xA → TextOf m q s t →
      TextOf m q (b :: s) (b :: t)
  | tab {s t : Str} : Keeps m q → TextOf m q s t → TextOf m q (0x9 :: s) (0x9 :: t)
  | lf {s t : Str} : Keeps m q → TextOf m q s t → TextOf m q (0xA :: s) (0xA :: t)
  | crlf {s t : Str} : Keeps m q → TextOf m q s t → TextOf m q (0xD :: 0xA :: s) (0xA :: t)
  | cr {s t : Str} : Keeps m q → s.head? ≠ some 0xA → TextOf m q s t → TextOf m q (0xD :: s) (0xA :: t)
  | blankTab {s t : Str} : Blanks m q → TextOf m q s t → TextOf m q (0x9 :: s) (0x20 :: t)
  | blankLf {s t : Str} : Blanks m q → TextOf m q s t → TextOf m q (0xA :: s) (0x20 :: t)
  | blankCrlf {s t : Str} : Blanks m q → TextOf m q s t → TextOf m q (0xD :: 0xA :: s) (0x20 :: t)
  | blankCr {s t : Str} : Blanks m q → s.head? ≠ some 0xA → TextOf m q s t → TextOf m q (0xD :: s) (0x20 :: t)
  | ref {r s t : Str} {c : Nat} : ReferenceOf m r c → TextOf m q s t → TextOf m q (r ++ s) (utf8 c ++ t)

/-- The attributes of a tag (production 41), each after white space; the reader does not ask for white space after
another attribute (`next`). -/
inductive AttrsOf (m : Mode) : Bool → Str → List Attr → Prop where
  | nil {next : Bool} : AttrsOf m next [] []
  | cons {next : Bool} {w n e e' v t rest : Str} {q : Byte} {name : Name} {as : List Attr} : White w →
      w ≠ [] ∨ (m = .reader ∧ next = true) → QNameOf m n name → White e → White e' → q = 0x22 ∨ q = 0x27 →
      TextOf m (some q) v t → AttrsOf m true rest as →
      AttrsOf m next (w ++ n ++ e ++ b!"=" ++ e' ++ [q] ++ v ++ [q] ++ rest) (⟨name, t⟩ :: as)

/-- What a document is made of. -/
inductive MarkupItem where
  | start (name : Name) (attrs : List Attr)
  | stop (name : Name)
  | chars (text : Str)
  /-- A processing instruction or comment: nothing that an application has to know. -/
  | other
  deriving DecidableEq

/-- Sequences of tags, texts, processing instructions, comments and sections (productions 1, 11, 15, 16, 18, 22, 28, 40,
42, 43 and 44).  The reader knows neither comments, sections nor the document type declaration, and allows anything
after the target of a processing instruction. -/
inductive MarkupOf (m : Mode) : Str → List MarkupItem → Prop where
  | nil : MarkupOf m [] []
  | chars {s t rest : Str} {is : List MarkupItem} : s ≠ [] → TextOf m none s t → rest = [] ∨ rest.head? = some 0x3C →
      MarkupOf m rest is → MarkupOf m (s ++ rest) (.chars t :: is)
  | start {n a w rest : Str} {name : Name} {as : List Attr} {is : List MarkupItem} : QNameOf m n name →
      AttrsOf m false a as → White w → MarkupOf m rest is →
      MarkupOf m (b!"<" ++ n ++ a ++ w ++ b!">" ++ rest) (.start name as :: is)
  | empty {n a w rest : Str} {name : Name} {as : List Attr} {is : List MarkupItem} : QNameOf m n name →
      AttrsOf m false a as → White w → MarkupOf m rest is →
      MarkupOf m (b!"<" ++ n ++ a ++ w ++ b!"/>" ++ rest) (.start name as :: .stop name :: is)
  | stop {n w rest : Str} {name : Name} {is : List MarkupItem} : QNameOf m n name → White w → MarkupOf m rest is →
      MarkupOf m (b!"</" ++ n ++ w ++ b!">" ++ rest) (.stop name :: is)
  | instruction {n w body rest : Str} {is : List MarkupItem} : NcToken n → White w → body = [] ∨ w ≠ [] →
      ¬ b!"?>" <:+: body → MarkupOf m rest is →
      MarkupOf m (b!"<?" ++ n ++ w ++ body ++ b!"?>" ++ rest) (.other :: is)
  | lenientInstruction {n body rest : Str} {is : List MarkupItem} : m = .reader → n ≠ [] → (∀ b ∈ n, AnyByte b) →
      (∀ b ∈ body.head?, ¬ AnyByte b) → ¬ b!"?>" <:+: body → MarkupOf m rest is →
      MarkupOf m (b!"<?" ++ n ++ body ++ b!"?>" ++ rest) (.other :: is)
  | comment {body rest : Str} {is : List MarkupItem} : m = .xml → ¬ b!"--" <:+: body ++ b!"-" → MarkupOf m rest is →
      MarkupOf m (b!"<!--" ++ body ++ b!"-->" ++ rest) (.other :: is)
  | cdata {body rest : Str} {is : List MarkupItem} : m = .xml → ¬ b!"]]>" <:+: body → 0xD ∉ body →
      MarkupOf m rest is → MarkupOf m (b!"<![CDATA[" ++ body ++ b!"]]>" ++ rest) (.chars body :: is)
  | doctype {n w rest : Str} {is : List MarkupItem} : m = .xml → NcToken n → White w → MarkupOf m rest is →
      MarkupOf m (b!"<!DOCTYPE " ++ n ++ w ++ b!">" ++ rest) (.other :: is)

end Go3mf.Spec
