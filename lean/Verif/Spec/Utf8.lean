import Verif.Model.Base

/-!
# UTF-8 (RFC 3629) and the characters of XML 1.0
-/

namespace Go3mf.Spec

/-- Unicode scalar values. -/
def Scalar (c : Nat) : Prop := c < 0xD800 ∨ (0xE000 ≤ c ∧ c < 0x110000)

/-- The characters of XML 1.0 (production 2). -/
def XmlChar (c : Nat) : Prop :=
  c = 9 ∨ c = 10 ∨ c = 13 ∨ (0x20 ≤ c ∧ c ≤ 0xD7FF) ∨ (0xE000 ≤ c ∧ c ≤ 0xFFFD) ∨ (0x10000 ≤ c ∧ c ≤ 0x10FFFF)

instance (c : Nat) : Decidable (Scalar c) := inferInstanceAs (Decidable (_ ∨ _))
instance (c : Nat) : Decidable (XmlChar c) := inferInstanceAs (Decidable (_ ∨ _))

/-- The UTF-8 encoding of a scalar value, as numbers. -/
def utf8Nat (c : Nat) : List Nat :=
  if c < 0x80 then [c]
  else if c < 0x800 then [192 + c / 64, 128 + c % 64]
  else if c < 0x10000 then [224 + c / 4096, 128 + c / 64 % 64, 128 + c % 64]
  else [240 + c / 262144, 128 + c / 4096 % 64, 128 + c / 64 % 64, 128 + c % 64]

/-- The UTF-8 encoding of a scalar value. -/
def utf8 (c : Nat) : Str := (utf8Nat c).map UInt8.ofNat

/-- The UTF-8 encoding of a text. -/
def utf8s (cs : List Nat) : Str := cs.flatMap utf8

/-- `Clean s t`: `t` is `s` with U+FFFD in place of every character that XML forbids and of every byte at which no
character starts. -/
inductive Clean : Str → Str → Prop where
  | nil : Clean [] []
  | char {c : Nat} {s t : Str} : Scalar c → XmlChar c → Clean s t → Clean (utf8 c ++ s) (utf8 c ++ t)
  | forbidden {c : Nat} {s t : Str} : Scalar c → ¬ XmlChar c → Clean s t → Clean (utf8 c ++ s) (utf8 0xFFFD ++ t)
  | invalid {b : Byte} {s t : Str} : (∀ c, Scalar c → ¬ utf8 c <+: b :: s) → Clean s t →
      Clean (b :: s) (utf8 0xFFFD ++ t)

end Go3mf.Spec
