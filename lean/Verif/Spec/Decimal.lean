import Verif.Spec.Number
import Mathlib.Algebra.Order.Field.Rat
import Mathlib.Algebra.Field.Power

/-!
# Specification of decimal numbers

The type ST_Number of the 3MF schema, `((\-|\+)?(([0-9]+(\.[0-9]+)?)|(\.[0-9]+))((e|E)(\-|\+)?[0-9]+)?)`, the rational that
such a text denotes, and the float32 nearest to a rational.
-/

namespace Go3mf.Spec

/-- A decimal digit. -/
def Digit (b : Byte) : Prop := 48 ≤ b.toNat ∧ b.toNat ≤ 57

/-- An optional sign; `neg` tells whether it is a minus. -/
def Sign (s : Str) (neg : Bool) : Prop := s = [] ∧ neg = false ∨ s = [43] ∧ neg = false ∨ s = [45] ∧ neg = true

/-- An optional exponent. -/
def Exponent (s : Str) (e : ℤ) : Prop :=
  s = [] ∧ e = 0 ∨
  ∃ c sg neg ds, (c = 101 ∨ c = 69) ∧ Sign sg neg ∧ ds ≠ [] ∧ (∀ b ∈ ds, Digit b) ∧ s = c :: (sg ++ ds) ∧
    e = if neg then -(digits ds : ℤ) else digits ds

/-- A decimal number with the digits `ip` before and `fp` after the point and the exponent `e`.  There may be a point
without digits after it. -/
def Decimal (s : Str) (neg : Bool) (ip fp : Str) (e : ℤ) : Prop :=
  ∃ sg dot ex, Sign sg neg ∧ Exponent ex e ∧ (∀ b ∈ ip ++ fp, Digit b) ∧ ip ++ fp ≠ [] ∧
    (dot = [] ∧ fp = [] ∨ dot = [46]) ∧ s = sg ++ ip ++ dot ++ fp ++ ex

/-- ST_Number: the point is followed by a digit. -/
def SchemaNumber (s : Str) (neg : Bool) (ip fp : Str) (e : ℤ) : Prop :=
  ∃ sg dot ex, Sign sg neg ∧ Exponent ex e ∧ (∀ b ∈ ip ++ fp, Digit b) ∧ ip ++ fp ≠ [] ∧
    (dot = [] ∧ fp = [] ∨ dot = [46] ∧ fp ≠ []) ∧ s = sg ++ ip ++ dot ++ fp ++ ex

/-- Lower case letters for ASCII capitals. -/
def lowerCase (b : Byte) : Byte := if 65 ≤ b && b ≤ 90 then b + 32 else b

/-- The words for infinities and NaN, in any case. -/
def Special (s : Str) : Prop :=
  s.map lowerCase ∈ ([b!"nan", b!"inf", b!"infinity", b!"+inf", b!"+infinity", b!"-inf", b!"-infinity"] : List Str)

/-- What a decimal number denotes. -/
def decimalRat (neg : Bool) (ip fp : Str) (e : ℤ) : ℚ :=
  (if neg then -1 else 1) * (digits (ip ++ fp) * 10 ^ (e - fp.length))

/-- The float32 fits into 23 bits: its significand is even. -/
def EvenSignificand (x : F32) : Prop := ∃ (k : ℤ) (j : ℕ), |k| < 2 ^ 23 ∧ floatVal x = k * 2 ^ (j + 1) / 2 ^ 149

/-- `x` is the finite float32 nearest to `q`; of two of them the one with even significand. -/
def Nearest (q : ℚ) (x : F32) : Prop :=
  x.isFinite = true ∧ ∀ y : F32, y.isFinite = true →
    |q - floatVal x| ≤ |q - floatVal y| ∧ (|q - floatVal x| = |q - floatVal y| → floatVal y = floatVal x ∨ EvenSignificand x)

/-- Too big for a float32: at least the middle between the biggest finite float32 and the next power of two. -/
def Overflows (q : ℚ) : Prop := (2 ^ 25 - 1) * 2 ^ 103 ≤ |q|

end Go3mf.Spec
