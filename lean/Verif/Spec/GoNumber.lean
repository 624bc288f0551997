import Verif.Spec.Decimal

/-!
# Specification of the numbers of Go

The floating-point literals of the Go language specification, with an optional sign: decimal and hexadecimal numbers, the
latter with an exponent, in which underscores may separate digits.
-/

namespace Go3mf.Spec

/-- A hexadecimal digit. -/
def HexDigit (b : Byte) : Prop := Digit b ∨ 65 ≤ b.toNat ∧ b.toNat ≤ 70 ∨ 97 ≤ b.toNat ∧ b.toNat ≤ 102

/-- The value of a hexadecimal digit. -/
def hexDigitVal (b : Byte) : Nat :=
  if b.toNat ≤ 57 then b.toNat - 48 else if b.toNat ≤ 70 then b.toNat - 55 else b.toNat - 87

/-- The value of a string of hexadecimal digits, the most significant first. -/
def hexDigits (s : Str) : Nat := s.foldl (fun acc b => 16 * acc + hexDigitVal b) 0

/-- The text without underscores. -/
def unscored (s : Str) : Str := s.filter (· ≠ 95)

/-- Every underscore is between two digits. -/
def Separated (digit : Byte → Prop) (s : Str) : Prop :=
  ∀ a b, s = a ++ 95 :: b → (∃ c, a.getLast? = some c ∧ digit c) ∧ ∃ d, b.head? = some d ∧ digit d

/-- A decimal number of Go. -/
def GoDecimal (s : Str) (neg : Bool) (ip fp : Str) (e : ℤ) : Prop :=
  Separated Digit s ∧ Decimal (unscored s) neg ip fp e

/-- The exponent of a hexadecimal number, a power of two. -/
def BinaryExponent (s : Str) (e : ℤ) : Prop :=
  ∃ c sg neg ds, (c = 112 ∨ c = 80) ∧ Sign sg neg ∧ ds ≠ [] ∧ (∀ b ∈ ds, Digit b) ∧ s = c :: (sg ++ ds) ∧
    e = if neg then -(digits ds : ℤ) else digits ds

/-- A hexadecimal number of Go, with the digits `ip` before and `fp` after the point and the exponent `e`.  The prefix counts
as a digit before an underscore. -/
def GoHex (s : Str) (neg : Bool) (ip fp : Str) (e : ℤ) : Prop :=
  ∃ sg x body dot ex, Sign sg neg ∧ (x = 120 ∨ x = 88) ∧ s = sg ++ 48 :: x :: body ∧ Separated HexDigit (48 :: body) ∧
    BinaryExponent ex e ∧ (∀ b ∈ ip ++ fp, HexDigit b) ∧ ip ++ fp ≠ [] ∧ (dot = [] ∧ fp = [] ∨ dot = [46]) ∧
    unscored body = ip ++ dot ++ fp ++ ex

/-- What a hexadecimal number denotes. -/
def hexRat (neg : Bool) (ip fp : Str) (e : ℤ) : ℚ :=
  (if neg then -1 else 1) * (hexDigits (ip ++ fp) * 2 ^ (e - 4 * fp.length))

end Go3mf.Spec
