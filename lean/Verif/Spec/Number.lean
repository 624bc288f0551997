import Verif.Model.Num
import Mathlib.Algebra.Order.Field.Rat

/-!
# Specification of numbers and numerals

What a finite `float32` is as a rational number, and which rational a decimal numeral denotes.
Neither refers to the formatting or parsing functions of the model.
-/

namespace Go3mf.Spec

/-- The rational value of a finite float32: sign · magnitude · 2⁻¹⁴⁹. -/
def floatVal (x : F32) : ℚ := (x.key : ℚ) / scale

/-- Value of a digit string read most significant digit first. -/
def digits (s : Str) : Nat := s.foldl (fun acc b => 10 * acc + (b.toNat - 48)) 0

/-- `s` is the numeral `[-]ip[.fp]` of the rational `q` with exactly `prec` decimals. -/
def IsNumeral (prec : Nat) (s : Str) (q : ℚ) : Prop :=
  ∃ (neg : Bool) (ip fp : Str),
    ip ≠ [] ∧ (∀ b ∈ ip ++ fp, 48 ≤ b.toNat ∧ b.toNat ≤ 57) ∧ fp.length = prec ∧
    s = (if neg then [45] else []) ++ ip ++ (if prec = 0 then [] else 46 :: fp) ∧
    q = (if neg then -1 else 1) * (digits (ip ++ fp) / 10 ^ prec)

end Go3mf.Spec
