import Verif.Spec.Number
import Verif.Lemmas.NumText
import Mathlib.Tactic.FieldSimp
import Mathlib.Algebra.Order.Ring.Abs
import Mathlib.Algebra.Order.Field.Basic

/-! Rational value of written numerals: lemmas for C20 and C17. -/

namespace Go3mf

open F32

theorem digits_eq (s : Str) : Spec.digits s = digitsVal s := by
  unfold Spec.digits digitsVal
  congr; funext a b; ring

theorem floatVal_fin (neg : Bool) (mag : Nat) (h : Rep mag) :
    Spec.floatVal (.fin neg mag h) = (if neg then -1 else 1) * ((mag : ℚ) / scale) := by
  unfold Spec.floatVal key
  cases neg <;> simp [neg_div]

theorem dist_rat (D mag S P : ℚ) (hS : 0 < S) (hP : 0 < P) :
    |D / P - mag / S| = |mag * P - D * S| / (S * P) := by
  rw [show D / P - mag / S = -((mag * P - D * S) / (S * P)) by field_simp; ring,
    abs_neg, abs_div, abs_of_pos (mul_pos hS hP)]

theorem abs_sign (neg : Bool) (a b : ℚ) :
    |(if neg then -1 else 1) * a - (if neg then -1 else 1) * b| = |a - b| := by
  rw [← mul_sub, abs_mul]
  cases neg <;> simp

theorem close_rat (D mag S : Nat) (prec : Nat) (hS : 0 < S)
    (hc : 2 * |((mag * 10 ^ prec : Nat) : Int) - D * S| ≤ S) :
    |(D : ℚ) / 10 ^ prec - mag / S| ≤ 1 / 2 / 10 ^ prec := by
  have hS : (0 : ℚ) < (S : ℚ) := by exact_mod_cast hS
  have hP : (0 : ℚ) < 10 ^ prec := by positivity
  have hc' : 2 * |(mag * 10 ^ prec : ℚ) - D * S| ≤ S := by exact_mod_cast hc
  rw [dist_rat _ _ _ _ hS hP, div_le_div_iff₀ (by positivity) hP]
  nlinarith

theorem decimal_close_rat (prec mag : Nat) :
    |(decimalOf prec mag : ℚ) / 10 ^ prec - mag / scale| ≤ 1 / 2 / 10 ^ prec :=
  close_rat _ _ _ _ scale_pos (decimalOf_close prec mag)


theorem close_rat' (y D mag S : Nat) (prec : Nat) (hS : 0 < S)
    (hc : |((y * 10 ^ prec : Nat) : Int) - D * S| ≤ |((mag * 10 ^ prec : Nat) : Int) - D * S|) :
    |(D : ℚ) / 10 ^ prec - y / S| ≤ |(D : ℚ) / 10 ^ prec - mag / S| := by
  have hS : (0 : ℚ) < (S : ℚ) := by exact_mod_cast hS
  have hP : (0 : ℚ) < 10 ^ prec := by positivity
  have hc' : |(y * 10 ^ prec : ℚ) - D * S| ≤ |(mag * 10 ^ prec : ℚ) - D * S| := by exact_mod_cast hc
  rw [dist_rat _ _ _ _ hS hP, dist_rat _ _ _ _ hS hP]
  exact div_le_div_of_nonneg_right hc' (by positivity)

/-- The numeral written for a finite float, at any precision. -/
theorem isNumeral_written (prec : Int) (neg : Bool) (mag : Nat) (h : Rep mag) :
    Spec.IsNumeral (written prec mag).1 (format prec (.fin neg mag h))
      ((if neg then -1 else 1) * ((written prec mag).2 / 10 ^ (written prec mag).1)) := by
  obtain ⟨ip, fp, hne, hip, hfp, hlen, hval, hshape⟩ := fixedDigits_shape (written prec mag).1 (written prec mag).2
  refine ⟨neg, ip, fp, hne, ?_, hlen, ?_, ?_⟩
  · intro b hb
    rcases List.mem_append.1 hb with hb | hb
    · exact (isDigit_iff b).1 (hip b hb)
    · exact (isDigit_iff b).1 (hfp b hb)
  · simp only [format, hshape]
    by_cases hp : (written prec mag).1 = 0 <;> simp [hp]
  · rw [digits_eq, hval]

/-- The numeral written for a finite float. -/
theorem isNumeral_format (prec : Nat) (neg : Bool) (mag : Nat) (h : Rep mag) :
    Spec.IsNumeral prec (format prec (.fin neg mag h))
      ((if neg then -1 else 1) * (decimalOf prec mag / 10 ^ prec)) := by
  have := isNumeral_written prec neg mag h
  rwa [written_nat] at this

end Go3mf
