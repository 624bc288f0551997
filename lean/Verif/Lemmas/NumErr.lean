import Verif.Lemmas.NumOrder
import Verif.Spec.Number
import Mathlib.Tactic.FieldSimp
import Mathlib.Tactic.Linarith
import Mathlib.Tactic.Positivity
import Mathlib.Tactic.NormNum

/-!
# Exactness and rounding errors of float32 operations
-/

namespace Go3mf
namespace F32

theorem scale_val : scale = 2 ^ 149 := by unfold scale; rfl

theorem roundMag_err (a b : Nat) (hb : 0 < b) :
    2 * |(a : Int) - b * roundMag a b| ≤ b * ulp (a / b) := by
  have h := rhe_spec a (b * ulp (a / b)) (Nat.mul_pos hb (ulp_pos _))
  unfold roundMag
  dsimp only
  generalize rhe a (b * ulp (a / b)) = q at *
  generalize ulp (a / b) = u at *
  have e : (b : Int) * ((q * u : Nat) : Int) = ((b * u * q : Nat) : Int) := by push_cast; ring
  have e' : (b : Int) * u = ((b * u : Nat) : Int) := by push_cast; ring
  rw [e, e']
  obtain ⟨h1, h2, -, -⟩ := h
  have h1' : 2 * a ≤ 2 * (b * u * q) + b * u := by nlinarith
  have h2' : 2 * (b * u * q) ≤ 2 * a + b * u := by nlinarith
  rcases abs_cases ((a : Int) - (b * u * q : Nat)) with ⟨h, -⟩ | ⟨h, -⟩ <;> rw [h] <;> omega

/-- The relative error of rounding, unless the result is subnormal. -/
theorem roundMag_rel (a b : Nat) (hb : 0 < b) :
    2 ^ 24 * |(a : Int) - b * roundMag a b| ≤ a ∨ 2 * |(a : Int) - b * roundMag a b| ≤ b := by
  have h := roundMag_err a b hb
  by_cases hu : ulp (a / b) = 1
  · right; rw [hu] at h; simpa using h
  · left
    have h1 := ulp_le hu
    have h2 : b * (2 ^ 23 * ulp (a / b)) ≤ a := le_trans (Nat.mul_le_mul_left _ h1) (Nat.mul_div_le a b)
    have h3 : ((b : Int) * (2 ^ 23 * (ulp (a / b) : Int))) ≤ a := by exact_mod_cast h2
    nlinarith

theorem sround_rel (k : Int) (b : Nat) (hb : 0 < b) :
    2 ^ 24 * |k - b * sround k b| ≤ |k| ∨ 2 * |k - b * sround k b| ≤ b := by
  have h := roundMag_rel k.natAbs b hb
  unfold sround
  by_cases hk : k < 0
  · rw [if_pos hk]
    have e : k - b * -(roundMag k.natAbs b : Int) = -((k.natAbs : Int) - b * roundMag k.natAbs b) := by
      have : k = -(k.natAbs : Int) := by omega
      conv_lhs => rw [this]
      rw [Int.natAbs_neg, Int.natAbs_natCast]; ring
    rw [e, abs_neg, show |k| = (k.natAbs : Int) from Int.abs_eq_natAbs k]
    exact h
  · rw [if_neg hk]
    have e : (k.natAbs : Int) = k := by omega
    rw [show |k| = (k.natAbs : Int) from Int.abs_eq_natAbs k]
    rw [e] at h ⊢
    exact h

theorem scale_posQ : (0 : ℚ) < scale := by exact_mod_cast scale_pos

/-- The error of a finite sum. -/
theorem add_err {x y : F32} (h : (x.add y).isFinite = true) :
    |Spec.floatVal (x.add y) - (Spec.floatVal x + Spec.floatVal y)| ≤ |Spec.floatVal x + Spec.floatVal y| / 2 ^ 24 := by
  obtain ⟨hx, hy⟩ := finite_of_add h
  have hk := (add_spec x y hx hy).2 h
  have hr := sround_rel (x.key + y.key) 1 Nat.one_pos
  rw [← hk] at hr
  have hr' : 2 ^ 24 * |(x.add y).key - (x.key + y.key)| ≤ |x.key + y.key| := by
    rw [abs_sub_comm]
    rcases hr with hr | hr
    · simpa using hr
    · have h0 : |x.key + y.key - (x.add y).key| = 0 := by
        have := abs_nonneg (x.key + y.key - (x.add y).key)
        push_cast at hr
        rw [one_mul] at hr
        omega
      rw [h0]; simp
  have hq : (2 ^ 24 : ℚ) * |((x.add y).key : ℚ) - (x.key + y.key)| ≤ |(x.key : ℚ) + y.key| := by exact_mod_cast hr'
  unfold Spec.floatVal
  have hs := scale_posQ
  rw [← add_div, ← sub_div, abs_div, abs_div, abs_of_pos hs, div_right_comm]
  rw [div_le_div_iff_of_pos_right hs, le_div_iff₀ (by positivity)]
  linarith

/-- The error of a finite product: the second term is that of a subnormal result. -/
theorem mul_err {x y : F32} (h : (x.mul y).isFinite = true) :
    |Spec.floatVal (x.mul y) - Spec.floatVal x * Spec.floatVal y| ≤
      |Spec.floatVal x * Spec.floatVal y| / 2 ^ 24 + 1 / 2 ^ 150 := by
  obtain ⟨hx, hy⟩ := finite_of_mul h
  have hk := (mul_spec x y hx hy).2 h
  have hr := sround_rel (x.key * y.key) scale scale_pos
  rw [← hk, abs_sub_comm] at hr
  have hs := scale_posQ
  have e : Spec.floatVal (x.mul y) - Spec.floatVal x * Spec.floatVal y =
      ((scale * (x.mul y).key - x.key * y.key : Int) : ℚ) / (scale * scale) := by
    unfold Spec.floatVal; push_cast; field_simp
  have e' : Spec.floatVal x * Spec.floatVal y = ((x.key * y.key : Int) : ℚ) / (scale * scale) := by
    unfold Spec.floatVal; push_cast; field_simp
  rw [e, e', abs_div, abs_div, abs_of_pos (mul_pos hs hs)]
  generalize hA : (scale * (x.mul y).key - x.key * y.key : Int) = A at *
  generalize hB : (x.key * y.key : Int) = B at *
  have hA0 : (0 : ℚ) ≤ |(A : ℚ)| := abs_nonneg _
  have hB0 : (0 : ℚ) ≤ |(B : ℚ)| := abs_nonneg _
  rcases hr with hr | hr
  · have hq : (2 ^ 24 : ℚ) * |(A : ℚ)| ≤ |(B : ℚ)| := by exact_mod_cast hr
    have : |(A : ℚ)| / (scale * scale) ≤ |(B : ℚ)| / (scale * scale) / 2 ^ 24 := by
      rw [div_right_comm, div_le_div_iff_of_pos_right (mul_pos hs hs), le_div_iff₀ (by positivity)]
      linarith
    have h0 : (0 : ℚ) ≤ 1 / 2 ^ 150 := by positivity
    linarith
  · have hq : (2 : ℚ) * |(A : ℚ)| ≤ scale := by exact_mod_cast hr
    have : |(A : ℚ)| / (scale * scale) ≤ 1 / 2 ^ 150 := by
      rw [div_le_div_iff₀ (mul_pos hs hs) (by positivity)]
      have h149 : (scale : ℚ) = 2 ^ 149 := by rw [scale_val]; norm_num
      have : |(A : ℚ)| * 2 ^ 150 = (2 * |(A : ℚ)|) * scale := by rw [h149]; ring
      rw [this, one_mul]
      exact mul_le_mul_of_nonneg_right hq hs.le
    have h0 : (0 : ℚ) ≤ |(B : ℚ)| / (scale * scale) / 2 ^ 24 := by positivity
    linarith

/-! ### Integers -/

theorem sround_int (n : Int) (b : Nat) (hb : 0 < b) (hn : |n| ≤ 2 ^ 24) : sround (n * scale * b) b = n * scale := by
  have hd : ulp (n.natAbs * scale) ∣ n.natAbs * scale := by
    rw [scale_val]; exact ulp_dvd_mul _ _ (by rw [Int.abs_eq_natAbs] at hn; exact_mod_cast hn)
  have hr := roundMag_exact (n.natAbs * scale) b hb hd
  have e : (n * scale * b).natAbs = n.natAbs * scale * b := by simp [Int.natAbs_mul]
  have hs : (0 : Int) < scale * b := by exact_mod_cast Nat.mul_pos scale_pos hb
  have e1 : n * scale * b = n * (scale * b) := by ring
  unfold sround
  rw [e, hr]
  by_cases h : n < 0
  · rw [if_pos (by rw [e1]; exact mul_neg_of_neg_of_pos h hs)]
    rw [Nat.cast_mul, show ((n.natAbs : Nat) : Int) = -n by omega]; ring
  · rw [if_neg (by rw [e1]; exact not_lt.2 (mul_nonneg (by omega) hs.le))]
    rw [Nat.cast_mul, show ((n.natAbs : Nat) : Int) = n by omega]

theorem int_le_max (n : Int) (hn : |n| ≤ 2 ^ 24) : |n * scale| ≤ maxMag := by
  rw [abs_mul, abs_of_nonneg (by positivity : (0 : Int) ≤ (scale : Int))]
  have h1 : |n| * (scale : Int) ≤ 2 ^ 24 * scale := mul_le_mul_of_nonneg_right hn (by positivity)
  refine h1.trans ?_
  rw [scale_val]
  decide +kernel

end F32

/-- The float32 is finite and its value is the integer. -/
def Spec.IsInt (x : F32) (n : ℤ) : Prop := x.isFinite = true ∧ Spec.floatVal x = n

theorem isInt_iff {x : F32} {n : ℤ} : Spec.IsInt x n ↔ x.isFinite = true ∧ x.key = n * scale := by
  unfold Spec.IsInt Spec.floatVal
  rw [div_eq_iff F32.scale_posQ.ne']
  constructor <;> rintro ⟨h, h'⟩ <;> exact ⟨h, by exact_mod_cast h'⟩

theorem isInt_add {x y : F32} {a b : ℤ} (hx : Spec.IsInt x a) (hy : Spec.IsInt y b) (h : |a + b| ≤ 2 ^ 24) :
    Spec.IsInt (x.add y) (a + b) := by
  rw [isInt_iff] at *
  obtain ⟨h1, h2⟩ := F32.add_spec x y hx.1 hy.1
  have e : F32.sround (x.key + y.key) 1 = (a + b) * scale := by
    have := F32.sround_int (a + b) 1 Nat.one_pos h
    rw [hx.2, hy.2, ← add_mul]
    simpa using this
  rw [e] at h1 h2
  have := h1.2 (F32.int_le_max _ h)
  exact ⟨this, h2 this⟩

theorem isInt_mul {x y : F32} {a b : ℤ} (hx : Spec.IsInt x a) (hy : Spec.IsInt y b) (h : |a * b| ≤ 2 ^ 24) :
    Spec.IsInt (x.mul y) (a * b) := by
  rw [isInt_iff] at *
  obtain ⟨h1, h2⟩ := F32.mul_spec x y hx.1 hy.1
  have e : F32.sround (x.key * y.key) scale = (a * b) * scale := by
    have := F32.sround_int (a * b) scale scale_pos h
    rw [hx.2, hy.2, show a * (scale : ℤ) * (b * scale) = a * b * scale * scale by ring]
    exact this
  rw [e] at h1 h2
  have := h1.2 (F32.int_le_max _ h)
  exact ⟨this, h2 this⟩

theorem isInt_eq {x y : F32} {a : ℤ} (hx : Spec.IsInt x a) (hy : Spec.IsInt y a) : x.eq y = true := by
  rw [isInt_iff] at *
  simp [F32.eq, F32.not_nan_of_finite hx.1, F32.not_nan_of_finite hy.1, hx.2, hy.2]

end Go3mf
