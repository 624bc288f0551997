import Verif.Spec.Alike
import Verif.Lemmas.NumRat

/-!
# Numbers that survive

A sufficient condition for `Spec.Stable` that can be computed.
-/

namespace Go3mf
open F32

/-- Different float32 magnitudes are at least half a unit in the last place of either apart. -/
theorem rep_gap {a b : Nat} (ha : Rep a) (hb : Rep b) (hne : a ≠ b) : ulp a ≤ 2 * ((a - b) + (b - a)) := by
  have hdvd : ∀ x y : Nat, x ≤ y → ulp x ∣ ulp y := fun x y h => by
    unfold ulp
    exact pow_dvd_pow 2 (Nat.sub_le_sub_right (by rw [Nat.log2_eq_log_two, Nat.log2_eq_log_two]; exact Nat.log_mono_right h) _)
  rcases Nat.lt_or_gt_of_ne hne with h | h
  · have h1 : ulp a ∣ b - a := Nat.dvd_sub ((hdvd a b h.le).trans hb.2) ha.2
    have := Nat.le_of_dvd (by omega) h1
    omega
  · by_cases hl : Nat.log2 a ≤ 23
    · have : ulp a = 1 := by unfold ulp; rw [Nat.sub_eq_zero_of_le hl, pow_zero]
      omega
    · have ha0 : a ≠ 0 := by omega
      have hpa : 2 ^ Nat.log2 a ≤ a := Nat.log2_self_le ha0
      have hu : ulp a = 2 * 2 ^ (Nat.log2 a - 24) := by
        unfold ulp
        rw [← pow_succ']
        congr 1
        omega
      by_cases hb1 : b < 2 ^ (Nat.log2 a - 1)
      · have h1 : 2 ^ Nat.log2 a = 2 * 2 ^ (Nat.log2 a - 1) := by
          rw [← pow_succ']
          congr 1
          omega
        have h2 : 2 ^ (Nat.log2 a - 24) ≤ 2 ^ (Nat.log2 a - 1) := Nat.pow_le_pow_right (by decide) (by omega)
        omega
      · have hb0 : b ≠ 0 := fun e => hb1 (by rw [e]; positivity)
        have hlb : Nat.log2 a - 1 ≤ Nat.log2 b := (Nat.le_log2 hb0).2 (by omega)
        have h1 : 2 ^ (Nat.log2 a - 24) ∣ ulp b := by
          unfold ulp
          exact pow_dvd_pow 2 (by omega)
        have h2 : 2 ^ (Nat.log2 a - 24) ∣ ulp a := by
          rw [hu]
          exact Dvd.intro_left _ rfl
        have h3 := Nat.le_of_dvd (by omega) (Nat.dvd_sub (h2.trans ha.2) (h1.trans hb.2))
        omega

/-- Numbers that are close enough to a decimal survive. -/
theorem stable_fin {prec : Nat} {neg : Bool} {mag : Nat} (h : Rep mag) (k : Nat)
    (h1 : 2 * ((mag * 10 ^ prec - k * scale) + (k * scale - mag * 10 ^ prec)) < scale)
    (h2 : 4 * ((mag * 10 ^ prec - k * scale) + (k * scale - mag * 10 ^ prec)) < ulp mag * 10 ^ prec) :
    Spec.StableAt prec (.fin neg mag h) := by
  have hS : (0 : ℚ) < scale := by
    have : 0 < scale := by unfold scale; positivity
    exact_mod_cast this
  have hP : (0 : ℚ) < 10 ^ prec := by positivity
  have hd : ∀ (m' : Nat) (hm' : Rep m'), |((if neg then -(k : ℤ) else k : ℤ) : ℚ) / 10 ^ prec - Spec.floatVal (.fin neg m' hm')| =
      (((m' * 10 ^ prec - k * scale) + (k * scale - m' * 10 ^ prec) : ℕ) : ℚ) / (scale * 10 ^ prec) := by
    intro m' hm'
    rw [floatVal_fin, show (((if neg then -(k : ℤ) else k : ℤ) : ℚ) / 10 ^ prec) = (if neg then -1 else 1) * ((k : ℚ) / 10 ^ prec) by
      cases neg <;> simp [neg_div], abs_sign, dist_rat _ _ _ _ hS hP]
    congr 1
    rcases Nat.le_total (m' * 10 ^ prec) (k * scale) with hle | hle
    · rw [Nat.sub_eq_zero_of_le hle, zero_add, Nat.cast_sub hle, abs_sub_comm, abs_of_nonneg]
      · push_cast; ring
      · have : ((m' * 10 ^ prec : ℕ) : ℚ) ≤ (k * scale : ℕ) := by exact_mod_cast hle
        push_cast at this
        linarith
    · rw [Nat.sub_eq_zero_of_le hle, add_zero, Nat.cast_sub hle, abs_of_nonneg]
      · push_cast; ring
      · have : ((k * scale : ℕ) : ℚ) ≤ (m' * 10 ^ prec : ℕ) := by exact_mod_cast hle
        push_cast at this
        linarith
  refine .inr ⟨if neg then -(k : ℤ) else k, ?_, ?_⟩
  · rw [hd, div_lt_div_iff₀ (by positivity) hP]
    have : ((2 * ((mag * 10 ^ prec - k * scale) + (k * scale - mag * 10 ^ prec)) : ℕ) : ℚ) < scale := by exact_mod_cast h1
    push_cast at this ⊢
    nlinarith
  · rintro (⟨n, m', hm'⟩ | n | -) hf hsig hle
    · simp only [signBit] at hsig
      subst hsig
      by_cases hne : mag = m'
      · subst hne; rfl
      · exfalso
        rw [hd, hd, div_le_div_iff_of_pos_right (by positivity)] at hle
        have hle' := Nat.cast_le.1 hle
        have hg := rep_gap h hm' hne
        have hg' := Nat.mul_le_mul_right (10 ^ prec) hg
        rw [show 2 * (mag - m' + (m' - mag)) * 10 ^ prec = 2 * ((mag * 10 ^ prec - m' * 10 ^ prec) + (m' * 10 ^ prec - mag * 10 ^ prec)) by
          rw [← Nat.sub_mul, ← Nat.sub_mul]; ring] at hg'
        omega
    · cases hf
    · cases hf

/-- The nearest decimal. -/
def nearDecimal (prec mag : Nat) : Nat := (2 * mag * 10 ^ prec + scale) / (2 * scale)

/-- Whether a number survives: sufficient, and computable. -/
def survives (prec : Nat) : F32 → Bool
  | .fin _ mag _ =>
    let d := (mag * 10 ^ prec - nearDecimal prec mag * scale) + (nearDecimal prec mag * scale - mag * 10 ^ prec)
    decide (2 * d < scale) && decide (4 * d < ulp mag * 10 ^ prec)
  | _ => true

theorem stable_of_survives {prec : Nat} {x : F32} (h : survives prec x = true) : Spec.Stable prec x := by
  refine .inr ?_
  rw [Int.toNat_natCast]
  cases x with
  | fin neg mag hr =>
    simp only [survives, Bool.and_eq_true, decide_eq_true_eq] at h
    exact stable_fin hr _ h.1 h.2
  | inf => exact .inl rfl
  | nan => exact .inl rfl

end Go3mf
