import Verif.Model.Num
import Mathlib.Tactic.Linarith
import Mathlib.Tactic.Ring
import Mathlib.Tactic.Push
import Mathlib.Data.Nat.Log

/-! Helper lemmas about rounding and number text. -/

namespace Go3mf
namespace F32

/-! ### Integer rounding -/

theorem rhe_spec (a b : Nat) (hb : 0 < b) :
    2 * a ≤ b * (2 * rhe a b + 1) ∧ 2 * b * rhe a b ≤ 2 * a + b ∧
    (2 * a = b * (2 * rhe a b + 1) → rhe a b % 2 = 0) ∧
    (2 * b * rhe a b = 2 * a + b → rhe a b % 2 = 0) := by
  have h1 := Nat.div_add_mod a b
  have h2 := Nat.mod_lt a hb
  unfold rhe
  dsimp only
  generalize a / b = q at *
  generalize a % b = r at *
  subst h1
  split
  · refine ⟨by nlinarith, by nlinarith, fun h => ?_, fun h => ?_⟩ <;> exfalso <;> nlinarith
  · split
    · refine ⟨by nlinarith, by nlinarith, fun h => ?_, fun h => ?_⟩ <;> exfalso <;> nlinarith
    · have : 2 * r = b := by omega
      split
      · exact ⟨by nlinarith, by nlinarith, fun _ => by assumption, fun h => by exfalso; nlinarith⟩
      · refine ⟨by nlinarith, by nlinarith, fun h => by exfalso; nlinarith, fun h => by omega⟩

/-- The two bounds (with the parity side condition at ties) determine the rounded value. -/
theorem rhe_unique (a b q : Nat) (hb : 0 < b)
    (h1 : 2 * a ≤ b * (2 * q + 1)) (h2 : 2 * b * q ≤ 2 * a + b)
    (t1 : 2 * a = b * (2 * q + 1) → q % 2 = 0)
    (t2 : 2 * b * q = 2 * a + b → q % 2 = 0) : rhe a b = q := by
  obtain ⟨s1, s2, u1, u2⟩ := rhe_spec a b hb
  generalize rhe a b = p at *
  rcases Nat.lt_trichotomy p q with h | h | h
  · exfalso
    -- p + 1 ≤ q : b(2p+1) ≥ 2a ≥ 2bq - b ≥ 2b(p+1) - b
    have hq : q = p + 1 := by
      by_contra hne
      have : p + 2 ≤ q := by omega
      nlinarith
    subst hq
    have e1 : 2 * a = b * (2 * p + 1) := by nlinarith
    have := u1 e1
    have e2 : 2 * b * (p + 1) = 2 * a + b := by nlinarith
    have := t2 e2
    omega
  · exact h
  · exfalso
    have hq : p = q + 1 := by
      by_contra hne
      have : q + 2 ≤ p := by omega
      nlinarith
    subst hq
    have e1 : 2 * a = b * (2 * q + 1) := by nlinarith
    have := t1 e1
    have e2 : 2 * b * (q + 1) = 2 * a + b := by nlinarith
    have := u2 e2
    omega

theorem rhe_exact (b k : Nat) (hb : 0 < b) : rhe (b * k) b = k :=
  rhe_unique _ _ _ hb (by nlinarith) (by nlinarith) (fun h => by exfalso; nlinarith)
    (fun h => by exfalso; nlinarith)

theorem rhe_exact' (b k : Nat) (hb : 0 < b) : rhe (k * b) b = k := by
  rw [Nat.mul_comm]; exact rhe_exact b k hb

theorem rhe_mono {a a' b : Nat} (hb : 0 < b) (h : a ≤ a') : rhe a b ≤ rhe a' b := by
  obtain ⟨s1, s2, u1, u2⟩ := rhe_spec a b hb
  obtain ⟨s1', s2', u1', u2'⟩ := rhe_spec a' b hb
  generalize rhe a b = p at *
  generalize rhe a' b = q at *
  by_contra hlt
  have hlt : q < p := by omega
  -- 2bp ≤ 2a + b ≤ 2a' + b ≤ b(2q+1) + b = 2b(q+1)
  have hp : p = q + 1 := by
    by_contra hne
    have : q + 2 ≤ p := by omega
    nlinarith
  subst hp
  have e1 : 2 * a' = b * (2 * q + 1) := by nlinarith
  have := u1' e1
  have e2 : 2 * b * (q + 1) = 2 * a + b := by nlinarith
  have := u2 e2
  omega

/-- Distance from `a / b` to an integer is at least the distance to `rhe a b` (scaled by `b`). -/
theorem rhe_nearest (a b k : Nat) (hb : 0 < b) :
    |(a : Int) - b * rhe a b| ≤ |(a : Int) - b * k| := by
  obtain ⟨s1, s2, -, -⟩ := rhe_spec a b hb
  generalize rhe a b = q at *
  have hs1 : (2 * a : Int) ≤ b * (2 * q + 1) := by exact_mod_cast s1
  have hs2 : (2 * b * q : Int) ≤ 2 * a + b := by exact_mod_cast s2
  have hb' : (0 : Int) < b := by exact_mod_cast hb
  rcases Nat.lt_trichotomy q k with h | h | h
  · have hk : (q : Int) + 1 ≤ k := by exact_mod_cast h
    have h3 : (b : Int) * (q + 1) ≤ b * k := by nlinarith
    rw [abs_le]
    constructor
    · have := abs_nonneg ((a : Int) - b * k)
      have h4 := neg_abs_le ((a : Int) - b * k)
      nlinarith
    · have h4 := neg_abs_le ((a : Int) - b * k)
      nlinarith
  · subst h; exact le_refl _
  · have hk : (k : Int) + 1 ≤ q := by exact_mod_cast h
    have h3 : (b : Int) * (k + 1) ≤ b * q := by nlinarith
    rw [abs_le]
    constructor
    · have h4 := le_abs_self ((a : Int) - b * k)
      nlinarith
    · have h4 := le_abs_self ((a : Int) - b * k)
      nlinarith

/-! ### The float32 grid -/

theorem ulp_pos (n : Nat) : 0 < ulp n := Nat.pow_pos (by decide)

theorem lt_ulp (n : Nat) : n < 2 ^ 24 * ulp n := by
  unfold ulp
  rw [← Nat.pow_add]
  have h := @Nat.lt_log2_self n
  exact lt_of_lt_of_le h (Nat.pow_le_pow_right (by decide) (by omega))

theorem ulp_le {n : Nat} (h : ulp n ≠ 1) : 2 ^ 23 * ulp n ≤ n := by
  unfold ulp at *
  have h0 : Nat.log2 n - 23 ≠ 0 := fun h0 => h (by simp [h0])
  rw [← Nat.pow_add]
  have hn : n ≠ 0 := by rintro rfl; simp at h0
  have := Nat.log2_self_le hn
  refine le_trans (Nat.pow_le_pow_right (by decide) ?_) this
  omega

theorem ulp_mono {n m : Nat} (h : n ≤ m) : ulp n ≤ ulp m := by
  unfold ulp
  refine Nat.pow_le_pow_right (by decide) ?_
  have : Nat.log2 n ≤ Nat.log2 m := by
    rcases Nat.eq_zero_or_pos n with rfl | hn
    · simp
    · rw [Nat.log2_eq_log_two, Nat.log2_eq_log_two]; exact Nat.log_mono_right h
  omega

theorem ulp_dvd_of_le {n m : Nat} (h : n ≤ m) : ulp n ∣ ulp m := by
  have h1 := ulp_mono h
  unfold ulp at *
  exact (Nat.pow_dvd_pow_iff_le_right (by decide)).2 ((Nat.pow_le_pow_iff_right (by decide)).1 h1)

/-- At most 24 bits times a power of two is on the grid. -/
theorem ulp_dvd_mul (m e : Nat) (hm : m ≤ 2 ^ 24) : ulp (m * 2 ^ e) ∣ m * 2 ^ e := by
  rcases Nat.lt_or_eq_of_le hm with hm | rfl
  · unfold ulp
    rcases Nat.eq_zero_or_pos m with rfl | hp
    · simp
    · have h1 : Nat.log2 (m * 2 ^ e) < 24 + e := by
        rw [Nat.log2_lt (by positivity), Nat.pow_add]
        exact Nat.mul_lt_mul_of_pos_right hm (by positivity)
      exact Dvd.dvd.mul_left (pow_dvd_pow 2 (by omega)) m
  · rw [← Nat.pow_add]
    unfold ulp
    exact pow_dvd_pow 2 (by rw [Nat.log2_two_pow]; omega)

/-- Grid points are exactly the naturals with at most 24 significant bits. -/
theorem ulp_dvd_iff (n : Nat) : ulp n ∣ n ↔ ∃ m e, m < 2 ^ 24 ∧ n = m * 2 ^ e := by
  constructor
  · rintro ⟨k, hk⟩
    refine ⟨k, Nat.log2 n - 23, ?_, ?_⟩
    · have h := lt_ulp n
      by_contra hc
      have : 2 ^ 24 * ulp n ≤ k * ulp n := Nat.mul_le_mul_right _ (by omega)
      have h2 : k * ulp n = n := by rw [Nat.mul_comm]; exact hk.symm
      omega
    · rw [Nat.mul_comm]; exact hk
  · rintro ⟨m, e, hm, rfl⟩
    exact ulp_dvd_mul m e (by omega)

theorem rhe_le_of_lt {a b k : Nat} (hb : 0 < b) (h : a ≤ b * k) : rhe a b ≤ k := by
  have := rhe_mono hb h
  rwa [rhe_exact _ _ hb] at this

theorem le_rhe_of_le {a b k : Nat} (hb : 0 < b) (h : b * k ≤ a) : k ≤ rhe a b := by
  have := rhe_mono hb h
  rwa [rhe_exact _ _ hb] at this

theorem roundMag_grid (a b : Nat) (hb : 0 < b) :
    ∃ m, m ≤ 2 ^ 24 ∧ roundMag a b = m * ulp (a / b) := by
  refine ⟨_, ?_, rfl⟩
  apply rhe_le_of_lt (Nat.mul_pos hb (ulp_pos _))
  have h1 := lt_ulp (a / b)
  have h2 : a < b * (a / b + 1) := Nat.lt_mul_div_succ a hb
  have h3 : b * (a / b + 1) ≤ b * (2 ^ 24 * ulp (a / b)) := Nat.mul_le_mul_left _ h1
  calc a ≤ b * (2 ^ 24 * ulp (a / b)) := by omega
    _ = _ := by ring

theorem ulp_dvd_roundMag (a b : Nat) (hb : 0 < b) : ulp (roundMag a b) ∣ roundMag a b := by
  obtain ⟨m, hm, h⟩ := roundMag_grid a b hb
  rw [h]
  exact ulp_dvd_mul m _ hm

theorem rep_roundMag (a b : Nat) (hb : 0 < b) (h : roundMag a b ≤ maxMag) : Rep (roundMag a b) :=
  ⟨h, ulp_dvd_roundMag a b hb⟩

theorem roundMag_exact (n b : Nat) (hb : 0 < b) (h : ulp n ∣ n) : roundMag (n * b) b = n := by
  unfold roundMag
  rw [Nat.mul_div_cancel _ hb]
  obtain ⟨k, hk⟩ := h
  have : n * b = b * ulp n * k := by
    conv => lhs; rw [hk]
    ring
  dsimp only
  rw [this, rhe_exact _ _ (Nat.mul_pos hb (ulp_pos _)), Nat.mul_comm]
  exact hk.symm

/-- `roundMag a b` is a grid point nearest to `a / b`. -/
theorem roundMag_nearest (a b s : Nat) (hb : 0 < b) (hs : ulp s ∣ s) :
    |(a : Int) - b * roundMag a b| ≤ |(a : Int) - b * s| := by
  by_cases hd : ulp (a / b) ∣ s
  · obtain ⟨k, rfl⟩ := hd
    have := rhe_nearest a (b * ulp (a / b)) k (Nat.mul_pos hb (ulp_pos _))
    unfold roundMag
    dsimp only
    push_cast at *
    convert this using 3 <;> ring
  · -- s lies below the binade of a / b
    have hne : ulp (a / b) ≠ 1 := fun h => hd (by rw [h]; exact one_dvd _)
    have h1 := ulp_le hne
    have hlt : s < 2 ^ 23 * ulp (a / b) := by
      by_contra hge
      apply hd
      refine dvd_trans ?_ hs
      have : ulp (2 ^ 23 * ulp (a / b)) = ulp (a / b) := by
        unfold ulp
        rw [← Nat.pow_add, Nat.log2_two_pow]
        congr 1
        omega
      rw [← this]
      exact ulp_dvd_of_le (by omega)
    have h2 := rhe_nearest a (b * ulp (a / b)) (2 ^ 23) (Nat.mul_pos hb (ulp_pos _))
    have h3 : b * (a / b) ≤ a := Nat.mul_div_le a b
    have h4 : b * (2 ^ 23 * ulp (a / b)) ≤ b * (a / b) := Nat.mul_le_mul_left _ h1
    have h5 : b * s ≤ b * (2 ^ 23 * ulp (a / b)) := Nat.mul_le_mul_left _ (by omega)
    have h2' : |(a : Int) - b * roundMag a b| ≤ |(a : Int) - b * (2 ^ 23 * ulp (a / b))| := by
      unfold roundMag
      dsimp only
      push_cast at *
      convert h2 using 3 <;> ring
    refine le_trans h2' ?_
    have h4' : (b : Int) * (2 ^ 23 * ulp (a / b)) ≤ a := by exact_mod_cast le_trans h4 h3
    have h5' : (b : Int) * s ≤ b * (2 ^ 23 * ulp (a / b)) := by exact_mod_cast h5
    rw [abs_of_nonneg (by linarith), abs_of_nonneg (by linarith)]
    linarith

theorem roundMag_mono {a a' b : Nat} (hb : 0 < b) (h : a ≤ a') : roundMag a b ≤ roundMag a' b := by
  have hn : a / b ≤ a' / b := Nat.div_le_div_right h
  rcases Nat.lt_or_eq_of_le (ulp_mono hn) with hlt | heq
  · obtain ⟨m, hm, hr⟩ := roundMag_grid a b hb
    rw [hr]
    have hne : ulp (a' / b) ≠ 1 := by have := ulp_pos (a / b); omega
    have h1 := ulp_le hne
    have h2 : 2 * ulp (a / b) ≤ ulp (a' / b) := by
      unfold ulp at *
      have := (Nat.pow_lt_pow_iff_right (a := 2) (by decide)).1 hlt
      rw [← Nat.pow_succ']
      exact Nat.pow_le_pow_right (by decide) (by omega)
    have h3 : 2 ^ 23 ≤ rhe a' (b * ulp (a' / b)) := by
      apply le_rhe_of_le (Nat.mul_pos hb (ulp_pos _))
      have := Nat.mul_div_le a' b
      calc b * ulp (a' / b) * 2 ^ 23 = b * (2 ^ 23 * ulp (a' / b)) := by ring
        _ ≤ b * (a' / b) := Nat.mul_le_mul_left _ h1
        _ ≤ a' := this
    calc m * ulp (a / b) ≤ 2 ^ 24 * ulp (a / b) := Nat.mul_le_mul_right _ hm
      _ = 2 ^ 23 * (2 * ulp (a / b)) := by ring
      _ ≤ 2 ^ 23 * ulp (a' / b) := Nat.mul_le_mul_left _ h2
      _ ≤ rhe a' (b * ulp (a' / b)) * ulp (a' / b) := Nat.mul_le_mul_right _ h3
      _ = roundMag a' b := rfl
  · unfold roundMag
    dsimp only
    rw [heq]
    exact Nat.mul_le_mul_right _ (rhe_mono (Nat.mul_pos hb (ulp_pos _)) h)

theorem roundMag_le {a b s : Nat} (hb : 0 < b) (hs : ulp s ∣ s) (h : a ≤ s * b) : roundMag a b ≤ s := by
  have := roundMag_mono hb h
  rwa [roundMag_exact s b hb hs] at this

end F32
end Go3mf
