import Verif.Lemmas.Num

/-!
# The shortest decimal that is read back as the same number

`between` is the exact condition for a decimal to be rounded to a number.
-/

namespace Go3mf
namespace F32

theorem ulp_eq {n e : Nat} (h1 : 2 ^ 23 * 2 ^ e ≤ n) (h2 : n < 2 ^ 24 * 2 ^ e) : ulp n = 2 ^ e := by
  have h0 : n ≠ 0 := by
    have : 0 < 2 ^ 23 * 2 ^ e := by positivity
    omega
  have : Nat.log2 n = 23 + e := by
    rw [Nat.log2_eq_iff h0]
    constructor
    · rwa [pow_add]
    · rwa [show 23 + e + 1 = 24 + e by omega, pow_add]
  unfold ulp
  rw [this, Nat.add_sub_cancel_left]

theorem ulp_one {n : Nat} (h : n < 2 ^ 24) : ulp n = 1 := by
  have : Nat.log2 n ≤ 23 := by
    by_cases h0 : n = 0
    · subst h0; decide
    · have := (Nat.log2_lt h0).2 h
      omega
  unfold ulp
  rw [Nat.sub_eq_zero_of_le this, pow_zero]

/-- Exact condition for rounding to an integer, ties to even. -/
theorem rhe_iff {a c k : Nat} (hc : 0 < c) : rhe a c = k ↔
    if k % 2 = 0 then 2 * c * k ≤ 2 * a + c ∧ 2 * a ≤ c * (2 * k + 1)
    else 2 * c * k < 2 * a + c ∧ 2 * a < c * (2 * k + 1) := by
  constructor
  · rintro rfl
    obtain ⟨s1, s2, u1, u2⟩ := rhe_spec a c hc
    split
    · exact ⟨s2, s1⟩
    · rename_i h
      exact ⟨lt_of_le_of_ne s2 fun e => h (u2 e), lt_of_le_of_ne s1 fun e => h (u1 e)⟩
  · intro h
    split at h
    · rename_i he
      exact rhe_unique _ _ _ hc h.2 h.1 (fun _ => he) (fun _ => he)
    · exact rhe_unique _ _ _ hc h.2.le h.1.le (fun e => absurd e h.2.ne) (fun e => absurd e h.1.ne)

/-- What `between` says of a number `k * u`, `u` its unit in the last place. -/
theorem between_def {mag u k a b : Nat} (hu : ulp mag = u) (hu0 : 0 < u) (hk : mag = k * u) :
    between mag a b = true ↔
      let lower := if k = 2 ^ 23 ∧ u ≠ 1 then 4 * mag - u else 4 * mag - 2 * u
      if k % 2 = 0 then lower * b ≤ 4 * a ∧ 4 * a ≤ (4 * mag + 2 * u) * b
      else lower * b < 4 * a ∧ 4 * a < (4 * mag + 2 * u) * b := by
  have h1 : mag / u = k := by rw [hk, Nat.mul_div_cancel _ hu0]
  have h2 : mag = 2 ^ 23 * u ↔ k = 2 ^ 23 := by
    rw [hk]
    exact ⟨fun h => Nat.eq_of_mul_eq_mul_right hu0 h, fun h => by rw [h]⟩
  simp only [between, hu, h1, h2]
  split <;> simp only [Bool.and_eq_true, decide_eq_true_eq]

theorem between_round {mag a b : Nat} (hb : 0 < b) (hm : ulp mag ∣ mag) (h0 : mag ≠ 0) (h : between mag a b = true) :
    roundMag a b = mag := by
  obtain ⟨e, he⟩ : ∃ e, ulp mag = 2 ^ e := ⟨_, rfl⟩
  obtain ⟨k, hk⟩ := hm
  have hk' : mag = k * 2 ^ e := by rw [he] at hk; rw [Nat.mul_comm]; exact hk
  have hlt : k < 2 ^ 24 := by
    have := lt_ulp mag
    rw [he] at this
    rw [hk'] at this
    exact Nat.lt_of_mul_lt_mul_right this
  have hge : e ≠ 0 → 2 ^ 23 ≤ k := fun h => by
    have h1 : ulp mag ≠ 1 := by
      rw [he]
      exact (Nat.one_lt_two_pow h).ne'
    have := ulp_le h1
    rw [he] at this
    conv at this => rhs; rw [hk']
    exact Nat.le_of_mul_le_mul_right this (by positivity)
  have hb' := (between_def he (by positivity) hk').1 h
  have hpos : 0 < 2 ^ e := by positivity
  simp only at hb'
  -- rounding at the unit of `mag`
  have main : 2 ^ 23 * 2 ^ e * b ≤ a ∨ e = 0 → (4 * mag - 2 * 2 ^ e) * b ≤ 4 * a →
      (k % 2 ≠ 0 → (4 * mag - 2 * 2 ^ e) * b < 4 * a) → roundMag a b = mag := by
    intro hl hlow hodd
    have hup : 4 * a ≤ (4 * mag + 2 * 2 ^ e) * b ∧ (k % 2 ≠ 0 → 4 * a < (4 * mag + 2 * 2 ^ e) * b) := by
      by_cases hp : k % 2 = 0
      · rw [if_pos hp] at hb'
        exact ⟨hb'.2, fun h => absurd hp h⟩
      · rw [if_neg hp] at hb'
        exact ⟨hb'.2.le, fun _ => hb'.2⟩
    have hub : a < 2 ^ 24 * 2 ^ e * b := by
      have h1 : 4 * mag + 2 * 2 ^ e < 4 * (2 ^ 24 * 2 ^ e) := by
        have : (k + 1) * 2 ^ e ≤ 2 ^ 24 * 2 ^ e := Nat.mul_le_mul_right _ hlt
        rw [Nat.add_mul, ← hk', Nat.one_mul] at this
        omega
      have h2 := (Nat.mul_lt_mul_right hb).2 h1
      rw [Nat.mul_assoc 4] at h2
      omega
    have hulp : ulp (a / b) = 2 ^ e := by
      rcases hl with hl | hl
      · exact ulp_eq ((Nat.le_div_iff_mul_le hb).2 hl) ((Nat.div_lt_iff_lt_mul hb).2 hub)
      · subst hl
        exact ulp_one ((Nat.div_lt_iff_lt_mul hb).2 (by simpa using hub))
    unfold roundMag
    simp only [hulp]
    have : rhe a (b * 2 ^ e) = k := by
      have hc : 0 < b * 2 ^ e := by positivity
      rw [rhe_iff hc]
      have e1 : (4 * mag - 2 * 2 ^ e) * b = 4 * (b * 2 ^ e * k) - 2 * (b * 2 ^ e) := by
        rw [Nat.sub_mul, hk']
        congr 1 <;> ring
      have e2 : (4 * mag + 2 * 2 ^ e) * b = 4 * (b * 2 ^ e * k) + 2 * (b * 2 ^ e) := by
        rw [hk']
        ring
      rw [e1] at hlow hodd
      rw [e2] at hup
      rw [Nat.mul_assoc 2, show b * 2 ^ e * (2 * k + 1) = 2 * (b * 2 ^ e * k) + b * 2 ^ e by ring]
      generalize b * 2 ^ e * k = x at *
      generalize b * 2 ^ e = c at *
      split
      · omega
      · rename_i hp
        have h1 := hodd hp
        have h2 := hup.2 hp
        omega
    rw [this, hk']
  by_cases hbd : k = 2 ^ 23 ∧ 2 ^ e ≠ 1
  · rw [if_pos hbd, if_pos (by rw [hbd.1]; norm_num)] at hb'
    have hm2 : 2 ^ 23 * 2 ^ e = mag := by rw [hk', hbd.1]
    by_cases hl : mag * b ≤ a
    · refine main (.inl (by rw [hm2]; exact hl)) ?_ fun h => absurd (by rw [hbd.1]; norm_num) h
      exact Nat.le_trans (Nat.mul_le_mul_right _ (by omega)) hb'.1
    · obtain ⟨f, rfl⟩ : ∃ f, e = f + 1 := ⟨e - 1, by have : e ≠ 0 := fun h => hbd.2 (by rw [h, pow_zero]); omega⟩
      have hm3 : mag = 2 ^ 24 * 2 ^ f := by rw [← hm2]; ring
      have hlo : (4 * mag - 2 * 2 ^ f) * b ≤ 4 * a := by
        have := hb'.1
        rwa [show 2 ^ (f + 1) = 2 * 2 ^ f by ring] at this
      have hulp : ulp (a / b) = 2 ^ f := by
        refine ulp_eq ((Nat.le_div_iff_mul_le hb).2 ?_) ((Nat.div_lt_iff_lt_mul hb).2 ?_)
        · have h1 : 4 * (2 ^ 23 * 2 ^ f) ≤ 4 * mag - 2 * 2 ^ f := by
            have : 0 < 2 ^ f := by positivity
            omega
          have h2 := Nat.mul_le_mul_right b h1
          rw [Nat.mul_assoc 4] at h2
          omega
        · rw [← hm3]
          omega
      unfold roundMag
      simp only [hulp]
      have : rhe a (b * 2 ^ f) = 2 ^ 24 := by
        have hc : 0 < b * 2 ^ f := by positivity
        rw [rhe_iff hc, if_pos (by norm_num)]
        have e1 : (4 * mag - 2 * 2 ^ f) * b = 4 * (2 ^ 24 * (b * 2 ^ f)) - 2 * (b * 2 ^ f) := by
          rw [Nat.sub_mul, hm3]
          congr 1 <;> ring
        have e2 : mag * b = 2 ^ 24 * (b * 2 ^ f) := by
          rw [hm3]
          ring
        rw [e1] at hlo
        rw [e2] at hl
        generalize b * 2 ^ f = c at *
        omega
      rw [this, hm3]
  · rw [if_neg hbd] at hb'
    have hb2 : (4 * mag - 2 * 2 ^ e) * b ≤ 4 * a ∧ (k % 2 ≠ 0 → (4 * mag - 2 * 2 ^ e) * b < 4 * a) := by
      by_cases hp : k % 2 = 0
      · rw [if_pos hp] at hb'
        exact ⟨hb'.1, fun h => absurd hp h⟩
      · rw [if_neg hp] at hb'
        exact ⟨hb'.1.le, fun _ => hb'.1⟩
    refine main ?_ hb2.1 hb2.2
    by_cases he0 : e = 0
    · exact .inr he0
    · refine .inl ?_
      have hk1 : 2 ^ 23 + 1 ≤ k := by
        have h1 := hge he0
        have h2 : k ≠ 2 ^ 23 := fun h => hbd ⟨h, (Nat.one_lt_two_pow he0).ne'⟩
        omega
      have h1 : 4 * (2 ^ 23 * 2 ^ e) ≤ 4 * mag - 2 * 2 ^ e := by
        have := Nat.mul_le_mul_right (2 ^ e) hk1
        rw [Nat.add_mul, ← hk'] at this
        omega
      have h2 := Nat.mul_le_mul_right b h1
      rw [Nat.mul_assoc 4] at h2
      have := hb2.1
      omega

theorem round_between {mag a b : Nat} (hb : 0 < b) (h : roundMag a b = mag) :
    between mag a b = true := by
  obtain ⟨f, hf⟩ : ∃ f, ulp (a / b) = 2 ^ f := ⟨_, rfl⟩
  have hw : 0 < 2 ^ f := by positivity
  have hc : 0 < b * 2 ^ f := by positivity
  have hlt : a < 2 ^ 24 * 2 ^ f * b := by
    have := lt_ulp (a / b)
    rw [hf] at this
    exact (Nat.div_lt_iff_lt_mul hb).1 this
  have hge : f ≠ 0 → 2 ^ 23 * 2 ^ f * b ≤ a := fun h => by
    have h1 : ulp (a / b) ≠ 1 := by
      rw [hf]
      exact (Nat.one_lt_two_pow h).ne'
    have := ulp_le h1
    rw [hf] at this
    exact (Nat.le_div_iff_mul_le hb).1 this
  unfold roundMag at h
  simp only [hf] at h
  obtain ⟨r, hr⟩ : ∃ r, rhe a (b * 2 ^ f) = r := ⟨_, rfl⟩
  rw [hr] at h
  have hr1 : r ≤ 2 ^ 24 := by
    rw [← hr]
    exact rhe_le_of_lt hc (by rw [show b * 2 ^ f * 2 ^ 24 = 2 ^ 24 * 2 ^ f * b by ring]; exact hlt.le)
  have hr2 : f ≠ 0 → 2 ^ 23 ≤ r := fun h0 => by
    rw [← hr]
    exact le_rhe_of_le hc (by rw [show b * 2 ^ f * 2 ^ 23 = 2 ^ 23 * 2 ^ f * b by ring]; exact hge h0)
  have hr3 := (rhe_iff hc).1 hr
  by_cases hmax : r = 2 ^ 24
  · have hm : mag = 2 ^ 23 * 2 ^ (f + 1) := by rw [← h, hmax]; ring
    have hu : ulp mag = 2 ^ (f + 1) := by
      refine ulp_eq hm.ge ?_
      rw [hm]
      exact (Nat.mul_lt_mul_right (by positivity)).2 (by norm_num)
    rw [between_def hu (by positivity) hm]
    have hb1 : 2 ^ 23 = 2 ^ 23 ∧ 2 ^ (f + 1) ≠ 1 := ⟨rfl, (Nat.one_lt_two_pow (by omega)).ne'⟩
    dsimp only
    rw [if_pos hb1, if_pos (by norm_num)]
    rw [if_pos (by rw [hmax]; norm_num)] at hr3
    have e1 : (4 * mag - 2 ^ (f + 1)) * b = 4 * (2 ^ 24 * (b * 2 ^ f)) - 2 * (b * 2 ^ f) := by
      rw [Nat.sub_mul, hm]
      congr 1 <;> ring
    have e2 : (4 * mag + 2 * 2 ^ (f + 1)) * b = 4 * (2 ^ 24 * (b * 2 ^ f)) + 4 * (b * 2 ^ f) := by
      rw [hm]
      ring
    rw [e1, e2]
    rw [show 2 ^ 24 * 2 ^ f * b = 2 ^ 24 * (b * 2 ^ f) by ring] at hlt
    rw [hmax] at hr3
    generalize b * 2 ^ f = c at *
    omega
  · have hr4 : r < 2 ^ 24 := by omega
    have hu : ulp mag = 2 ^ f := by
      by_cases hf0 : f = 0
      · subst hf0
        rw [pow_zero]
        refine ulp_one ?_
        rw [← h]
        simpa using hr4
      · refine ulp_eq ?_ ?_
        · rw [← h]
          exact Nat.mul_le_mul_right _ (hr2 hf0)
        · rw [← h]
          exact (Nat.mul_lt_mul_right hw).2 hr4
    rw [between_def hu hw h.symm]
    simp only
    have e1 : (4 * mag - 2 * 2 ^ f) * b = 4 * (b * 2 ^ f * r) - 2 * (b * 2 ^ f) := by
      rw [Nat.sub_mul, ← h]
      congr 1 <;> ring
    have e2 : (4 * mag + 2 * 2 ^ f) * b = 4 * (b * 2 ^ f * r) + 2 * (b * 2 ^ f) := by
      rw [← h]
      ring
    have e3 : b * 2 ^ f * (2 * r + 1) = 2 * (b * 2 ^ f * r) + b * 2 ^ f := by ring
    rw [e2]
    rw [Nat.mul_assoc 2, e3] at hr3
    by_cases hbd : r = 2 ^ 23 ∧ 2 ^ f ≠ 1
    · rw [if_pos hbd, if_pos (by rw [hbd.1]; norm_num)]
      rw [if_pos (by rw [hbd.1]; norm_num)] at hr3
      have h1 := hge (fun h0 => hbd.2 (by rw [h0, pow_zero]))
      have e4 : (4 * mag - 2 ^ f) * b = 4 * (b * 2 ^ f * r) - b * 2 ^ f := by
        rw [Nat.sub_mul, ← h]
        congr 1 <;> ring
      rw [e4]
      rw [show 2 ^ 23 * 2 ^ f * b = b * 2 ^ f * r by rw [hbd.1]; ring] at h1
      generalize b * 2 ^ f * r = x at *
      generalize b * 2 ^ f = c at *
      omega
    · rw [if_neg hbd, e1]
      have hx : r % 2 ≠ 0 → b * 2 ^ f ≤ b * 2 ^ f * r := fun hp => Nat.le_mul_of_pos_right _ (by omega)
      generalize b * 2 ^ f * r = x at *
      generalize b * 2 ^ f = c at *
      split <;> rename_i hp
      · rw [if_pos hp] at hr3
        omega
      · rw [if_neg hp] at hr3
        have := hx hp
        omega

/-- The interval consists of exactly the decimals that are rounded to the number. -/
theorem between_iff {mag a b : Nat} (hb : 0 < b) (hm : ulp mag ∣ mag) (h0 : mag ≠ 0) :
    between mag a b = true ↔ roundMag a b = mag :=
  ⟨between_round hb hm h0, round_between hb⟩

/-! ## The decimals in the interval -/

theorem between_same {mag a b a' b' : Nat} (hb : 0 < b) (hb' : 0 < b') (h : a * b' = a' * b) : between mag a b = between mag a' b' := by
  have hle : ∀ l, l * b ≤ 4 * a ↔ l * b' ≤ 4 * a' := fun l => by
    have e1 : l * b * b' = l * b' * b := Nat.mul_right_comm _ _ _
    have e2 : 4 * a * b' = 4 * a' * b := by rw [Nat.mul_assoc, h, Nat.mul_assoc]
    exact ⟨fun hl => Nat.le_of_mul_le_mul_right (by rw [← e1, ← e2]; exact Nat.mul_le_mul_right _ hl) hb,
      fun hl => Nat.le_of_mul_le_mul_right (by rw [e1, e2]; exact Nat.mul_le_mul_right _ hl) hb'⟩
  have hge : ∀ l, 4 * a ≤ l * b ↔ 4 * a' ≤ l * b' := fun l => by
    have e1 : l * b * b' = l * b' * b := Nat.mul_right_comm _ _ _
    have e2 : 4 * a * b' = 4 * a' * b := by rw [Nat.mul_assoc, h, Nat.mul_assoc]
    exact ⟨fun hl => Nat.le_of_mul_le_mul_right (by rw [← e1, ← e2]; exact Nat.mul_le_mul_right _ hl) hb,
      fun hl => Nat.le_of_mul_le_mul_right (by rw [e1, e2]; exact Nat.mul_le_mul_right _ hl) hb'⟩
  have hlt : ∀ l, l * b < 4 * a ↔ l * b' < 4 * a' := fun l => by rw [← not_le, ← not_le, hge]
  have hgt : ∀ l, 4 * a < l * b ↔ 4 * a' < l * b' := fun l => by rw [← not_le, ← not_le, hle]
  simp only [between, hle, hge, hlt, hgt]

theorem between_self {mag b : Nat} (hb : 0 < b) (h0 : mag ≠ 0) : between mag (mag * b) b = true := by
  have hu := ulp_pos mag
  have h1 : (4 * mag - ulp mag) * b < 4 * (mag * b) := by
    rw [← Nat.mul_assoc]
    exact (Nat.mul_lt_mul_right hb).2 (by omega)
  have h2 : (4 * mag - 2 * ulp mag) * b < 4 * (mag * b) := by
    rw [← Nat.mul_assoc]
    exact (Nat.mul_lt_mul_right hb).2 (by omega)
  have h3 : 4 * (mag * b) < (4 * mag + 2 * ulp mag) * b := by
    rw [← Nat.mul_assoc]
    exact (Nat.mul_lt_mul_right hb).2 (by omega)
  simp only [between]
  split
  · split <;> simp [h1.le, h2.le, h3.le]
  · split <;> simp [h1, h2, h3]

/-- The interval has no gaps. -/
theorem between_mid {mag x y z b : Nat} (hx : between mag x b = true) (hz : between mag z b = true) (h1 : x ≤ y) (h2 : y ≤ z) :
    between mag y b = true := by
  simp only [between] at *
  by_cases hp : mag / ulp mag % 2 = 0
  · rw [if_pos hp] at *
    simp only [Bool.and_eq_true, decide_eq_true_eq] at *
    omega
  · rw [if_neg hp] at *
    simp only [Bool.and_eq_true, decide_eq_true_eq] at *
    omega

theorem between_pos {mag a b : Nat} (hb : 0 < b) (h0 : mag ≠ 0) (h : between mag a b = true) : a ≠ 0 := by
  rintro rfl
  have hu : ulp mag ≤ mag := by
    by_cases h1 : ulp mag = 1
    · omega
    · have := ulp_le h1
      omega
  have h1 : 0 < (4 * mag - ulp mag) * b := Nat.mul_pos (by omega) hb
  have h2 : 0 < (4 * mag - 2 * ulp mag) * b := Nat.mul_pos (by omega) hb
  simp only [between] at h
  split at h
  · split at h <;> simp only [Bool.and_eq_true, decide_eq_true_eq] at h <;> omega
  · split at h <;> simp only [Bool.and_eq_true, decide_eq_true_eq] at h <;> omega

theorem between_lt {mag a b : Nat} (hm : mag ≤ maxMag) (hb : 0 < b) (h : between mag a b = true) : a < (maxMag + ulp maxMag) * b := by
  have hu := ulp_mono hm
  have hp := ulp_pos maxMag
  have h1 : 4 * a ≤ (4 * mag + 2 * ulp mag) * b := by
    simp only [between] at h
    split at h <;> simp only [Bool.and_eq_true, decide_eq_true_eq] at h <;> omega
  have h2 : (4 * mag + 2 * ulp mag) * b < 4 * (maxMag + ulp maxMag) * b := (Nat.mul_lt_mul_right hb).2 (by omega)
  rw [Nat.mul_assoc 4] at h2
  omega

theorem closest_between {mag s b j : Nat} (h : closest mag s b = some j) : between mag (j * s) b = true := by
  simp only [closest] at h
  split at h
  · cases h; assumption
  · split at h
    · cases h; assumption
    · split at h
      · cases h; assumption
      · cases h

theorem floor_mul (x s : Nat) (hs : 0 < s) : x / s * s ≤ x ∧ x < (x / s + 1) * s := by
  have h1 := Nat.div_add_mod x s
  have h2 := Nat.mod_lt x hs
  have h3 : (x / s + 1) * s = s * (x / s) + s := by ring
  rw [Nat.mul_comm, h3]
  omega

/-- A multiple in the interval is not farther from the number than the multiple below or above. -/
theorem multiple_or {mag s b i : Nat} (hs : 0 < s) (hb : 0 < b) (h0 : mag ≠ 0) (h : between mag (i * s) b = true) :
    (i ≤ mag * b / s ∧ between mag (mag * b / s * s) b = true) ∨
    (mag * b / s + 1 ≤ i ∧ between mag ((mag * b / s + 1) * s) b = true) := by
  obtain ⟨h1, h2⟩ := floor_mul (mag * b) s hs
  rcases Nat.lt_or_ge (mag * b / s) i with hi | hi
  · exact .inr ⟨hi, between_mid (between_self hb h0) h h2.le (Nat.mul_le_mul_right _ hi)⟩
  · exact .inl ⟨hi, between_mid h (between_self hb h0) (Nat.mul_le_mul_right _ hi) h1⟩

theorem closest_none {mag s b : Nat} (hs : 0 < s) (hb : 0 < b) (h0 : mag ≠ 0) (h : closest mag s b = none) (i : Nat) :
    between mag (i * s) b = false := by
  cases hi : between mag (i * s) b with
  | false => rfl
  | true =>
    simp only [closest] at h
    rcases multiple_or hs hb h0 hi with ⟨-, h1⟩ | ⟨-, h1⟩
    · rw [if_pos h1] at h
      split at h <;> cases h
    · rw [if_pos h1] at h
      split at h
      · cases h
      · split at h <;> cases h

theorem closest_closest {mag s b j i : Nat} (hs : 0 < s) (hb : 0 < b) (h0 : mag ≠ 0) (h : closest mag s b = some j)
    (hi : between mag (i * s) b = true) : |((mag * b : Nat) : Int) - j * s| ≤ |((mag * b : Nat) : Int) - i * s| := by
  obtain ⟨h1, h2⟩ := floor_mul (mag * b) s hs
  simp only [closest] at h
  split at h
  · cases h
    have := rhe_nearest (mag * b) s i hs
    rwa [mul_comm (s : ℤ), mul_comm (s : ℤ)] at this
  · have key : ∀ j, (j = mag * b / s ∧ i ≤ j) ∨ (j = mag * b / s + 1 ∧ j ≤ i) →
        |((mag * b : Nat) : Int) - j * s| ≤ |((mag * b : Nat) : Int) - i * s| := by
      rintro j (⟨rfl, h3⟩ | ⟨rfl, h3⟩)
      · have h4 : ((i * s : ℕ) : ℤ) ≤ ((mag * b / s * s : ℕ) : ℤ) := by exact_mod_cast Nat.mul_le_mul_right s h3
        have h5 : ((mag * b / s * s : ℕ) : ℤ) ≤ ((mag * b : ℕ) : ℤ) := by exact_mod_cast h1
        rw [Nat.cast_mul i] at h4
        rw [Nat.cast_mul (mag * b / s)] at h4 h5
        rw [abs_of_nonneg (by linarith), abs_of_nonneg (by linarith)]
        linarith
      · have h4 : (((mag * b / s + 1) * s : ℕ) : ℤ) ≤ ((i * s : ℕ) : ℤ) := by exact_mod_cast Nat.mul_le_mul_right s h3
        have h5 : ((mag * b : ℕ) : ℤ) ≤ (((mag * b / s + 1) * s : ℕ) : ℤ) := by exact_mod_cast h2.le
        rw [Nat.cast_mul i] at h4
        rw [Nat.cast_mul (mag * b / s + 1)] at h4 h5
        rw [abs_of_nonpos (by linarith), abs_of_nonpos (by linarith)]
        linarith
    have hor := multiple_or hs hb h0 hi
    rename_i hj
    split at h
    · rename_i hf
      obtain rfl := Option.some.inj h
      by_cases hi' : i ≤ mag * b / s
      · exact key _ (.inl ⟨rfl, hi'⟩)
      · rcases hor with ⟨h3, -⟩ | ⟨h3, h4⟩
        · exact absurd h3 hi'
        · exfalso
          -- the nearest multiple is one of the two
          have : rhe (mag * b) s = mag * b / s ∨ rhe (mag * b) s = mag * b / s + 1 := by
            simp only [rhe]
            split
            · exact .inl rfl
            · split
              · exact .inr rfl
              · split
                · exact .inl rfl
                · exact .inr rfl
          rcases this with e | e <;> rw [e] at hj
          · exact hj hf
          · exact hj h4
    · rename_i hf
      split at h
      · obtain rfl := Option.some.inj h
        rcases hor with ⟨-, h3⟩ | ⟨h3, -⟩
        · exact absurd h3 hf
        · exact key _ (.inr ⟨rfl, h3⟩)
      · cases h

theorem findSome_range {α : Type} {f : Nat → Option α} {n : Nat} :
    (∀ x, (List.range n).findSome? f = some x → ∃ i, i < n ∧ f i = some x ∧ ∀ j, j < i → f j = none) ∧
    ((List.range n).findSome? f = none → ∀ i, i < n → f i = none) := by
  induction n with
  | zero => simp
  | succ n ih =>
    rw [List.range_succ, List.findSome?_append]
    cases h : (List.range n).findSome? f with
    | some y =>
      refine ⟨fun x hx => ?_, fun hx => by simp at hx⟩
      obtain ⟨i, h1, h2, h3⟩ := ih.1 y h
      simp only [Option.some_or, Option.some.injEq] at hx
      subst hx
      exact ⟨i, by omega, h2, h3⟩
    | none =>
      have hn := ih.2 h
      simp only [Option.none_or, List.findSome?_cons, List.findSome?_nil]
      refine ⟨fun x hx => ⟨n, by omega, ?_, fun j hj => hn j hj⟩, fun hx i hi => ?_⟩
      · cases hf : f n with
        | none => simp [hf] at hx
        | some y => simp only [hf] at hx; rw [← hx]
      · rcases Nat.lt_succ_iff_lt_or_eq.1 hi with hi | rfl
        · exact hn i hi
        · cases hf : f i with
          | none => rfl
          | some y => simp [hf] at hx

theorem scale_is : scale = 2 ^ 149 := by unfold scale; rfl

theorem scale_gt : 0 < scale := by rw [scale_is]; positivity

/-- What `shortest` gives: a decimal in the interval; it is a multiple of every power of ten that has a multiple in the
interval; and no such multiple is closer. -/
theorem shortest_spec {mag : Nat} (h : Rep mag) (h0 : mag ≠ 0) :
    between mag ((shortest mag).2 * scale) (10 ^ (shortest mag).1) = true ∧
    (∀ k j, between mag (j * (10 ^ k * scale)) 1 = true → (shortest mag).1 = 0 ∧ 10 ^ k ∣ (shortest mag).2 ∧
      (¬10 ^ (k + 1) ∣ (shortest mag).2 → |(mag : Int) - (shortest mag).2 * scale| ≤ |(mag : Int) - j * (10 ^ k * scale : ℕ)|)) ∧
    (∀ n j, between mag (j * scale) (10 ^ n) = true → (shortest mag).1 ≤ n ∧ ((shortest mag).1 = n → 0 < n →
      |((mag * 10 ^ n : Nat) : Int) - (shortest mag).2 * scale| ≤ |((mag * 10 ^ n : Nat) : Int) - j * scale|)) := by
  have hS := scale_gt
  have hS' : ∀ k, 0 < 10 ^ k * scale := fun k => Nat.mul_pos (by positivity) hS
  -- no multiples of the large powers
  have hbig : ∀ k j, between mag (j * (10 ^ k * scale)) 1 = true → k ≤ 38 := by
    intro k j hj
    by_contra hk
    have h1 := between_lt h.1 (by decide) hj
    have h2 := between_pos (by decide) h0 hj
    have h3 : 1 ≤ j := Nat.one_le_iff_ne_zero.2 fun e => h2 (by rw [e, Nat.zero_mul])
    have h4 : 10 ^ 39 ≤ 10 ^ k := Nat.pow_le_pow_right (by decide) (by omega)
    have h5 : 10 ^ 39 * scale ≤ j * (10 ^ k * scale) := by
      calc 10 ^ 39 * scale ≤ 10 ^ k * scale := Nat.mul_le_mul_right _ h4
        _ = 1 * (10 ^ k * scale) := (Nat.one_mul _).symm
        _ ≤ _ := Nat.mul_le_mul_right _ h3
    have h6 : (maxMag + ulp maxMag) * 1 ≤ 10 ^ 39 * scale := by rw [scale_is]; decide +kernel
    omega
  have hone : ∀ k j, between mag (j * (10 ^ k * scale)) 1 = between mag (j * 10 ^ k * scale) (10 ^ 0) := fun k j => by
    rw [pow_zero, Nat.mul_assoc]
  unfold shortest
  rw [if_neg h0]
  obtain ⟨hsome, hnone⟩ := findSome_range (n := 39)
    (f := fun i => (closest mag (10 ^ (38 - i) * scale) 1).map (· * 10 ^ (38 - i)))
  cases hc : (List.range 39).findSome? fun i => (closest mag (10 ^ (38 - i) * scale) 1).map (· * 10 ^ (38 - i)) with
  | some d =>
    obtain ⟨i, hi, hd, hlow⟩ := hsome d hc
    obtain ⟨j0, hj0, rfl⟩ := Option.map_eq_some_iff.1 hd
    have hb := closest_between hj0
    simp only
    -- larger powers have no multiples
    have hle : ∀ k j, between mag (j * (10 ^ k * scale)) 1 = true → k ≤ 38 - i := by
      intro k j hj
      by_contra hk
      have h1 := hbig k j hj
      have h2 := hlow (38 - k) (by omega)
      rw [Option.map_eq_none_iff, show 38 - (38 - k) = k by omega] at h2
      rw [closest_none (hS' k) (by decide) h0 h2 j] at hj
      cases hj
    refine ⟨?_, fun k j hj => ⟨trivial, ?_, fun hn => ?_⟩, fun n j hj => ⟨Nat.zero_le _, fun e hn => by omega⟩⟩
    · rw [← hone]
      exact hb
    · exact (pow_dvd_pow 10 (hle k j hj)).trans (Dvd.intro_left _ rfl)
    · have h1 := hle k j hj
      have h2 : k = 38 - i := by
        by_contra hne
        exact hn ((pow_dvd_pow 10 (by omega : k + 1 ≤ 38 - i)).trans (Dvd.intro_left _ rfl))
      subst h2
      have h3 := closest_closest (hS' _) (by decide) h0 hj0 hj
      rw [Nat.mul_one] at h3
      push_cast at h3 ⊢
      rwa [mul_assoc (j0 : ℤ)]
  | none =>
    simp only
    have hno := hnone hc
    have hno' : ∀ k j, between mag (j * (10 ^ k * scale)) 1 = false := by
      intro k j
      cases hj : between mag (j * (10 ^ k * scale)) 1 with
      | false => rfl
      | true =>
        have h1 := hbig k j hj
        have h2 := hno (38 - k) (by omega)
        rw [Option.map_eq_none_iff, show 38 - (38 - k) = k by omega] at h2
        rw [closest_none (hS' k) (by decide) h0 h2 j] at hj
        cases hj
    obtain ⟨fsome, fnone⟩ := findSome_range (n := 150) (f := fun n => (closest mag scale (10 ^ n)).map (n, ·))
    cases hf : (List.range 150).findSome? fun n => (closest mag scale (10 ^ n)).map (n, ·) with
    | none =>
      exfalso
      have h1 := fnone hf 149 (by omega)
      rw [Option.map_eq_none_iff] at h1
      have h2 := closest_none hS (by positivity) h0 h1 (mag * 5 ^ 149)
      rw [show mag * 5 ^ 149 * scale = mag * 10 ^ 149 by
        rw [scale_is, Nat.mul_assoc, ← Nat.mul_pow], between_self (by positivity) h0] at h2
      cases h2
    | some r =>
      obtain ⟨n, hn, hd, hlow⟩ := fsome r hf
      obtain ⟨d, hd', rfl⟩ := Option.map_eq_some_iff.1 hd
      simp only [Option.getD_some]
      refine ⟨closest_between hd', fun k j hj => ?_, fun m j hj => ⟨?_, ?_⟩⟩
      · rw [hno' k j] at hj
        cases hj
      · by_contra hm
        have h1 := hlow m (by omega)
        rw [Option.map_eq_none_iff] at h1
        rw [closest_none hS (by positivity) h0 h1 j] at hj
        cases hj
      · rintro rfl -
        exact closest_closest hS (by positivity) h0 hd' hj

/-- The shortest decimal is rounded to the number. -/
theorem shortest_round {mag : Nat} (h : Rep mag) : roundMag ((shortest mag).2 * scale) (10 ^ (shortest mag).1) = mag := by
  by_cases h0 : mag = 0
  · subst h0
    have e : shortest 0 = (0, 0) := rfl
    rw [e]
    simp [roundMag, rhe]
  · exact between_round (by positivity) h.2 h0 (shortest_spec h h0).1

end F32
end Go3mf
