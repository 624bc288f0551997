import Verif.Spec.Decimal
import Verif.Lemmas.NumRat
import Verif.Lemmas.NumOrder
import Mathlib.Tactic.Ring
import Mathlib.Tactic.Linarith
import Mathlib.Tactic.FieldSimp

/-!
# C61: numbers are read as the schema defines, correctly rounded
-/

namespace Go3mf
open F32

/-! ## Rounding -/

theorem ulp_two_pow (n : Nat) (h : 23 ≤ n) : ulp (2 ^ n) = 2 ^ (n - 23) := by
  unfold ulp; rw [Nat.log2_two_pow]

/-- At a tie the result has an even significand. -/
theorem roundMag_tie (a b s : Nat) (hb : 0 < b) (hs : ulp s ∣ s) (hne : s ≠ roundMag a b)
    (heq : |(a : Int) - b * roundMag a b| = |(a : Int) - b * s|) :
    ∃ k j, k < 2 ^ 23 ∧ roundMag a b = k * 2 ^ (j + 1) := by
  have hu := ulp_pos (a / b)
  have hbu : 0 < b * ulp (a / b) := Nat.mul_pos hb hu
  have hd := rhe_dist a (b * ulp (a / b)) hbu
  obtain ⟨d1, d2⟩ := hd
  have hr : roundMag a b = rhe a (b * ulp (a / b)) * ulp (a / b) := rfl
  have hle : rhe a (b * ulp (a / b)) ≤ 2 ^ 24 := by
    obtain ⟨m, hm, h⟩ := roundMag_grid a b hb
    rw [hr] at h
    have := Nat.eq_of_mul_eq_mul_right hu h
    omega
  have hmul : (b : Int) * roundMag a b = rhe a (b * ulp (a / b)) * ((b * ulp (a / b) : Nat) : Int) := by
    rw [hr]; push_cast; ring
  rw [← hmul] at d1 d2
  -- it is a tie of the integer rounding
  have tie : 2 * |(a : Int) - b * roundMag a b| = ((b * ulp (a / b) : Nat) : Int) := by
    by_cases hdv : ulp (a / b) ∣ s
    · obtain ⟨k, rfl⟩ := hdv
      by_contra hlt
      have h1 : 2 * |(a : Int) - b * roundMag a b| < ((b * ulp (a / b) : Nat) : Int) := lt_of_le_of_ne d1 hlt
      have h2 : 2 * |(a : Int) - b * ((ulp (a / b) * k : Nat) : Int)| < ((b * ulp (a / b) : Nat) : Int) := by rw [← heq]; exact h1
      have h3 : |(b : Int) * roundMag a b - b * ((ulp (a / b) * k : Nat) : Int)| < ((b * ulp (a / b) : Nat) : Int) := by
        have := abs_sub_le ((b : Int) * roundMag a b) a (b * ((ulp (a / b) * k : Nat) : Int))
        rw [abs_sub_comm ((b : Int) * roundMag a b) a] at this
        omega
      have h4 : (b : Int) * roundMag a b - b * ((ulp (a / b) * k : Nat) : Int) =
          ((b * ulp (a / b) : Nat) : Int) * ((rhe a (b * ulp (a / b)) : Int) - k) := by
        rw [hmul]; push_cast; ring
      rw [h4, abs_mul, abs_of_nonneg (by positivity)] at h3
      have h5 : |(rhe a (b * ulp (a / b)) : Int) - k| < 1 := by
        by_contra hge
        have : (1 : Int) ≤ |(rhe a (b * ulp (a / b)) : Int) - k| := by omega
        have := mul_le_mul_of_nonneg_left this (Int.natCast_nonneg (b * ulp (a / b)))
        omega
      have h6 : (rhe a (b * ulp (a / b)) : Int) = k := by
        have := abs_lt.1 h5
        omega
      apply hne
      rw [hr]
      have : rhe a (b * ulp (a / b)) = k := by exact_mod_cast h6
      rw [this]; ring
    · exfalso
      have hne1 : ulp (a / b) ≠ 1 := fun h => hdv (by rw [h]; exact one_dvd _)
      have h1 := ulp_le hne1
      have hlt : s < 2 ^ 23 * ulp (a / b) := by
        by_contra hge
        apply hdv
        refine dvd_trans ?_ hs
        have : ulp (2 ^ 23 * ulp (a / b)) = ulp (a / b) := by
          unfold ulp
          rw [← Nat.pow_add, Nat.log2_two_pow]
          congr 1
          omega
        rw [← this]
        exact ulp_dvd_of_le (by omega)
      have hg : ulp (2 ^ 23 * ulp (a / b)) ∣ 2 ^ 23 * ulp (a / b) := by
        unfold ulp
        exact ulp_dvd_mul (2 ^ 23) _ (by decide)
      have h2 := roundMag_nearest a b (2 ^ 23 * ulp (a / b)) hb hg
      have h3 : b * (a / b) ≤ a := Nat.mul_div_le a b
      have h4 : b * (2 ^ 23 * ulp (a / b)) ≤ b * (a / b) := Nat.mul_le_mul_left _ h1
      have h4' : (b : Int) * ((2 ^ 23 * ulp (a / b) : Nat) : Int) ≤ a := by exact_mod_cast le_trans h4 h3
      have h5 : b * s < b * (2 ^ 23 * ulp (a / b)) := Nat.mul_lt_mul_of_pos_left hlt hb
      have h5' : (b : Int) * s < b * ((2 ^ 23 * ulp (a / b) : Nat) : Int) := by exact_mod_cast h5
      rw [heq, abs_of_nonneg (by linarith), abs_of_nonneg (by linarith)] at h2
      linarith
  have heven := d2 tie
  obtain ⟨k, hk⟩ : ∃ k, rhe a (b * ulp (a / b)) = 2 * k := ⟨rhe a (b * ulp (a / b)) / 2, by omega⟩
  rw [hr, hk]
  unfold ulp
  by_cases hk2 : k = 2 ^ 23
  · refine ⟨2 ^ 22, Nat.log2 (a / b) - 23 + 1, by decide, ?_⟩
    rw [hk2]; ring
  · refine ⟨k, Nat.log2 (a / b) - 23, by omega, ?_⟩
    ring

theorem rhe_half (Y : Nat) (h : 0 < Y) : rhe (Y * 33554431) (Y * 2) = 2 ^ 24 := by
  have e1 : Y * 33554431 = Y + Y * 2 * 16777215 := by ring
  have e2 : (Y + Y * 2 * 16777215) / (Y * 2) = 16777215 := by
    rw [Nat.add_mul_div_left _ _ (by omega), Nat.div_eq_of_lt (by omega)]
  have e3 : (Y + Y * 2 * 16777215) % (Y * 2) = Y := by
    rw [Nat.add_mul_mod_self_left, Nat.mod_eq_of_lt (by omega)]
  unfold rhe
  simp only [e1, e2, e3]
  rw [if_neg (by omega), if_neg (by omega), if_neg (by decide)]
  rfl

theorem max_dist (a b X Y R : Int) (h4 : a < b * X) (h5 : b * (X + Y) ≤ b * R) (h8 : 0 < b * Y)
    (h3 : |a - b * R| ≤ |a - b * (X - Y)|) : False := by
  rw [mul_add] at h5
  rw [mul_sub] at h3
  rw [abs_of_neg (by linarith)] at h3
  rcases abs_cases (a - (b * X - b * Y)) with ⟨h9, -⟩ | ⟨h9, -⟩ <;> rw [h9] at h3 <;> linarith

theorem roundMag_le_max (a b : Nat) (hb : 0 < b) : roundMag a b ≤ maxMag ↔ a < b * ((2 ^ 25 - 1) * 2 ^ 252) := by
  constructor
  · intro h
    by_contra hge
    have hge : b * ((2 ^ 25 - 1) * 2 ^ 252) ≤ a := by omega
    have h1 := roundMag_mono hb hge
    have hdiv : b * ((2 ^ 25 - 1) * 2 ^ 252) / b = (2 ^ 25 - 1) * 2 ^ 252 := Nat.mul_div_cancel_left _ hb
    have hulp : ulp ((2 ^ 25 - 1) * 2 ^ 252) = 2 ^ 253 := by decide +kernel
    have h2 : roundMag (b * ((2 ^ 25 - 1) * 2 ^ 252)) b = 2 ^ 277 := by
      unfold roundMag
      simp only [hdiv, hulp]
      have hr : rhe (b * ((2 ^ 25 - 1) * 2 ^ 252)) (b * 2 ^ 253) = 2 ^ 24 := by
        rw [show (2 : Nat) ^ 253 = 2 * 2 ^ 252 from by decide +kernel]
        have hpos : 0 < b * 2 ^ 252 := Nat.mul_pos hb (by positivity)
        have e1 : b * ((2 ^ 25 - 1) * 2 ^ 252) = b * 2 ^ 252 * 33554431 := by
          rw [show (2 : Nat) ^ 25 - 1 = 33554431 from rfl]; ring
        have e2 : b * (2 * 2 ^ 252) = b * 2 ^ 252 * 2 := by ring
        rw [e1, e2]
        exact rhe_half _ hpos
      rw [hr]
      rw [← Nat.pow_add]
    rw [h2] at h1
    exact absurd (le_trans h1 h) (by decide +kernel)
  · intro h
    by_contra hgt
    have hgt : maxMag < roundMag a b := by omega
    have hd := ulp_dvd_roundMag a b hb
    have hu : ulp maxMag = 2 ^ 253 := by decide +kernel
    have h1 : 2 ^ 253 ∣ roundMag a b := by
      rw [← hu]
      exact dvd_trans (ulp_dvd_of_le (by omega)) hd
    obtain ⟨k, hk⟩ := h1
    have hk2 : 2 ^ 24 ≤ k := by
      by_contra hlt
      have : 2 ^ 253 * k ≤ maxMag := by
        unfold maxMag
        rw [Nat.mul_comm]
        exact Nat.mul_le_mul_right _ (by omega)
      omega
    have h2 : (2 : Nat) ^ 277 ≤ roundMag a b := by
      rw [hk]
      calc (2 : Nat) ^ 277 = 2 ^ 253 * 2 ^ 24 := by rw [← Nat.pow_add]
        _ ≤ 2 ^ 253 * k := Nat.mul_le_mul_left _ hk2
    have h3 := roundMag_nearest a b maxMag hb rep_maxMag.2
    have h4 : (a : Int) < b * (((2 ^ 25 - 1) * 2 ^ 252 : Nat) : Int) := by
      rw [← Int.natCast_mul]; exact Int.ofNat_lt.2 h
    have h5 : (b : Int) * ((2 ^ 277 : Nat) : Int) ≤ b * roundMag a b := by
      rw [← Int.natCast_mul, ← Int.natCast_mul]; exact Int.ofNat_le.2 (Nat.mul_le_mul_left b h2)
    have h6 : (maxMag : Int) = (((2 ^ 25 - 1) * 2 ^ 252 : Nat) : Int) - ((2 ^ 252 : Nat) : Int) := by decide +kernel
    have h7 : ((2 ^ 277 : Nat) : Int) = (((2 ^ 25 - 1) * 2 ^ 252 : Nat) : Int) + ((2 ^ 252 : Nat) : Int) := by decide +kernel
    rw [h7] at h5
    rw [h6] at h3
    have h8 : (0 : Int) < b * ((2 ^ 252 : Nat) : Int) := by
      rw [← Int.natCast_mul]; exact Int.ofNat_lt.2 (Nat.mul_pos hb (Nat.two_pow_pos 252))
    exact max_dist _ _ _ _ _ h4 h5 h8 h3

theorem dist_int (a b r : Nat) (hb : 0 < b) : |(a : ℚ) / b - r| = ((|(a : Int) - b * r| : Int) : ℚ) / b := by
  have hb' : (0 : ℚ) < b := by exact_mod_cast hb
  push_cast
  rw [show (a : ℚ) / b - r = (a - b * r) / b by field_simp, abs_div, abs_of_pos hb']

theorem dist_scale (neg : Bool) (x y : ℚ) :
    |(if neg then -1 else 1) * (x / scale) - (if neg then -1 else 1) * (y / scale)| = |x - y| / scale := by
  have hS : (0 : ℚ) < (scale : ℚ) := by exact_mod_cast scale_pos
  rw [abs_sign, ← sub_div, abs_div, abs_of_pos hS]

theorem dist_scale' (neg : Bool) (x y : ℚ) :
    |(if neg then -1 else 1) * (x / scale) - (if !neg then -1 else 1) * (y / scale)| = |x + y| / scale := by
  have h : (if (!neg) = true then (-1 : ℚ) else 1) * (y / scale) = (if neg = true then (-1 : ℚ) else 1) * (-y / scale) := by
    cases neg <;> simp [neg_div]
  rw [h, dist_scale, sub_neg_eq_add]

/-- Rounding gives the nearest float. -/
theorem ofRat_nearest (neg : Bool) (a b : Nat) (hb : 0 < b) (h : roundMag a b ≤ maxMag) :
    Spec.Nearest ((if neg then -1 else 1) * ((a : ℚ) / b / scale)) (ofRat neg a b) := by
  have hS : (0 : ℚ) < (scale : ℚ) := by exact_mod_cast scale_pos
  have hb' : (0 : ℚ) < b := by exact_mod_cast hb
  have hr := rep_roundMag a b hb h
  have hx : ofRat neg a b = .fin neg (roundMag a b) hr := by
    unfold ofRat
    simp only [h, if_true]
    exact mk_of_rep _ _ hr
  have near : ∀ s, Rep s → |(a : ℚ) / b - (roundMag a b : Nat)| ≤ |(a : ℚ) / b - s| := by
    intro s hs
    rw [dist_int _ _ _ hb, dist_int _ _ _ hb]
    apply div_le_div_of_nonneg_right _ hb'.le
    exact_mod_cast roundMag_nearest a b s hb hs.2
  have even : ∀ s, Rep s → s ≠ roundMag a b → |(a : ℚ) / b - (roundMag a b : Nat)| = |(a : ℚ) / b - s| →
      Spec.EvenSignificand (ofRat neg a b) := by
    intro s hs hne he
    rw [dist_int _ _ _ hb, dist_int _ _ _ hb, div_left_inj' hb'.ne'] at he
    obtain ⟨k, j, hk, hkj⟩ := roundMag_tie a b s hb hs.2 hne (by exact_mod_cast he)
    refine ⟨if neg then -k else k, j, ?_, ?_⟩
    · have : |(if neg then -(k : ℤ) else k)| = k := by cases neg <;> simp
      rw [this]; exact_mod_cast hk
    · rw [hx, floatVal_fin, hkj, scale_eq]
      cases neg <;> push_cast <;> simp <;> ring
  refine ⟨by rw [hx]; rfl, fun y hy => ?_⟩
  obtain ⟨n, m, hm, rfl⟩ := (isFinite_iff y).1 hy
  have hnear := near m hm
  by_cases hn : n = neg
  · subst hn
    rw [hx, floatVal_fin, floatVal_fin, dist_scale, dist_scale, ← hx]
    refine ⟨div_le_div_of_nonneg_right hnear hS.le, fun he => ?_⟩
    rw [div_left_inj' hS.ne'] at he
    by_cases hmr : m = roundMag a b
    · subst hmr; exact Or.inl rfl
    · exact Or.inr (even m hm hmr he)
  · have hn' : n = !neg := by cases n <;> cases neg <;> simp_all
    subst hn'
    rw [hx, floatVal_fin, floatVal_fin, dist_scale, dist_scale', ← hx]
    have hq : (0 : ℚ) ≤ (a : ℚ) / b := by positivity
    have hmq : (0 : ℚ) ≤ m := by positivity
    have h1 : |(a : ℚ) / b - m| ≤ |(a : ℚ) / b + m| := by
      rw [abs_of_nonneg (add_nonneg hq hmq), abs_le]; constructor <;> linarith
    refine ⟨div_le_div_of_nonneg_right (le_trans hnear h1) hS.le, fun he => ?_⟩
    rw [div_left_inj' hS.ne'] at he
    by_cases hr0 : roundMag a b = 0
    · left
      rw [hr0] at he
      simp only [Nat.cast_zero, sub_zero, abs_of_nonneg hq, abs_of_nonneg (add_nonneg hq hmq)] at he
      have hm0 : (m : ℚ) = 0 := by linarith
      rw [hr0, hm0]; simp
    · right
      have he2 : |(a : ℚ) / b - m| = |(a : ℚ) / b + m| := le_antisymm h1 (by rw [← he]; exact hnear)
      have hz : (a : ℚ) / b = 0 ∨ (m : ℚ) = 0 := by
        rw [abs_of_nonneg (add_nonneg hq hmq)] at he2
        rcases abs_cases ((a : ℚ) / b - m) with ⟨h9, -⟩ | ⟨h9, -⟩ <;> rw [h9] at he2
        · right; linarith
        · left; linarith
      rcases hz with hz | hz
      · exfalso
        have ha : a = 0 := by
          rcases (div_eq_zero_iff.1 hz) with h' | h'
          · exact_mod_cast h'
          · exact absurd h' hb'.ne'
        exact hr0 (by rw [ha]; exact roundMag_zero b hb)
      · have hm0 : m = 0 := by exact_mod_cast hz
        subst hm0
        apply even 0 hm (fun h => hr0 h.symm)
        rw [he]; simp

/-! ## Scanning -/

theorem digit_iff (b : Byte) : Spec.Digit b ↔ isDigit b = true := (isDigit_iff b).symm

theorem parseSpecial_digit (s : Str) (h : ∃ b ∈ s, isDigit b = true) : parseSpecial s = none := by
  obtain ⟨b, hb, hd⟩ := h
  have hm : b ∈ s.map asciiLower := List.mem_map.2 ⟨b, hb, asciiLower_digit b hd⟩
  have key : ∀ l : Str, (∀ c ∈ l, isDigit c = false) → s.map asciiLower ≠ l := by
    intro l hl e
    rw [e] at hm
    rw [hl b hm] at hd
    exact absurd hd (by decide)
  unfold parseSpecial
  have k1 := key b!"nan" (by decide +kernel)
  have k2 := key b!"inf" (by decide +kernel)
  have k3 := key b!"infinity" (by decide +kernel)
  have k4 := key b!"+inf" (by decide +kernel)
  have k5 := key b!"+infinity" (by decide +kernel)
  have k6 := key b!"-inf" (by decide +kernel)
  have k7 := key b!"-infinity" (by decide +kernel)
  simp [k1, k2, k3, k4, k5, k6, k7]

theorem splitHex_false (s : Str) (h : ∀ b ∈ s, lowerByte b ≠ 120) : splitHex s = (false, s) := by
  unfold splitHex
  split
  · rw [if_neg]
    simp [h _ (List.mem_cons_of_mem _ (List.mem_cons_self ..))]
  · rfl

theorem splitSign_sign (sg : Str) (neg : Bool) (c : Byte) (t : Str) (h : Spec.Sign sg neg) (h1 : c ≠ 43) (h2 : c ≠ 45) :
    splitSign (sg ++ c :: t) = (neg, c :: t) := by
  rcases h with ⟨rfl, rfl⟩ | ⟨rfl, rfl⟩ | ⟨rfl, rfl⟩
  · simp [splitSign, h1, h2]
  · simp [splitSign]
  · simp [splitSign]

theorem readExpDigits_digits (s : Str) (e : Nat) (hd : ∀ b ∈ s, isDigit b = true) :
    ∃ n, readExpDigits s e false = (n, false, []) ∧ (digitsAcc e s < 10 ^ 5 → n = digitsAcc e s) ∧ min e 10000 ≤ n ∧
      (10000 ≤ digitsAcc e s → 10000 ≤ n) ∧ (e < 10 ^ 5 → n < 10 ^ 5) := by
  induction s generalizing e with
  | nil => exact ⟨e, rfl, fun _ => rfl, by omega, id, id⟩
  | cons c s ih =>
    have hc := hd c (by simp)
    have h1 : c ≠ 95 := by rintro rfl; revert hc; decide
    have h2 : digitsAcc e (c :: s) = digitsAcc (e * 10 + (c.toNat - 48)) s := rfl
    have h3 := digitsAcc_ge (e * 10 + (c.toNat - 48)) s
    obtain ⟨n, hn, hv, hm, hl, hu⟩ := ih (if e < 10000 then e * 10 + (c.toNat - 48) else e) (fun b hb => hd b (by simp [hb]))
    refine ⟨n, by rw [readExpDigits, if_neg h1, if_pos hc, hn], fun h => ?_, ?_, fun h => ?_, fun h => ?_⟩
    · rw [h2] at h ⊢
      rw [if_pos (by omega)] at hv
      exact hv h
    · split at hm <;> omega
    · by_cases he : e < 10000
      · rw [if_pos he] at hl
        exact hl (h2 ▸ h)
      · rw [if_neg he] at hm
        omega
    · have hc' := (digit_iff c).2 hc
      unfold Spec.Digit at hc'
      apply hu
      split <;> omega

/-- What is kept of an exponent: all of it, or that it is big. -/
def ExpRead (e : ℤ) (eneg : Bool) (n : Nat) : Prop :=
  (|e| < 10 ^ 5 → e = (if eneg then -(n : ℤ) else n)) ∧ (10 ^ 5 ≤ |e| → 10 ^ 4 ≤ n ∧ (eneg = true ↔ e < 0)) ∧
    n < 10 ^ 5

theorem expRead_digits (neg : Bool) (d n : Nat) (h1 : d < 10 ^ 5 → n = d) (h2 : 10000 ≤ d → 10000 ≤ n)
    (h3 : n < 10 ^ 5) :
    ExpRead (if neg then -(d : ℤ) else d) neg n := by
  have habs : |(if neg then -(d : ℤ) else d)| = d := by cases neg <;> simp
  unfold ExpRead
  rw [habs]
  refine ⟨fun h => ?_, fun h => ⟨h2 (by omega), ?_⟩, h3⟩
  · rw [h1 (by exact_mod_cast h)]
  · cases neg <;> simp <;> omega

/-- The scan of a decimal number. -/
theorem parseFloat_decimal (s : Str) (neg : Bool) (ip fp : Str) (e : ℤ) (h : Spec.Decimal s neg ip fp e) :
    ∃ eneg n, ExpRead e eneg n ∧
      parseFloat s = finishFloat false neg (Spec.digits (ip ++ fp)) fp.length eneg n := by
  obtain ⟨sg, dot, ex, hsg, hex, hdig, hne, hdot, rfl⟩ := h
  have hip : ∀ b ∈ ip, isDigit b = true := fun b hb => (digit_iff b).1 (hdig b (by simp [hb]))
  have hfp : ∀ b ∈ fp, isDigit b = true := fun b hb => (digit_iff b).1 (hdig b (by simp [hb]))
  -- the exponent
  have hexp : ∃ eneg n, ExpRead e eneg n ∧ (∀ b ∈ ex, lowerByte b ≠ 120) ∧
      (∀ st : ReadFloat, readMantissa false ex st = (st, ex)) ∧
      ∀ (st : ReadFloat), st.underscores = false → ∀ whole, parseExp whole false neg st ex = finishFloat false neg st.mant st.frac eneg n := by
    rcases hex with ⟨rfl, rfl⟩ | ⟨c, sg', neg', ds, hc, hsg', hds, hdsd, rfl, rfl⟩
    · exact ⟨false, 0, by simp [ExpRead], by simp, fun _ => rfl, fun st hu whole => by simp [parseExp, hu]⟩
    · have hdsd' : ∀ b ∈ ds, isDigit b = true := fun b hb => (digit_iff b).1 (hdsd b hb)
      have hlc : lowerByte c = 101 := by rcases hc with rfl | rfl <;> decide
      have hcd : isDigit c = false := by rcases hc with rfl | rfl <;> decide
      have hc95 : c ≠ 95 := by rcases hc with rfl | rfl <;> decide
      have hc46 : c ≠ 46 := by rcases hc with rfl | rfl <;> decide
      obtain ⟨n, hr, hv, -, hl, hu⟩ := readExpDigits_digits ds 0 hdsd'
      refine ⟨neg', n, ?_, ?_, ?_, ?_⟩
      · rw [digits_eq]
        exact expRead_digits neg' _ n hv hl (hu (by norm_num))
      · intro b hb
        simp only [List.mem_cons, List.mem_append] at hb
        rcases hb with rfl | hb | hb
        · rw [hlc]; decide
        · rcases hsg' with ⟨rfl, -⟩ | ⟨rfl, -⟩ | ⟨rfl, -⟩ <;> simp at hb <;> subst hb <;> decide
        · exact lowerByte_digit b (hdsd' b hb)
      · intro st
        rw [readMantissa, if_neg hc95, if_neg hc46, if_neg (by simp [hcd]), if_neg (by decide)]
      · intro st hu whole
        obtain ⟨f, fs, rfl⟩ := List.exists_cons_of_ne_nil hds
        have hf := hdsd' f (by simp)
        have hs := splitSign_sign sg' neg' f fs hsg' (by rintro rfl; revert hf; decide) (by rintro rfl; revert hf; decide)
        unfold parseExp
        simp only [hlc, Bool.false_eq_true, if_false, if_true, hs, hf, hu, hr, List.isEmpty_nil, Bool.not_true, Bool.false_and]
  obtain ⟨eneg, n, hen, hx, hm, hp⟩ := hexp
  refine ⟨eneg, n, hen, ?_⟩
  -- the digit that is there
  have hspec : parseSpecial (sg ++ ip ++ dot ++ fp ++ ex) = none := by
    apply parseSpecial_digit
    obtain ⟨b, hb⟩ := List.exists_mem_of_ne_nil _ hne
    refine ⟨b, ?_, (digit_iff b).1 (hdig b hb)⟩
    simp only [List.mem_append] at hb ⊢
    rcases hb with hb | hb <;> simp [hb]
  have hbody : ∀ b ∈ ip ++ dot ++ fp ++ ex, lowerByte b ≠ 120 := by
    intro b hb
    simp only [List.mem_append] at hb
    rcases hb with ((hb | hb) | hb) | hb
    · exact lowerByte_digit b (hip b hb)
    · rcases hdot with ⟨rfl, -⟩ | rfl <;> simp at hb
      subst hb; decide
    · exact lowerByte_digit b (hfp b hb)
    · exact hx b hb
  have hsplit : splitSign (sg ++ (ip ++ dot ++ fp ++ ex)) = (neg, ip ++ dot ++ fp ++ ex) := by
    obtain ⟨c, t, hct, h1, h2⟩ : ∃ c t, ip ++ dot ++ fp ++ ex = c :: t ∧ c ≠ 43 ∧ c ≠ 45 := by
      cases ip with
      | cons c cs =>
        have := hip c (by simp)
        exact ⟨c, _, rfl, by rintro rfl; revert this; decide, by rintro rfl; revert this; decide⟩
      | nil =>
        rcases hdot with ⟨rfl, rfl⟩ | rfl
        · simp at hne
        · exact ⟨46, _, rfl, by decide, by decide⟩
    rw [hct]
    exact splitSign_sign sg neg c t hsg h1 h2
  have hscan : ∃ st : ReadFloat, readMantissa false (ip ++ dot ++ fp ++ ex) {} = (st, ex) ∧ st.sawDigits = true ∧
      st.underscores = false ∧ st.mant = digitsVal (ip ++ fp) ∧ st.frac = fp.length := by
    rw [List.append_assoc, List.append_assoc, readMantissa_digits ip _ _ hip]
    rcases hdot with ⟨rfl, rfl⟩ | rfl
    · rw [List.nil_append, List.nil_append, hm]
      refine ⟨_, rfl, ?_, rfl, ?_, rfl⟩
      · simpa using hne
      · simp [digitsVal_eq]
    · rw [List.singleton_append, readMantissa_dot _ _ rfl, readMantissa_digits fp _ _ hfp, hm]
      refine ⟨_, rfl, ?_, rfl, ?_, ?_⟩
      · cases ip <;> cases fp <;> simp_all
      · simp [digitsVal_eq, digitsAcc_append]
      · simp
  obtain ⟨st, hst, hsd, hu, hmant, hfrac⟩ := hscan
  have happ : sg ++ ip ++ dot ++ fp ++ ex = sg ++ (ip ++ dot ++ fp ++ ex) := by simp
  unfold parseFloat
  rw [hspec]
  simp only
  rw [happ, hsplit]
  unfold parseUnsigned
  simp only [splitHex_false _ hbody, hst, hsd, if_true]
  rw [hp st hu, hmant, hfrac, digits_eq]

/-! ## The theorem -/

theorem rangeCheck_spec (neg : Bool) (a b : Nat) (hb : 0 < b) :
    (roundMag a b ≤ maxMag → rangeCheck (ofRat neg a b) = .ok (ofRat neg a b) ∧ (ofRat neg a b).signBit = neg) ∧
    (maxMag < roundMag a b → rangeCheck (ofRat neg a b) = .error .range) := by
  constructor
  · intro h
    unfold ofRat
    simp only [h, if_true]
    rw [mk_of_rep _ _ (rep_roundMag a b hb h)]
    exact ⟨rfl, rfl⟩
  · intro h
    unfold ofRat
    simp only [Nat.not_le.2 h, if_false]
    rfl

/-- Rounding and the check of the range, for a rational number given by its numerator and denominator. -/
theorem rangeCheck_value (neg : Bool) (a b : Nat) (hb : 0 < b) (q : ℚ)
    (hq : q = (if neg then -1 else 1) * ((a : ℚ) / b / scale)) :
    (Spec.Overflows q → rangeCheck (ofRat neg a b) = .error .range) ∧
    (¬Spec.Overflows q → ∃ x, rangeCheck (ofRat neg a b) = .ok x ∧ x.signBit = neg ∧ Spec.Nearest q x) := by
  have hb' : (0 : ℚ) < b := by exact_mod_cast hb
  have hS : (0 : ℚ) < (scale : ℚ) := by exact_mod_cast scale_pos
  have hov : Spec.Overflows q ↔ maxMag < roundMag a b := by
    rw [← not_le, roundMag_le_max a b hb, Nat.not_lt, hq]
    unfold Spec.Overflows
    have habs : |(if neg then (-1 : ℚ) else 1) * ((a : ℚ) / b / scale)| = (a : ℚ) / b / scale := by
      rw [abs_mul, abs_of_nonneg (by positivity : (0 : ℚ) ≤ (a : ℚ) / b / scale)]
      cases neg <;> simp
    rw [habs, le_div_iff₀ hS, le_div_iff₀ hb', scale_eq]
    have : ((2 : ℚ) ^ 25 - 1) * 2 ^ 103 * ((2 ^ 149 : ℕ) : ℚ) * b = ((b * ((2 ^ 25 - 1) * 2 ^ 252) : ℕ) : ℚ) := by
      rw [Nat.cast_mul, Nat.cast_mul, Nat.cast_pow, Nat.cast_pow, Nat.cast_sub (by decide)]
      push_cast
      ring
    rw [this, Nat.cast_le]
  obtain ⟨hok, herr⟩ := rangeCheck_spec neg a b hb
  refine ⟨fun h => herr (hov.1 h), fun h => ?_⟩
  have hle : roundMag a b ≤ maxMag := by
    by_contra hgt
    exact h (hov.2 (by omega))
  refine ⟨_, (hok hle).1, (hok hle).2, ?_⟩
  rw [hq]
  exact ofRat_nearest neg a b hb hle

/-- The end of the reading of a decimal number. -/
theorem finishFloat_decimal (neg : Bool) (ip fp : Str) (eneg : Bool) (n : Nat) (q : ℚ)
    (hq : q = Spec.decimalRat neg ip fp (if eneg then -(n : ℤ) else n)) :
    (Spec.Overflows q → finishFloat false neg (Spec.digits (ip ++ fp)) fp.length eneg n = .error .range) ∧
    (¬Spec.Overflows q → ∃ x, finishFloat false neg (Spec.digits (ip ++ fp)) fp.length eneg n = .ok x ∧ x.signBit = neg ∧
      Spec.Nearest q x) := by
  unfold finishFloat
  simp only [Bool.false_eq_true, if_false]
  refine rangeCheck_value neg _ _ (by split <;> positivity) _ ?_
  have hS : (0 : ℚ) < (scale : ℚ) := by exact_mod_cast scale_pos
  rw [hq]
  unfold Spec.decimalRat
  congr 1
  cases eneg
  · simp only [Bool.false_eq_true, if_false]
    rw [zpow_sub₀ (by norm_num)]
    push_cast
    rw [zpow_natCast, zpow_natCast]
    field_simp
  · simp only [if_true]
    rw [zpow_sub₀ (by norm_num), zpow_neg]
    push_cast
    rw [zpow_natCast, zpow_natCast]
    field_simp

/-- **C61.**  A decimal number is read as the nearest float32, to even at a tie, with its sign; and is out of range
exactly when it is too big. -/
theorem C61_value (s : Str) (neg : Bool) (ip fp : Str) (e : ℤ) (h : Spec.Decimal s neg ip fp e) (he : |e| < 10 ^ 5) :
    (Spec.Overflows (Spec.decimalRat neg ip fp e) → parseFloat s = .error .range) ∧
    (¬Spec.Overflows (Spec.decimalRat neg ip fp e) →
      ∃ x, parseFloat s = .ok x ∧ x.signBit = neg ∧ Spec.Nearest (Spec.decimalRat neg ip fp e) x) := by
  obtain ⟨eneg, n, hen, hp⟩ := parseFloat_decimal s neg ip fp e h
  obtain rfl := hen.1 he
  rw [hp]
  exact finishFloat_decimal neg ip fp eneg n _ rfl

example : Spec.SchemaNumber b!"-12.5e-1" true b!"12" b!"5" (-1) := by
  refine ⟨b!"-", b!".", b!"e-1", by simp [Spec.Sign], ?_, ?_, by decide, Or.inr ⟨rfl, by decide⟩, by decide⟩
  · exact Or.inr ⟨101, b!"-", true, b!"1", Or.inl rfl, by simp [Spec.Sign], by decide, by unfold Spec.Digit; decide, by decide, by decide⟩
  · unfold Spec.Digit; decide

theorem schema_decimal {s : Str} {neg : Bool} {ip fp : Str} {e : ℤ} (h : Spec.SchemaNumber s neg ip fp e) : Spec.Decimal s neg ip fp e := by
  obtain ⟨sg, dot, ex, h1, h2, h3, h4, h5, h6⟩ := h
  exact ⟨sg, dot, ex, h1, h2, h3, h4, h5.imp id (·.1), h6⟩

/-! ## The language -/

theorem digit_span (s : Str) : ∃ d r, s = d ++ r ∧ (∀ b ∈ d, isDigit b = true) ∧ (∀ c ∈ r.head?, isDigit c = false) := by
  induction s with
  | nil => exact ⟨[], [], rfl, by simp, by simp⟩
  | cons c s ih =>
    obtain ⟨d, r, rfl, hd, hr⟩ := ih
    by_cases hc : isDigit c = true
    · refine ⟨c :: d, r, rfl, ?_, hr⟩
      intro b hb
      rcases List.mem_cons.1 hb with rfl | hb
      · exact hc
      · exact hd b hb
    · exact ⟨[], c :: (d ++ r), rfl, by simp, by simpa using hc⟩

theorem readMantissa_stop (r : Str) (st : ReadFloat) (h1 : ∀ c ∈ r.head?, isDigit c = false) (h2 : ∀ c ∈ r.head?, c ≠ 95)
    (h3 : ∀ c ∈ r.head?, c = 46 → st.sawDot = true) : readMantissa false r st = (st, r) := by
  cases r with
  | nil => rfl
  | cons c cs =>
    have h1 := h1 c rfl
    have h2 := h2 c rfl
    have h3 := h3 c rfl
    rw [readMantissa, if_neg h2]
    by_cases h : c = 46
    · rw [if_pos h, if_pos (h3 h)]
    · rw [if_neg h, if_neg (by simp [h1]), if_neg (by decide)]

theorem mantissa_split (s : Str) (h : ∀ b ∈ s, b ≠ 95) : ∃ ip dot fp st rest, s = ip ++ dot ++ fp ++ rest ∧
    (∀ b ∈ ip ++ fp, Spec.Digit b) ∧ (dot = [] ∧ fp = [] ∨ dot = [46]) ∧ readMantissa false s {} = (st, rest) ∧
    st.underscores = false ∧ (st.sawDigits = true → ip ++ fp ≠ []) := by
  obtain ⟨ip, r, rfl, hip, hr⟩ := digit_span s
  by_cases hd : r.head? = some 46
  · obtain ⟨t, rfl⟩ : ∃ t, r = 46 :: t := by
      cases r with
      | nil => simp at hd
      | cons c t => simp at hd; exact ⟨t, by rw [hd]⟩
    obtain ⟨fp, r', rfl, hfp, hr'⟩ := digit_span t
    have hm := readMantissa_digits ip (46 :: (fp ++ r')) {} hip
    rw [readMantissa_dot _ _ rfl, readMantissa_digits fp _ _ hfp,
      readMantissa_stop r' _ hr' (fun c hc => h c (by simp [List.mem_of_mem_head? hc])) (fun _ _ _ => rfl)] at hm
    refine ⟨ip, [46], fp, _, r', by simp, ?_, Or.inr rfl, hm, rfl, ?_⟩
    · intro b hb
      rcases List.mem_append.1 hb with hb | hb
      · exact (digit_iff b).2 (hip b hb)
      · exact (digit_iff b).2 (hfp b hb)
    · cases ip <;> cases fp <;> simp
  · have hm := readMantissa_digits ip r {} hip
    rw [readMantissa_stop r _ hr (fun c hc => h c (by simp [List.mem_of_mem_head? hc]))
      (by rintro c hc rfl; exact absurd hc hd)] at hm
    refine ⟨ip, [], [], _, r, by simp, ?_, Or.inl ⟨rfl, rfl⟩, hm, rfl, ?_⟩
    · intro b hb
      exact (digit_iff b).2 (hip b (by simpa using hb))
    · cases ip <;> simp

theorem splitSign_split (s : Str) : ∃ sg, Spec.Sign sg (splitSign s).1 ∧ s = sg ++ (splitSign s).2 := by
  cases s with
  | nil => exact ⟨[], Or.inl ⟨rfl, rfl⟩, rfl⟩
  | cons c cs =>
    unfold splitSign
    simp only
    by_cases h1 : c = 43
    · rw [if_pos h1]; exact ⟨[43], Or.inr (Or.inl ⟨rfl, rfl⟩), by simp [h1]⟩
    · rw [if_neg h1]
      by_cases h2 : c = 45
      · rw [if_pos h2]; exact ⟨[45], Or.inr (Or.inr ⟨rfl, rfl⟩), by simp [h2]⟩
      · rw [if_neg h2]; exact ⟨[], Or.inl ⟨rfl, rfl⟩, rfl⟩

theorem readExpDigits_all (s : Str) (e : Nat) (u : Bool) (h : ∀ b ∈ s, b ≠ 95) (hr : (readExpDigits s e u).2.2 = []) :
    ∀ b ∈ s, isDigit b = true := by
  induction s generalizing e with
  | nil => simp
  | cons c s ih =>
    have h1 := h c (by simp)
    rw [readExpDigits, if_neg h1] at hr
    by_cases hc : isDigit c = true
    · rw [if_pos hc] at hr
      intro b hb
      rcases List.mem_cons.1 hb with rfl | hb
      · exact hc
      · exact ih _ (fun b hb => h b (by simp [hb])) hr b hb
    · rw [if_neg hc] at hr
      simp at hr

theorem lowerByte_e : ∀ c : Byte, lowerByte c = 101 → c = 101 ∨ c = 69 := forall_byte (by decide +kernel)

theorem lowerByte_x : ∀ c : Byte, c ≠ 120 → c ≠ 88 → lowerByte c ≠ 120 := forall_byte (by decide +kernel)

theorem parseExp_split (whole : Str) (neg : Bool) (st : ReadFloat) (ex : Str) (h : ∀ b ∈ ex, b ≠ 95)
    (hp : parseExp whole false neg st ex ≠ .error .syntax) : ∃ e, Spec.Exponent ex e := by
  cases ex with
  | nil => exact ⟨0, Or.inl ⟨rfl, rfl⟩⟩
  | cons c cs =>
    unfold parseExp at hp
    simp only [Bool.false_eq_true, if_false] at hp
    by_cases hc : lowerByte c = 101
    · rw [if_pos hc] at hp
      obtain ⟨sg, hsg, hcs⟩ := splitSign_split cs
      cases hes : (splitSign cs).2 with
      | nil => simp [hes] at hp
      | cons f fs =>
        simp only [hes] at hp
        by_cases hf : isDigit f = true
        · rw [if_pos hf] at hp
          by_cases hr : (readExpDigits (f :: fs) 0 st.underscores).2.2 = []
          · rw [hes] at hcs
            refine ⟨_, Or.inr ⟨c, sg, _, f :: fs, lowerByte_e c hc, hsg, by simp, ?_, by rw [← hcs], rfl⟩⟩
            intro b hb
            refine (digit_iff b).2 (readExpDigits_all (f :: fs) 0 _ ?_ hr b hb)
            intro b hb
            exact h b (List.mem_cons_of_mem _ (by rw [hcs]; exact List.mem_append_right _ hb))
          · rw [if_pos (by simpa using hr)] at hp
            exact absurd rfl hp
        · rw [if_neg hf] at hp
          exact absurd rfl hp
    · rw [if_neg hc] at hp
      exact absurd rfl hp

theorem rangeCheck_ne (x : F32) : rangeCheck x ≠ .error .syntax := by
  cases x <;> simp [rangeCheck]

theorem parseSpecial_iff (s : Str) : parseSpecial s ≠ none ↔ Spec.Special s := by
  unfold parseSpecial Spec.Special
  have : s.map asciiLower = s.map Spec.lowerCase := rfl
  rw [this]
  simp only
  generalize s.map Spec.lowerCase = l
  by_cases h1 : l = b!"nan"
  · simp [h1]
  · rw [if_neg h1]
    by_cases h2 : (decide (l = b!"inf") || decide (l = b!"infinity") || decide (l = b!"+inf") || decide (l = b!"+infinity")) = true
    · rw [if_pos h2]
      simp only [Bool.or_eq_true, decide_eq_true_eq] at h2
      simp only [List.mem_cons]
      constructor
      · intro; tauto
      · simp
    · rw [if_neg h2]
      by_cases h3 : (decide (l = b!"-inf") || decide (l = b!"-infinity")) = true
      · rw [if_pos h3]
        simp only [Bool.or_eq_true, decide_eq_true_eq] at h3
        simp only [List.mem_cons]
        constructor
        · intro; tauto
        · simp
      · rw [if_neg h3]
        simp only [Bool.or_eq_true, decide_eq_true_eq, not_or] at h2 h3
        simp only [List.mem_cons]
        constructor
        · simp
        · intro; simp_all

/-- **C61, the language.**  Without underscores and x, the decimal numbers and the words for infinities and NaN are read,
nothing else. -/
theorem C61_plain (s : Str) (h : ∀ b ∈ s, b ≠ 95 ∧ b ≠ 120 ∧ b ≠ 88) :
    parseFloat s ≠ .error .syntax ↔ (∃ neg ip fp e, Spec.Decimal s neg ip fp e) ∨ Spec.Special s := by
  constructor
  · intro hp
    by_cases hs : parseSpecial s = none
    · left
      unfold parseFloat at hp
      rw [hs] at hp
      simp only at hp
      obtain ⟨sg, hsg, hcs⟩ := splitSign_split s
      generalize (splitSign s).1 = neg at *
      generalize (splitSign s).2 = t at *
      have ht : ∀ b ∈ t, b ≠ 95 ∧ b ≠ 120 ∧ b ≠ 88 := fun b hb => h b (by rw [hcs]; exact List.mem_append_right _ hb)
      unfold parseUnsigned at hp
      rw [splitHex_false t (fun b hb => lowerByte_x b (ht b hb).2.1 (ht b hb).2.2)] at hp
      simp only at hp
      obtain ⟨ip, dot, fp, st, rest, rfl, hd, hdot, hm, hu, hsaw⟩ := mantissa_split t (fun b hb => (ht b hb).1)
      rw [hm] at hp
      simp only at hp
      by_cases hsd : st.sawDigits = true
      · rw [if_pos hsd] at hp
        obtain ⟨e, he⟩ := parseExp_split s neg st rest (fun b hb => (ht b (List.mem_append_right _ hb)).1) hp
        exact ⟨neg, ip, fp, e, sg, dot, rest, hsg, he, hd, hsaw hsd, hdot, by rw [hcs]; simp⟩
      · rw [if_neg hsd] at hp
        exact absurd rfl hp
    · exact Or.inr ((parseSpecial_iff s).1 hs)
  · rintro (⟨neg, ip, fp, e, hd⟩ | hs)
    · obtain ⟨eneg, n, -, hp⟩ := parseFloat_decimal s neg ip fp e hd
      rw [hp]
      exact rangeCheck_ne _
    · have := (parseSpecial_iff s).2 hs
      unfold parseFloat
      cases hv : parseSpecial s with
      | none => exact absurd hv this
      | some v => simp

/-- **C61 is violated**: words and forms outside of ST_Number are read as numbers. -/
theorem C61_schema_false :
    ∀ s ∈ ([b!"1.", b!"NaN", b!"-Infinity", b!"0x1p-2", b!"1_0"] : List Str),
      (∃ x, parseFloat s = .ok x) ∧ ¬∃ neg ip fp e, Spec.SchemaNumber s neg ip fp e := by
  have char : ∀ s neg ip fp e, Spec.SchemaNumber s neg ip fp e → ∀ b ∈ s, isDigit b = true ∨ b = 43 ∨ b = 45 ∨ b = 46 ∨ b = 101 ∨ b = 69 := by
    rintro s neg ip fp e ⟨sg, dot, ex, h1, h2, h3, -, h5, rfl⟩ b hb
    have sign : ∀ sg neg, Spec.Sign sg neg → ∀ b ∈ sg, b = 43 ∨ b = 45 := by
      rintro sg neg (⟨rfl, -⟩ | ⟨rfl, -⟩ | ⟨rfl, -⟩) b hb <;> simp at hb <;> simp [hb]
    simp only [List.mem_append] at hb
    rcases hb with (((hb | hb) | hb) | hb) | hb
    · rcases sign _ _ h1 b hb with h | h <;> simp [h]
    · exact Or.inl ((digit_iff b).1 (h3 b (by simp [hb])))
    · rcases h5 with ⟨rfl, -⟩ | ⟨rfl, -⟩ <;> simp at hb
      simp [hb]
    · exact Or.inl ((digit_iff b).1 (h3 b (by simp [hb])))
    · rcases h2 with ⟨rfl, -⟩ | ⟨c, sg', neg', ds, hc, hs, -, hd, rfl, -⟩
      · simp at hb
      · simp only [List.mem_cons, List.mem_append] at hb
        rcases hb with rfl | hb | hb
        · rcases hc with h | h <;> simp [h]
        · rcases sign _ _ hs b hb with h | h <;> simp [h]
        · exact Or.inl ((digit_iff b).1 (hd b hb))
  intro s hs
  have ok : ∀ s ∈ ([b!"1.", b!"NaN", b!"-Infinity", b!"0x1p-2", b!"1_0"] : List Str), (parseFloat s).isOk = true := by decide +kernel
  refine ⟨?_, ?_⟩
  · have := ok s hs
    cases hp : parseFloat s with
    | ok x => exact ⟨x, rfl⟩
    | error e => rw [hp] at this; simp [Except.isOk, Except.toBool] at this
  · rintro ⟨neg, ip, fp, e, hN⟩
    have hc := char s neg ip fp e hN
    simp only [List.mem_cons, List.not_mem_nil, or_false] at hs
    rcases hs with rfl | rfl | rfl | rfl | rfl
    · obtain ⟨sg, dot, ex, h1, h2, h3, h4, h5, h6⟩ := hN
      have hlast : ∃ l c, sg ++ ip ++ dot ++ fp ++ ex = l ++ [c] ∧ isDigit c = true := by
        rcases h2 with ⟨rfl, -⟩ | ⟨c, sg', neg', ds, -, -, hne, hd, rfl, -⟩
        · rcases h5 with ⟨rfl, rfl⟩ | ⟨-, h5⟩
          · have hne : ip ≠ [] := by simpa using h4
            refine ⟨sg ++ ip.dropLast, ip.getLast hne, ?_, (digit_iff _).1 (h3 _ (by simp))⟩
            simp [List.dropLast_append_getLast hne]
          · refine ⟨sg ++ ip ++ dot ++ fp.dropLast, fp.getLast h5, ?_, (digit_iff _).1 (h3 _ (by simp))⟩
            simp [List.dropLast_append_getLast h5]
        · refine ⟨sg ++ ip ++ dot ++ fp ++ c :: (sg' ++ ds.dropLast), ds.getLast hne, ?_, (digit_iff _).1 (hd _ (by simp))⟩
          simp [List.dropLast_append_getLast hne]
      obtain ⟨l, c, hl, hcd⟩ := hlast
      rw [hl] at h6
      have := List.append_inj_right' (s₁ := [49]) (t₁ := [46]) h6 rfl
      simp at this
      rw [← this] at hcd
      exact absurd hcd (by decide)
    · exact absurd (hc 78 (by decide)) (by decide)
    · exact absurd (hc 73 (by decide)) (by decide)
    · exact absurd (hc 120 (by decide)) (by decide)
    · exact absurd (hc 95 (by decide)) (by decide)

end Go3mf
