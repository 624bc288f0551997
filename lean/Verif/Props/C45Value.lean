import Verif.Lemmas.NumRat
import Verif.Lemmas.NumOrder
import Verif.Props.C45
import Mathlib.Tactic.Ring
import Mathlib.Tactic.NormNum

/-!
# C45: the coordinates of binary STL files

C45 is stated with the numbers that `math.Float32frombits` gives.  Here is what they are: the numbers of IEEE 754.
-/

namespace Go3mf
open F32

/-- The bits of a number in single precision: sign, exponent, fraction. -/
def Spec.singleBits (s : Bool) (e m : Nat) : UInt32 := UInt32.ofNat ((if s then 2 ^ 31 else 0) + e * 2 ^ 23 + m)

/-- IEEE 754-2008, 3.4: the value of a number in single precision. -/
def Spec.singleValue (s : Bool) (e m : Nat) : ℚ :=
  (if s then -1 else 1) * (if e = 0 then (m : ℚ) / 2 ^ 23 * (2 : ℚ) ^ (-126 : ℤ) else (1 + (m : ℚ) / 2 ^ 23) * (2 : ℚ) ^ ((e : ℤ) - 127))

theorem log2_single {m : Nat} (hm : m < 2 ^ 23) (k : Nat) : Nat.log2 ((2 ^ 23 + m) * 2 ^ k) = 23 + k := by
  have h0 : (2 ^ 23 + m) * 2 ^ k ≠ 0 := by positivity
  rw [Nat.log2_eq_iff h0]
  constructor
  · rw [Nat.pow_add]; exact Nat.mul_le_mul_right _ (by omega)
  · rw [show 23 + k + 1 = 24 + k by omega, Nat.pow_add]
    exact Nat.mul_lt_mul_of_pos_right (by omega) (by positivity)

theorem rep_normal {m e : Nat} (hm : m < 2 ^ 23) (he : e < 254) : Rep ((2 ^ 23 + m) * 2 ^ e) := by
  refine ⟨?_, ?_⟩
  · unfold maxMag
    exact Nat.mul_le_mul (by omega) (Nat.pow_le_pow_right (by decide) (by omega))
  · rw [ulp, log2_single hm]
    rw [show 23 + e - 23 = e by omega]
    exact Dvd.intro_left _ rfl

theorem rep_subnormal {m : Nat} (hm : m < 2 ^ 23) : Rep m := by
  refine ⟨?_, ?_⟩
  · unfold maxMag
    calc m ≤ (2 ^ 24 - 1) * 1 := by omega
      _ ≤ _ := Nat.mul_le_mul_left _ (Nat.one_le_two_pow)
  · have : Nat.log2 m < 23 := by
      rcases Nat.eq_zero_or_pos m with rfl | h
      · decide
      · exact (Nat.log2_lt (by omega)).2 hm
    rw [ulp, show Nat.log2 m - 23 = 0 by omega]
    simp

theorem singleBits_toNat {s : Bool} {e m : Nat} (he : e < 256) (hm : m < 2 ^ 23) :
    (Spec.singleBits s e m).toNat = (if s then 2 ^ 31 else 0) + e * 2 ^ 23 + m := by
  rw [Spec.singleBits, UInt32.toNat_ofNat']
  apply Nat.mod_eq_of_lt
  cases s <;> simp <;> omega

theorem ofBits_single {s : Bool} {e m : Nat} (he : e < 256) (hm : m < 2 ^ 23) :
    ofBits (Spec.singleBits s e m) =
      if e = 255 then (if m = 0 then .inf s else .nan)
      else if e = 0 then mk s m else mk s ((2 ^ 23 + m) * 2 ^ (e - 1)) := by
  have hn := singleBits_toNat (s := s) he hm
  have h1 : decide ((Spec.singleBits s e m).toNat ≥ 2 ^ 31) = s := by
    rw [hn]; cases s <;> simp <;> omega
  have h2 : (Spec.singleBits s e m).toNat / 2 ^ 23 % 256 = e := by
    rw [hn]; cases s <;> simp <;> omega
  have h3 : (Spec.singleBits s e m).toNat % 2 ^ 23 = m := by
    rw [hn]; cases s <;> simp <;> omega
  simp only [ofBits, h1, h2, h3]

/-- Every four bytes are the bits of a number in single precision. -/
theorem C45_bits (u : UInt32) : ∃ s e m, e < 256 ∧ m < 2 ^ 23 ∧ u = Spec.singleBits s e m := by
  refine ⟨decide (u.toNat ≥ 2 ^ 31), u.toNat / 2 ^ 23 % 256, u.toNat % 2 ^ 23, Nat.mod_lt _ (by decide), Nat.mod_lt _ (by decide), ?_⟩
  rw [← UInt32.toNat_inj, singleBits_toNat (Nat.mod_lt _ (by decide)) (Nat.mod_lt _ (by decide))]
  have := u.toNat_lt
  by_cases h : u.toNat ≥ 2 ^ 31
  · rw [decide_eq_true h, if_pos rfl]; omega
  · rw [decide_eq_false h, if_neg (by simp)]; omega

/-- The coordinates that are read are the numbers of IEEE 754: normal and subnormal numbers and zeros with their signs,
infinities, and NaN. -/
theorem C45_value (s : Bool) (e m : Nat) (he : e < 256) (hm : m < 2 ^ 23) :
    (e < 255 → (ofBits (Spec.singleBits s e m)).isFinite = true ∧ (ofBits (Spec.singleBits s e m)).signBit = s ∧
      Spec.floatVal (ofBits (Spec.singleBits s e m)) = Spec.singleValue s e m) ∧
    (e = 255 → m = 0 → ofBits (Spec.singleBits s e m) = .inf s) ∧
    (e = 255 → m ≠ 0 → ofBits (Spec.singleBits s e m) = .nan) := by
  rw [ofBits_single he hm]
  refine ⟨fun h => ?_, fun h1 h2 => by simp [h1, h2], fun h1 h2 => by simp [h1, h2]⟩
  rw [if_neg (by omega)]
  by_cases h0 : e = 0
  · rw [if_pos h0, mk_of_rep _ _ (rep_subnormal hm)]
    refine ⟨rfl, rfl, ?_⟩
    rw [floatVal_fin, Spec.singleValue, if_pos h0]
    simp only [scale]
    cases s <;> simp <;> ring
  · rw [if_neg h0, mk_of_rep _ _ (rep_normal hm (by omega))]
    refine ⟨rfl, rfl, ?_⟩
    rw [floatVal_fin, Spec.singleValue, if_neg h0]
    obtain ⟨k, rfl⟩ : ∃ k, e = k + 1 := ⟨e - 1, by omega⟩
    have : (2 : ℚ) ^ (((k + 1 : ℕ) : ℤ) - 127) = 2 ^ k / 2 ^ 126 := by
      rw [show ((k + 1 : ℕ) : ℤ) - 127 = (k : ℤ) - 126 by push_cast; ring, zpow_sub₀ (by norm_num)]
      norm_cast
    rw [this]
    simp only [scale]
    cases s <;> simp <;> ring

/-- A subnormal number. -/
example : Spec.floatVal (ofBits 1) = 1 / 2 ^ 149 := by
  have := ((C45_value false 0 1 (by decide) (by decide)).1 (by decide)).2.2
  rw [show Spec.singleBits false 0 1 = 1 from rfl] at this
  rw [this]
  norm_num [Spec.singleValue]

end Go3mf
