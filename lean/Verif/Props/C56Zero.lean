import Verif.Lemmas.NumOrder

/-! # C56: the sign of a sum that is zero -/

namespace Go3mf
open F32

/-- IEEE 754-2008, 6.3: a sum of finite numbers that is zero is negative exactly if both are negative. -/
theorem C56_zero {x y : F32} (hx : x.isFinite = true) (hy : y.isFinite = true) (h : x.key + y.key = 0) :
    (x.add y).isFinite = true ∧ (x.add y).key = 0 ∧ (x.add y).signBit = (x.signBit && y.signBit) := by
  cases x with
  | nan => simp [isFinite] at hx
  | inf s => simp [isFinite] at hx
  | fin s m hm =>
    cases y with
    | nan => simp [isFinite] at hy
    | inf s => simp [isFinite] at hy
    | fin t n hn =>
      simp only [add]
      rw [if_pos h]
      cases s <;> cases t <;> exact ⟨rfl, rfl, rfl⟩

/-- The hypotheses are met by zeros and by other numbers. -/
example : (mk true 0).isFinite = true ∧ (mk true 0).key + (mk true 0).key = 0 ∧ (mk true 5).key + (mk false 5).key = 0 := by
  decide

end Go3mf
