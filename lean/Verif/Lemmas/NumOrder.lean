import Verif.Lemmas.NumText

/-!
# Order and monotonicity of float32 operations
-/

namespace Go3mf.F32

theorem mk_of_rep (neg : Bool) (mag : Nat) (h : Rep mag) : mk neg mag = .fin neg mag h := by
  simp [mk, h]

theorem isFinite_iff (x : F32) : x.isFinite = true ↔ ∃ n m h, x = .fin n m h := by
  cases x with
  | fin n m h => simp [isFinite, h]
  | _ => simp [isFinite]

theorem not_nan_of_finite {x : F32} (h : x.isFinite = true) : x.isNaN = false := by
  cases x <;> simp_all [isFinite, isNaN]

/-- `x ≤ y` as numbers; false if one is NaN. -/
theorem le_iff (x y : F32) : x.le y = true ↔ x.isNaN = false ∧ y.isNaN = false ∧ x.key ≤ y.key := by
  simp [le, and_assoc]

theorem lt_iff (x y : F32) : x.lt y = true ↔ x.isNaN = false ∧ y.isNaN = false ∧ x.key < y.key := by
  simp [lt, and_assoc]

theorem key_abs_le {x : F32} (h : x.isFinite = true) : |x.key| ≤ maxMag := by
  obtain ⟨n, m, hr, rfl⟩ := (isFinite_iff x).1 h
  have := hr.1
  cases n <;> simp only [key, if_true, if_false, abs_neg, Nat.abs_cast, Bool.false_eq_true] <;> exact_mod_cast this

/-- Signed rounding of `k / b`. -/
def sround (k : Int) (b : Nat) : Int := if k < 0 then -(roundMag k.natAbs b : Int) else roundMag k.natAbs b

theorem sround_mono {k k' : Int} {b : Nat} (hb : 0 < b) (h : k ≤ k') : sround k b ≤ sround k' b := by
  unfold sround
  by_cases h1 : k < 0 <;> by_cases h2 : k' < 0
  · rw [if_pos h1, if_pos h2]
    have : roundMag k'.natAbs b ≤ roundMag k.natAbs b := roundMag_mono hb (by omega)
    omega
  · rw [if_pos h1, if_neg h2]; omega
  · omega
  · rw [if_neg h1, if_neg h2]
    have : roundMag k.natAbs b ≤ roundMag k'.natAbs b := roundMag_mono hb (by omega)
    omega

theorem ofRat_finite (neg : Bool) (a b : Nat) (hb : 0 < b) : (ofRat neg a b).isFinite = true ↔ roundMag a b ≤ maxMag := by
  unfold ofRat
  simp only
  split
  next h => rw [mk_of_rep _ _ (rep_roundMag a b hb h)]; simp [isFinite, h]
  next h => simp [isFinite, h]

theorem ofRat_key (neg : Bool) (a b : Nat) (hb : 0 < b) (h : roundMag a b ≤ maxMag) :
    (ofRat neg a b).key = if neg then -(roundMag a b : Int) else roundMag a b := by
  unfold ofRat
  simp only [h, if_true]
  rw [mk_of_rep _ _ (rep_roundMag a b hb h)]
  rfl

theorem roundMag_zero (b : Nat) (hb : 0 < b) : roundMag 0 b = 0 := by
  have := roundMag_exact 0 b hb (by simp)
  simpa using this

/-- A product is the rounding of the exact product. -/
theorem mul_spec (x y : F32) (hx : x.isFinite = true) (hy : y.isFinite = true) :
    ((x.mul y).isFinite = true ↔ |sround (x.key * y.key) scale| ≤ maxMag) ∧
    ((x.mul y).isFinite = true → (x.mul y).key = sround (x.key * y.key) scale) := by
  obtain ⟨s, m, hm, rfl⟩ := (isFinite_iff x).1 hx
  obtain ⟨t, n, hn, rfl⟩ := (isFinite_iff y).1 hy
  have hab : (key (.fin s m hm) * key (.fin t n hn)).natAbs = m * n := by
    cases s <;> cases t <;> simp [key, Int.natAbs_mul]
  have hsg : sround (key (.fin s m hm) * key (.fin t n hn)) scale =
      if (s != t) then -(roundMag (m * n) scale : Int) else roundMag (m * n) scale := by
    unfold sround
    rw [hab]
    by_cases h0 : m * n = 0
    · rw [h0, roundMag_zero _ scale_pos]; simp
    · have hp : (0 : Int) < (m : Int) * n := by
        have : 0 < m * n := Nat.pos_of_ne_zero h0
        exact_mod_cast this
      cases s <;> cases t <;> simp [key] <;> omega
  simp only [mul]
  rw [ofRat_finite _ _ _ scale_pos, hsg]
  constructor
  · cases (s != t) <;> simp
  · intro h; exact ofRat_key _ _ _ scale_pos h

/-- A sum is the rounding of the exact sum. -/
theorem add_spec (x y : F32) (hx : x.isFinite = true) (hy : y.isFinite = true) :
    ((x.add y).isFinite = true ↔ |sround (x.key + y.key) 1| ≤ maxMag) ∧
    ((x.add y).isFinite = true → (x.add y).key = sround (x.key + y.key) 1) := by
  obtain ⟨s, m, hm, rfl⟩ := (isFinite_iff x).1 hx
  obtain ⟨t, n, hn, rfl⟩ := (isFinite_iff y).1 hy
  simp only [add]
  generalize hk : key (.fin s m hm) + key (.fin t n hn) = k
  split
  next h0 =>
    have hz : sround k 1 = 0 := by rw [h0]; simp [sround, roundMag_zero]
    rw [hz]
    have hr : Rep 0 := by decide
    split
    · rw [mk_of_rep _ _ hr]; simp [isFinite, key]
    · simp [zero, isFinite, key]
  next h0 =>
    rw [ofRat_finite _ _ _ Nat.one_pos]
    have hsg : sround k 1 = if decide (k < 0) then -(roundMag k.natAbs 1 : Int) else roundMag k.natAbs 1 := by
      unfold sround
      by_cases hk : k < 0 <;> simp [hk]
    rw [hsg]
    constructor
    · by_cases hk : k < 0 <;> simp [hk]
    · intro h; exact ofRat_key _ _ _ Nat.one_pos h

theorem finite_of_add {x y : F32} (h : (x.add y).isFinite = true) : x.isFinite = true ∧ y.isFinite = true := by
  cases x <;> cases y <;> simp_all [add, isFinite]
  split at h
  next he => split at he <;> cases he
  next => cases h

theorem finite_of_mul {x y : F32} (h : (x.mul y).isFinite = true) : x.isFinite = true ∧ y.isFinite = true := by
  cases x <;> cases y <;> simp_all [mul, isFinite]
  all_goals
    split at h
    next he => split at he <;> cases he
    next => cases h

/-- `y` is finite and between the finite `x` and `z`. -/
def Btw (x y z : F32) : Prop :=
  x.isFinite = true ∧ y.isFinite = true ∧ z.isFinite = true ∧ x.key ≤ y.key ∧ y.key ≤ z.key

theorem btw_round {a b c : Int} {d : Nat} (hd : 0 < d) (h1 : a ≤ b) (h2 : b ≤ c) (ha : |sround a d| ≤ maxMag)
    (hc : |sround c d| ≤ maxMag) : |sround b d| ≤ maxMag := by
  have := sround_mono hd h1
  have := sround_mono hd h2
  rw [abs_le] at *
  omega

theorem btw_add {x y z x' y' z' : F32} (h : Btw x y z) (h' : Btw x' y' z') (h1 : (x.add x').isFinite = true)
    (h2 : (z.add z').isFinite = true) : Btw (x.add x') (y.add y') (z.add z') := by
  obtain ⟨a1, a2, a3, a4, a5⟩ := h
  obtain ⟨b1, b2, b3, b4, b5⟩ := h'
  have k1 : x.key + x'.key ≤ y.key + y'.key := by omega
  have k2 : y.key + y'.key ≤ z.key + z'.key := by omega
  have hf : (y.add y').isFinite = true := by
    rw [(add_spec y y' a2 b2).1]
    exact btw_round Nat.one_pos k1 k2 ((add_spec _ _ a1 b1).1.1 h1) ((add_spec _ _ a3 b3).1.1 h2)
  refine ⟨h1, hf, h2, ?_, ?_⟩
  · rw [(add_spec _ _ a1 b1).2 h1, (add_spec _ _ a2 b2).2 hf]
    exact sround_mono Nat.one_pos k1
  · rw [(add_spec _ _ a3 b3).2 h2, (add_spec _ _ a2 b2).2 hf]
    exact sround_mono Nat.one_pos k2

theorem btw_mul_nonneg {c x y z : F32} (hc : 0 ≤ c.key) (h : Btw x y z) (h1 : (c.mul x).isFinite = true)
    (h2 : (c.mul z).isFinite = true) : Btw (c.mul x) (c.mul y) (c.mul z) := by
  obtain ⟨a1, a2, a3, a4, a5⟩ := h
  have hcf := (finite_of_mul h1).1
  have k1 : c.key * x.key ≤ c.key * y.key := Int.mul_le_mul_of_nonneg_left a4 hc
  have k2 : c.key * y.key ≤ c.key * z.key := Int.mul_le_mul_of_nonneg_left a5 hc
  have hf : (c.mul y).isFinite = true := by
    rw [(mul_spec c y hcf a2).1]
    exact btw_round scale_pos k1 k2 ((mul_spec _ _ hcf a1).1.1 h1) ((mul_spec _ _ hcf a3).1.1 h2)
  refine ⟨h1, hf, h2, ?_, ?_⟩
  · rw [(mul_spec _ _ hcf a1).2 h1, (mul_spec _ _ hcf a2).2 hf]
    exact sround_mono scale_pos k1
  · rw [(mul_spec _ _ hcf a3).2 h2, (mul_spec _ _ hcf a2).2 hf]
    exact sround_mono scale_pos k2

theorem btw_mul_nonpos {c x y z : F32} (hc : c.key ≤ 0) (h : Btw x y z) (h1 : (c.mul x).isFinite = true)
    (h2 : (c.mul z).isFinite = true) : Btw (c.mul z) (c.mul y) (c.mul x) := by
  obtain ⟨a1, a2, a3, a4, a5⟩ := h
  have hcf := (finite_of_mul h1).1
  have k1 : c.key * y.key ≤ c.key * x.key := Int.mul_le_mul_of_nonpos_left hc a4
  have k2 : c.key * z.key ≤ c.key * y.key := Int.mul_le_mul_of_nonpos_left hc a5
  have hf : (c.mul y).isFinite = true := by
    rw [(mul_spec c y hcf a2).1]
    exact btw_round scale_pos k2 k1 ((mul_spec _ _ hcf a3).1.1 h2) ((mul_spec _ _ hcf a1).1.1 h1)
  refine ⟨h2, hf, h1, ?_, ?_⟩
  · rw [(mul_spec _ _ hcf a3).2 h2, (mul_spec _ _ hcf a2).2 hf]
    exact sround_mono scale_pos k2
  · rw [(mul_spec _ _ hcf a1).2 h1, (mul_spec _ _ hcf a2).2 hf]
    exact sround_mono scale_pos k1

end Go3mf.F32
