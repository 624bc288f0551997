import Verif.Props.C56

/-!
# C56: composition for all finite results

`C56_compose_partial` is exact for small integers.  Here the two ways to apply two transformations are compared for all
matrices and points with finite results: they differ by the rounding errors only.
-/

namespace Go3mf

/-- The error of a row with inexact coefficients. -/
theorem row_error {v1 v2 v3 C1 C2 C3 C4 P1 P2 P3 P4 S1 S2 S3 S4 L ε δ : ℚ} (hε : 0 ≤ ε)
    (hL : |L - (v1 * C1 + v2 * C2 + v3 * C3 + C4)| ≤ (|v1 * C1| + |v2 * C2| + |v3 * C3| + |C4|) * ε + δ)
    (h1 : |C1 - P1| ≤ S1 * ε + δ) (h2 : |C2 - P2| ≤ S2 * ε + δ) (h3 : |C3 - P3| ≤ S3 * ε + δ) (h4 : |C4 - P4| ≤ S4 * ε + δ)
    (b1 : |P1| ≤ S1) (b2 : |P2| ≤ S2) (b3 : |P3| ≤ S3) (b4 : |P4| ≤ S4) :
    |L - (v1 * P1 + v2 * P2 + v3 * P3 + P4)| ≤
      (|v1| * S1 + |v2| * S2 + |v3| * S3 + S4) * (2 * ε + ε * ε) + δ * ((|v1| + |v2| + |v3| + 1) * (1 + ε) + 1) := by
  have key : ∀ {C P S : ℚ}, |C - P| ≤ S * ε + δ → |P| ≤ S → |C| ≤ S * (1 + ε) + δ := by
    intro C P S h b
    have := abs_sub_abs_le_abs_sub C P
    linarith
  have t : ∀ {v C P S : ℚ}, |C - P| ≤ S * ε + δ → |v * C - v * P| ≤ |v| * (S * ε + δ) := by
    intro v C P S h
    rw [← mul_sub, abs_mul]
    exact mul_le_mul_of_nonneg_left h (abs_nonneg v)
  have u : ∀ {v C P S : ℚ}, |C - P| ≤ S * ε + δ → |P| ≤ S → |v * C| * ε ≤ |v| * (S * (1 + ε) + δ) * ε := by
    intro v C P S h b
    rw [abs_mul]
    exact mul_le_mul_of_nonneg_right (mul_le_mul_of_nonneg_left (key h b) (abs_nonneg v)) hε
  have u1 := u (v := v1) h1 b1
  have u2 := u (v := v2) h2 b2
  have u3 := u (v := v3) h3 b3
  have u4 := mul_le_mul_of_nonneg_right (key h4 b4) hε
  have t1 := t (v := v1) h1
  have t2 := t (v := v2) h2
  have t3 := t (v := v3) h3
  have e : L - (v1 * P1 + v2 * P2 + v3 * P3 + P4) =
      (L - (v1 * C1 + v2 * C2 + v3 * C3 + C4)) + (v1 * C1 - v1 * P1) + (v2 * C2 - v2 * P2) + (v3 * C3 - v3 * P3) + (C4 - P4) := by
    ring
  rw [e]
  refine (abs_add_le _ _).trans ?_
  have a1 := abs_add_le ((L - (v1 * C1 + v2 * C2 + v3 * C3 + C4)) + (v1 * C1 - v1 * P1) + (v2 * C2 - v2 * P2)) (v3 * C3 - v3 * P3)
  have a2 := abs_add_le ((L - (v1 * C1 + v2 * C2 + v3 * C3 + C4)) + (v1 * C1 - v1 * P1)) (v2 * C2 - v2 * P2)
  have a3 := abs_add_le (L - (v1 * C1 + v2 * C2 + v3 * C3 + C4)) (v1 * C1 - v1 * P1)
  nlinarith

/-- The matrix is that of an affine map. -/
def Spec.AffineMatrix (b : Matrix) : Prop := (∀ k : Fin 3, Spec.val b k.castSucc 3 = 0) ∧ Spec.val b 3 3 = 1

instance (b : Matrix) : Decidable (Spec.AffineMatrix b) := inferInstanceAs (Decidable (_ ∧ _))

/-- The sum of the absolute values of all products that enter in coordinate `i` of the point transformed twice. -/
def Spec.magnitude (a b : Matrix) (p : Point3D) (i : Fin 3) : ℚ :=
  (∑ k : Fin 3, ∑ j : Fin 3, |Spec.floatVal (Spec.coord p k)| * |Spec.val b k.castSucc j.castSucc| * |Spec.val a j.castSucc i.castSucc|) +
    (∑ j : Fin 3, |Spec.val b 3 j.castSucc| * |Spec.val a j.castSucc i.castSucc|) + |Spec.val a 3 i.castSucc|

theorem finite_mul3D {a : Matrix} {p : Point3D} {i : Fin 3} (hf : (Spec.coord (a.mul3D p) i).isFinite = true) :
    (∀ k : Fin 4, (Spec.elem a k i.castSucc).isFinite = true) ∧ ∀ k, (Spec.coord p k).isFinite = true := by
  have key : Spec.coord (a.mul3D p) i =
      F32.row (Spec.elem a 0 i.castSucc) (Spec.elem a 1 i.castSucc) (Spec.elem a 2 i.castSucc) (Spec.elem a 3 i.castSucc) p := by
    fin_cases i <;> rfl
  rw [key] at hf
  obtain ⟨f2, q⟩ := F32.finite_of_add hf
  obtain ⟨f1, p3⟩ := F32.finite_of_add f2
  obtain ⟨p1, p2⟩ := F32.finite_of_add f1
  obtain ⟨x1, y1⟩ := F32.finite_of_mul p1
  obtain ⟨x2, y2⟩ := F32.finite_of_mul p2
  obtain ⟨x3, y3⟩ := F32.finite_of_mul p3
  constructor
  · intro k; fin_cases k <;> assumption
  · intro k; fin_cases k <;> assumption

/-- **C56** (composition): if the second factor is affine, the point transformed with the product and the point transformed
twice differ by the rounding errors only, for all finite results. -/
theorem C56_compose_error {a b : Matrix} {p : Point3D} {i : Fin 3} (hb : Spec.AffineMatrix b)
    (hl : (Spec.coord ((a.mul b).mul3D p) i).isFinite = true) (hr : (Spec.coord (a.mul3D (b.mul3D p)) i).isFinite = true) :
    |Spec.floatVal (Spec.coord ((a.mul b).mul3D p) i) - Spec.floatVal (Spec.coord (a.mul3D (b.mul3D p)) i)| ≤
      Spec.magnitude a b p i / 2 ^ 18 +
        ((∑ k, |Spec.floatVal (Spec.coord p k)|) + (∑ k : Fin 3, |Spec.val a k.castSucc i.castSucc|) + 3) / 2 ^ 146 := by
  have fl := (finite_mul3D hl).1
  have fr := (finite_mul3D hr).2
  have L := C56_point_error (a.mul b) p i hl
  have R := C56_point_error a (b.mul3D p) i hr
  have C := fun k => C56_product_error a b k i.castSucc (fl k)
  have W := fun k => C56_point_error b p k (fr k)
  have bP : ∀ k, |Spec.product (Spec.val b) (Spec.val a) k i.castSucc| ≤ ∑ j, |Spec.val b k j * Spec.val a j i.castSucc| :=
    fun k => Finset.abs_sum_le_sum_abs _ _
  have bW : ∀ k : Fin 3, |Spec.rowImage (Spec.val b) (fun k => Spec.floatVal (Spec.coord p k)) k| ≤
      (∑ j : Fin 3, |Spec.floatVal (Spec.coord p j) * Spec.val b j.castSucc k.castSucc|) + |Spec.val b 3 k.castSucc| := by
    intro k
    unfold Spec.rowImage
    exact (abs_add_le _ _).trans (add_le_add_left (Finset.abs_sum_le_sum_abs _ _) _)
  obtain ⟨hb0, hb1⟩ := hb
  have h0 := hb0 0
  have h1 := hb0 1
  have h2 := hb0 2
  unfold Spec.magnitude
  generalize Spec.floatVal (Spec.coord ((a.mul b).mul3D p) i) = l at *
  generalize Spec.floatVal (Spec.coord (a.mul3D (b.mul3D p)) i) = r at *
  generalize Spec.val (a.mul b) = c at *
  have EL := row_error (ε := 1 / 2 ^ 21) (δ := 1 / 2 ^ 147) (L := l) (v1 := Spec.floatVal (Spec.coord p 0))
    (v2 := Spec.floatVal (Spec.coord p 1)) (v3 := Spec.floatVal (Spec.coord p 2)) (by norm_num)
    (by
      unfold Spec.rowImage at L
      rw [Fin.sum_univ_three, Fin.sum_univ_three] at L
      simp only [Fin.castSucc_zero, Fin.castSucc_one, show (2 : Fin 3).castSucc = (2 : Fin 4) from rfl] at L
      exact L.trans (le_of_eq (by ring)))
    ((C 0).trans (le_of_eq (by ring))) ((C 1).trans (le_of_eq (by ring))) ((C 2).trans (le_of_eq (by ring)))
    ((C 3).trans (le_of_eq (by ring))) (bP 0) (bP 1) (bP 2) (bP 3)
  have ER := row_error (ε := 1 / 2 ^ 21) (δ := 1 / 2 ^ 147) (L := r) (v1 := Spec.val a 0 i.castSucc)
    (v2 := Spec.val a 1 i.castSucc) (v3 := Spec.val a 2 i.castSucc) (C1 := Spec.floatVal (Spec.coord (b.mul3D p) 0))
    (C2 := Spec.floatVal (Spec.coord (b.mul3D p) 1)) (C3 := Spec.floatVal (Spec.coord (b.mul3D p) 2))
    (C4 := Spec.val a 3 i.castSucc) (P4 := Spec.val a 3 i.castSucc) (S4 := |Spec.val a 3 i.castSucc|) (by norm_num)
    (by
      unfold Spec.rowImage at R
      rw [Fin.sum_univ_three, Fin.sum_univ_three] at R
      simp only [mul_comm (Spec.floatVal (Spec.coord (b.mul3D p) _)), Fin.castSucc_zero, Fin.castSucc_one,
        show (2 : Fin 3).castSucc = (2 : Fin 4) from rfl] at R
      exact R.trans (le_of_eq (by ring)))
    ((W 0).trans (le_of_eq (by ring))) ((W 1).trans (le_of_eq (by ring))) ((W 2).trans (le_of_eq (by ring)))
    (by rw [sub_self, abs_zero]; positivity) (bW 0) (bW 1) (bW 2) le_rfl
  clear C W bP bW L R
  simp only [Spec.rowImage, Spec.product, Fin.sum_univ_three, Fin.sum_univ_four, abs_mul, Fin.castSucc_zero, Fin.castSucc_one,
    show (2 : Fin 3).castSucc = (2 : Fin 4) from rfl] at EL ER h0 h1 h2 ⊢
  rw [h0, h1, h2, hb1, abs_zero, abs_one] at EL
  generalize Spec.floatVal (Spec.coord p 0) = x at *
  generalize Spec.floatVal (Spec.coord p 1) = y at *
  generalize Spec.floatVal (Spec.coord p 2) = z at *
  clear fl fr hb0 hl hr
  generalize Spec.val a 0 i.castSucc = a0 at *
  generalize Spec.val a 1 i.castSucc = a1 at *
  generalize Spec.val a 2 i.castSucc = a2 at *
  generalize Spec.val a 3 i.castSucc = a3 at *
  generalize Spec.val b = B at *
  have e : x * (B 0 0 * a0 + B 0 1 * a1 + B 0 2 * a2 + 0 * a3) + y * (B 1 0 * a0 + B 1 1 * a1 + B 1 2 * a2 + 0 * a3) +
      z * (B 2 0 * a0 + B 2 1 * a1 + B 2 2 * a2 + 0 * a3) + (B 3 0 * a0 + B 3 1 * a1 + B 3 2 * a2 + 1 * a3) =
      a0 * (x * B 0 0 + y * B 1 0 + z * B 2 0 + B 3 0) + a1 * (x * B 0 1 + y * B 1 1 + z * B 2 1 + B 3 1) +
      a2 * (x * B 0 2 + y * B 1 2 + z * B 2 2 + B 3 2) + a3 := by ring
  rw [e] at EL
  refine (abs_sub_le l _ r).trans ((add_le_add EL ((abs_sub_comm _ _).trans_le ER)).trans ?_)
  have hM : 0 ≤ |x| * |B 0 0| * |a0| + |x| * |B 0 1| * |a1| + |x| * |B 0 2| * |a2| +
      (|y| * |B 1 0| * |a0| + |y| * |B 1 1| * |a1| + |y| * |B 1 2| * |a2|) +
      (|z| * |B 2 0| * |a0| + |z| * |B 2 1| * |a1| + |z| * |B 2 2| * |a2|) +
      (|B 3 0| * |a0| + |B 3 1| * |a1| + |B 3 2| * |a2|) + |a3| := by positivity
  have hV : 0 ≤ |x| + |y| + |z| := by positivity
  have hU : 0 ≤ |a0| + |a1| + |a2| := by positivity
  linarith

/-! ## Non-vacuity -/

/-- Coordinates that are not exact: the two results differ, and the theorem applies. -/
def tenth : F32 := F32.ofRat false scale 10

def third : F32 := F32.ofRat false scale 3

def turnTenth : Matrix := ⟨tenth, third, .zero, .zero, third, tenth, tenth, .zero, tenth, third, third, .zero, third, tenth, third, .one⟩

example : Spec.AffineMatrix turnTenth ∧
    (Spec.coord ((turnTenth.mul turnTenth).mul3D ⟨tenth, third, third⟩) 0).isFinite = true ∧
    (Spec.coord (turnTenth.mul3D (turnTenth.mul3D ⟨tenth, third, third⟩)) 0).isFinite = true := by
  decide +kernel

end Go3mf
