import Verif.Model.Matrix
import Verif.Lemmas.NumErr
import Mathlib.Algebra.BigOperators.Fin
import Mathlib.Tactic.FinCases

/-!
# C56: transforms compose
-/

namespace Go3mf

/-! ## Specification -/

/-- The sixteen numbers of a matrix in the order of the Go array. -/
def Spec.elems (m : Matrix) : List F32 :=
  [m.m0, m.m1, m.m2, m.m3, m.m4, m.m5, m.m6, m.m7, m.m8, m.m9, m.m10, m.m11, m.m12, m.m13, m.m14, m.m15]

/-- Row `r`, column `c` in the documented layout: `m[4*r + c]`. -/
def Spec.elem (m : Matrix) (r c : Fin 4) : F32 := (Spec.elems m).getD (4 * r.val + c.val) .nan

/-- Coordinate of a point. -/
def Spec.coord (p : Point3D) (i : Fin 3) : F32 := [p.x, p.y, p.z].getD i.val .nan

/-- The exact numbers of the matrix are those of the integer matrix. -/
def Spec.Represents (m : Matrix) (A : Fin 4 → Fin 4 → ℤ) : Prop := ∀ r c, Spec.IsInt (Spec.elem m r c) (A r c)

def Spec.RepPoint (p : Point3D) (v : Fin 3 → ℤ) : Prop := ∀ i, Spec.IsInt (Spec.coord p i) (v i)

/-- The product of two matrices. -/
def Spec.product {R : Type} [CommRing R] (A B : Fin 4 → Fin 4 → R) (r c : Fin 4) : R := ∑ k, A r k * B k c

/-- The row vector `(v, 1)` times the matrix, first three columns. -/
def Spec.rowImage {R : Type} [CommRing R] (A : Fin 4 → Fin 4 → R) (v : Fin 3 → R) (i : Fin 3) : R :=
  (∑ k : Fin 3, v k * A k.castSucc i.castSucc) + A 3 i.castSucc

/-- All numbers of the matrix are finite. -/
def Spec.FiniteMatrix (m : Matrix) : Prop := ∀ r c, (Spec.elem m r c).isFinite = true

def Spec.FiniteCoords (p : Point3D) : Prop := ∀ i, (Spec.coord p i).isFinite = true

/-- The last column is that of an affine map. -/
def Spec.Affine (B : Fin 4 → Fin 4 → ℤ) : Prop := (∀ k : Fin 3, B k.castSucc 3 = 0) ∧ B 3 3 = 1

/-! ## Exact integer arithmetic -/

theorem abs_mul_le {a b m n : ℤ} (ha : |a| ≤ m) (hb : |b| ≤ n) : |a * b| ≤ m * n := by
  rw [abs_mul]
  exact mul_le_mul ha hb (abs_nonneg _) (le_trans (abs_nonneg _) ha)

/-- A sum of four products of integers. -/
theorem dot4_int {a b c d e f g h : F32} {a' b' c' d' e' f' g' h' : ℤ} (m n : ℤ) (hmn : 4 * (m * n) ≤ 2 ^ 24)
    (ha : Spec.IsInt a a') (hb : Spec.IsInt b b') (hc : Spec.IsInt c c') (hd : Spec.IsInt d d')
    (he : Spec.IsInt e e') (hf : Spec.IsInt f f') (hg : Spec.IsInt g g') (hh : Spec.IsInt h h')
    (ba : |a'| ≤ m) (bb : |b'| ≤ n) (bc : |c'| ≤ m) (bd : |d'| ≤ n) (be : |e'| ≤ m) (bf : |f'| ≤ n) (bg : |g'| ≤ m)
    (bh : |h'| ≤ n) :
    Spec.IsInt (F32.dot4 a b c d e f g h) (a' * b' + c' * d' + e' * f' + g' * h') := by
  have h1 := abs_mul_le ba bb
  have h2 := abs_mul_le bc bd
  have h3 := abs_mul_le be bf
  have h4 := abs_mul_le bg bh
  have h0 := (abs_nonneg _).trans h1
  have s2 := abs_add_le (a' * b') (c' * d')
  have s3 := abs_add_le (a' * b' + c' * d') (e' * f')
  have s4 := abs_add_le (a' * b' + c' * d' + e' * f') (g' * h')
  unfold F32.dot4
  exact isInt_add (isInt_add (isInt_add (isInt_mul ha hb (by linarith)) (isInt_mul hc hd (by linarith)) (by linarith))
    (isInt_mul he hf (by linarith)) (by linarith)) (isInt_mul hg hh (by linarith)) (by linarith)

theorem row_int {a b c d : F32} {p : Point3D} {a' b' c' d' x y z : ℤ} (m n k : ℤ) (hmn : 3 * (m * n) + k ≤ 2 ^ 24)
    (ha : Spec.IsInt a a') (hb : Spec.IsInt b b') (hc : Spec.IsInt c c') (hd : Spec.IsInt d d')
    (hx : Spec.IsInt p.x x) (hy : Spec.IsInt p.y y) (hz : Spec.IsInt p.z z)
    (ba : |a'| ≤ m) (bb : |b'| ≤ m) (bc : |c'| ≤ m) (bd : |d'| ≤ k) (bx : |x| ≤ n) (bY : |y| ≤ n) (bz : |z| ≤ n) :
    Spec.IsInt (F32.row a b c d p) (a' * x + b' * y + c' * z + d') := by
  have h1 := abs_mul_le ba bx
  have h2 := abs_mul_le bb bY
  have h3 := abs_mul_le bc bz
  have h0 := (abs_nonneg _).trans h1
  have hk := (abs_nonneg _).trans bd
  have s2 := abs_add_le (a' * x) (b' * y)
  have s3 := abs_add_le (a' * x + b' * y) (c' * z)
  have s4 := abs_add_le (a' * x + b' * y + c' * z) d'
  unfold F32.row
  exact isInt_add (isInt_add (isInt_add (isInt_mul ha hx (by linarith)) (isInt_mul hb hy (by linarith)) (by linarith))
    (isInt_mul hc hz (by linarith)) (by linarith)) hd (by linarith)

/-- The product with general bounds. -/
theorem product_int {a b : Matrix} {A B : Fin 4 → Fin 4 → ℤ} (m n : ℤ) (hmn : 4 * (m * n) ≤ 2 ^ 24)
    (ha : Spec.Represents a A) (hb : Spec.Represents b B) (bA : ∀ r c, |A r c| ≤ m) (bB : ∀ r c, |B r c| ≤ n) :
    Spec.Represents (a.mul b) (Spec.product B A) := by
  have key : ∀ r c : Fin 4, Spec.elem (a.mul b) r c =
      F32.dot4 (Spec.elem a 0 c) (Spec.elem b r 0) (Spec.elem a 1 c) (Spec.elem b r 1)
        (Spec.elem a 2 c) (Spec.elem b r 2) (Spec.elem a 3 c) (Spec.elem b r 3) := by
    intro r c; fin_cases r <;> fin_cases c <;> rfl
  intro r c
  have e : Spec.product B A r c = A 0 c * B r 0 + A 1 c * B r 1 + A 2 c * B r 2 + A 3 c * B r 3 := by
    unfold Spec.product; rw [Fin.sum_univ_four]; ring
  rw [key, e]
  exact dot4_int m n hmn (ha 0 c) (hb r 0) (ha 1 c) (hb r 1) (ha 2 c) (hb r 2) (ha 3 c) (hb r 3) (bA 0 c) (bB r 0)
    (bA 1 c) (bB r 1) (bA 2 c) (bB r 2) (bA 3 c) (bB r 3)

/-- C56: `Mul` is the matrix product, exact for integers up to 2048 in absolute value.  In the documented layout the
factors are exchanged: `a.Mul(b)` is `b · a`. -/
theorem C56_product {a b : Matrix} {A B : Fin 4 → Fin 4 → ℤ} (ha : Spec.Represents a A) (hb : Spec.Represents b B)
    (bA : ∀ r c, |A r c| ≤ 2 ^ 11) (bB : ∀ r c, |B r c| ≤ 2 ^ 11) :
    Spec.Represents (a.mul b) (Spec.product B A) :=
  product_int (2 ^ 11) (2 ^ 11) (by norm_num) ha hb bA bB

theorem image_int {a : Matrix} {A : Fin 4 → Fin 4 → ℤ} {p : Point3D} {v : Fin 3 → ℤ} (m n k : ℤ)
    (hmn : 3 * (m * n) + k ≤ 2 ^ 24) (ha : Spec.Represents a A) (hp : Spec.RepPoint p v)
    (bA : ∀ (r c : Fin 3), |A r.castSucc c.castSucc| ≤ m) (bT : ∀ c : Fin 3, |A 3 c.castSucc| ≤ k) (bv : ∀ i, |v i| ≤ n) :
    Spec.RepPoint (a.mul3D p) (Spec.rowImage A v) := by
  have key : ∀ i : Fin 3, Spec.coord (a.mul3D p) i =
      F32.row (Spec.elem a 0 i.castSucc) (Spec.elem a 1 i.castSucc) (Spec.elem a 2 i.castSucc) (Spec.elem a 3 i.castSucc) p := by
    intro i; fin_cases i <;> rfl
  intro i
  have e : Spec.rowImage A v i =
      A 0 i.castSucc * v 0 + A 1 i.castSucc * v 1 + A 2 i.castSucc * v 2 + A 3 i.castSucc := by
    unfold Spec.rowImage
    rw [Fin.sum_univ_three]
    simp only [Fin.castSucc_zero, Fin.castSucc_one]
    rw [show (2 : Fin 3).castSucc = (2 : Fin 4) from rfl]
    ring
  rw [key, e]
  exact row_int m n k hmn (ha 0 _) (ha 1 _) (ha 2 _) (ha 3 _) (hp 0) (hp 1) (hp 2) (bA 0 i) (bA 1 i) (bA 2 i) (bT i)
    (bv 0) (bv 1) (bv 2)

/-- C56: `Mul3D` maps the row vector `(x, y, z, 1)`, exact for integers. -/
theorem C56_point {a : Matrix} {A : Fin 4 → Fin 4 → ℤ} {p : Point3D} {v : Fin 3 → ℤ} (ha : Spec.Represents a A)
    (hp : Spec.RepPoint p v) (bA : ∀ r c, |A r c| ≤ 2 ^ 11) (bv : ∀ i, |v i| ≤ 2 ^ 11) :
    Spec.RepPoint (a.mul3D p) (Spec.rowImage A v) :=
  image_int (2 ^ 11) (2 ^ 11) (2 ^ 11) (by norm_num) ha hp (fun _ _ => bA _ _) (fun _ => bA _ _) bv

/-- The image under the product is the image of the image. -/
theorem image_product {A B : Fin 4 → Fin 4 → ℤ} (v : Fin 3 → ℤ) (hB : Spec.Affine B) :
    Spec.rowImage (Spec.product B A) v = Spec.rowImage A (Spec.rowImage B v) := by
  funext i
  obtain ⟨h, h3⟩ := hB
  have h0 := h 0
  have h1 := h 1
  have h2 := h 2
  have c2 : (2 : Fin 3).castSucc = (2 : Fin 4) := rfl
  simp only [Fin.castSucc_zero, Fin.castSucc_one, c2] at h0 h1 h2
  simp only [Spec.rowImage, Spec.product, Fin.sum_univ_three, Fin.sum_univ_four, Fin.castSucc_zero, Fin.castSucc_one, c2,
    h0, h1, h2, h3]
  ring

/-- Go `==` of points with the same integer coordinates. -/
theorem repPoint_eq {p q : Point3D} {v : Fin 3 → ℤ} (hp : Spec.RepPoint p v) (hq : Spec.RepPoint q v) : p.eq q = true := by
  unfold Point3D.eq
  rw [show p.x.eq q.x = true from isInt_eq (hp 0) (hq 0), show p.y.eq q.y = true from isInt_eq (hp 1) (hq 1),
    show p.z.eq q.z = true from isInt_eq (hp 2) (hq 2)]
  rfl

theorem abs_sum4_le {A B : Fin 4 → Fin 4 → ℤ} (m n : ℤ) (bA : ∀ r c, |A r c| ≤ m) (bB : ∀ r c, |B r c| ≤ n) (r c : Fin 4) :
    |Spec.product A B r c| ≤ 4 * (m * n) := by
  unfold Spec.product
  rw [Fin.sum_univ_four]
  have h1 := abs_mul_le (bA r 0) (bB 0 c)
  have h2 := abs_mul_le (bA r 1) (bB 1 c)
  have h3 := abs_mul_le (bA r 2) (bB 2 c)
  have h4 := abs_mul_le (bA r 3) (bB 3 c)
  have s2 := abs_add_le (A r 0 * B 0 c) (A r 1 * B 1 c)
  have s3 := abs_add_le (A r 0 * B 0 c + A r 1 * B 1 c) (A r 2 * B 2 c)
  have s4 := abs_add_le (A r 0 * B 0 c + A r 1 * B 1 c + A r 2 * B 2 c) (A r 3 * B 3 c)
  linarith

theorem abs_image_le {A : Fin 4 → Fin 4 → ℤ} {v : Fin 3 → ℤ} (m n : ℤ) (bA : ∀ r c, |A r c| ≤ m) (bv : ∀ i, |v i| ≤ n)
    (i : Fin 3) : |Spec.rowImage A v i| ≤ 3 * (m * n) + m := by
  unfold Spec.rowImage
  rw [Fin.sum_univ_three]
  have h1 := abs_mul_le (bv 0) (bA (0 : Fin 3).castSucc i.castSucc)
  have h2 := abs_mul_le (bv 1) (bA (1 : Fin 3).castSucc i.castSucc)
  have h3 := abs_mul_le (bv 2) (bA (2 : Fin 3).castSucc i.castSucc)
  have h4 := bA 3 i.castSucc
  have s2 := abs_add_le (v 0 * A (0 : Fin 3).castSucc i.castSucc) (v 1 * A (1 : Fin 3).castSucc i.castSucc)
  have s3 := abs_add_le (v 0 * A (0 : Fin 3).castSucc i.castSucc + v 1 * A (1 : Fin 3).castSucc i.castSucc)
    (v 2 * A (2 : Fin 3).castSucc i.castSucc)
  have s4 := abs_add_le (v 0 * A (0 : Fin 3).castSucc i.castSucc + v 1 * A (1 : Fin 3).castSucc i.castSucc +
    v 2 * A (2 : Fin 3).castSucc i.castSucc) (A 3 i.castSucc)
  linarith [mul_comm n m]

/-- C56: mapping a point by a product is mapping it by the second factor and then by the first one, when the second
factor is affine and all numbers are integers up to 100 in absolute value. -/
theorem C56_compose_partial {a b : Matrix} {A B : Fin 4 → Fin 4 → ℤ} {p : Point3D} {v : Fin 3 → ℤ}
    (ha : Spec.Represents a A) (hb : Spec.Represents b B) (hp : Spec.RepPoint p v) (hB : Spec.Affine B)
    (bA : ∀ r c, |A r c| ≤ 100) (bB : ∀ r c, |B r c| ≤ 100) (bv : ∀ i, |v i| ≤ 100) :
    ((a.mul b).mul3D p).eq (a.mul3D (b.mul3D p)) = true ∧ Spec.RepPoint ((a.mul b).mul3D p) (Spec.rowImage A (Spec.rowImage B v)) := by
  have h1 : Spec.Represents (a.mul b) (Spec.product B A) := product_int 100 100 (by norm_num) ha hb bA bB
  have h2 : Spec.RepPoint ((a.mul b).mul3D p) (Spec.rowImage (Spec.product B A) v) :=
    image_int 40000 100 40000 (by norm_num) h1 hp (fun r c => by
      have := abs_sum4_le 100 100 bB bA r.castSucc c.castSucc; linarith) (fun c => by
      have := abs_sum4_le 100 100 bB bA 3 c.castSucc; linarith) bv
  have h3 : Spec.RepPoint (b.mul3D p) (Spec.rowImage B v) :=
    image_int 100 100 100 (by norm_num) hb hp (fun _ _ => bB _ _) (fun _ => bB _ _) bv
  have h4 : Spec.RepPoint (a.mul3D (b.mul3D p)) (Spec.rowImage A (Spec.rowImage B v)) :=
    image_int 100 30100 100 (by norm_num) ha h3 (fun _ _ => bA _ _) (fun _ => bA _ _) (fun i => by
      have := abs_image_le 100 100 bB bv i; linarith)
  rw [image_product v hB] at h2
  exact ⟨repPoint_eq h2 h4, h2⟩

/-! ## Rounding errors -/

/-- `x` is within `α·M + β` of `S`, and `M` bounds `S`. -/
def Close (x : F32) (S M α β : ℚ) : Prop := |Spec.floatVal x - S| ≤ α * M + β ∧ |S| ≤ M

theorem close_self (x : F32) : Close x (Spec.floatVal x) |Spec.floatVal x| 0 0 := by
  unfold Close; simp

theorem close_mul {x y : F32} (h : (x.mul y).isFinite = true) :
    Close (x.mul y) (Spec.floatVal x * Spec.floatVal y) |Spec.floatVal x * Spec.floatVal y| (1 / 2 ^ 24) (1 / 2 ^ 150) := by
  have := F32.mul_err h
  refine ⟨?_, le_refl _⟩
  linarith

theorem close_add {x y : F32} {S T M N α β α' β' γ δ : ℚ} (hx : Close x S M α β) (hy : Close y T N α' β')
    (h : (x.add y).isFinite = true) (hα : α' ≤ α) (hγ : α * (1 + 1 / 2 ^ 24) + 1 / 2 ^ 24 ≤ γ)
    (hδ : (β + β') * (1 + 1 / 2 ^ 24) ≤ δ) : Close (x.add y) (S + T) (M + N) γ δ := by
  obtain ⟨hx, hS⟩ := hx
  obtain ⟨hy, hT⟩ := hy
  have hM := (abs_nonneg S).trans hS
  have hN := (abs_nonneg T).trans hT
  have hs := F32.add_err h
  refine ⟨?_, (abs_add_le S T).trans (by linarith)⟩
  generalize Spec.floatVal (x.add y) = s at *
  generalize Spec.floatVal x = a at *
  generalize Spec.floatVal y = b at *
  have hy' : |b - T| ≤ α * N + β' := hy.trans (by nlinarith)
  have hab : |a + b - (S + T)| ≤ α * (M + N) + (β + β') := by
    have e : a + b - (S + T) = (a - S) + (b - T) := by ring
    rw [e]
    refine (abs_add_le _ _).trans ?_
    linarith
  have h1 : |a + b| ≤ M + N + (α * (M + N) + (β + β')) := by
    have a1 := abs_sub_abs_le_abs_sub (a + b) (S + T)
    have a2 := abs_add_le S T
    linarith
  have h2 : |s - (S + T)| ≤ |s - (a + b)| + |a + b - (S + T)| := by
    have e : s - (S + T) = (s - (a + b)) + (a + b - (S + T)) := by ring
    rw [e]; exact abs_add_le _ _
  have h3 : (α * (1 + 1 / 2 ^ 24) + 1 / 2 ^ 24) * (M + N) ≤ γ * (M + N) :=
    mul_le_mul_of_nonneg_right hγ (by linarith)
  linarith

theorem finite_dot4 {a b c d e f g h : F32} (hf : (F32.dot4 a b c d e f g h).isFinite = true) :
    ((a.mul b).add (c.mul d)).isFinite = true ∧ (((a.mul b).add (c.mul d)).add (e.mul f)).isFinite = true ∧
    (a.mul b).isFinite = true ∧ (c.mul d).isFinite = true ∧ (e.mul f).isFinite = true ∧ (g.mul h).isFinite = true := by
  obtain ⟨h3, h4⟩ := F32.finite_of_add hf
  obtain ⟨h2, h5⟩ := F32.finite_of_add h3
  obtain ⟨h1, h6⟩ := F32.finite_of_add h2
  exact ⟨h2, h3, h1, h6, h5, h4⟩

/-- The number of a float32. -/
abbrev Spec.val (m : Matrix) (r c : Fin 4) : ℚ := Spec.floatVal (Spec.elem m r c)

/-- C56: every number of `a.Mul(b)` that is finite is within 2⁻²¹ of the exact one, relative to the sum of the absolute
values of the four products, up to 2⁻¹⁴⁷ for subnormal products. -/
theorem C56_product_error (a b : Matrix) (r c : Fin 4) (hf : (Spec.elem (a.mul b) r c).isFinite = true) :
    |Spec.val (a.mul b) r c - Spec.product (Spec.val b) (Spec.val a) r c| ≤
      (∑ k, |Spec.val b r k * Spec.val a k c|) / 2 ^ 21 + 1 / 2 ^ 147 := by
  have key : Spec.elem (a.mul b) r c =
      F32.dot4 (Spec.elem a 0 c) (Spec.elem b r 0) (Spec.elem a 1 c) (Spec.elem b r 1)
        (Spec.elem a 2 c) (Spec.elem b r 2) (Spec.elem a 3 c) (Spec.elem b r 3) := by
    fin_cases r <;> fin_cases c <;> rfl
  unfold Spec.val
  rw [key] at hf ⊢
  obtain ⟨f1, f2, p1, p2, p3, p4⟩ := finite_dot4 hf
  have s1 := close_add (close_mul p1) (close_mul p2) f1 le_rfl (γ := 5 / 2 / 2 ^ 24) (δ := 5 / 2 / 2 ^ 150) (by norm_num) (by norm_num)
  have s2 := close_add s1 (close_mul p3) f2 (by norm_num) (γ := 4 / 2 ^ 24) (δ := 4 / 2 ^ 150) (by norm_num) (by norm_num)
  have s3 := close_add s2 (close_mul p4) hf (by norm_num) (γ := 8 / 2 ^ 24) (δ := 8 / 2 ^ 150) (by norm_num) (by norm_num)
  have h := s3.1
  unfold Spec.product
  rw [Fin.sum_univ_four, Fin.sum_univ_four]
  simp only [mul_comm (Spec.floatVal (Spec.elem b _ _))]
  exact h.trans (by linarith)

/-- C56: the same for a coordinate of `Mul3D`. -/
theorem C56_point_error (a : Matrix) (p : Point3D) (i : Fin 3) (hf : (Spec.coord (a.mul3D p) i).isFinite = true) :
    |Spec.floatVal (Spec.coord (a.mul3D p) i) - Spec.rowImage (Spec.val a) (fun k => Spec.floatVal (Spec.coord p k)) i| ≤
      ((∑ k : Fin 3, |Spec.floatVal (Spec.coord p k) * Spec.val a k.castSucc i.castSucc|) + |Spec.val a 3 i.castSucc|) / 2 ^ 21 +
        1 / 2 ^ 147 := by
  have key : Spec.coord (a.mul3D p) i =
      F32.row (Spec.elem a 0 i.castSucc) (Spec.elem a 1 i.castSucc) (Spec.elem a 2 i.castSucc) (Spec.elem a 3 i.castSucc) p := by
    fin_cases i <;> rfl
  unfold Spec.val
  rw [key] at hf ⊢
  obtain ⟨f2, -⟩ := F32.finite_of_add hf
  obtain ⟨f1, p3⟩ := F32.finite_of_add f2
  obtain ⟨p1, p2⟩ := F32.finite_of_add f1
  have s1 := close_add (close_mul p1) (close_mul p2) f1 le_rfl (γ := 5 / 2 / 2 ^ 24) (δ := 5 / 2 / 2 ^ 150) (by norm_num) (by norm_num)
  have s2 := close_add s1 (close_mul p3) f2 (by norm_num) (γ := 4 / 2 ^ 24) (δ := 4 / 2 ^ 150) (by norm_num) (by norm_num)
  have s3 := close_add s2 (close_self _) hf (by norm_num) (γ := 8 / 2 ^ 24) (δ := 8 / 2 ^ 150) (by norm_num) (by norm_num)
  have h := s3.1
  unfold Spec.rowImage
  rw [Fin.sum_univ_three, Fin.sum_univ_three]
  simp only [Fin.castSucc_zero, Fin.castSucc_one, show (2 : Fin 3).castSucc = (2 : Fin 4) from rfl]
  simp only [mul_comm (Spec.floatVal (Spec.coord p _))]
  change |_ - (_ * Spec.floatVal p.x + _ * Spec.floatVal p.y + _ * Spec.floatVal p.z + _)| ≤
    (|_ * Spec.floatVal p.x| + |_ * Spec.floatVal p.y| + |_ * Spec.floatVal p.z| + |_|) / 2 ^ 21 + _
  exact h.trans (by linarith)

/-! ## The identity and translations -/

theorem sround_key {x : F32} (hx : x.isFinite = true) (b : Nat) (hb : 0 < b) : F32.sround (x.key * b) b = x.key := by
  obtain ⟨s, m, hm, rfl⟩ := (F32.isFinite_iff x).1 hx
  have hr := F32.roundMag_exact m b hb hm.2
  unfold F32.sround
  have e : (F32.key (.fin s m hm) * b).natAbs = m * b := by cases s <;> simp [F32.key, Int.natAbs_mul]
  rw [e, hr]
  cases s
  · have hk : F32.key (.fin false m hm) = m := by simp [F32.key]
    rw [hk, if_neg (not_lt.2 (by positivity))]
  · have hk : F32.key (.fin true m hm) = -m := by simp [F32.key]
    rw [hk]
    by_cases h0 : m = 0
    · subst h0; simp
    · rw [if_pos (by
        have : (0 : Int) < (m : Int) * b := by exact_mod_cast Nat.mul_pos (Nat.pos_of_ne_zero h0) hb
        linarith)]

/-- Finite, with the same value. -/
def Same (x y : F32) : Prop := x.isFinite = true ∧ y.isFinite = true ∧ x.key = y.key

theorem same_eq {x y : F32} (h : Same x y) : x.eq y = true := by
  simp [F32.eq, F32.not_nan_of_finite h.1, F32.not_nan_of_finite h.2.1, h.2.2]

theorem key_le_max {x : F32} (hx : x.isFinite = true) : |x.key| ≤ maxMag := F32.key_abs_le hx

theorem same_add_zero {x y z : F32} (h : Same x z) (hy : Same y .zero) : Same (x.add y) z := by
  obtain ⟨h1, h2⟩ := F32.add_spec x y h.1 hy.1
  have e : F32.sround (x.key + y.key) 1 = x.key := by
    rw [hy.2.2, show F32.key .zero = 0 from rfl, add_zero]
    simpa using sround_key h.1 1 Nat.one_pos
  rw [e] at h1 h2
  have := h1.2 (key_le_max h.1)
  exact ⟨this, h.2.1, (h2 this).trans h.2.2⟩

theorem same_zero_add {x y z : F32} (h : Same x z) (hy : Same y .zero) : Same (y.add x) z := by
  obtain ⟨h1, h2⟩ := F32.add_spec y x hy.1 h.1
  have e : F32.sround (y.key + x.key) 1 = x.key := by
    rw [hy.2.2, show F32.key .zero = 0 from rfl, zero_add]
    simpa using sround_key h.1 1 Nat.one_pos
  rw [e] at h1 h2
  have := h1.2 (key_le_max h.1)
  exact ⟨this, h.2.1, (h2 this).trans h.2.2⟩

theorem same_one : F32.key .one = scale ∧ F32.one.isFinite = true := by
  have h : Rep scale := by rw [F32.scale_val]; exact ⟨by decide +kernel, by simpa using F32.ulp_dvd_mul 1 149 (by norm_num)⟩
  unfold F32.one
  rw [F32.mk_of_rep _ _ h]
  exact ⟨by simp [F32.key], rfl⟩

theorem same_mul_one {x : F32} (hx : x.isFinite = true) : Same (x.mul .one) x := by
  obtain ⟨h1, h2⟩ := F32.mul_spec x .one hx same_one.2
  rw [same_one.1, sround_key hx _ scale_pos] at h1 h2
  have := h1.2 (key_le_max hx)
  exact ⟨this, hx, h2 this⟩

theorem same_one_mul {x : F32} (hx : x.isFinite = true) : Same (F32.one.mul x) x := by
  obtain ⟨h1, h2⟩ := F32.mul_spec .one x same_one.2 hx
  rw [same_one.1, mul_comm, sround_key hx _ scale_pos] at h1 h2
  have := h1.2 (key_le_max hx)
  exact ⟨this, hx, h2 this⟩

theorem sround_zero (b : Nat) (hb : 0 < b) : F32.sround 0 b = 0 := by
  simp [F32.sround, F32.roundMag_zero b hb]

theorem same_mul_zero {x : F32} (hx : x.isFinite = true) : Same (x.mul .zero) .zero := by
  obtain ⟨h1, h2⟩ := F32.mul_spec x .zero hx rfl
  rw [show F32.key .zero = 0 from rfl, mul_zero, sround_zero _ scale_pos] at h1 h2
  have := h1.2 (by simp)
  exact ⟨this, rfl, h2 this⟩

theorem same_zero_mul {x : F32} (hx : x.isFinite = true) : Same (F32.zero.mul x) .zero := by
  obtain ⟨h1, h2⟩ := F32.mul_spec .zero x rfl hx
  rw [show F32.key .zero = 0 from rfl, zero_mul, sround_zero _ scale_pos] at h1 h2
  have := h1.2 (by simp)
  exact ⟨this, rfl, h2 this⟩

theorem matrix_eq {a b : Matrix} (h : ∀ r c, (Spec.elem a r c).eq (Spec.elem b r c) = true) : a.eq b = true := by
  have h00 : a.m0.eq b.m0 = true := h 0 0
  have h01 : a.m1.eq b.m1 = true := h 0 1
  have h02 : a.m2.eq b.m2 = true := h 0 2
  have h03 : a.m3.eq b.m3 = true := h 0 3
  have h10 : a.m4.eq b.m4 = true := h 1 0
  have h11 : a.m5.eq b.m5 = true := h 1 1
  have h12 : a.m6.eq b.m6 = true := h 1 2
  have h13 : a.m7.eq b.m7 = true := h 1 3
  have h20 : a.m8.eq b.m8 = true := h 2 0
  have h21 : a.m9.eq b.m9 = true := h 2 1
  have h22 : a.m10.eq b.m10 = true := h 2 2
  have h23 : a.m11.eq b.m11 = true := h 2 3
  have h30 : a.m12.eq b.m12 = true := h 3 0
  have h31 : a.m13.eq b.m13 = true := h 3 1
  have h32 : a.m14.eq b.m14 = true := h 3 2
  have h33 : a.m15.eq b.m15 = true := h 3 3
  simp only [Matrix.eq, h00, h01, h02, h03, h10, h11, h12, h13, h20, h21, h22, h23, h30, h31, h32, h33, Bool.and_true]

/-- C56: the identity is neutral on both sides for every matrix of finite numbers (Go `==`). -/
theorem C56_identity {m : Matrix} (h : Spec.FiniteMatrix m) :
    (m.mul .identity).eq m = true ∧ (Matrix.identity.mul m).eq m = true := by
  constructor <;> apply matrix_eq <;> intro r c
  · have f0 : ∀ k, (Spec.elem m k c).isFinite = true := fun k => h k c
    have z := fun k => same_mul_zero (f0 k)
    have o := fun k => same_mul_one (f0 k)
    apply same_eq
    fin_cases r
    · exact same_add_zero (same_add_zero (same_add_zero (o 0) (z 1)) (z 2)) (z 3) |> fun t => by fin_cases c <;> exact t
    · exact same_add_zero (same_add_zero (same_zero_add (o 1) (z 0)) (z 2)) (z 3) |> fun t => by fin_cases c <;> exact t
    · exact same_add_zero (same_zero_add (o 2) (same_add_zero (z 0) (z 1))) (z 3) |> fun t => by fin_cases c <;> exact t
    · exact same_zero_add (o 3) (same_add_zero (same_add_zero (z 0) (z 1)) (z 2)) |> fun t => by fin_cases c <;> exact t
  · have f0 : ∀ k, (Spec.elem m r k).isFinite = true := fun k => h r k
    have z := fun k => same_zero_mul (f0 k)
    have o := fun k => same_one_mul (f0 k)
    apply same_eq
    fin_cases c
    · exact same_add_zero (same_add_zero (same_add_zero (o 0) (z 1)) (z 2)) (z 3) |> fun t => by fin_cases r <;> exact t
    · exact same_add_zero (same_add_zero (same_zero_add (o 1) (z 0)) (z 2)) (z 3) |> fun t => by fin_cases r <;> exact t
    · exact same_add_zero (same_zero_add (o 2) (same_add_zero (z 0) (z 1))) (z 3) |> fun t => by fin_cases r <;> exact t
    · exact same_zero_add (o 3) (same_add_zero (same_add_zero (z 0) (z 1)) (z 2)) |> fun t => by fin_cases r <;> exact t

/-- Sums of equal finite numbers are equal. -/
theorem add_congr {x x' y y' : F32} (h : Same x x') (hy : Same y y') : (x.add y).eq (x'.add y') = true := by
  obtain ⟨s, m, hm, rfl⟩ := (F32.isFinite_iff x).1 h.1
  obtain ⟨s', m', hm', rfl⟩ := (F32.isFinite_iff x').1 h.2.1
  obtain ⟨t, n, hn, rfl⟩ := (F32.isFinite_iff y).1 hy.1
  obtain ⟨t', n', hn', rfl⟩ := (F32.isFinite_iff y').1 hy.2.1
  simp only [F32.add]
  rw [h.2.2, hy.2.2]
  generalize F32.key (.fin s' m' hm') + F32.key (.fin t' n' hn') = k
  by_cases h0 : k = 0
  · rw [if_pos h0, if_pos h0]
    cases s <;> cases s' <;> cases t <;> cases t' <;> decide +kernel
  · rw [if_neg h0, if_neg h0]
    unfold F32.ofRat
    dsimp only
    by_cases hm : F32.roundMag k.natAbs 1 ≤ maxMag
    · rw [if_pos hm, F32.mk_of_rep _ _ (F32.rep_roundMag _ _ Nat.one_pos hm)]
      simp [F32.eq, F32.isNaN]
    · rw [if_neg hm]
      simp [F32.eq, F32.isNaN]

/-- C56: `Translate` of the identity moves every finite point by the vector (Go `==`). -/
theorem C56_translate_identity {p : Point3D} {x y z : F32} (hp : Spec.FiniteCoords p) (hx : x.isFinite = true)
    (hy : y.isFinite = true) (hz : z.isFinite = true) :
    ((Matrix.identity.translate x y z).mul3D p).eq ⟨p.x.add x, p.y.add y, p.z.add z⟩ = true := by
  have px : p.x.isFinite = true := hp 0
  have py : p.y.isFinite = true := hp 1
  have pz : p.z.isFinite = true := hp 2
  have tr : ∀ {t : F32}, t.isFinite = true → Same (F32.zero.add t) t :=
    fun ht => same_zero_add ⟨ht, ht, rfl⟩ ⟨rfl, rfl, rfl⟩
  have ex : F32.eq ((Matrix.identity.translate x y z).mul3D p).x (p.x.add x) = true :=
    add_congr (same_add_zero (same_add_zero (same_one_mul px) (same_zero_mul py)) (same_zero_mul pz)) (tr hx)
  have ey : F32.eq ((Matrix.identity.translate x y z).mul3D p).y (p.y.add y) = true :=
    add_congr (same_add_zero (same_zero_add (same_one_mul py) (same_zero_mul px)) (same_zero_mul pz)) (tr hy)
  have ez : F32.eq ((Matrix.identity.translate x y z).mul3D p).z (p.z.add z) = true :=
    add_congr (same_zero_add (same_one_mul pz) (same_add_zero (same_zero_mul px) (same_zero_mul py))) (tr hz)
  simp only [Point3D.eq, ex, ey, ez, Bool.and_true]

/-- C56: `Translate` moves the image of every point by the vector, for integers up to 1000 in absolute value; the rest of
the matrix is kept. -/
theorem C56_translate {a : Matrix} {A : Fin 4 → Fin 4 → ℤ} {p : Point3D} {v w : Fin 3 → ℤ} {x y z : F32}
    (ha : Spec.Represents a A) (hp : Spec.RepPoint p v) (hw : Spec.RepPoint ⟨x, y, z⟩ w) (bA : ∀ r c, |A r c| ≤ 1000)
    (bv : ∀ i, |v i| ≤ 1000) (bw : ∀ i, |w i| ≤ 1000) :
    Spec.RepPoint ((a.translate x y z).mul3D p) (fun i => Spec.rowImage A v i + w i) ∧
    ∀ r c, (r ≠ 3 ∨ c = 3) → Spec.elem (a.translate x y z) r c = Spec.elem a r c := by
  constructor
  · let A' : Fin 4 → Fin 4 → ℤ := fun r c => if r = 3 then A 3 c + (if h : c.val < 3 then w ⟨c.val, h⟩ else 0) else A r c
    have hA' : Spec.Represents (a.translate x y z) A' := by
      have hb : ∀ c : Fin 3, |A 3 c.castSucc + w c| ≤ 2 ^ 24 := fun c => by
        have := abs_add_le (A 3 c.castSucc) (w c)
        have := bA 3 c.castSucc
        have := bw c
        linarith
      have h0 : Spec.IsInt (a.m12.add x) (A 3 0 + w 0) := isInt_add (ha 3 0) (hw 0) (hb 0)
      have h1 : Spec.IsInt (a.m13.add y) (A 3 1 + w 1) := isInt_add (ha 3 1) (hw 1) (hb 1)
      have h2 : Spec.IsInt (a.m14.add z) (A 3 2 + w 2) := isInt_add (ha 3 2) (hw 2) (hb 2)
      have h3 : Spec.IsInt a.m15 (A 3 3 + 0) := by rw [add_zero]; exact ha 3 3
      intro r c
      fin_cases r
      · exact ha 0 c |> fun t => by fin_cases c <;> exact t
      · exact ha 1 c |> fun t => by fin_cases c <;> exact t
      · exact ha 2 c |> fun t => by fin_cases c <;> exact t
      · fin_cases c
        · exact h0
        · exact h1
        · exact h2
        · exact h3
    have e : Spec.rowImage A' v = fun i => Spec.rowImage A v i + w i := by
      funext i
      have e3 : A' 3 i.castSucc = A 3 i.castSucc + w i := by
        change A 3 i.castSucc + (if h : i.val < 3 then w ⟨i.val, h⟩ else 0) = _
        rw [dif_pos i.isLt]
      have e0 : ∀ k : Fin 3, A' k.castSucc i.castSucc = A k.castSucc i.castSucc := by
        intro k
        change (if k.castSucc = 3 then _ else _) = _
        rw [if_neg (by fin_cases k <;> decide)]
      unfold Spec.rowImage
      rw [e3]
      simp only [e0]
      ring
    rw [← e]
    refine image_int 1000 1000 2000 (by norm_num) hA' hp ?_ ?_ bv
    · intro r c
      change |if r.castSucc = 3 then _ else _| ≤ _
      rw [if_neg (by fin_cases r <;> decide)]
      exact bA _ _
    · intro c
      change |A 3 c.castSucc + (if h : c.val < 3 then w ⟨c.val, h⟩ else 0)| ≤ _
      rw [dif_pos c.isLt]
      have := abs_add_le (A 3 c.castSucc) (w c)
      have := bA 3 c.castSucc
      have := bw c
      linarith
  · intro r c h
    fin_cases r <;> fin_cases c <;> first | rfl | (exfalso; revert h; decide)

/-- C56: `Mul2D` is `Mul3D` in the plane z = 0 (Go `==`), when the result is finite. -/
theorem C56_plane {m : Matrix} {v : Point2D} (hm : Spec.FiniteMatrix m) (hx : (m.mul2D v).x.isFinite = true)
    (hy : (m.mul2D v).y.isFinite = true) :
    F32.eq (m.mul3D ⟨v.x, v.y, .zero⟩).x (m.mul2D v).x = true ∧ F32.eq (m.mul3D ⟨v.x, v.y, .zero⟩).y (m.mul2D v).y = true := by
  have f8 : m.m8.isFinite = true := hm 2 0
  have f9 : m.m9.isFinite = true := hm 2 1
  obtain ⟨a1, a2⟩ := F32.finite_of_add hx
  obtain ⟨b1, b2⟩ := F32.finite_of_add hy
  exact ⟨add_congr (same_add_zero ⟨a1, a1, rfl⟩ (same_mul_zero f8)) ⟨a2, a2, rfl⟩,
    add_congr (same_add_zero ⟨b1, b1, rfl⟩ (same_mul_zero f9)) ⟨b2, b2, rfl⟩⟩

/-! ## Examples and violations -/

/-- The float32 of an integer. -/
def fi (n : Int) : F32 := F32.ofRat (decide (n < 0)) (n.natAbs * scale) 1

/-- The matrix of the images of integers, row by row. -/
def miOf (f : ℤ → F32) (A : Fin 4 → Fin 4 → ℤ) : Matrix :=
  ⟨f (A 0 0), f (A 0 1), f (A 0 2), f (A 0 3), f (A 1 0), f (A 1 1), f (A 1 2), f (A 1 3),
   f (A 2 0), f (A 2 1), f (A 2 2), f (A 2 3), f (A 3 0), f (A 3 1), f (A 3 2), f (A 3 3)⟩

theorem elem_miOf (f : ℤ → F32) (A : Fin 4 → Fin 4 → ℤ) (r c : Fin 4) : Spec.elem (miOf f A) r c = f (A r c) := by
  fin_cases r <;> fin_cases c <;> rfl

/-- The matrix of integers, row by row. -/
def mi (A : Fin 4 → Fin 4 → ℤ) : Matrix := miOf fi A

theorem isInt_fi {n : ℤ} (h : |n| ≤ 2 ^ 24) : Spec.IsInt (fi n) n := by
  have hd : ulp (n.natAbs * scale) ∣ n.natAbs * scale := by
    rw [F32.scale_val]; exact F32.ulp_dvd_mul _ _ (by rw [Int.abs_eq_natAbs] at h; exact_mod_cast h)
  have hr := F32.roundMag_exact (n.natAbs * scale) 1 Nat.one_pos hd
  rw [mul_one] at hr
  have hm : n.natAbs * scale ≤ maxMag := by
    have := F32.int_le_max n h
    rw [Int.abs_eq_natAbs, Int.natAbs_mul] at this
    exact_mod_cast this
  rw [isInt_iff]
  unfold fi
  refine ⟨(F32.ofRat_finite _ _ _ Nat.one_pos).2 (by rw [hr]; exact hm), ?_⟩
  rw [F32.ofRat_key _ _ _ Nat.one_pos (by rw [hr]; exact hm), hr]
  by_cases h0 : n < 0
  · simp only [h0, decide_true, if_true]
    rw [Nat.cast_mul, show ((n.natAbs : Nat) : Int) = -n by omega]; ring
  · simp only [h0, decide_false, Bool.false_eq_true, if_false]
    rw [Nat.cast_mul, show ((n.natAbs : Nat) : Int) = n by omega]

theorem represents_mi {A : Fin 4 → Fin 4 → ℤ} (h : ∀ r c, |A r c| ≤ 100) : Spec.Represents (mi A) A := by
  intro r c
  rw [mi, elem_miOf]
  exact isInt_fi ((h r c).trans (by norm_num))

/-- A quarter turn about the z axis followed by a shift, rows as documented. -/
def c56A : Fin 4 → Fin 4 → ℤ := ![![0, 1, 0, 0], ![-1, 0, 0, 0], ![0, 0, 1, 0], ![10, 20, 30, 1]]

/-- A scaling. -/
def c56B : Fin 4 → Fin 4 → ℤ := ![![2, 0, 0, 0], ![0, 3, 0, 0], ![0, 0, -4, 0], ![5, 6, 7, 1]]

def c56v : Fin 3 → ℤ := ![1, 2, -3]

/-- The hypotheses of the theorems about integers are met. -/
example : Spec.Represents (mi c56A) c56A ∧ Spec.Represents (mi c56B) c56B ∧ Spec.Affine c56B ∧
    Spec.RepPoint ⟨fi 1, fi 2, fi (-3)⟩ c56v ∧ (∀ r c, |c56A r c| ≤ 100) ∧ (∀ r c, |c56B r c| ≤ 100) ∧ (∀ i, |c56v i| ≤ 100) := by
  refine ⟨represents_mi (by decide), represents_mi (by decide), by unfold Spec.Affine; decide, ?_, by decide, by decide, by decide⟩
  intro i
  fin_cases i
  · exact isInt_fi (n := 1) (by norm_num)
  · exact isInt_fi (n := 2) (by norm_num)
  · exact isInt_fi (n := -3) (by norm_num)

/-- The product of the example is not commutative and the composition is the one of the theorem. -/
example : (((mi c56A).mul (mi c56B)).mul3D ⟨fi 1, fi 2, fi (-3)⟩).eq ⟨fi (-2), fi 27, fi 49⟩ = true := by decide +kernel

/-- C56 fails for the order of the factors as documented (row major): `a.Mul(b)` is not the product `a · b`. -/
theorem C56_order_false : ∃ A B : Fin 4 → Fin 4 → ℤ, (∀ r c, |A r c| ≤ 100) ∧ (∀ r c, |B r c| ≤ 100) ∧
    Spec.Represents (mi A) A ∧ Spec.Represents (mi B) B ∧ ¬ Spec.Represents ((mi A).mul (mi B)) (Spec.product A B) := by
  refine ⟨c56A, c56B, by decide, by decide, represents_mi (by decide), represents_mi (by decide), fun h => ?_⟩
  have hA : ∀ r c, |c56A r c| ≤ 100 := by decide
  have hB : ∀ r c, |c56B r c| ≤ 100 := by decide
  have h1 := C56_product (represents_mi (A := c56A) (by decide)) (represents_mi (A := c56B) (by decide)) (fun r c => le_trans (hA r c) (by norm_num)) (fun r c => le_trans (hB r c) (by norm_num))
  have e := (h 3 0).2.symm.trans (h1 3 0).2
  have : Spec.product c56A c56B 3 0 = Spec.product c56B c56A 3 0 := by exact_mod_cast e
  revert this
  decide

/-- A projective matrix. -/
def c56P : Fin 4 → Fin 4 → ℤ := ![![1, 0, 0, 1], ![0, 1, 0, 0], ![0, 0, 1, 0], ![0, 0, 0, 1]]

/-- C56 fails for a second factor that is not affine: `Mul` uses its last column and `Mul3D` ignores it. -/
theorem C56_compose_false : (((mi c56A).mul (mi c56P)).mul3D ⟨fi 1, fi 2, fi 3⟩).eq
    ((mi c56A).mul3D ((mi c56P).mul3D ⟨fi 1, fi 2, fi 3⟩)) = false := by decide +kernel

/-- The scaling by the tenth of an integer. -/
def c56S (n : Nat) : Matrix := { Matrix.identity with m0 := F32.ofRat false (n * scale) 10 }

/-- C56 fails for other numbers: the two ways of composing are rounded differently. -/
theorem C56_rounding_false : (((c56S 1).mul (c56S 3)).mul3D ⟨F32.ofRat false (7 * scale) 10, fi 0, fi 0⟩).eq
    ((c56S 1).mul3D ((c56S 3).mul3D ⟨F32.ofRat false (7 * scale) 10, fi 0, fi 0⟩)) = false := by decide +kernel

/-- C56: the identity is not neutral for an infinite number: 0 · ∞ is not a number. -/
theorem C56_identity_false : ∃ m : Matrix, (m.mul .identity).eq m = false ∧ m.eq m = true :=
  ⟨{ Matrix.identity with m0 := .inf false }, by decide +kernel, by decide +kernel⟩

/-- The hypotheses of the theorems about finite numbers are met by numbers that are not integers. -/
example : Spec.FiniteMatrix (c56S 1) ∧ Spec.FiniteCoords ⟨F32.ofRat false (7 * scale) 10, fi 0, fi 0⟩ ∧
    (Spec.elem ((c56S 1).mul (c56S 3)) 0 0).isFinite = true ∧
    (Spec.coord ((c56S 1).mul3D ⟨F32.ofRat false (7 * scale) 10, fi 0, fi 0⟩) 0).isFinite = true := by
  unfold Spec.FiniteMatrix Spec.FiniteCoords
  decide +kernel

end Go3mf
