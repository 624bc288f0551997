import Verif.Props.C11
import Verif.Props.C13
import Verif.Props.C56

/-!
# C93: bounding boxes with infinities and NaN

A coordinate may be an infinity or NaN: the decoder reads `Inf` and `NaN` (C61), and a product of finite numbers may overflow.  What the
box of a mesh then is, coordinate by coordinate: if no value is NaN, it covers all values; otherwise it covers only those after the last
NaN, and the vertices before it are forgotten.
-/

namespace Go3mf

open F32

namespace Spec

/-- `x ≤ y` for floats that are numbers: -∞ is below and +∞ is above all of them. -/
def NotAbove (x y : F32) : Prop :=
  x ≠ .nan ∧ y ≠ .nan ∧ (x = .inf true ∨ y = .inf false ∨ (x.isFinite = true ∧ y.isFinite = true ∧ floatVal x ≤ floatVal y))

/-- The value `x` lies between `lo` and `hi`. -/
def Covers (lo hi x : F32) : Prop := NotAbove lo x ∧ NotAbove x hi

/-- One of the three coordinates. -/
def Coordinate (c : Point3D → F32) : Prop := c = (·.x) ∨ c = (·.y) ∨ c = (·.z)

/-- The point lies in the box in all three coordinates. -/
def CoversPoint (b : Box) (p : Point3D) : Prop := ∀ c, Coordinate c → Covers (c b.min) (c b.max) (c p)

end Spec

open Spec

theorem nan_iff (x : F32) : x.isNaN = false ↔ x ≠ .nan := by cases x <;> simp [isNaN]

theorem notAbove_iff (x y : F32) : NotAbove x y ↔ x.isNaN = false ∧ y.isNaN = false ∧ x.key ≤ y.key := by
  unfold NotAbove
  rw [nan_iff, nan_iff, floatVal_le]
  refine and_congr_right fun hx => and_congr_right fun hy => ?_
  have fin : ∀ {z : F32}, z.isFinite = true → -(maxMag : Int) ≤ z.key ∧ z.key ≤ maxMag := fun h => abs_le.1 (key_abs_le h)
  have pos : (0 : Int) ≤ maxMag := Int.natCast_nonneg _
  cases x with
  | nan => exact absurd rfl hx
  | fin s m hm =>
    cases y with
    | nan => exact absurd rfl hy
    | fin t n hn => simp [isFinite]
    | inf t =>
      have := fin (z := .fin s m hm) rfl
      cases t
      · simp only [key, Bool.false_eq_true, if_false] at this ⊢
        simp only [isFinite, true_or, or_true, true_iff]
        omega
      · simp only [isFinite, key] at this ⊢
        simp
        omega
  | inf s =>
    cases y with
    | nan => exact absurd rfl hy
    | fin t n hn =>
      have := fin (z := .fin t n hn) rfl
      cases s
      · simp only [isFinite, key] at this ⊢
        simp
        omega
      · simp only [key, if_true] at this ⊢
        simp only [true_or, true_iff]
        omega
    | inf t => cases s <;> cases t <;> simp [isFinite, key] <;> omega

/-- The least of the values and the one that is there before. -/
theorem fold_min_nums : ∀ (l : List F32) (acc : F32), acc.isNaN = false → (∀ x ∈ l, x.isNaN = false) →
    (∀ x ∈ acc :: l, NotAbove (l.foldl F32.min acc) x) ∧ l.foldl F32.min acc ∈ acc :: l
  | [], acc, h, _ => by simp [notAbove_iff, h]
  | a :: l, acc, h, hl => by
    have ha := hl a (by simp)
    obtain ⟨hk, hn⟩ := min_key h ha
    obtain ⟨h1, h2⟩ := fold_min_nums l (acc.min a) hn fun x hx => hl x (by simp [hx])
    rw [List.foldl_cons]
    have h3 := (notAbove_iff _ _).1 (h1 (acc.min a) (by simp))
    refine ⟨fun x hx => ?_, ?_⟩
    · rcases List.mem_cons.1 hx with rfl | hx
      · exact (notAbove_iff _ _).2 ⟨h3.1, h, by omega⟩
      · rcases List.mem_cons.1 hx with rfl | hx
        · exact (notAbove_iff _ _).2 ⟨h3.1, ha, by omega⟩
        · exact h1 x (by simp [hx])
    · rcases List.mem_cons.1 h2 with h2 | h2
      · rcases min_cases acc a with e | e <;> rw [h2, e] <;> simp
      · simp [h2]

theorem fold_max_nums : ∀ (l : List F32) (acc : F32), acc.isNaN = false → (∀ x ∈ l, x.isNaN = false) →
    (∀ x ∈ acc :: l, NotAbove x (l.foldl F32.max acc)) ∧ l.foldl F32.max acc ∈ acc :: l
  | [], acc, h, _ => by simp [notAbove_iff, h]
  | a :: l, acc, h, hl => by
    have ha := hl a (by simp)
    obtain ⟨hk, hn⟩ := max_key h ha
    obtain ⟨h1, h2⟩ := fold_max_nums l (acc.max a) hn fun x hx => hl x (by simp [hx])
    rw [List.foldl_cons]
    have h3 := (notAbove_iff _ _).1 (h1 (acc.max a) (by simp))
    refine ⟨fun x hx => ?_, ?_⟩
    · rcases List.mem_cons.1 hx with rfl | hx
      · exact (notAbove_iff _ _).2 ⟨h, h3.2.1, by omega⟩
      · rcases List.mem_cons.1 hx with rfl | hx
        · exact (notAbove_iff _ _).2 ⟨ha, h3.2.1, by omega⟩
        · exact h1 x (by simp [hx])
    · rcases List.mem_cons.1 h2 with h2 | h2
      · rcases max_cases acc a with e | e <;> rw [h2, e] <;> simp
      · simp [h2]

theorem fold_min_nan (pre post : List F32) (acc : F32) :
    (pre ++ F32.nan :: post).foldl F32.min acc = match post with | [] => .nan | x :: l => l.foldl F32.min x := by
  have h1 : ∀ x : F32, x.min .nan = .nan := fun x => by simp [F32.min, F32.lt, isNaN]
  have h2 : ∀ x : F32, F32.min .nan x = x := fun x => by simp [F32.min, F32.lt, isNaN]
  rw [List.foldl_append, List.foldl_cons, h1]
  cases post with
  | nil => rfl
  | cons x l => rw [List.foldl_cons, h2]

theorem fold_max_nan (pre post : List F32) (acc : F32) :
    (pre ++ F32.nan :: post).foldl F32.max acc = match post with | [] => .nan | x :: l => l.foldl F32.max x := by
  have h1 : ∀ x : F32, x.max .nan = .nan := fun x => by simp [F32.max, F32.lt, isNaN]
  have h2 : ∀ x : F32, F32.max .nan x = x := fun x => by simp [F32.max, F32.lt, isNaN]
  rw [List.foldl_append, List.foldl_cons, h1]
  cases post with
  | nil => rfl
  | cons x l => rw [List.foldl_cons, h2]

theorem mesh_coordinate {c : Point3D → F32} (hc : Coordinate c) (m : Mesh) (hne : m.vertices ≠ []) :
    c m.boundingBox.min = (m.vertices.map c).foldl F32.min F32.maxVal ∧
    c m.boundingBox.max = (m.vertices.map c).foldl F32.max F32.maxVal.neg := by
  have hl : ¬ m.vertices.length = 0 := by simpa using hne
  rw [Mesh.boundingBox, if_neg hl, foldl_extendPoint]
  rcases hc with rfl | rfl | rfl <;> exact ⟨rfl, rfl⟩

/-- A number that is not below the greatest finite one is that number or +∞. -/
theorem above_max {x : F32} (h : x.isNaN = false) (hk : (maxMag : Int) ≤ x.key) : x = .maxVal ∨ x = .inf false := by
  have pos : 0 < maxMag := by decide +kernel
  cases x with
  | nan => cases h
  | inf s =>
    cases s
    · exact .inr rfl
    · simp only [key, if_true] at hk; omega
  | fin s m hm =>
    have := key_abs_le (x := .fin s m hm) rfl
    rw [abs_le] at this
    cases s
    · simp only [key, Bool.false_eq_true, if_false] at hk this
      have e : m = maxMag := by omega
      subst e
      left
      rw [maxVal_eq]
    · simp only [key, if_true] at hk; omega

theorem below_max {x : F32} (h : x.isNaN = false) (hk : x.key ≤ -(maxMag : Int)) : x = F32.maxVal.neg ∨ x = .inf true := by
  have pos : 0 < maxMag := by decide +kernel
  cases x with
  | nan => cases h
  | inf s =>
    cases s
    · simp only [key, Bool.false_eq_true, if_false] at hk; omega
    · exact .inr rfl
  | fin s m hm =>
    have := key_abs_le (x := .fin s m hm) rfl
    rw [abs_le] at this
    cases s
    · simp only [key, Bool.false_eq_true, if_false] at hk; omega
    · simp only [key, if_true] at hk this
      have e : m = maxMag := by omega
      subst e
      left
      rw [maxVal_eq]
      rfl

/-- **C93** (numbers): in a coordinate without NaN the box covers all vertices, infinite or not; its ends are values of vertices, or
the greatest finite number if all values are the same infinity. -/
theorem C93_numbers (m : Mesh) (c : Point3D → F32) (hc : Coordinate c) (hne : m.vertices ≠ []) (hn : ∀ v ∈ m.vertices, c v ≠ .nan) :
    (∀ v ∈ m.vertices, Covers (c m.boundingBox.min) (c m.boundingBox.max) (c v)) ∧
    ((∃ v ∈ m.vertices, c v = c m.boundingBox.min) ∨ c m.boundingBox.min = .maxVal ∧ ∀ v ∈ m.vertices, c v = .inf false) ∧
    ((∃ v ∈ m.vertices, c v = c m.boundingBox.max) ∨ c m.boundingBox.max = F32.maxVal.neg ∧ ∀ v ∈ m.vertices, c v = .inf true) := by
  obtain ⟨e1, e2⟩ := mesh_coordinate hc m hne
  have hl : ∀ x ∈ m.vertices.map c, x.isNaN = false := by
    intro x hx
    obtain ⟨v, hv, rfl⟩ := List.mem_map.1 hx
    exact (nan_iff _).2 (hn v hv)
  have hm := maxVal_key
  obtain ⟨a1, a2⟩ := fold_min_nums _ F32.maxVal hm.2.2.1 hl
  obtain ⟨b1, b2⟩ := fold_max_nums _ F32.maxVal.neg hm.2.2.2.1 hl
  rw [← e1] at a1 a2
  rw [← e2] at b1 b2
  refine ⟨fun v hv => ⟨a1 _ ?_, b1 _ ?_⟩, ?_, ?_⟩
  · exact List.mem_cons_of_mem _ (List.mem_map_of_mem hv)
  · exact List.mem_cons_of_mem _ (List.mem_map_of_mem hv)
  · by_cases h : ∃ v ∈ m.vertices, c v = c m.boundingBox.min
    · exact .inl h
    · right
      have e : c m.boundingBox.min = .maxVal := by
        rcases List.mem_cons.1 a2 with e | e
        · exact e
        · exact absurd (List.mem_map.1 e) h
      refine ⟨e, fun v hv => ?_⟩
      have := (notAbove_iff _ _).1 (a1 _ (List.mem_cons_of_mem _ (List.mem_map_of_mem hv)))
      rw [e, hm.1] at this
      exact (above_max this.2.1 this.2.2).resolve_left fun e' => h ⟨v, hv, e'.trans e.symm⟩
  · by_cases h : ∃ v ∈ m.vertices, c v = c m.boundingBox.max
    · exact .inl h
    · right
      have e : c m.boundingBox.max = F32.maxVal.neg := by
        rcases List.mem_cons.1 b2 with e | e
        · exact e
        · exact absurd (List.mem_map.1 e) h
      refine ⟨e, fun v hv => ?_⟩
      have := (notAbove_iff _ _).1 (b1 _ (List.mem_cons_of_mem _ (List.mem_map_of_mem hv)))
      rw [e, hm.2.1] at this
      exact (below_max this.1 this.2.2).resolve_left fun e' => h ⟨v, hv, e'.trans e.symm⟩

/-- **C93** (NaN): in a coordinate with a NaN the box is the least one of the vertices after the last NaN, whatever the vertices before
it are; and it is NaN if there is none. -/
theorem C93_after (m : Mesh) (c : Point3D → F32) (hc : Coordinate c) (pre post : List Point3D) (v : Point3D)
    (hv : m.vertices = pre ++ v :: post) (h : c v = .nan) (hn : ∀ w ∈ post, c w ≠ .nan) :
    (post = [] → c m.boundingBox.min = .nan ∧ c m.boundingBox.max = .nan) ∧
    (∀ w ∈ post, Covers (c m.boundingBox.min) (c m.boundingBox.max) (c w)) ∧
    (post ≠ [] → (∃ w ∈ post, c w = c m.boundingBox.min) ∧ ∃ w ∈ post, c w = c m.boundingBox.max) := by
  obtain ⟨e1, e2⟩ := mesh_coordinate hc m (by rw [hv]; simp)
  have hl : ∀ x ∈ post.map c, x.isNaN = false := by
    intro x hx
    obtain ⟨v, hv, rfl⟩ := List.mem_map.1 hx
    exact (nan_iff _).2 (hn v hv)
  rw [hv, List.map_append, List.map_cons, h, fold_min_nan] at e1
  rw [hv, List.map_append, List.map_cons, h, fold_max_nan] at e2
  cases post with
  | nil => exact ⟨fun _ => ⟨e1, e2⟩, by simp, by simp⟩
  | cons x l =>
    simp only [List.map_cons] at e1 e2 hl
    obtain ⟨a1, a2⟩ := fold_min_nums (l.map c) (c x) (hl _ (by simp)) fun y hy => hl y (by simp [hy])
    obtain ⟨b1, b2⟩ := fold_max_nums (l.map c) (c x) (hl _ (by simp)) fun y hy => hl y (by simp [hy])
    rw [← e1] at a1 a2
    rw [← e2] at b1 b2
    refine ⟨by simp, fun w hw => ?_, fun _ => ⟨(List.mem_map (l := x :: l)).1 a2, (List.mem_map (l := x :: l)).1 b2⟩⟩
    have : c w ∈ c x :: l.map c := List.mem_map_of_mem (f := c) (l := x :: l) hw
    exact ⟨a1 _ this, b1 _ this⟩

/-! ## Where infinities and NaN come from -/

namespace Spec

/-- +∞ or -∞. -/
def IsInf (x : F32) : Prop := ∃ s, x = .inf s

/-- 0 or -0. -/
def IsZero (x : F32) : Prop := x.isFinite = true ∧ floatVal x = 0

end Spec

theorem isZero_fin {s : Bool} {m : Nat} {h : Rep m} : IsZero (.fin s m h) ↔ m = 0 := by
  have : (scale : ℚ) ≠ 0 := by exact_mod_cast scale_pos.ne'
  unfold IsZero floatVal
  rw [div_eq_zero_iff]
  cases s <;> simp [isFinite, key, this]

theorem isZero_inf {s : Bool} : ¬ IsZero (.inf s) := fun h => by simp [IsZero, isFinite] at h

theorem isInf_fin {s : Bool} {m : Nat} {h : Rep m} : ¬ IsInf (.fin s m h) := fun ⟨_, h⟩ => by cases h

theorem ofRat_sign (s : Bool) (a b : Nat) (hb : 0 < b) : ofRat s a b ≠ .nan ∧ (ofRat s a b).signBit = s := by
  unfold ofRat
  simp only
  split
  · next h => rw [mk_of_rep _ _ (rep_roundMag a b hb h)]; exact ⟨by simp, rfl⟩
  · exact ⟨by simp, rfl⟩

/-- **C93** (products): a product of numbers is NaN exactly if it is 0 times an infinity; otherwise its sign is the product of the signs,
and it is infinite if one of the factors is. -/
theorem C93_product (x y : F32) (hx : x ≠ .nan) (hy : y ≠ .nan) :
    (x.mul y = .nan ↔ IsInf x ∧ IsZero y ∨ IsZero x ∧ IsInf y) ∧
    (x.mul y ≠ .nan → (x.mul y).signBit = (x.signBit != y.signBit) ∧ (IsInf x ∨ IsInf y → IsInf (x.mul y))) := by
  cases x with
  | nan => exact absurd rfl hx
  | fin s m hm =>
    cases y with
    | nan => exact absurd rfl hy
    | fin t n hn =>
      have := ofRat_sign (s != t) (m * n) scale scale_pos
      simp only [F32.mul, isInf_fin, false_and, and_false, or_self, iff_false, false_implies, and_true]
      exact ⟨this.1, fun _ => this.2⟩
    | inf t =>
      simp only [F32.mul, isInf_fin, isZero_fin, false_and, false_or]
      have hi : IsInf (.inf t) := ⟨t, rfl⟩
      by_cases h : m = 0
      · simp [h, hi]
      · simp [h, hi, F32.signBit, IsInf]
  | inf s =>
    have hi : IsInf (.inf s) := ⟨s, rfl⟩
    cases y with
    | nan => exact absurd rfl hy
    | fin t n hn =>
      simp only [F32.mul, isInf_fin, isZero_fin, and_false, or_false]
      by_cases h : n = 0
      · simp [h, hi]
      · simp [h, hi, F32.signBit, IsInf]
    | inf t => simp [F32.mul, isZero_inf, F32.signBit, IsInf]

/-- **C93** (sums): a sum of numbers is NaN exactly if it is one infinity and the other; otherwise it is infinite with the sign of each
infinite summand. -/
theorem C93_sum (x y : F32) (hx : x ≠ .nan) (hy : y ≠ .nan) :
    (x.add y = .nan ↔ ∃ s, x = .inf s ∧ y = .inf !s) ∧
    (x.add y ≠ .nan → (∀ s, x = .inf s ∨ y = .inf s → x.add y = .inf s)) := by
  cases x with
  | nan => exact absurd rfl hx
  | fin s m hm =>
    cases y with
    | nan => exact absurd rfl hy
    | fin t n hn =>
      refine ⟨⟨fun h => ?_, fun ⟨_, h, _⟩ => by cases h⟩, fun _ s h => by rcases h with h | h <;> cases h⟩
      simp only [F32.add] at h
      split at h
      · split at h
        · have : Rep 0 := ⟨by omega, by simp⟩
          rw [mk_of_rep _ _ this] at h; cases h
        · exact absurd h (by decide)
      · exact absurd h (ofRat_sign _ _ 1 (by omega)).1
    | inf t => simp [F32.add]
  | inf s =>
    cases y with
    | nan => exact absurd rfl hy
    | fin t n hn => simp [F32.add]
    | inf t => cases s <;> cases t <;> simp [F32.add]

/-! ## The violations -/

namespace Spec

/-- A triangle with a fourth point between its corners in the list, at `p`. -/
def fourPoints (p : Point3D) : Mesh :=
  { Mesh.zero with
    vertices := [⟨F32.one.neg, .zero, .zero⟩, p, ⟨.one, .one, .zero⟩, ⟨.one, .zero, .one⟩]
    triangles := [{ Triangle.zero with v1 := 0, v2 := 2, v3 := 3 }] }

/-- The triangle as the only item of the build. -/
def oneItem (p : Point3D) : Model :=
  { Model.zero with
    resources := { Resources.zero with objects := [{ Object.zero with id := 1, type := .support, mesh := some (fourPoints p) }] }
    build := { Build.zero with items := [{ Item.zero with objectID := 1 }] } }

/-- Two triangles, each an item of the build; the second has its corners at `p` and is transformed by `t`. -/
def twoItems (p : Point3D) (t : Matrix) : Model :=
  { Model.zero with
    resources := { Resources.zero with objects := [
      { Object.zero with id := 1, type := .support, mesh := some (fourPoints ⟨.zero, .zero, .zero⟩) },
      { Object.zero with id := 2, type := .support, mesh := some { fourPoints p with vertices := [p, p, p, p] } }] }
    build := { Build.zero with items := [{ Item.zero with objectID := 1 }, { Item.zero with objectID := 2, transform := t }] } }

/-- All coordinates of vertices and all entries of the transforms of items are finite. -/
structure Finite (m : Model) : Prop where
  vertices : ∀ o ∈ m.resources.objects, ∀ mesh, o.mesh = some mesh → ∀ v ∈ mesh.vertices, FinitePoint v
  transforms : ∀ it ∈ m.build.items, ∀ i j, (elem it.transform i j).isFinite = true
  components : ∀ o ∈ m.resources.objects, o.components = none

end Spec

/-- **C93 is violated**: the box of a model that is accepted does not cover a vertex with finite coordinates, because the next one has
the coordinate NaN. -/
theorem C93_nan_false : ∃ (env : Env) (m : Model) (r : Box) (o : Object) (mesh : Mesh) (v : Point3D), m.Accepts env ∧
    m.BoundingBox r ∧ m.resources.objects = [o] ∧ o.mesh = some mesh ∧ v ∈ mesh.vertices ∧ FinitePoint v ∧ ¬ CoversPoint r v := by
  have h : (oneItem ⟨.nan, .zero, .zero⟩).BoundingBox (Box.limit.extend (Matrix.zero.mulBox (fourPoints ⟨.nan, .zero, .zero⟩).boundingBox)) := by
    rw [Model.BoundingBox, if_neg (by simp [oneItem])]
    exact ⟨_, .cons (.extend rfl ⟨1, rfl⟩ (by decide +kernel)) .nil, Par.result_one _ _⟩
  refine ⟨.ascii true true true true, _, _, _, _, ⟨F32.one.neg, .zero, .zero⟩, accepts_of 1 (by decide +kernel), h, rfl, rfl, by simp [fourPoints],
    by unfold FinitePoint; decide +kernel, fun hc => ?_⟩
  have := ((notAbove_iff _ _).1 (hc (·.x) (.inl rfl)).1).2.2
  exact absurd this (by decide +kernel)

/-- (2¹²⁷, 2¹²⁷, 1). -/
def bigPoint : Point3D := ⟨ofBits 0x7f000000, ofBits 0x7f000000, .one⟩

/-- x' = 4 x - 4 y. -/
def bigMatrix : Matrix :=
  { Matrix.identity with
    m0 := ofBits 0x40800000
    m4 := ofBits 0xc0800000 }

/-- **C93 is violated**: a model with finite coordinates and transforms is accepted, a product overflows, and the box covers the other
item or not, as the goroutines are scheduled. -/
theorem C93_overflow_false : ∃ (env : Env) (m : Model) (r r' : Box) (v : Point3D), m.Accepts env ∧ Spec.Finite m ∧
    m.BoundingBox r ∧ m.BoundingBox r' ∧ v ∈ (fourPoints ⟨.zero, .zero, .zero⟩).vertices ∧ (r.min.x = .nan ∧ ¬ CoversPoint r v) ∧
    CoversPoint r' v := by
  have hops : List.Forall₂ (Item.BoxOp (twoItems bigPoint bigMatrix)) (twoItems bigPoint bigMatrix).build.items
      [some fun b => b.extend (Matrix.zero.mulBox (fourPoints ⟨.zero, .zero, .zero⟩).boundingBox),
       some fun b => b.extend (bigMatrix.mulBox { fourPoints bigPoint with vertices := [bigPoint, bigPoint, bigPoint, bigPoint] }.boundingBox)] :=
    .cons (.extend rfl ⟨1, rfl⟩ (by decide +kernel)) (.cons (.extend rfl ⟨1, rfl⟩ (by decide +kernel)) .nil)
  have h : ∀ r, Par.Result _ Box.limit r → (twoItems bigPoint bigMatrix).BoundingBox r := fun r hr => by
    rw [Model.BoundingBox, if_neg (by simp [twoItems])]
    exact ⟨_, hops, hr⟩
  refine ⟨.ascii true true true true, _, _, _, ⟨F32.one.neg, .zero, .zero⟩, accepts_of 1 (by decide +kernel), ⟨?_, ?_, ?_⟩, h _ (Par.result_two _ _ _),
    h _ (Par.result_two_swap _ _ _), by simp [fourPoints], ⟨by decide +kernel, fun hc => ?_⟩, ?_⟩
  · intro o ho mesh hm v hv
    simp only [twoItems, List.mem_cons, List.not_mem_nil, or_false] at ho
    rcases ho with rfl | rfl
    · simp only [Option.some.injEq] at hm
      subst hm
      revert v
      unfold FinitePoint
      decide +kernel
    · simp only [Option.some.injEq] at hm
      subst hm
      revert v
      unfold FinitePoint
      decide +kernel
  · decide +kernel
  · decide +kernel
  · have := (hc (·.x) (.inl rfl)).1.1
    exact this (by decide +kernel)
  · rintro c (rfl | rfl | rfl) <;> refine ⟨(notAbove_iff _ _).2 ?_, (notAbove_iff _ _).2 ?_⟩ <;> decide +kernel

/-! ## Examples -/

/-- The mesh with an infinite coordinate is covered. -/
example : CoversPoint (fourPoints ⟨.inf false, .zero, .zero⟩).boundingBox ⟨.inf false, .zero, .zero⟩ := fun c hc =>
  (C93_numbers (fourPoints ⟨.inf false, .zero, .zero⟩) c hc (by simp [fourPoints])
    (by rcases hc with rfl | rfl | rfl <;> decide +kernel)).1 _ (by simp [fourPoints])

/-- After the NaN there are the corners (1,1,0) and (1,0,1): the box is flat. -/
example : (fourPoints ⟨.nan, .zero, .zero⟩).boundingBox.min.x = .one ∧ (fourPoints ⟨.nan, .zero, .zero⟩).boundingBox.max.x = .one := by
  obtain ⟨⟨v, hv, e1⟩, w, hw, e2⟩ := (C93_after (fourPoints ⟨.nan, .zero, .zero⟩) (·.x) (.inl rfl) [⟨F32.one.neg, .zero, .zero⟩]
    [⟨.one, .one, .zero⟩, ⟨.one, .zero, .one⟩] ⟨.nan, .zero, .zero⟩ rfl rfl (by decide +kernel)).2.2 (by simp)
  simp only [List.mem_cons, List.not_mem_nil, or_false] at hv hw
  refine ⟨e1.symm.trans ?_, e2.symm.trans ?_⟩
  · rcases hv with rfl | rfl <;> rfl
  · rcases hw with rfl | rfl <;> rfl

end Go3mf
