import Verif.Props.C11

/-!
# C12: `Model.BoundingBox` and the placed geometry
-/

namespace Go3mf

open F32

/-- The image of a point under a 3MF transform: the row vector (x, y, z, 1) times the matrix, whose translation is
its fourth row.  The sums and products are those of float32.  A matrix whose last element is zero (the zero value of
the Go type, an absent attribute) places the point where it is. -/
def Spec.image (t : Matrix) (p : Point3D) : Point3D :=
  if t.m15.eq .zero then p
  else
    ⟨((t.m0.mul p.x).add (t.m4.mul p.y)).add (t.m8.mul p.z) |>.add t.m12,
     ((t.m1.mul p.x).add (t.m5.mul p.y)).add (t.m9.mul p.z) |>.add t.m13,
     ((t.m2.mul p.x).add (t.m6.mul p.y)).add (t.m10.mul p.z) |>.add t.m14⟩

/-- `p` is a point of the geometry of the object, found in the part at `path`: a vertex of its mesh, or the image of a
point of a component.  A component without a path refers to the part of the object that has it. -/
inductive Spec.Geom (m : Model) : Str → Object → Point3D → Prop
  | vertex {path : Str} {o : Object} {mesh : Mesh} {v : Point3D} : o.mesh = some mesh → v ∈ mesh.vertices →
      Spec.Geom m path o v
  | component {path : Str} {o : Object} {cs : Components} {c : Component} {obj : Object} {p : Point3D} :
      o.mesh = none → o.components = some cs → c ∈ cs.component →
      m.findObject (c.objectPath path) c.objectID = some obj → Spec.Geom m (c.objectPath path) obj p →
      Spec.Geom m path o (Spec.image c.transform p)

/-- The objects reachable from the build. -/
inductive Spec.Reach (m : Model) : Str → Object → Prop
  | item {it : Item} {o : Object} : it ∈ m.build.items → m.findObject it.objectPath it.objectID = some o →
      Spec.Reach m it.objectPath o
  | component {path : Str} {o : Object} {cs : Components} {c : Component} {obj : Object} : Spec.Reach m path o →
      o.mesh = none → o.components = some cs → c ∈ cs.component →
      m.findObject (c.objectPath path) c.objectID = some obj → Spec.Reach m (c.objectPath path) obj

/-- `t` is used to place an object `obj` of the part at `path` reachable from the build. -/
inductive Spec.Placed (m : Model) : Matrix → Str → Object → Prop
  | item {it : Item} {o : Object} : it ∈ m.build.items → m.findObject it.objectPath it.objectID = some o →
      Spec.Placed m it.transform it.objectPath o
  | component {path : Str} {o : Object} {cs : Components} {c : Component} {obj : Object} : Spec.Reach m path o →
      o.mesh = none → o.components = some cs → c ∈ cs.component →
      m.findObject (c.objectPath path) c.objectID = some obj → Spec.Placed m c.transform (c.objectPath path) obj

/-- Three coefficients that have the same sign (or are zero). -/
def Spec.SameSign (a b c : F32) : Prop :=
  (0 ≤ Spec.floatVal a ∧ 0 ≤ Spec.floatVal b ∧ 0 ≤ Spec.floatVal c) ∨
  (Spec.floatVal a ≤ 0 ∧ Spec.floatVal b ≤ 0 ∧ Spec.floatVal c ≤ 0)

/-- The transform can be applied to the two corners only: the coefficients of each new coordinate have the same sign,
and no overflow occurs.  Translations, scalings, mirrorings, quarter turns about the axes and their compositions satisfy the
first condition. -/
def Spec.Fits (t : Matrix) (b : Box) : Prop :=
  t.m15.eq .zero = true ∨
  (Spec.FinitePoint (Spec.image t b.min) ∧ Spec.FinitePoint (Spec.image t b.max) ∧
   Spec.SameSign t.m0 t.m4 t.m8 ∧ Spec.SameSign t.m1 t.m5 t.m9 ∧ Spec.SameSign t.m2 t.m6 t.m10)

/-- The conditions under which the code computes an enclosing box: finite vertices, no component in another part, no
box that is exactly the zero box, and transforms that can be applied to the corners. -/
structure Spec.Regular (m : Model) : Prop where
  finite : ∀ path o mesh, Spec.Reach m path o → o.mesh = some mesh → ∀ v ∈ mesh.vertices, Spec.FinitePoint v
  samePart : ∀ path o cs, Spec.Reach m path o → o.components = some cs → ∀ c ∈ cs.component, c.objectPath path = path
  nonZero : ∀ t path o b, Spec.Placed m t path o → o.BoundingBox m path b → b.eq .zero = false
  fits : ∀ t path o b, Spec.Placed m t path o → o.BoundingBox m path b → Spec.Fits t b

/-! ### Proof -/

def FinBox (b : Box) : Prop := Spec.FinitePoint b.min ∧ Spec.FinitePoint b.max

theorem floatVal_nonneg (x : F32) : 0 ≤ Spec.floatVal x ↔ 0 ≤ x.key := by
  unfold Spec.floatVal
  have : (0 : ℚ) < scale := by exact_mod_cast scale_pos
  rw [le_div_iff₀ this, zero_mul]
  exact_mod_cast Iff.rfl

theorem floatVal_nonpos (x : F32) : Spec.floatVal x ≤ 0 ↔ x.key ≤ 0 := by
  unfold Spec.floatVal
  have : (0 : ℚ) < scale := by exact_mod_cast scale_pos
  rw [div_le_iff₀ this, zero_mul]
  exact_mod_cast Iff.rfl

theorem image_eq (t : Matrix) (p : Point3D) : Spec.image t p = if t.m15.eq .zero then p else t.mul3D p := rfl

theorem row_btw {a b c d : F32} {p q r : Point3D} (hs : Spec.SameSign a b c)
    (hx : Btw p.x q.x r.x) (hy : Btw p.y q.y r.y) (hz : Btw p.z q.z r.z)
    (h1 : (F32.row a b c d p).isFinite = true) (h2 : (F32.row a b c d r).isFinite = true) :
    Btw (F32.row a b c d p) (F32.row a b c d q) (F32.row a b c d r) ∨
    Btw (F32.row a b c d r) (F32.row a b c d q) (F32.row a b c d p) := by
  simp only [Spec.SameSign, floatVal_nonneg, floatVal_nonpos] at hs
  unfold F32.row at *
  obtain ⟨p1, hd⟩ := finite_of_add h1
  obtain ⟨p2, p3⟩ := finite_of_add p1
  obtain ⟨p4, p5⟩ := finite_of_add p2
  obtain ⟨r1, -⟩ := finite_of_add h2
  obtain ⟨r2, r3⟩ := finite_of_add r1
  obtain ⟨r4, r5⟩ := finite_of_add r2
  have hdd : Btw d d d := ⟨hd, hd, hd, le_refl _, le_refl _⟩
  rcases hs with ⟨s1, s2, s3⟩ | ⟨s1, s2, s3⟩
  · left
    exact btw_add (btw_add (btw_add (btw_mul_nonneg s1 hx p4 r4) (btw_mul_nonneg s2 hy p5 r5) p2 r2)
      (btw_mul_nonneg s3 hz p3 r3) p1 r1) hdd h1 h2
  · right
    exact btw_add (btw_add (btw_add (btw_mul_nonpos s1 hx p4 r4) (btw_mul_nonpos s2 hy p5 r5) r2 p2)
      (btw_mul_nonpos s3 hz p3 r3) r1 p1) hdd h2 h1

theorem swapIf_btw {u y w : F32} (h : Btw u y w ∨ Btw w y u) : Btw (swapIf u w).1 y (swapIf u w).2 := by
  unfold swapIf
  by_cases hl : w.lt u = true
  · rw [if_pos hl]
    rw [lt_iff] at hl
    rcases h with h | h
    · obtain ⟨a, b, c, d, e⟩ := h; omega
    · exact h
  · rw [if_neg hl]
    rcases h with h | h
    · exact h
    · obtain ⟨a, b, c, d, e⟩ := h
      rw [lt_iff] at hl
      have : ¬ w.key < u.key := fun hk => hl ⟨not_nan_of_finite a, not_nan_of_finite c, hk⟩
      exact ⟨c, b, a, by show u.key ≤ y.key; omega, by show y.key ≤ w.key; omega⟩

/-- Inside, with everything finite. -/
def In (b : Box) (p : Point3D) : Prop := Btw b.min.x p.x b.max.x ∧ Btw b.min.y p.y b.max.y ∧ Btw b.min.z p.z b.max.z

theorem In.inside {b : Box} {p : Point3D} (h : In b p) : Spec.Inside b p := by
  rw [inside_iff]
  exact ⟨⟨h.1.2.2.2.1, h.1.2.2.2.2⟩, ⟨h.2.1.2.2.2.1, h.2.1.2.2.2.2⟩, ⟨h.2.2.2.2.2.1, h.2.2.2.2.2.2⟩⟩

theorem mulBox_in {t : Matrix} {b : Box} {p : Point3D} (hf : Spec.Fits t b) (h : In b p) :
    In (t.mulBox b) (Spec.image t p) := by
  rw [image_eq, Matrix.mulBox]
  by_cases h0 : t.m15.eq .zero = true
  · rw [if_pos h0, if_pos h0]; exact h
  · rw [if_neg h0, if_neg h0]
    rcases hf with hf | ⟨f1, f2, s1, s2, s3⟩
    · exact absurd hf h0
    · rw [image_eq, if_neg h0] at f1 f2
      exact ⟨swapIf_btw (row_btw s1 h.1 h.2.1 h.2.2 f1.1 f2.1), swapIf_btw (row_btw s2 h.1 h.2.1 h.2.2 f1.2.1 f2.2.1),
        swapIf_btw (row_btw s3 h.1 h.2.1 h.2.2 f1.2.2 f2.2.2)⟩

theorem swapIf_finite {u w : F32} (hu : u.isFinite = true) (hw : w.isFinite = true) :
    (swapIf u w).1.isFinite = true ∧ (swapIf u w).2.isFinite = true := by
  unfold swapIf; split <;> simp [hu, hw]

theorem mulBox_fin {t : Matrix} {b : Box} (hf : Spec.Fits t b) (h : FinBox b) : FinBox (t.mulBox b) := by
  rw [Matrix.mulBox]
  by_cases h0 : t.m15.eq .zero = true
  · rw [if_pos h0]; exact h
  · rw [if_neg h0]
    rcases hf with hf | ⟨f1, f2, -⟩
    · exact absurd hf h0
    · rw [image_eq, if_neg h0] at f1 f2
      have hx := swapIf_finite f1.1 f2.1
      have hy := swapIf_finite f1.2.1 f2.2.1
      have hz := swapIf_finite f1.2.2 f2.2.2
      exact ⟨⟨hx.1, hy.1, hz.1⟩, ⟨hx.2, hy.2, hz.2⟩⟩

theorem min_fin {x y : F32} (hx : x.isFinite = true) (hy : y.isFinite = true) :
    (x.min y).isFinite = true ∧ (x.min y).key ≤ x.key ∧ (x.min y).key ≤ y.key := by
  have := (min_key (not_nan_of_finite hx) (not_nan_of_finite hy)).1
  refine ⟨?_, by omega, by omega⟩
  rcases min_cases x y with h | h <;> rw [h] <;> assumption

theorem max_fin {x y : F32} (hx : x.isFinite = true) (hy : y.isFinite = true) :
    (x.max y).isFinite = true ∧ x.key ≤ (x.max y).key ∧ y.key ≤ (x.max y).key := by
  have := (max_key (not_nan_of_finite hx) (not_nan_of_finite hy)).1
  refine ⟨?_, by omega, by omega⟩
  rcases max_cases x y with h | h <;> rw [h] <;> assumption

theorem extend_fin {b v : Box} (hb : FinBox b) (hv : FinBox v) : FinBox (b.extend v) :=
  ⟨⟨(min_fin hb.1.1 hv.1.1).1, (min_fin hb.1.2.1 hv.1.2.1).1, (min_fin hb.1.2.2 hv.1.2.2).1⟩,
   ⟨(max_fin hb.2.1 hv.2.1).1, (max_fin hb.2.2.1 hv.2.2.1).1, (max_fin hb.2.2.2 hv.2.2.2).1⟩⟩

theorem extend_left {b v : Box} {p : Point3D} (hb : FinBox b) (hv : FinBox v) (h : In b p) : In (b.extend v) p := by
  obtain ⟨⟨a1, a2, a3, a4, a5⟩, ⟨b1, b2, b3, b4, b5⟩, ⟨c1, c2, c3, c4, c5⟩⟩ := h
  have m1 := min_fin hb.1.1 hv.1.1
  have m2 := min_fin hb.1.2.1 hv.1.2.1
  have m3 := min_fin hb.1.2.2 hv.1.2.2
  have n1 := max_fin hb.2.1 hv.2.1
  have n2 := max_fin hb.2.2.1 hv.2.2.1
  have n3 := max_fin hb.2.2.2 hv.2.2.2
  exact ⟨⟨m1.1, a2, n1.1, m1.2.1.trans a4, a5.trans n1.2.1⟩, ⟨m2.1, b2, n2.1, m2.2.1.trans b4, b5.trans n2.2.1⟩,
    ⟨m3.1, c2, n3.1, m3.2.1.trans c4, c5.trans n3.2.1⟩⟩

theorem extend_right {b v : Box} {p : Point3D} (hb : FinBox b) (hv : FinBox v) (h : In v p) : In (b.extend v) p := by
  obtain ⟨⟨a1, a2, a3, a4, a5⟩, ⟨b1, b2, b3, b4, b5⟩, ⟨c1, c2, c3, c4, c5⟩⟩ := h
  have m1 := min_fin hb.1.1 hv.1.1
  have m2 := min_fin hb.1.2.1 hv.1.2.1
  have m3 := min_fin hb.1.2.2 hv.1.2.2
  have n1 := max_fin hb.2.1 hv.2.1
  have n2 := max_fin hb.2.2.1 hv.2.2.1
  have n3 := max_fin hb.2.2.2 hv.2.2.2
  exact ⟨⟨m1.1, a2, n1.1, m1.2.2.trans a4, a5.trans n1.2.2⟩, ⟨m2.1, b2, n2.1, m2.2.2.trans b4, b5.trans n2.2.2⟩,
    ⟨m3.1, c2, n3.1, m3.2.2.trans c4, c5.trans n3.2.2⟩⟩

theorem limit_fin : FinBox .limit := by
  have := maxVal_key
  exact ⟨⟨this.2.2.2.2.1, this.2.2.2.2.1, this.2.2.2.2.1⟩, ⟨this.2.2.2.2.2, this.2.2.2.2.2, this.2.2.2.2.2⟩⟩

theorem fold_extend_fin (vs : List Box) (b : Box) (hb : FinBox b) (hv : ∀ v ∈ vs, FinBox v) :
    FinBox (vs.foldl Box.extend b) ∧ (∀ p, In b p → In (vs.foldl Box.extend b) p) ∧
    ∀ v ∈ vs, ∀ p, In v p → In (vs.foldl Box.extend b) p := by
  induction vs generalizing b with
  | nil => exact ⟨hb, fun _ h => h, by simp⟩
  | cons v vs ih =>
    have h1 := hv v (by simp)
    obtain ⟨i1, i2, i3⟩ := ih (b.extend v) (extend_fin hb h1) (fun w hw => hv w (by simp [hw]))
    refine ⟨i1, fun p h => i2 p (extend_left hb h1 h), ?_⟩
    intro w hw p hp
    rcases List.mem_cons.1 hw with rfl | hw
    · exact i2 p (extend_right hb h1 hp)
    · exact i3 w hw p hp

theorem mesh_in (m : Mesh) (hne : m.vertices ≠ []) (hf : ∀ v ∈ m.vertices, Spec.FinitePoint v) :
    FinBox m.boundingBox ∧ ∀ v ∈ m.vertices, In m.boundingBox v := by
  obtain ⟨h, ⟨v1, m1, e1⟩, ⟨v2, m2, e2⟩, ⟨v3, m3, e3⟩, ⟨v4, m4, e4⟩, ⟨v5, m5, e5⟩, ⟨v6, m6, e6⟩⟩ := C10_touches m hne hf
  have f1 := (hf v1 m1).1
  have f2 := (hf v2 m2).2.1
  have f3 := (hf v3 m3).2.2
  have f4 := (hf v4 m4).1
  have f5 := (hf v5 m5).2.1
  have f6 := (hf v6 m6).2.2
  rw [e1] at f1
  rw [e2] at f2
  rw [e3] at f3
  rw [e4] at f4
  rw [e5] at f5
  rw [e6] at f6
  refine ⟨⟨⟨f1, f2, f3⟩, ⟨f4, f5, f6⟩⟩, ?_⟩
  intro v hv
  have := (inside_iff _ _).1 (h v hv)
  have hfv := hf v hv
  exact ⟨⟨f1, hfv.1, f4, this.1.1, this.1.2⟩, ⟨f2, hfv.2.1, f5, this.2.1.1, this.2.1.2⟩,
    ⟨f3, hfv.2.2, f6, this.2.2.1, this.2.2.2⟩⟩

/-- The loop over components as a fold over the boxes of those that are found. -/
theorem componentsBox_fold {r : Object → Str → Option Box} {m : Model} {path : Str} : ∀ (cs : List Component) (b b' : Box),
    componentsBox r m path cs b = some b' →
    (∀ c ∈ cs, ∀ obj cb, m.findObject (c.objectPath path) c.objectID = some obj → r obj path = some cb → cb.eq .zero = false) →
    ∃ vs : List Box, b' = vs.foldl Box.extend b ∧
      (∀ v ∈ vs, ∃ c ∈ cs, ∃ obj cb, m.findObject (c.objectPath path) c.objectID = some obj ∧ r obj path = some cb ∧
        v = c.transform.mulBox cb) ∧
      ∀ c ∈ cs, ∀ obj, m.findObject (c.objectPath path) c.objectID = some obj →
        ∃ cb, r obj path = some cb ∧ c.transform.mulBox cb ∈ vs := by
  intro cs
  induction cs with
  | nil => intro b b' h _; exact ⟨[], (Option.some.inj h).symm, by simp, by simp⟩
  | cons c cs ih =>
    intro b b' h hz
    rw [componentsBox] at h
    cases ho : m.findObject (c.objectPath path) c.objectID with
    | none =>
      simp only [ho] at h
      obtain ⟨vs, h1, h2, h3⟩ := ih _ _ h (fun c' hc' => hz c' (by simp [hc']))
      refine ⟨vs, h1, ?_, ?_⟩
      · intro v hv; obtain ⟨c', hc', hh⟩ := h2 v hv; exact ⟨c', by simp [hc'], hh⟩
      · intro c' hc' obj hobj
        rcases List.mem_cons.1 hc' with rfl | hc'
        · rw [ho] at hobj; cases hobj
        · exact h3 c' hc' obj hobj
    | some obj =>
      simp only [ho] at h
      cases hr : r obj path with
      | none => simp [hr] at h
      | some cb =>
        simp only [hr] at h
        have hzz := hz c (by simp) obj cb ho hr
        simp only [hzz, Bool.false_eq_true, if_false] at h
        obtain ⟨vs, h1, h2, h3⟩ := ih _ _ h (fun c' hc' => hz c' (by simp [hc']))
        refine ⟨c.transform.mulBox cb :: vs, h1, ?_, ?_⟩
        · intro v hv
          rcases List.mem_cons.1 hv with rfl | hv
          · exact ⟨c, by simp, obj, cb, ho, hr, rfl⟩
          · obtain ⟨c', hc', hh⟩ := h2 v hv; exact ⟨c', by simp [hc'], hh⟩
        · intro c' hc' obj' hobj
          rcases List.mem_cons.1 hc' with rfl | hc'
          · rw [ho] at hobj
            cases hobj
            exact ⟨cb, hr, by simp⟩
          · obtain ⟨cb', e1, e2⟩ := h3 c' hc' obj' hobj
            exact ⟨cb', e1, by simp [e2]⟩

theorem zero_eq_zero : Box.zero.eq .zero = true := by decide +kernel

/-- The box of an object of which some box is not zero: its geometry is inside. -/
theorem object_in {m : Model} (hr : Spec.Regular m) : ∀ (n : Nat) (path : Str) (o : Object) (b : Box), Spec.Reach m path o →
    o.boxFuel m n path = some b → b.eq .zero = false → FinBox b ∧ ∀ p, Spec.Geom m path o p → In b p := by
  intro n
  induction n with
  | zero => intro path o b _ h; cases h
  | succ n ih =>
    intro path o b hreach h hz
    rw [Object.boxFuel] at h
    cases hm : o.mesh with
    | some mesh =>
      simp only [hm] at h
      cases h
      by_cases hne : mesh.vertices = []
      · rw [C10_empty mesh hne] at hz
        exact absurd (hz.symm.trans zero_eq_zero) (by simp)
      · obtain ⟨h1, h2⟩ := mesh_in mesh hne (hr.finite path o mesh hreach hm)
        refine ⟨h1, ?_⟩
        intro p hp
        cases hp with
        | vertex hm' hv => rw [hm] at hm'; cases hm'; exact h2 _ hv
        | component hm' => rw [hm] at hm'; cases hm'
    | none =>
      simp only [hm] at h
      cases hc : o.components with
      | none =>
        simp only [hc] at h
        cases h
        exact absurd (hz.symm.trans zero_eq_zero) (by simp)
      | some cs =>
        simp only [hc] at h
        by_cases hl : cs.component.length = 0
        · rw [if_pos hl] at h
          cases h
          exact absurd (hz.symm.trans zero_eq_zero) (by simp)
        · rw [if_neg hl] at h
          have hpath := hr.samePart path o cs hreach hc
          have hplaced : ∀ c ∈ cs.component, ∀ obj, m.findObject (c.objectPath path) c.objectID = some obj →
              Spec.Placed m c.transform path obj ∧ Spec.Reach m path obj := by
            intro c hcc obj hobj
            have h1 := Spec.Placed.component hreach hm hc hcc hobj
            have h2 := Spec.Reach.component hreach hm hc hcc hobj
            rw [hpath c hcc] at h1 h2
            exact ⟨h1, h2⟩
          obtain ⟨vs, rfl, h2, h3⟩ := componentsBox_fold _ _ _ h (by
            intro c hcc obj cb hobj hcb
            exact hr.nonZero _ _ _ _ (hplaced c hcc obj hobj).1 ⟨n, hcb⟩)
          have hfin : ∀ v ∈ vs, FinBox v := by
            intro v hv
            obtain ⟨c, hcc, obj, cb, hobj, hcb, rfl⟩ := h2 v hv
            obtain ⟨q1, q2⟩ := hplaced c hcc obj hobj
            exact mulBox_fin (hr.fits _ _ _ _ q1 ⟨n, hcb⟩) (ih _ _ _ q2 hcb (hr.nonZero _ _ _ _ q1 ⟨n, hcb⟩)).1
          obtain ⟨i1, -, i3⟩ := fold_extend_fin vs .limit limit_fin hfin
          refine ⟨i1, ?_⟩
          intro p hp
          cases hp with
          | vertex hm' hv => rw [hm] at hm'; cases hm'
          | @component _ _ _ c obj q hm' hc' hcc hobj hq =>
            rw [hc] at hc'
            cases hc'
            obtain ⟨cb, hcb, hin⟩ := h3 c hcc obj hobj
            obtain ⟨q1, q2⟩ := hplaced c hcc obj hobj
            rw [hpath c hcc] at hq
            exact i3 _ hin _ (mulBox_in (hr.fits _ _ _ _ q1 ⟨n, hcb⟩)
              ((ih _ _ _ q2 hcb (hr.nonZero _ _ _ _ q1 ⟨n, hcb⟩)).2 _ hq))

/-- **C12**, for regular models (`Spec.Regular`): the box contains every point of the geometry placed by the build.
Missing: the other models, for which it is false (`C12_rotation_false`, `C12_origin_false`, `C12_path_false`). -/
theorem C12_encloses_partial (m : Model) (hr : Spec.Regular m) (r : Box) (h : m.BoundingBox r) (it : Item) (o : Object)
    (p : Point3D) (hit : it ∈ m.build.items) (ho : m.findObject it.objectPath it.objectID = some o)
    (hp : Spec.Geom m it.objectPath o p) : Spec.Inside r (Spec.image it.transform p) := by
  have hne : m.build.items.length ≠ 0 := by
    intro h0
    rw [List.length_eq_zero_iff] at h0
    rw [h0] at hit
    cases hit
  obtain ⟨ops, vs, ws, h1, h2, h3, rfl, h4⟩ := model_box_fold h hne
  have hfin : ∀ v ∈ ws, FinBox v := by
    intro v hv
    obtain ⟨it', hit', o', b, e1, ⟨n, e2⟩, e3, rfl⟩ := h4 v (h3.mem_iff.1 hv)
    exact mulBox_fin (hr.fits _ _ _ _ (.item hit' e1) ⟨n, e2⟩) (object_in hr n _ _ _ (.item hit' e1) e2 e3).1
  obtain ⟨-, -, i3⟩ := fold_extend_fin ws .limit limit_fin hfin
  have hop : ∃ op ∈ ops, it.BoxOp m op := by
    clear h2
    generalize m.build.items = its at h1 hit
    induction h1 with
    | nil => cases hit
    | cons a _ ih =>
      rcases List.mem_cons.1 hit with rfl | hit
      · exact ⟨_, by simp, a⟩
      · obtain ⟨op, k1, k2⟩ := ih hit; exact ⟨op, by simp [k1], k2⟩
  obtain ⟨op, hmem, hop⟩ := hop
  cases hop with
  | missing e => rw [ho] at e; cases e
  | empty e hb hz =>
    rw [ho] at e
    cases e
    rw [hr.nonZero _ _ _ _ (.item hit ho) hb] at hz
    cases hz
  | @extend o' b e hb hz =>
    rw [ho] at e
    cases e
    have hv : it.transform.mulBox b ∈ ws := by
      rw [h3.mem_iff]
      have : (fun box : Box => box.extend (it.transform.mulBox b)) ∈ ops.filterMap id :=
        List.mem_filterMap.2 ⟨_, hmem, rfl⟩
      rw [h2, List.mem_map] at this
      obtain ⟨v, hv, hvv⟩ := this
      have := congrFun hvv ⟨⟨.nan, .nan, .nan⟩, ⟨.nan, .nan, .nan⟩⟩
      simp only [extend_nan] at this
      rw [← this]
      exact hv
    obtain ⟨n, hb⟩ := hb
    exact (i3 _ hv _ (mulBox_in (hr.fits _ _ _ _ (.item hit ho) ⟨n, hb⟩)
      ((object_in hr n _ _ _ (.item hit ho) hb hz).2 _ hp))).inside

/-! ### Counterexamples -/

/-- Translation by (1, 2, 3). -/
def Spec.shift : Matrix :=
  { Matrix.identity with m12 := .one, m13 := ofBits 0x40000000, m14 := ofBits 0x40400000 }

/-- A build of one object. -/
def Spec.single (objs : List Object) (childs : List (Str × ChildModel)) (id : UInt32) (t : Matrix) : Model :=
  { Model.zero with
    resources := { Resources.zero with objects := objs }
    childs := childs
    build := { Build.zero with items := [{ Item.zero with objectID := id, transform := t }] } }

theorem single_result {objs : List Object} {childs : List (Str × ChildModel)} {id : UInt32} {t : Matrix} {o : Object} {b : Box}
    (n : Nat) (ho : (Spec.single objs childs id t).findObject [] id = some o)
    (hb : o.boxFuel (Spec.single objs childs id t) n [] = some b) (hz : b.eq .zero = false) :
    (Spec.single objs childs id t).BoundingBox (Box.limit.extend (t.mulBox b)) := by
  have hne : ¬ (Spec.single objs childs id t).build.items.length = 0 := by simp [Spec.single]
  rw [Model.BoundingBox, if_neg hne]
  exact ⟨_, .cons (.extend ho ⟨n, hb⟩ hz) .nil, Par.result_one _ _⟩

/-- The square with corners (0,0) and (1,1) at height 1. -/
def Spec.square : Object :=
  { Object.zero with
    id := 1
    mesh := some { Mesh.zero with vertices := [⟨.zero, .zero, .one⟩, ⟨.one, .zero, .one⟩, ⟨.zero, .one, .one⟩, ⟨.one, .one, .one⟩] } }

/-- x' = x - y, y' = x + y: a rotation by 45 degrees about the z axis, scaled. -/
def Spec.turn : Matrix := { Matrix.identity with m0 := .one, m4 := F32.one.neg, m1 := .one, m5 := .one }

/-- **C12** fails for a rotation: only two corners of the box are transformed, and the image (1, 1, 1) of the vertex
(1, 0, 1) is outside the box. -/
theorem C12_rotation_false : ∃ (m : Model) (r : Box) (it : Item) (o : Object) (v : Point3D), m.BoundingBox r ∧
    it ∈ m.build.items ∧ m.findObject it.objectPath it.objectID = some o ∧ Spec.Geom m it.objectPath o v ∧
    ¬ Spec.Inside r (Spec.image it.transform v) := by
  refine ⟨Spec.single [Spec.square] [] 1 Spec.turn, _, { Item.zero with objectID := 1, transform := Spec.turn }, Spec.square,
    ⟨.one, .zero, .one⟩, single_result 1 rfl rfl (by decide +kernel), by simp [Spec.single], rfl,
    .vertex rfl (by simp), ?_⟩
  rw [inside_iff]
  decide +kernel

/-- **C12** fails for an object all of whose vertices are at the origin: its box counts as empty, also if it is
moved. -/
theorem C12_origin_false : ∃ (m : Model) (r : Box) (it : Item) (o : Object) (v : Point3D), m.BoundingBox r ∧
    it ∈ m.build.items ∧ m.findObject it.objectPath it.objectID = some o ∧ Spec.Geom m it.objectPath o v ∧
    ¬ Spec.Inside r (Spec.image it.transform v) := by
  refine ⟨Spec.single [Spec.dot 1 ⟨.zero, .zero, .zero⟩] [] 1 Spec.shift, .limit,
    { Item.zero with objectID := 1, transform := Spec.shift }, Spec.dot 1 ⟨.zero, .zero, .zero⟩,
    ⟨.zero, .zero, .zero⟩, ?_, by simp [Spec.single], rfl, .vertex rfl (by simp), ?_⟩
  · have hne : ¬ (Spec.single [Spec.dot 1 ⟨.zero, .zero, .zero⟩] [] 1 Spec.shift).build.items.length = 0 := by simp [Spec.single]
    rw [Model.BoundingBox, if_neg hne]
    refine ⟨_, .cons (.empty rfl ⟨1, rfl⟩ (by decide +kernel)) .nil, ?_⟩
    exact ⟨_, .single (.skip (i := 0) rfl), by
      intro i w hw
      match i with
      | 0 => simp [Par.init] at hw; rw [← hw]
      | i + 1 => simp [Par.init] at hw, rfl⟩
  · rw [inside_iff]
    decide +kernel

/-- An object made of one component. -/
def Spec.wrapper (id ref : UInt32) (path : Str) (t : Matrix) : Object :=
  { Object.zero with
    id := id
    components := some { Components.zero with
      component := [{ Component.zero with objectID := ref, transform := t, anyAttr := [.prodComponent [] path] }] } }

/-- **C12** fails for components of components in another part: the object 1 of the root refers to the object 2 of the
part `/a`, which refers to the object 3 of its own part, a dot at (1, 1, 1).  The code looks for object 3 in the root part,
where it is a dot at (1, 0, 0). -/
theorem C12_path_false : ∃ (m : Model) (r : Box) (it : Item) (o : Object) (v : Point3D), m.BoundingBox r ∧
    it ∈ m.build.items ∧ m.findObject it.objectPath it.objectID = some o ∧ Spec.Geom m it.objectPath o v ∧
    ¬ Spec.Inside r (Spec.image it.transform v) := by
  refine ⟨Spec.single [Spec.wrapper 1 2 b!"/a" .zero, Spec.dot 3 ⟨.one, .zero, .zero⟩]
    [(b!"/a", { ChildModel.zero with resources := { Resources.zero with objects := [Spec.wrapper 2 3 [] .zero, Spec.dot 3 ⟨.one, .one, .one⟩] } })]
    1 .zero, _, { Item.zero with objectID := 1 }, Spec.wrapper 1 2 b!"/a" .zero, _,
    single_result 3 rfl rfl (by decide +kernel), by simp [Spec.single, Item.zero], rfl,
    .component (c := { Component.zero with objectID := 2, anyAttr := [.prodComponent [] b!"/a"] }) (obj := Spec.wrapper 2 3 [] .zero)
      rfl rfl (by simp [Component.zero]) (by rfl)
      (.component (c := { Component.zero with objectID := 3, anyAttr := [.prodComponent [] []] }) (obj := Spec.dot 3 ⟨.one, .one, .one⟩)
        rfl rfl (by simp [Component.zero]) (by rfl) (.vertex (v := ⟨.one, .one, .one⟩) rfl (by simp))), ?_⟩
  rw [inside_iff]
  decide +kernel

/-! ### The hypothesis can be met -/

/-- A square moved by a component and mirrored by the item. -/
def Spec.moved : Model :=
  Spec.single [Spec.square, Spec.wrapper 2 1 [] Spec.shift] [] 2 { Matrix.identity with m0 := F32.one.neg }

theorem moved_reach {path : Str} {o : Object} (h : Spec.Reach Spec.moved path o) :
    path = [] ∧ (o = Spec.square ∨ o = Spec.wrapper 2 1 [] Spec.shift) := by
  induction h with
  | @item it o hit ho =>
    simp only [Spec.moved, Spec.single, List.mem_cons, List.not_mem_nil, or_false] at hit
    subst hit
    exact ⟨rfl, .inr (Option.some.inj ho).symm⟩
  | @component path o cs c obj _ hm hc hcc hobj ih =>
    obtain ⟨rfl, rfl | rfl⟩ := ih
    · cases hm
    · cases hc
      simp only [List.mem_cons, List.not_mem_nil, or_false] at hcc
      subst hcc
      exact ⟨rfl, .inl (Option.some.inj hobj).symm⟩

theorem moved_placed {t : Matrix} {path : Str} {o : Object} (h : Spec.Placed Spec.moved t path o) :
    path = [] ∧ (t = { Matrix.identity with m0 := F32.one.neg } ∧ o = Spec.wrapper 2 1 [] Spec.shift ∨
      t = Spec.shift ∧ o = Spec.square) := by
  cases h with
  | @item it o hit ho =>
    simp only [Spec.moved, Spec.single, List.mem_cons, List.not_mem_nil, or_false] at hit
    subst hit
    exact ⟨rfl, .inl ⟨rfl, (Option.some.inj ho).symm⟩⟩
  | @component path o cs c obj hr hm hc hcc hobj =>
    obtain ⟨rfl, rfl | rfl⟩ := moved_reach hr
    · cases hm
    · cases hc
      simp only [List.mem_cons, List.not_mem_nil, or_false] at hcc
      subst hcc
      exact ⟨rfl, .inr ⟨rfl, (Option.some.inj hobj).symm⟩⟩

example : Spec.Regular Spec.moved where
  finite := by
    intro path o mesh h hm
    obtain ⟨rfl, rfl | rfl⟩ := moved_reach h
    · cases hm
      unfold Spec.FinitePoint
      decide +kernel
    · cases hm
  samePart := by
    intro path o cs h hc
    obtain ⟨rfl, rfl | rfl⟩ := moved_reach h
    · cases hc
    · cases hc
      decide +kernel
  nonZero := by
    intro t path o b h hb
    obtain ⟨rfl, ⟨rfl, rfl⟩ | ⟨rfl, rfl⟩⟩ := moved_placed h
    · have := BoundingBox_unique hb ⟨2, rfl⟩
      subst this
      decide +kernel
    · have := BoundingBox_unique hb ⟨1, rfl⟩
      subst this
      decide +kernel
  fits := by
    intro t path o b h hb
    simp only [Spec.Fits, Spec.SameSign, Spec.FinitePoint, floatVal_nonneg, floatVal_nonpos]
    obtain ⟨rfl, ⟨rfl, rfl⟩ | ⟨rfl, rfl⟩⟩ := moved_placed h
    · have := BoundingBox_unique hb ⟨2, rfl⟩
      subst this
      decide +kernel
    · have := BoundingBox_unique hb ⟨1, rfl⟩
      subst this
      decide +kernel

end Go3mf
