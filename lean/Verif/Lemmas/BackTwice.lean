import Verif.Spec.Settled
import Verif.Lemmas.RtRoot
import Verif.Lemmas.RtWritable

/-!
# What a model becomes when it is written and read several times
-/

namespace Go3mf
open Spec

variable {prec : Int}

/-! ## Numbers -/

theorem F32.back_back (prec : Int) (x : F32) : (x.back prec).back prec = x.back prec := by
  have h := parse_back prec (x.back prec)
  rw [format_back, parse_back] at h
  exact (Except.ok.inj h).symm

theorem F32.eq_self_pos {a : F32} (h : F32.zero.lt a = true) : a.eq a = true := by
  simp only [F32.lt, Bool.and_eq_true, Bool.not_eq_true'] at h
  simp [F32.eq, h.1.2]

theorem F32.eq_pos {a b : F32} (h : F32.zero.lt a = true) (he : a.eq b = true) : a = b := by
  simp only [F32.lt, F32.eq, Bool.and_eq_true, Bool.not_eq_true', decide_eq_true_eq, beq_iff_eq] at h he
  obtain ⟨⟨-, h1⟩, h2⟩ := h
  obtain ⟨⟨-, h3⟩, h4⟩ := he
  rw [show F32.zero.key = 0 from rfl] at h2
  have hk : 0 < b.key := h4 ▸ h2
  have bound : ∀ (m : Nat), Rep m → (m : ℤ) ≤ maxMag := fun m hm => by exact_mod_cast hm.1
  cases a with
  | nan => cases h1
  | fin n m hm =>
    cases b with
    | nan => cases h3
    | fin n' m' hm' =>
      cases n <;> cases n' <;> simp only [F32.key, Bool.false_eq_true, if_false, if_true] at h2 h4 hk
      · have : m = m' := by exact_mod_cast h4
        subst this; rfl
      all_goals omega
    | inf n' =>
      have := bound m hm
      cases n <;> cases n' <;> simp only [F32.key, Bool.false_eq_true, if_false, if_true] at h2 h4 hk <;> omega
  | inf n =>
    cases b with
    | nan => cases h3
    | fin n' m' hm' =>
      have := bound m' hm'
      cases n <;> cases n' <;> simp only [F32.key, Bool.false_eq_true, if_false, if_true] at h2 h4 hk <;> omega
    | inf n' =>
      cases n <;> cases n' <;> simp only [F32.key, Bool.false_eq_true, if_false, if_true] at h2 h4 hk
      · rfl
      all_goals omega

/-- A positive number stays positive, unless it becomes 0. -/
theorem back_pos {x : F32} (h : F32.zero.lt x = true) (h0 : (x.back prec).eq .zero = false) : F32.zero.lt (x.back prec) = true := by
  simp only [F32.lt, Bool.and_eq_true, Bool.not_eq_true', decide_eq_true_eq] at h ⊢
  obtain ⟨⟨hz, h1⟩, h2⟩ := h
  refine ⟨⟨hz, ?_⟩, ?_⟩
  · cases x <;> first | rfl | cases h1
  · cases x with
    | nan => cases h1
    | inf n => exact h2
    | fin n m hm =>
      cases n
      · simp only [F32.back, F32.eq, F32.key, F32.isNaN, F32.zero, Bool.not_false, Bool.and_true, Bool.false_eq_true, if_false] at h0 ⊢
        have h0' : ¬((F32.reread prec m : ℤ) = ((0 : ℕ) : ℤ)) := by simpa using h0
        push_cast at h0' ⊢
        omega
      · simp only [F32.key, F32.zero, if_true, Bool.false_eq_true, if_false] at h2
        push_cast at h2
        omega

/-! ## Transforms -/

theorem Matrix.back_back (m : Matrix) : m.back.back = m.back := by
  unfold Matrix.back Spec.affine
  simp only [F32.back_back]

theorem zero_written : Matrix.zero.written = .zero := by
  unfold Matrix.written
  rw [if_neg (by decide +kernel)]

theorem written_thrice (m : Matrix) : m.written.written.written = m.written.written := by
  have h : ∀ b : Matrix, b.back = b → b.written.written = b.written := by
    intro b hb
    by_cases h : b.isTransform = true
    · simp only [Matrix.written, if_pos h, hb]
    · simp only [show b.written = .zero by unfold Matrix.written; rw [if_neg h], zero_written]
  by_cases h1 : m.isTransform = true
  · rw [show m.written = m.back by unfold Matrix.written; rw [if_pos h1]]
    exact h _ (Matrix.back_back m)
  · rw [show m.written = .zero by unfold Matrix.written; rw [if_neg h1], zero_written, zero_written]

theorem written_twice {m : Matrix} (hs : SettledTransform m) : m.written.written = m.written := by
  by_cases h1 : m.isTransform = true
  · have h2 := hs h1 _ (parse_matrix_back m)
    unfold Matrix.written
    rw [if_pos h1, if_pos h2, Matrix.back_back]
  · rw [show m.written = .zero by unfold Matrix.written; rw [if_neg h1], zero_written]

theorem Item.back_thrice (i : Item) : i.back.back.back = i.back.back := by
  unfold Item.back
  simp only [written_thrice]

theorem Component.back_thrice (i : Component) : i.back.back.back = i.back.back := by
  unfold Component.back
  simp only [written_thrice]

/-! ## Points, triangles, segments -/

theorem Point2D.back_back (p : Point2D) : (p.back prec).back prec = p.back prec := by
  unfold Point2D.back
  simp only [F32.back_back]

theorem Point3D.back_back (p : Point3D) : (p.back prec).back prec = p.back prec := by
  unfold Point3D.back
  simp only [F32.back_back]

theorem Triangle.back_back (pid pindex : UInt32) (t : Triangle) : (t.back pid pindex).back pid pindex = t.back pid pindex := by
  unfold Triangle.back
  by_cases h : t.pid ≠ 0
  · simp only [if_pos h]
  · simp only [if_neg h, ite_self]

theorem Segment.back_back (s : Segment) : s.back.back = s.back := by
  unfold Segment.back
  by_cases h : s.pid ≠ 0
  · simp only [if_pos h]
  · simp only [if_neg h, ite_self]

theorem Polygon.back_back (p : Polygon) : p.back.back = p.back := by
  unfold Polygon.back
  simp only [List.map_map, Function.comp_def, Segment.back_back]

theorem Slice.back_back (s : Slice) : (s.back prec).back prec = s.back prec := by
  unfold Slice.back
  simp only [List.map_map, Function.comp_def, Polygon.back_back, Point2D.back_back, F32.back_back]

/-! ## Slice stacks -/

theorem SliceStack.back_thrice (s : SliceStack) : ((s.back prec).back prec).back prec = (s.back prec).back prec := by
  have hz : F32.zero.eq F32.zero = true := by decide
  unfold SliceStack.back
  simp only [List.map_map, Function.comp_def, Slice.back_back]
  congr 1
  by_cases h : s.bottomZ.eq .zero = true
  · simp only [if_pos h, if_pos hz]
  · simp only [if_neg h]
    by_cases h' : (s.bottomZ.back prec).eq .zero = true
    · simp only [if_pos h', if_pos hz]
    · simp only [if_neg h', F32.back_back]

theorem SliceStack.back_twice {s : SliceStack} (hs : SettledStack prec s) : (s.back prec).back prec = s.back prec := by
  have hz : F32.zero.eq F32.zero = true := by decide
  unfold SliceStack.back
  simp only [List.map_map, Function.comp_def, Slice.back_back]
  congr 1
  by_cases h : s.bottomZ.eq .zero = true
  · simp only [if_pos h, if_pos hz]
  · have h' := hs (by simpa using h) _ (parse_back prec _)
    simp only [if_neg h, h', Bool.false_eq_true, if_false, F32.back_back]

/-! ## Beams -/

/-- The first radius of a beam that was read. -/
def radius1 (prec : Int) (R r1 : F32) : F32 :=
  let r := if F32.zero.lt r1 && !r1.eq R then r1.back prec else .zero
  if r.eq .zero then R.back prec else r

/-- The second one; the first one is known. -/
def radius2 (prec : Int) (R r1 r2 : F32) : F32 :=
  let r := if F32.zero.lt r2 && !r2.eq R then r2.back prec else .zero
  if r.eq .zero then r1 else r

theorem Beam.back_eq (m : BeamLattice) (b : Beam) : b.back prec m =
    ⟨b.v1, b.v2, radius1 prec m.radius b.r1, radius2 prec m.radius (radius1 prec m.radius b.r1) b.r2, b.cap1, b.cap2⟩ := rfl

theorem radius1_cases (R r1 : F32) : radius1 prec R r1 = R.back prec ∨
    (radius1 prec R r1 = r1.back prec ∧ F32.zero.lt (r1.back prec) = true ∧ (r1.back prec).eq .zero = false) := by
  unfold radius1
  by_cases h : (F32.zero.lt r1 && !r1.eq R) = true
  · simp only [if_pos h]
    by_cases h' : (r1.back prec).eq .zero = true
    · simp only [if_pos h', true_or]
    · rw [Bool.not_eq_true] at h'
      rw [Bool.and_eq_true] at h
      simp only [h', Bool.false_eq_true, if_false, true_and, and_true]
      exact .inr (back_pos h.1 h')
  · simp only [if_neg h, show F32.zero.eq F32.zero = true by decide, if_true, true_or]

theorem radius1_back (R r1 : F32) : (radius1 prec R r1).back prec = radius1 prec R r1 := by
  rcases radius1_cases (prec := prec) R r1 with h | ⟨h, -⟩ <;> rw [h, F32.back_back]

theorem radius1_twice (R r1 : F32) : radius1 prec (R.back prec) (radius1 prec R r1) = radius1 prec R r1 := by
  have hz : F32.zero.eq F32.zero = true := by decide
  have hR : radius1 prec (R.back prec) (R.back prec) = R.back prec := by
    unfold radius1
    by_cases h : F32.zero.lt (R.back prec) = true
    · simp only [F32.eq_self_pos h, Bool.not_true, Bool.and_false, Bool.false_eq_true, if_false, hz, if_true, F32.back_back]
    · rw [Bool.not_eq_true] at h
      simp only [h, Bool.false_and, Bool.false_eq_true, if_false, hz, if_true, F32.back_back]
  rcases radius1_cases (prec := prec) R r1 with h | ⟨h, h1, h2⟩
  · rw [h, hR]
  · rw [h]
    by_cases he : (r1.back prec).eq (R.back prec) = true
    · rw [F32.eq_pos h1 he, hR]
    · rw [Bool.not_eq_true] at he
      unfold radius1
      simp only [h1, he, Bool.not_false, Bool.and_self, if_true, F32.back_back, h2, Bool.false_eq_true, if_false]

theorem radius2_same (R r : F32) (h : r.back prec = r) : radius2 prec R r r = r := by
  unfold radius2
  by_cases h1 : (F32.zero.lt r && !r.eq R) = true
  · simp only [if_pos h1, h, ite_self]
  · simp only [if_neg h1, show F32.zero.eq F32.zero = true by decide, if_true]

theorem radius2_keep {R r1 r2 : F32} (h : r2.back prec = r2) (h1 : F32.zero.lt r2 = true) (h2 : r2.eq R = false)
    (h3 : r2.eq .zero = false) : radius2 prec R r1 r2 = r2 := by
  unfold radius2
  simp only [h1, h2, Bool.not_false, Bool.and_self, if_true, h, h3, Bool.false_eq_true, if_false]

theorem radius2_cases (R r1 r2 : F32) : radius2 prec R r1 r2 = r1 ∨
    (radius2 prec R r1 r2 = r2.back prec ∧ F32.zero.lt r2 = true ∧ r2.eq R = false ∧ (r2.back prec).eq .zero = false) := by
  unfold radius2
  by_cases h : (F32.zero.lt r2 && !r2.eq R) = true
  · simp only [if_pos h]
    by_cases h' : (r2.back prec).eq .zero = true
    · simp only [if_pos h', true_or]
    · rw [Bool.not_eq_true] at h'
      rw [Bool.and_eq_true, Bool.not_eq_true'] at h
      simp only [h', Bool.false_eq_true, if_false, true_and]
      exact .inr ⟨h.1, h.2, trivial⟩
  · simp only [if_neg h, show F32.zero.eq F32.zero = true by decide, if_true, true_or]

theorem radius2_fixed {R r1 r2 : F32} (h1 : r1.back prec = r1) (h2 : r2.back prec = r2) :
    radius2 prec R r1 (radius2 prec R r1 r2) = radius2 prec R r1 r2 := by
  rcases radius2_cases (prec := prec) R r1 r2 with h | ⟨h, h3, h4, h5⟩
  · rw [h, radius2_same _ _ h1]
  · rw [h2] at h h5
    rw [h]
    exact radius2_keep h2 h3 h4 h5

theorem radius2_back {R r1 r2 : F32} (h1 : r1.back prec = r1) : (radius2 prec R r1 r2).back prec = radius2 prec R r1 r2 := by
  rcases radius2_cases (prec := prec) R r1 r2 with h | ⟨h, -⟩
  · rw [h, h1]
  · rw [h, F32.back_back]

theorem BeamLattice.back_thrice (l : BeamLattice) : ((l.back prec).back prec).back prec = (l.back prec).back prec := by
  unfold BeamLattice.back
  simp only [List.map_map, Function.comp_def, F32.back_back]
  congr 1
  refine List.map_congr_left fun b _ => ?_
  simp only [Beam.back_eq, radius1_twice]
  have h1 := radius1_twice (prec := prec) (l.radius.back prec) (radius1 prec l.radius b.r1)
  simp only [F32.back_back, radius1_twice] at h1
  congr 1
  exact radius2_fixed (radius1_back _ _) (radius2_back (radius1_back _ _))

theorem BeamLattice.back_twice {l : BeamLattice} (hs : SettledLattice prec l) : (l.back prec).back prec = l.back prec := by
  unfold BeamLattice.back
  simp only [List.map_map, Function.comp_def, F32.back_back]
  congr 1
  refine List.map_congr_left fun b hb => ?_
  simp only [Beam.back_eq, radius1_twice]
  congr 1
  rcases radius2_cases (prec := prec) l.radius (radius1 prec l.radius b.r1) b.r2 with h | ⟨h, h3, h4, h5⟩
  · rw [h, radius2_same _ _ (radius1_back _ _)]
  · rw [h]
    have hp := back_pos h3 h5
    refine radius2_keep (F32.back_back _ _) hp ?_ h5
    rw [Bool.eq_false_iff]
    intro he
    have := F32.eq_pos hp he
    exact hs b hb h3 h4 (by rw [← format_back, this, format_back])

/-! ## Elements -/

theorem Texture2DGroup.back_back (g : Texture2DGroup) : (g.back prec).back prec = g.back prec := by
  unfold Texture2DGroup.back
  simp only [List.map_map, Function.comp_def, Point2D.back_back]

theorem CompositeMaterials.back_back (g : CompositeMaterials) : (g.back prec).back prec = g.back prec := by
  unfold CompositeMaterials.back
  simp only [List.map_map, Function.comp_def, F32.back_back]

theorem ExtRes.back_thrice (x : ExtRes) : ((x.back prec).back prec).back prec = (x.back prec).back prec := by
  cases x <;> simp only [ExtRes.back, Texture2DGroup.back_back, CompositeMaterials.back_back, SliceStack.back_thrice]

theorem ExtRes.back_twice {x : ExtRes} (h : SettledRes prec x) : (x.back prec).back prec = x.back prec := by
  cases x <;> simp only [ExtRes.back, Texture2DGroup.back_back, CompositeMaterials.back_back]
  rw [SliceStack.back_twice h]

theorem AnyElem.back_thrice (x : AnyElem) : ((x.back prec).back prec).back prec = (x.back prec).back prec := by
  cases x <;> simp only [AnyElem.back, ExtRes.back_thrice, BeamLattice.back_thrice]

theorem AnyElem.back_twice {x : AnyElem} (h : SettledElem prec x) : (x.back prec).back prec = x.back prec := by
  cases x with
  | tokens => rfl
  | res x => simp only [AnyElem.back, ExtRes.back_twice h]
  | beamLattice l => simp only [AnyElem.back, BeamLattice.back_twice h]

theorem anyBack_thrice (es : List AnyElem) : anyBack prec (anyBack prec (anyBack prec es)) = anyBack prec (anyBack prec es) := by
  cases es with
  | nil => rfl
  | cons e es => simp only [anyBack, List.take_succ_cons, List.take_zero, List.map_cons, List.map_nil, AnyElem.back_thrice]

theorem anyBack_twice {es : List AnyElem} (h : ∀ e ∈ es, SettledElem prec e) : anyBack prec (anyBack prec es) = anyBack prec es := by
  cases es with
  | nil => rfl
  | cons e es =>
    simp only [anyBack, List.take_succ_cons, List.take_zero, List.map_cons, List.map_nil, AnyElem.back_twice (h e List.mem_cons_self)]

/-! ## The core -/

theorem Mesh.back_thrice (pid pindex : UInt32) (m : Mesh) :
    ((m.back prec pid pindex).back prec pid pindex).back prec pid pindex = (m.back prec pid pindex).back prec pid pindex := by
  unfold Mesh.back
  simp only [List.map_map, Function.comp_def, Triangle.back_back, Point3D.back_back, anyBack_thrice]

theorem Mesh.back_twice (pid pindex : UInt32) {m : Mesh} (h : ∀ e ∈ m.any, SettledElem prec e) :
    (m.back prec pid pindex).back prec pid pindex = m.back prec pid pindex := by
  unfold Mesh.back
  simp only [List.map_map, Function.comp_def, Triangle.back_back, Point3D.back_back, anyBack_twice h]

theorem Components.back_thrice (c : Components) : c.back.back.back = c.back.back := by
  unfold Components.back
  simp only [List.map_map, Function.comp_def, Component.back_thrice]

theorem Components.back_twice {cs : Components} (h : ∀ c ∈ cs.component, SettledTransform c.transform) : cs.back.back = cs.back := by
  unfold Components.back
  simp only [List.map_map]
  congr 1
  refine List.map_congr_left fun c hc => ?_
  simp only [Function.comp_def, Component.back, written_twice (h c hc)]

theorem Object.back_thrice (o : Object) : ((o.back prec).back prec).back prec = (o.back prec).back prec := by
  unfold Object.back
  cases o.mesh with
  | some x => simp only [Option.map_some, Option.isSome_some, if_true, Mesh.back_thrice]
  | none =>
    cases o.components with
    | none => rfl
    | some c => simp only [Option.map_none, Option.map_some, Option.isSome_none, Bool.false_eq_true, if_false, Components.back_thrice]

theorem Object.back_twice {o : Object} (h : SettledObject prec o) : (o.back prec).back prec = o.back prec := by
  unfold Object.back
  cases hm : o.mesh with
  | some x => simp only [Option.map_some, Option.isSome_some, if_true, Mesh.back_twice _ _ (h.mesh x hm)]
  | none =>
    cases hc : o.components with
    | none => rfl
    | some c => simp only [Option.map_none, Option.map_some, Option.isSome_none, Bool.false_eq_true, if_false, Components.back_twice (h.components c hc)]

theorem Asset.back_thrice (a : Asset) : ((a.back prec).back prec).back prec = (a.back prec).back prec := by
  cases a <;> simp only [Asset.back, ExtRes.back_thrice]

theorem Model.back_thrice (m : Model) : ((m.back prec).back prec).back prec = (m.back prec).back prec := by
  unfold Model.back Resources.back Build.back
  simp only [List.map_map, Function.comp_def, Asset.back_thrice, Object.back_thrice, Item.back_thrice, anyBack_thrice]

theorem Model.back_twice {m : Model} (h : SettledModel prec m) : (m.back prec).back prec = m.back prec := by
  unfold Model.back Resources.back Build.back
  simp only [List.map_map, anyBack_twice h.any]
  congr 2
  · refine List.map_congr_left fun a ha => ?_
    cases a with
    | base => rfl
    | unknown => rfl
    | res x => simp only [Function.comp_def, Asset.back, ExtRes.back_twice (h.assets x ha)]
  · exact List.map_congr_left fun o ho => Object.back_twice (h.objects o ho)
  · refine List.map_congr_left fun i hi => ?_
    simp only [Function.comp_def, Item.back, written_twice (h.items i hi)]

/-! ## What was read can be written -/

variable {env : Env} {exts : List Extension}

theorem res_back_writable {x : ExtRes} (h : ResWritable env exts x) : ResWritable env exts (x.back prec) := by
  cases x <;> exact h

theorem elem_back_writable {x : AnyElem} (h : ElemWritable env exts x) : ElemWritable env exts (x.back prec) := by
  cases x with
  | tokens => exact h
  | res x => exact res_back_writable h
  | beamLattice => exact h

theorem any_back_writable {es : List AnyElem} (h : ∀ e ∈ es, ElemWritable env exts e) : ∀ e ∈ anyBack prec es, ElemWritable env exts e := by
  intro e he
  obtain ⟨x, hx, rfl⟩ := List.mem_map.1 he
  exact elem_back_writable (h x (List.mem_of_mem_take hx))

theorem mesh_back_writable {pid pindex : UInt32} {m : Mesh} (h : MeshWritable env exts m) : MeshWritable env exts (m.back prec pid pindex) := by
  refine ⟨h.attrs, h.vertices, h.triangles, fun t ht => ?_, any_back_writable h.any⟩
  obtain ⟨x, hx, rfl⟩ := List.mem_map.1 ht
  have hw := h.triangle x hx
  unfold Triangle.back
  by_cases hp : x.pid ≠ 0
  · rw [if_pos hp]
    exact hw
  · rw [if_neg hp]
    exact ⟨hw.attrs, hw.simple⟩

theorem width_back (pid pindex : UInt32) (t : Triangle) :
    triangleWidth pid pindex (t.back pid pindex) = triangleWidth pid pindex t := by
  unfold Triangle.back
  by_cases h : t.pid ≠ 0
  · rw [if_pos h]
  · rw [if_neg h]
    simp only [ne_eq, not_not] at h
    simp [triangleWidth, h]

theorem spills_back (pid pindex : UInt32) (t : Triangle) : Spills pid pindex (t.back pid pindex) ↔ Spills pid pindex t := by
  unfold Spills
  rw [width_back]
  have : (t.back pid pindex).anyAttr = t.anyAttr := by
    unfold Triangle.back
    split <;> rfl
  rw [this]

theorem undisturbed_back {pid pindex : UInt32} {ts : List Triangle} (h : Undisturbed pid pindex ts) :
    Undisturbed pid pindex (ts.map (Triangle.back pid pindex)) := by
  unfold Undisturbed
  rw [List.pairwise_map]
  refine List.Pairwise.imp (fun hr => ?_) h
  rw [spills_back, width_back, width_back]
  exact hr

theorem object_back_writable {known : List Extension} {o : Object} (h : ObjectWritable env exts known o) :
    ObjectWritable env exts known (o.back prec) := by
  refine ⟨h.name, h.partNumber, h.thumbnail, h.metadata, fun m hm => ?_, fun c hc => ?_, h.attrs, fun m hm => ?_⟩
  · obtain ⟨x, hx, rfl⟩ := Option.map_eq_some_iff.1 hm
    exact mesh_back_writable (h.mesh x hx)
  · have hc' : (if o.mesh.isSome then none else o.components.map Components.back) = some c := hc
    by_cases hm : o.mesh.isSome = true
    · rw [if_pos hm] at hc'
      cases hc'
    · rw [if_neg hm] at hc'
      obtain ⟨x, hx, rfl⟩ := Option.map_eq_some_iff.1 hc'
      have hw := h.components x hx
      refine ⟨hw.attrs, fun y hy => ?_⟩
      obtain ⟨z, hz, rfl⟩ := List.mem_map.1 hy
      exact hw.component z hz
  · obtain ⟨x, hx, rfl⟩ := Option.map_eq_some_iff.1 hm
    have e1 : (o.back prec).pid = o.pid := by simp [Object.back, hx]
    have e2 : (o.back prec).pindex = o.pindex := by simp [Object.back, hx]
    rw [e1, e2]
    exact undisturbed_back (h.triangles x hx)

theorem model_back_writable {m : Model} (h : Writable env m) : Writable env (m.back prec) := by
  refine ⟨h.extensions, h.distinct, h.language, h.thumbnail, h.attrs, h.noXml, h.metadata, fun a ha => ?_, fun o ho => ?_, h.resourcesAttrs,
    fun i hi => ?_, h.buildAttrs, any_back_writable h.any⟩
  · obtain ⟨x, hx, rfl⟩ := List.mem_map.1 ha
    have hw := h.assets x hx
    cases x with
    | base => exact hw
    | unknown => exact hw
    | res x => exact res_back_writable hw
  · obtain ⟨x, hx, rfl⟩ := List.mem_map.1 ho
    exact object_back_writable (h.objects x hx)
  · obtain ⟨x, hx, rfl⟩ := List.mem_map.1 hi
    have hw := h.items x hx
    exact ⟨hw.partNumber, hw.metadata, hw.attrs⟩

end Go3mf
