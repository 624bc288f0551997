import Verif.Lemmas.RtRoot
import Verif.Spec.Round
import Verif.Lemmas.NumOrder
import Mathlib.Tactic.Linarith

/-!
# What is read back is what was written, rounded
-/

namespace Go3mf

open Spec F32

/-! ## Numbers -/

theorem rounded_back (prec : Nat) (x : F32) : Rounded prec x (x.back prec) := by
  refine ⟨fun h => ?_, back_special prec x⟩
  obtain ⟨q, y, h1, h2, h3, h4, h5, h6, -⟩ := C20_roundtrip prec x h
  rw [parse_back] at h3
  obtain rfl := Except.ok.inj h3
  obtain ⟨neg, ip, fp, -, -, -, -, hq⟩ := h1
  have hk : ∃ k : ℤ, q = k / 10 ^ prec := by
    cases neg with
    | false => exact ⟨(digits (ip ++ fp) : ℤ), by rw [hq]; simp⟩
    | true => exact ⟨-(digits (ip ++ fp) : ℤ), by rw [hq]; simp [neg_div]⟩
  obtain ⟨k, rfl⟩ := hk
  exact ⟨h4, h5, k, h2, h6⟩

theorem near_back (prec : Int) (x : F32) : Near prec x (x.back prec) := by
  unfold Near
  split
  · rename_i hp
    exact back_neg hp x
  · rename_i hp
    have := rounded_back prec.toNat x
    rwa [Int.toNat_of_nonneg (by omega)] at this

theorem scale_ne : (scale : ℚ) ≠ 0 := by
  have := scale_pos
  positivity

theorem floatVal_inj {x y : F32} (h : floatVal x = floatVal y) : x.key = y.key := by
  unfold floatVal at h
  rw [div_left_inj' scale_ne] at h
  exact_mod_cast h

theorem eq_iff {x y : F32} (hx : y.isFinite = true) : x.eq y = true ↔ SameValue x y := by
  unfold F32.eq SameValue
  rw [not_nan_of_finite hx]
  simp only [Bool.not_false, Bool.and_true, Bool.and_eq_true, Bool.not_eq_true', beq_iff_eq, hx, true_and]
  constructor
  · rintro ⟨h1, h2⟩
    refine ⟨?_, by unfold floatVal; rw [h2]⟩
    have hy := key_abs_le hx
    cases x with
    | fin n m h => rfl
    | nan => simp [F32.isNaN] at h1
    | inf n =>
      exfalso
      rw [← h2] at hy
      cases n
      · simp only [F32.key, Bool.false_eq_true, if_false] at hy
        rw [abs_of_nonneg (by positivity)] at hy
        omega
      · simp only [F32.key, if_true, abs_neg] at hy
        rw [abs_of_nonneg (by positivity)] at hy
        omega
  · rintro ⟨h1, h2⟩
    exact ⟨not_nan_of_finite h1, floatVal_inj h2⟩

theorem near_point2 (prec : Int) (p : Point2D) : NearPoint2 prec p (p.back prec) := ⟨near_back _ _, near_back _ _⟩
theorem near_point3 (prec : Int) (p : Point3D) : NearPoint3 prec p (p.back prec) := ⟨near_back _ _, near_back _ _, near_back _ _⟩

theorem forall_map {α : Type} {R : α → α → Prop} {f : α → α} : ∀ {xs : List α}, (∀ x ∈ xs, R x (f x)) →
    List.Forall₂ R xs (xs.map f)
  | [], _ => .nil
  | x :: xs, h => .cons (h x (by simp)) (forall_map fun y hy => h y (by simp [hy]))

/-! ## Transforms -/

theorem matrix_eq_iff {m c : Matrix} (hc : ∀ x ∈ entries c, x.isFinite = true) :
    m.eq c = true ↔ List.Forall₂ SameValue (entries m) (entries c) := by
  unfold entries at hc ⊢
  simp only [List.mem_cons, List.not_mem_nil, or_false, forall_eq_or_imp, forall_eq] at hc
  obtain ⟨h0, h1, h2, h3, h4, h5, h6, h7, h8, h9, h10, h11, h12, h13, h14, h15⟩ := hc
  simp only [Matrix.eq, Bool.and_eq_true, eq_iff h0, eq_iff h1, eq_iff h2, eq_iff h3, eq_iff h4, eq_iff h5, eq_iff h6,
    eq_iff h7, eq_iff h8, eq_iff h9, eq_iff h10, eq_iff h11, eq_iff h12, eq_iff h13, eq_iff h14, eq_iff h15,
    List.forall₂_cons, List.forall₂_nil_left_iff, and_true]
  tauto

theorem noTransform_iff (m : Matrix) : m.isTransform = false ↔ NoTransform m := by
  unfold Matrix.isTransform NoTransform
  rw [← matrix_eq_iff (by decide +kernel), ← matrix_eq_iff (by decide +kernel)]
  simp only [Bool.and_eq_false_iff, Bool.not_eq_false']

theorem near_transform (m : Matrix) : NearTransform m m.written := by
  unfold NearTransform Matrix.written
  cases h : m.isTransform with
  | false => exact Or.inl ⟨(noTransform_iff m).1 h, rfl⟩
  | true =>
    refine Or.inr ⟨?_, ?_, rfl, rfl, rfl, rfl⟩
    · intro hn
      rw [(noTransform_iff m).2 hn] at h
      simp at h
    · simp only [if_true, cells, Matrix.back, affine]
      exact .cons (near_back _ _) (.cons (near_back _ _) (.cons (near_back _ _) (.cons (near_back _ _) (.cons (near_back _ _)
        (.cons (near_back _ _) (.cons (near_back _ _) (.cons (near_back _ _) (.cons (near_back _ _) (.cons (near_back _ _)
        (.cons (near_back _ _) (.cons (near_back _ _) .nil)))))))))))

/-! ## Extensions -/

theorem near_slice {prec : Int} {s : Slice} (h : ∀ p ∈ s.polygons, ∀ g ∈ p.segments, SegmentOk g) :
    NearSlice prec s (s.back prec) := by
  refine ⟨near_back _ _, forall_map fun p _ => near_point2 prec p, ?_⟩
  unfold Slice.back
  conv_rhs => rw [← List.map_id s.polygons]
  apply List.map_congr_left
  intro p hp
  have : p.segments.map Segment.back = p.segments := by
    conv_rhs => rw [← List.map_id p.segments]
    apply List.map_congr_left
    intro g hg
    unfold Segment.back
    by_cases h0 : g.pid = 0
    · obtain ⟨h1, h2⟩ := h p hp g hg h0
      rw [if_neg (by simp [h0])]
      obtain ⟨_, _, _, _⟩ := g
      simp only at h0 h1 h2
      rw [h0, h1, h2]
      rfl
    · rw [if_pos h0]
      rfl
  simp [Polygon.back, this]

theorem near_res {prec : Int} {x : ExtRes} (h : ResOk x) : NearRes prec x (x.back prec) := by
  cases x with
  | colorGroup g => exact .colorGroup g
  | texture2D g => exact .texture2D g
  | texture2DGroup g => exact .texture2DGroup rfl rfl (forall_map fun p _ => near_point2 prec p)
  | composite g => exact .composite rfl rfl rfl (forall_map fun c _ => forall_map fun x _ => near_back prec x)
  | multi g => exact .multi g
  | sliceStack s =>
    refine .sliceStack ⟨rfl, ?_, forall_map fun l hl => near_slice (h l hl), rfl⟩
    unfold SliceStack.back NearOrZero
    simp only
    by_cases hz : s.bottomZ.eq .zero = true
    · rw [if_pos hz]
      exact Or.inl ⟨(eq_iff (by decide)).1 hz, rfl⟩
    · rw [if_neg hz]
      exact Or.inr ⟨fun h => hz ((eq_iff (by decide)).2 h), near_back _ _⟩

theorem floatVal_pos {x : F32} (hf : x.isFinite = true) (h : 0 < floatVal x) : F32.zero.lt x = true := by
  rw [lt_iff]
  refine ⟨rfl, not_nan_of_finite hf, ?_⟩
  unfold floatVal at h
  have hs : (0 : ℚ) < scale := by exact_mod_cast scale_pos
  rw [div_pos_iff_of_pos_right hs] at h
  have : F32.zero.key = 0 := by decide
  rw [this]
  exact_mod_cast h

theorem back_ne_zero {prec : Nat} {x : F32} (hf : x.isFinite = true) (h3 : 1 / 10 ^ prec ≤ floatVal x) :
    (x.back prec).eq .zero = false := by
  cases he : (x.back prec).eq .zero with
| false => rfl
| true =>
  exfalso
  rw [eq_iff (by decide)] at he
  obtain ⟨-, -, hv⟩ := he
  have hz : floatVal .zero = 0 := by
    have : F32.zero.key = 0 := by decide
    simp [floatVal, this]
  obtain ⟨-, -, k, h1, h2⟩ := (rounded_back prec x).1 hf
  rw [hv, hz, sub_zero] at h2
  have hu : (0 : ℚ) < 10 ^ prec := by positivity
  -- the decimal is at least one unit
  have hk : (1 : ℚ) / 2 / 10 ^ prec ≤ k / 10 ^ prec := by
    have := (abs_le.1 h1).1
    have e : (1 : ℚ) / 10 ^ prec = 1 / 2 / 10 ^ prec + 1 / 2 / 10 ^ prec := by ring
    linarith
  have hk' : (1 : ℤ) ≤ k := by
    rw [div_le_div_iff_of_pos_right hu] at hk
    have : (0 : ℚ) < k := by linarith
    have : (0 : ℤ) < k := by exact_mod_cast this
    omega
  have hk2 : (1 : ℚ) / 10 ^ prec ≤ k / 10 ^ prec := by
    rw [div_le_div_iff_of_pos_right hu]
    exact_mod_cast hk'
  have h4 := le_trans h2 h1
  have h5 := le_abs_self ((k : ℚ) / 10 ^ prec)
  have e : (1 : ℚ) / 10 ^ prec = 1 / 2 / 10 ^ prec + 1 / 2 / 10 ^ prec := by ring
  have : (0 : ℚ) < 1 / 2 / 10 ^ prec := by positivity
  linarith

theorem radius_pos {prec : Int} {x : F32} (h : RadiusOk prec x) : F32.zero.lt x = true ∧ (x.back prec).eq .zero = false := by
  obtain ⟨hf, h⟩ := h
  split at h
  · rename_i hp
    have hl := floatVal_pos hf h
    refine ⟨hl, ?_⟩
    rw [back_neg hp]
    have hk := ((lt_iff _ _).1 hl).2.2
    have hz : F32.zero.key = 0 := by decide
    unfold F32.eq
    rw [hz] at hk ⊢
    have : (x.key == 0) = false := by rw [beq_eq_false_iff_ne]; omega
    rw [this, Bool.and_false]
  · rename_i hp
    have h1 : (0 : ℚ) < 1 / 10 ^ prec.toNat := by positivity
    have := back_ne_zero hf h
    rw [Int.toNat_of_nonneg (by omega)] at this
    exact ⟨floatVal_pos hf (lt_of_lt_of_le h1 h), this⟩

/-- A positive number has one representation. -/
theorem eq_of_sameValue {x y : F32} (hp : F32.zero.lt x = true) (h : SameValue x y) : x = y := by
  obtain ⟨h1, h2, h3⟩ := h
  have hk := floatVal_inj h3
  have h0 := ((lt_iff _ _).1 hp).2.2
  have hz : F32.zero.key = 0 := by decide
  rw [hz] at h0
  cases x with
  | inf n => simp [F32.isFinite] at h1
  | nan => simp [F32.isFinite] at h1
  | fin n a ha =>
    cases y with
    | inf n => simp [F32.isFinite] at h2
    | nan => simp [F32.isFinite] at h2
    | fin m b hb =>
      cases n <;> cases m <;> simp only [F32.key, Bool.false_eq_true, if_false, if_true] at hk h0
      · have : a = b := by omega
        subst this
        rfl
      · omega
      · omega
      · omega

theorem near_beam {prec : Int} {m : BeamLattice} {b : Beam} (hr : m.radius.isFinite = true) (h : BeamOk prec m.radius b) :
    NearBeam prec b (b.back prec m) := by
  obtain ⟨p1, z1⟩ := radius_pos h.r1
  obtain ⟨p2, z2⟩ := radius_pos h.r2
  have e1 : b.r1.eq m.radius = true → b.r1 = m.radius := fun e => eq_of_sameValue p1 ((eq_iff hr).1 e)
  have e2 : b.r2.eq m.radius = true → b.r2 = m.radius := fun e => eq_of_sameValue p2 ((eq_iff hr).1 e)
  have zz : F32.zero.eq F32.zero = true := by decide
  -- the first radius
  have k1 : (b.back prec m).r1 = b.r1.back prec := by
    unfold Beam.back
    simp only [p1, Bool.true_and]
    cases hc : b.r1.eq m.radius with
    | true => simp only [Bool.not_true, Bool.false_eq_true, if_false, zz, if_true]; rw [e1 hc]
    | false => simp only [Bool.not_false, if_true, z1, Bool.false_eq_true, if_false]
  have k2 : (b.back prec m).r2 = b.r2.back prec := by
    have k1' := k1
    unfold Beam.back at k1' ⊢
    simp only [p1, p2, Bool.true_and] at k1' ⊢
    cases hc : b.r2.eq m.radius with
    | true =>
      simp only [Bool.not_true, Bool.false_eq_true, if_false, zz, if_true]
      rw [k1', h.default (e2 hc), e2 hc]
    | false => simp only [Bool.not_false, if_true, z2, Bool.false_eq_true, if_false]
  exact ⟨rfl, rfl, by rw [k1]; exact near_back _ _, by rw [k2]; exact near_back _ _, rfl, rfl⟩

theorem near_lattice {prec : Int} {b : BeamLattice} (h : LatticeOk prec b) : NearLattice prec b (b.back prec) :=
  ⟨rfl, rfl, rfl, forall_map fun x hx => near_beam h.radius (h.beams x hx), rfl, near_back _ _, near_back _ _, rfl⟩

theorem near_elem {prec : Int} {e : AnyElem} (h : ElemOk prec e) : NearElem prec e (e.back prec) := by
  cases e with
  | tokens ts => exact .tokens ts
  | res x => exact .res (near_res h)
  | beamLattice b => exact .beamLattice (near_lattice h)

theorem near_any {prec : Int} {es : List AnyElem} (h : AnyOk prec es) : List.Forall₂ (NearElem prec) es (anyBack prec es) := by
  unfold anyBack
  rw [List.take_of_length_le h.one]
  exact forall_map fun e he => near_elem (h.elems e he)

/-! ## The core -/

theorem near_triangle (pid pindex : UInt32) (t : Triangle) : NearTriangle pid pindex t (t.back pid pindex) := by
  unfold Triangle.back
  by_cases h : t.pid = 0
  · rw [if_neg (by simp [h])]
    exact ⟨rfl, rfl, rfl, by simp [effective, h], rfl⟩
  · rw [if_pos h]
    exact ⟨rfl, rfl, rfl, by simp [effective, h], rfl⟩

theorem near_mesh {prec : Int} {pid pindex : UInt32} {m : Mesh} (h : AnyOk prec m.any) :
    NearMesh prec pid pindex m (m.back prec pid pindex) :=
  ⟨forall_map fun p _ => near_point3 prec p, rfl, forall_map fun t _ => near_triangle pid pindex t, rfl, rfl, near_any h⟩

theorem near_components (c : Components) : NearComponents c c.back :=
  ⟨forall_map fun x _ => ⟨rfl, near_transform _, rfl⟩, rfl⟩

theorem near_object {prec : Int} {o : Object} (h : ObjectFits prec o) : NearObject prec o (o.back prec) := by
  have hc : (o.back prec).components = o.components.map Components.back := by
    unfold Object.back
    simp only
    by_cases hm : o.mesh.isSome
    · rw [if_pos hm]
      rcases h.one with h1 | h1
      · rw [h1] at hm
        simp at hm
      · rw [h1]
        rfl
    · rw [if_neg hm]
  have hp : (o.back prec).pid = o.pid ∧ (o.back prec).pindex = o.pindex := by
    unfold Object.back
    simp only
    by_cases hm : o.mesh.isSome
    · rw [if_pos hm, if_pos hm]
      exact ⟨rfl, rfl⟩
    · rw [if_neg hm, if_neg hm]
      simp only [Option.isSome_iff_ne_none, ne_eq, not_not] at hm
      obtain ⟨h1, h2⟩ := h.noMesh hm
      rw [h1, h2]
      exact ⟨rfl, rfl⟩
  refine ⟨rfl, rfl, rfl, rfl, hp.1, hp.2, rfl, rfl, ?_, ?_, rfl⟩
  · have : (o.back prec).mesh = o.mesh.map (Mesh.back prec o.pid o.pindex) := rfl
    rw [this]
    cases hm : o.mesh with
    | none => exact .none
    | some m => exact .some (near_mesh (h.any m hm))
  · rw [hc]
    cases o.components with
    | none => exact .none
    | some c => exact .some (near_components c)

theorem near_asset {prec : Int} {a : Asset} (h : AssetOk a) : NearAsset prec a (a.back prec) := by
  cases a with
  | base b => exact .base b
  | unknown id ts => exact .unknown id ts
  | res x => exact .res (near_res h)

theorem near_model {prec : Int} {m : Model} (h : ModelOk prec m) : NearModel prec m (m.back prec) :=
  ⟨rfl, rfl, rfl, rfl, rfl, ⟨forall_map fun a ha => near_asset (h.assets a ha), forall_map fun o ho => near_object (h.objects o ho), rfl⟩,
    ⟨forall_map fun i _ => ⟨rfl, near_transform _, rfl, rfl, rfl⟩, rfl⟩, near_any h.any, rfl⟩

end Go3mf
