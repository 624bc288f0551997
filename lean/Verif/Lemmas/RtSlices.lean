import Verif.Lemmas.RtExt

/-!
# Encoded slice stacks and beam lattices decoded
-/

namespace Go3mf

section
variable {cfg : DecCfg} {loc : AnyLoc} {n : Name} {r : Regs} {D : List (Str × Str)}

/-! ## Slices -/

/-- What a segment becomes: without property group the properties are not written. -/
def Segment.back (s : Segment) : Segment := if s.pid ≠ 0 then s else ⟨s.v2, 0, 0, 0⟩

/-- What a polygon becomes. -/
def Polygon.back (p : Polygon) : Polygon := { p with segments := p.segments.map Segment.back }

/-- What a slice becomes. -/
def Slice.back (prec : Int) (s : Slice) : Slice :=
  ⟨s.topZ.back prec, s.vertices.map (Point2D.back prec), s.polygons.map Polygon.back⟩

/-- What a slice stack becomes. -/
def SliceStack.back (prec : Int) (s : SliceStack) : SliceStack :=
  { s with bottomZ := if s.bottomZ.eq .zero then .zero else s.bottomZ.back prec, slices := s.slices.map (Slice.back prec) }

/-- The attributes of a segment. -/
def Segment.attrs (s : Segment) : List Attr :=
  attr b!"v2" (formatUint s.v2) ::
    if s.pid ≠ 0 then
      [attr b!"pid" (formatUint s.pid), attr b!"p1" (formatUint s.p1)] ++ attrIf (s.p1 ≠ s.p2) b!"p2" (formatUint s.p2)
    else []

theorem segment_dom (s : Segment) : AttrsDom D true s.attrs := by
  refine .cons (.plain (by decide +kernel) (plain_formatUint _)) ?_
  by_cases h : s.pid ≠ 0
  · rw [if_pos h]
    exact .cons (.plain (by decide +kernel) (plain_formatUint _)) (.cons (.plain (by decide +kernel) (plain_formatUint _))
      (.ite fun _ => .plain (by decide +kernel) (plain_formatUint _)))
  · rw [if_neg h]
    exact .nil

theorem segment_attrs (s : Segment) : ((attrLoop segmentAttr {} s.attrs).1.seg, (attrLoop segmentAttr {} s.attrs).2) =
    (s.back, []) := by
  unfold Segment.attrs Segment.back
  rw [attrLoop_cons (s' := ⟨⟨s.v2, 0, 0, 0⟩, false, false⟩) (by simp only [segmentAttr, uintAttr_format]; rfl)]
  by_cases h : s.pid ≠ 0
  · rw [if_pos h, if_pos h, List.cons_append, List.cons_append, List.nil_append]
    rw [attrLoop_cons (s' := ⟨⟨s.v2, s.pid, 0, 0⟩, false, false⟩) (by simp only [segmentAttr, uintAttr_format]; rfl),
      attrLoop_cons (s' := ⟨⟨s.v2, s.pid, s.p1, s.p1⟩, true, false⟩) (by simp only [segmentAttr, uintAttr_format]; rfl)]
    by_cases hp : s.p1 = s.p2
    · simp only [attrIf, hp, ne_eq, not_true_eq_false, decide_false, Bool.false_eq_true, if_false, attrLoop]
      rw [Prod.mk.injEq]
      refine ⟨?_, rfl⟩
      rw [show s = ⟨s.v2, s.pid, s.p1, s.p2⟩ from rfl, hp]
    · have e : attrIf (decide (s.p1 ≠ s.p2)) b!"p2" (formatUint s.p2) = [attr b!"p2" (formatUint s.p2)] := by
        simp [attrIf, hp]
      rw [e, attrLoop_cons (s' := ⟨s, true, true⟩) (by simp only [segmentAttr, uintAttr_format]; rfl)]
      rfl
  · rw [if_neg h, if_neg h]
    rfl

theorem polygon_dom (p : Polygon) : AttrsDom D true [attr b!"startv" (formatUint p.startV)] :=
  .one (.plain (by decide +kernel) (plain_formatUint _))

theorem Polygon.good {p : Polygon} (h : nsSlices ∈ D.map (·.2)) : Good D p.ops :=
  .elem (nameOK_ext (by decide +kernel) h) (polygon_dom p)
    (.map fun s _ => .auto (nameOK_ext (by decide +kernel) h) (segment_dom s))

theorem Polygon.within {p : Polygon} : Within cfg (.ext loc .slice) n r (rd p.ops)
    { r with slice := { r.slice with polygons := r.slice.polygons ++ [p.back] } } := by
  refine within_ext_elem (k' := .polygon) (i := r.slice.polygons.length)
    (r' := { r with slice := { r.slice with polygons := r.slice.polygons ++ [⟨p.startV, []⟩] } }) nsS0 rfl
    (polygon_dom (D := []) p).read ?_ (by simp) (by simp) ?_ ?_
  · simp only [extChild]
    rw [if_neg (by decide +kernel), if_pos trivial]
  · have e : firstUint [attr b!"startv" (formatUint p.startV)] (fun a => a.name.loc = b!"startv") = (p.startV, []) := by
      have : ([attr b!"startv" (formatUint p.startV)].find? fun a => a.name.loc = b!"startv") =
        some (attr b!"startv" (formatUint p.startV)) := rfl
      simp only [firstUint, this, uintAttr_format]
    simp only [extStart, e]
  · have := within_ext_list (cfg := cfg) (d := .ext loc .polygon) (n := ⟨nsSlices, b!"polygon"⟩) (g := Segment.back)
      (op := Segment.op)
      (st := fun acc => { r with slice := { r.slice with polygons := r.slice.polygons ++ [⟨p.startV, acc⟩] } })
      (xs := p.segments) (acc := []) (fun _ => trivial)
      (fun s _ acc => by
        refine within_ext_auto (k' := .segment) (i := (r.slice.polygons ++ [(⟨p.startV, acc⟩ : Polygon)]).length) (as := s.attrs) nsS0 rfl
          (segment_dom (D := []) s).read ?_ (by simp) (by simp) ?_
        · simp only [extChild]
          rw [if_pos trivial]
        · have e := segment_attrs s
          rw [Prod.mk.injEq] at e
          simp only [extStart, e.1, e.2, modLast_append])
    simpa [Polygon.back] using this

theorem within_polygons : ∀ {ps : List Polygon} {r : Regs}, Within cfg (.ext loc .slice) n r (rd (ps.flatMap Polygon.ops))
    { r with slice := { r.slice with polygons := r.slice.polygons ++ ps.map Polygon.back } }
  | [], r => by rw [List.map_nil, List.append_nil]; exact Within.nil
  | p :: ps, r => by
    have h1 := Polygon.within (cfg := cfg) (loc := loc) (n := n) (r := r) (p := p)
    have h2 := within_polygons (ps := ps) (r := { r with slice := { r.slice with polygons := r.slice.polygons ++ [p.back] } })
    rw [List.flatMap_cons]
    have := h1.seq (noText_flatMap (f := Polygon.ops) fun _ _ => trivial) h2
    simpa using this

theorem pvertex_dom (prec : Int) (v : Point2D) : AttrsDom D true [attr b!"x" (v.x.format prec), attr b!"y" (v.y.format prec)] :=
  .cons (.plain (by decide +kernel) (plain_format _ _)) (.one (.plain (by decide +kernel) (plain_format _ _)))

theorem sliceVertices_good {prec : Int} {vs : List Point2D} (h : nsSlices ∈ D.map (·.2)) : Good D (sliceVerticesOps prec vs) :=
  .elem (nameOK_ext (by decide +kernel) h) .nil
    (.map fun v _ => .auto (nameOK_ext (by decide +kernel) h) (pvertex_dom prec v))

theorem within_sliceVertices {prec : Int} {vs : List Point2D} :
    Within cfg (.ext loc .slice) n r (rd (sliceVerticesOps prec vs))
      { r with slice := { r.slice with vertices := r.slice.vertices ++ vs.map (Point2D.back prec) } } := by
  refine within_ext_elem (k' := .polygonVertices) (i := -1) (r' := r) nsS0 rfl
    (AttrsDom.nil (D := []) (skip := false)).read ?_ (by simp) (by simp) ?_ ?_
  · simp only [extChild]
    rw [if_pos trivial]
  · rfl
  · have := within_ext_list (cfg := cfg) (d := .ext loc .polygonVertices) (n := ⟨nsSlices, b!"vertices"⟩) (g := Point2D.back prec)
      (op := fun v => opFast ⟨nsSlices, b!"vertex"⟩ [attr b!"x" (v.x.format prec), attr b!"y" (v.y.format prec)])
      (st := fun acc => { r with slice := { r.slice with vertices := acc } })
      (xs := vs) (acc := r.slice.vertices) (fun _ => trivial)
      (fun v _ acc => by
        refine within_ext_auto (k' := .polygonVertex) (i := acc.length) nsS0 rfl
          (pvertex_dom (D := []) prec v).read ?_ (by simp) (by simp) ?_
        · simp only [extChild]
          rw [if_pos trivial]
        · have e : attrLoop pVertexAttr ⟨.zero, .zero⟩ [attr b!"x" (v.x.format prec), attr b!"y" (v.y.format prec)] =
              (v.back prec, []) := by
            rw [attrLoop_cons (s' := ⟨v.x.back prec, .zero⟩) (by simp only [pVertexAttr, floatAttr_format]; rfl),
              attrLoop_cons (s' := ⟨v.x.back prec, v.y.back prec⟩) (by simp only [pVertexAttr, floatAttr_format]; rfl)]
            rfl
          simp only [extStart, e])
    exact this

theorem slice_dom (prec : Int) (s : Slice) : AttrsDom D false [attr b!"ztop" (s.topZ.format prec)] :=
  .one (.plain (by decide +kernel) (plain_format _ _))

theorem slice_ops_eq (prec : Int) (s : Slice) : s.ops prec =
    .start ⟨nsSlices, b!"slice"⟩ [attr b!"ztop" (s.topZ.format prec)] false false ::
      (sliceVerticesOps prec s.vertices ++ s.polygons.flatMap Polygon.ops) ++ [.stop ⟨nsSlices, b!"slice"⟩] := by
  simp [Slice.ops, opStart]

theorem Slice.good {prec : Int} {s : Slice} (h : nsSlices ∈ D.map (·.2)) : Good D (s.ops prec) := by
  rw [slice_ops_eq]
  exact .elem (nameOK_ext (by decide +kernel) h) (slice_dom prec s)
    (.append (sliceVertices_good h) (.flatMap fun p _ => Polygon.good h))

theorem holds_slice {e : AnyElem} {s : Slice} (h : Holds loc r e) : Holds loc { r with slice := s } e := by
  cases loc
  · exact h
  · trivial
  · exact h

theorem Slice.within {prec : Int} {s : Slice} {g : SliceStack} (h : Holds loc r (.res (.sliceStack g))) :
    Within cfg (.ext loc .sliceStack) n (r.putAny loc (.res (.sliceStack g))) (rd (s.ops prec))
      ({ r with slice := s.back prec }.putAny loc (.res (.sliceStack { g with slices := g.slices ++ [s.back prec] }))) := by
  rw [slice_ops_eq]
  have h1 := within_sliceVertices (cfg := cfg) (loc := loc) (n := ⟨nsSlices, b!"slice"⟩) (prec := prec) (vs := s.vertices)
    (r := { r with slice := ⟨s.topZ.back prec, [], []⟩ }.putAny loc (.res (.sliceStack g)))
  have h2 := within_polygons (cfg := cfg) (loc := loc) (n := ⟨nsSlices, b!"slice"⟩) (ps := s.polygons)
    (r := { r with slice := ⟨s.topZ.back prec, s.vertices.map (Point2D.back prec), []⟩ }.putAny loc (.res (.sliceStack g)))
  rw [putAny_slice, put_slice] at h1 h2
  have h3 := h1.seq (noText_flatMap (f := Polygon.ops) (xs := s.polygons) fun _ _ => trivial) h2
  have := Within.ops (cfg := cfg) (n := n) (d := .ext loc .sliceStack) (n' := ⟨nsSlices, b!"slice"⟩) (skip := false)
    (as := [attr b!"ztop" (s.topZ.format prec)]) (r := r.putAny loc (.res (.sliceStack g)))
    (r1 := { r with slice := ⟨.zero, [], []⟩ }.putAny loc (.res (.sliceStack g)))
    (r2 := { r with slice := ⟨s.topZ.back prec, [], []⟩ }.putAny loc (.res (.sliceStack g)))
    (k := g.slices.length) (d' := .ext loc .slice) rfl (by
      rw [fullName_ext nsS0]
      have : extChild (r.putAny loc (.res (.sliceStack g))) loc .sliceStack ⟨nsSlices, b!"slice"⟩ =
          some ((g.slices.length : Int), ExtDec.slice) := by
        simp only [extChild, getAny_put h]
        rw [if_pos trivial]
      simp only [child, this]
      rw [put_slice])
    (by
      rw [(slice_dom (D := []) prec s).read]
      have : (⟨.zero, [], []⟩ : Slice).start [attr b!"ztop" (s.topZ.format prec)] = (⟨s.topZ.back prec, [], []⟩, []) := by
        have : ([attr b!"ztop" (s.topZ.format prec)].find? fun a => a.name.loc = b!"ztop") =
          some (attr b!"ztop" (s.topZ.format prec)) := rfl
        simp only [Slice.start, this, floatAttr_format]
      simp only [Go3mf.start, extStart, putAny_slice, this]
      rw [put_slice])
    (by rw [fullName_ext nsS0]; exact h3)
  simp only [stop, putAny_slice] at this
  rw [modAny_put (holds_slice h) (holds_slice (holds_res h))] at this
  exact this

theorem within_slices {prec : Int} : ∀ {ss : List Slice} {g : SliceStack} {r : Regs}, Holds loc r (.res (.sliceStack g)) →
    ∃ v, Within cfg (.ext loc .sliceStack) n (r.putAny loc (.res (.sliceStack g))) (rd (ss.flatMap (Slice.ops prec)))
      ({ r with slice := v }.putAny loc (.res (.sliceStack { g with slices := g.slices ++ ss.map (Slice.back prec) })))
  | [], g, r, _ => ⟨r.slice, by rw [List.map_nil, List.append_nil]; exact Within.nil⟩
  | s :: ss, g, r, h => by
    have h1 := Slice.within (cfg := cfg) (n := n) (prec := prec) (s := s) h
    obtain ⟨v, h2⟩ := within_slices (prec := prec) (ss := ss) (g := { g with slices := g.slices ++ [s.back prec] })
      (r := { r with slice := s.back prec }) (holds_slice (holds_res h))
    refine ⟨v, ?_⟩
    rw [List.flatMap_cons]
    have := h1.seq (noText_flatMap (f := Slice.ops prec) fun _ _ => trivial) h2
    simpa using this

/-- The texts of a slice stack can be written and read back. -/
def SliceStack.Dom (s : SliceStack) : Prop := ∀ x ∈ s.refs, cleanText x.path = x.path

theorem sliceRef_dom {x : SliceRef} (h : cleanText x.path = x.path) : AttrsDom D false
    [attr b!"slicestackid" (formatUint x.sliceStackID), attr b!"slicepath" x.path] :=
  .cons (.plain (by decide +kernel) (plain_formatUint _)) (.one (.text (by decide +kernel) h))

theorem sliceStack_dom (prec : Int) (s : SliceStack) : AttrsDom D false
    (attr b!"id" (formatUint s.id) :: attrIf (!s.bottomZ.eq .zero) b!"zbottom" (s.bottomZ.format prec)) :=
  .cons (.plain (by decide +kernel) (plain_formatUint _)) (.ite fun _ => .plain (by decide +kernel) (plain_format _ _))

theorem sliceStack_ops_eq (prec : Int) (s : SliceStack) : s.ops prec =
    .start ⟨nsSlices, b!"slicestack"⟩
        (attr b!"id" (formatUint s.id) :: attrIf (!s.bottomZ.eq .zero) b!"zbottom" (s.bottomZ.format prec)) false false ::
      (s.slices.flatMap (Slice.ops prec) ++ (s.refs.map fun r => opAuto ⟨nsSlices, b!"sliceref"⟩
        [attr b!"slicestackid" (formatUint r.sliceStackID), attr b!"slicepath" r.path])) ++
      [.stop ⟨nsSlices, b!"slicestack"⟩] := by
  simp [SliceStack.ops, opStart]

theorem SliceStack.good {prec : Int} {s : SliceStack} (h : nsSlices ∈ D.map (·.2)) (hs : s.Dom) : Good D (s.ops prec) := by
  rw [sliceStack_ops_eq]
  exact .elem (nameOK_ext (by decide +kernel) h) (sliceStack_dom prec s)
    (.append (.flatMap fun p _ => Slice.good h)
      (.map fun x hx => .auto (nameOK_ext (by decide +kernel) h) (sliceRef_dom (hs x hx))))

theorem SliceStack.within {prec : Int} {s : SliceStack} (he : cfg.env.slices = true) (hs : s.Dom)
    (h : Holds loc r (.res (.sliceStack s))) :
    ∃ v, Within cfg loc.parent n r (rd (s.ops prec)) ({ r with slice := v }.putAny loc (.res (.sliceStack (s.back prec)))) := by
  obtain ⟨v, h1⟩ := within_slices (cfg := cfg) (n := ⟨nsSlices, b!"slicestack"⟩) (prec := prec) (ss := s.slices)
    (g := ⟨s.id, if s.bottomZ.eq .zero then .zero else s.bottomZ.back prec, [], []⟩) (r := r) (loc := loc) (holds_res h)
  refine ⟨v, ?_⟩
  rw [sliceStack_ops_eq]
  refine within_top (x := .slices) (k := .sliceStack) (e0 := .res (.sliceStack ⟨0, .zero, [], []⟩))
    (e1 := .res (.sliceStack ⟨s.id, if s.bottomZ.eq .zero then .zero else s.bottomZ.back prec, [], []⟩))
    nsS0 nsS1 (load_slices he) (by rfl) rfl (sliceStack_dom (D := []) prec s).read ?_ (holds_res h) (holds_res h) ?_
  · simp only [AnyElem.start, ExtRes.start]
    rw [attrLoop_cons (s' := ⟨s.id, .zero, [], []⟩) (by simp only [sliceStackAttr, uintAttr_format]; rfl),
      ← List.append_nil (attrIf _ _ _), attrLoop_if
        (s' := ⟨s.id, if s.bottomZ.eq .zero then .zero else s.bottomZ.back prec, [], []⟩)
      (fun hc => by
        have : s.bottomZ.eq .zero = false := by simpa using hc
        rw [this]
        simp only [sliceStackAttr, floatAttr_format]; rfl)
      (fun hc => by
        have : s.bottomZ.eq .zero = true := by simpa using hc
        rw [this]; rfl)]
    rfl
  · refine h1.seq (noText_map fun _ => trivial) ?_
    have := within_ext_list (cfg := cfg) (d := .ext loc .sliceStack) (n := ⟨nsSlices, b!"slicestack"⟩) (g := fun x : SliceRef => x)
      (op := fun x => opAuto ⟨nsSlices, b!"sliceref"⟩
        [attr b!"slicestackid" (formatUint x.sliceStackID), attr b!"slicepath" x.path])
      (st := fun acc => { r with slice := v }.putAny loc (.res (.sliceStack { s.back prec with refs := acc })))
      (xs := s.refs) (acc := []) (fun _ => trivial)
      (fun x hx acc => by
        refine within_ext_auto (k' := .sliceRef) (i := acc.length) nsS0 rfl
          (sliceRef_dom (D := []) (hs x hx)).read ?_ (by simp) (by simp) ?_
        · simp only [extChild, getAny_put (holds_res (y := .sliceStack { s.back prec with refs := acc }) (holds_slice h))]
          rw [if_neg (by decide +kernel), if_pos trivial]
        · have e : attrLoop sliceRefAttr ⟨0, []⟩ [attr b!"slicestackid" (formatUint x.sliceStackID), attr b!"slicepath" x.path] =
              (x, []) := by
            rw [attrLoop_cons (s' := ⟨x.sliceStackID, []⟩) (by simp only [sliceRefAttr, uintAttr_format]; rfl),
              attrLoop_cons (s' := x) rfl]
            rfl
          simp only [extStart, e]
          rw [modAny_put (holds_res (holds_slice h)) (holds_res (holds_slice h))]
          rfl)
    simpa [SliceStack.back] using this

/-! ## Beam lattices -/

/-- What a beam becomes: the radii and cap modes are left out if they are the ones of the lattice, and a missing second
radius becomes the first one. -/
def Beam.back (prec : Int) (m : BeamLattice) (b : Beam) : Beam :=
  let r1 := if F32.zero.lt b.r1 && !b.r1.eq m.radius then b.r1.back prec else .zero
  let r2 := if F32.zero.lt b.r2 && !b.r2.eq m.radius then b.r2.back prec else .zero
  let r1' := if r1.eq .zero then m.radius.back prec else r1
  ⟨b.v1, b.v2, r1', if r2.eq .zero then r1' else r2, b.cap1, b.cap2⟩

/-- What a beam lattice becomes. -/
def BeamLattice.back (prec : Int) (m : BeamLattice) : BeamLattice :=
  { m with minLength := m.minLength.back prec, radius := m.radius.back prec, beams := m.beams.map (Beam.back prec m) }

/-- The attributes of a beam. -/
def Beam.attrs (prec : Int) (m : BeamLattice) (b : Beam) : List Attr :=
  [attr b!"v1" (formatUint b.v1), attr b!"v2" (formatUint b.v2)] ++
    attrIf (F32.zero.lt b.r1 && !b.r1.eq m.radius) b!"r1" (b.r1.format prec) ++
    attrIf (F32.zero.lt b.r2 && !b.r2.eq m.radius) b!"r2" (b.r2.format prec) ++
    attrIf (b.cap1 ≠ m.capMode) b!"cap1" b.cap1.str ++ attrIf (b.cap2 ≠ m.capMode) b!"cap2" b.cap2.str

theorem beam_dom (prec : Int) (m : BeamLattice) (b : Beam) : AttrsDom D true (b.attrs prec m) :=
  .append (.append (.append (.append
    (.cons (.plain (by decide +kernel) (plain_formatUint _)) (.one (.plain (by decide +kernel) (plain_formatUint _))))
    (.ite fun _ => .plain (by decide +kernel) (plain_format _ _)))
    (.ite fun _ => .plain (by decide +kernel) (plain_format _ _)))
    (.ite fun _ => .plain (by decide +kernel) (plain_capMode _)))
    (.ite fun _ => .plain (by decide +kernel) (plain_capMode _))

theorem beam_attrs (prec : Int) (m : BeamLattice) (b : Beam) : attrLoop beamAttr {} (b.attrs prec m) =
    (⟨b.v1, b.v2, if F32.zero.lt b.r1 && !b.r1.eq m.radius then b.r1.back prec else .zero,
      if F32.zero.lt b.r2 && !b.r2.eq m.radius then b.r2.back prec else .zero,
      if b.cap1 ≠ m.capMode then some b.cap1 else none, if b.cap2 ≠ m.capMode then some b.cap2 else none⟩, []) := by
  unfold Beam.attrs
  have h1 : newCapMode b.cap1.str = some b.cap1 := (C21_capMode _ _).2 rfl
  have h2 : newCapMode b.cap2.str = some b.cap2 := (C21_capMode _ _).2 rfl
  simp only [List.append_assoc, List.cons_append, List.nil_append]
  rw [attrLoop_cons (s' := ⟨b.v1, 0, .zero, .zero, none, none⟩) (by simp only [beamAttr, uintAttr_format]; rfl),
    attrLoop_cons (s' := ⟨b.v1, b.v2, .zero, .zero, none, none⟩) (by simp only [beamAttr, uintAttr_format]; rfl),
    attrLoop_if (s' := ⟨b.v1, b.v2, if F32.zero.lt b.r1 && !b.r1.eq m.radius then b.r1.back prec else .zero, .zero, none, none⟩)
      (fun hc => by rw [if_pos hc]; simp only [beamAttr, floatAttr_format]; rfl) (fun hc => by rw [if_neg (by simp [hc])]),
    attrLoop_if (s' := ⟨b.v1, b.v2, if F32.zero.lt b.r1 && !b.r1.eq m.radius then b.r1.back prec else .zero,
      if F32.zero.lt b.r2 && !b.r2.eq m.radius then b.r2.back prec else .zero, none, none⟩)
      (fun hc => by rw [if_pos hc]; simp only [beamAttr, floatAttr_format]; rfl)
      (fun hc => by rw [if_neg (c := (F32.zero.lt b.r2 && !b.r2.eq m.radius) = true) (by simp [hc])]),
    attrLoop_if (s' := ⟨b.v1, b.v2, if F32.zero.lt b.r1 && !b.r1.eq m.radius then b.r1.back prec else .zero,
      if F32.zero.lt b.r2 && !b.r2.eq m.radius then b.r2.back prec else .zero,
      if b.cap1 ≠ m.capMode then some b.cap1 else none, none⟩)
      (fun hc => by rw [if_pos (c := b.cap1 ≠ m.capMode) (by simpa using hc)]; simp only [beamAttr, attr, h1]; rfl)
      (fun hc => by rw [if_neg (c := b.cap1 ≠ m.capMode) (by simpa using hc)]),
    ← List.append_nil (attrIf _ _ _),
    attrLoop_if (s' := ⟨b.v1, b.v2, if F32.zero.lt b.r1 && !b.r1.eq m.radius then b.r1.back prec else .zero,
      if F32.zero.lt b.r2 && !b.r2.eq m.radius then b.r2.back prec else .zero,
      if b.cap1 ≠ m.capMode then some b.cap1 else none, if b.cap2 ≠ m.capMode then some b.cap2 else none⟩)
      (fun hc => by rw [if_pos (c := b.cap2 ≠ m.capMode) (by simpa using hc)]; simp only [beamAttr, attr, h2]; rfl)
      (fun hc => by rw [if_neg (c := b.cap2 ≠ m.capMode) (by simpa using hc)])]
  rfl

theorem beam_back (prec : Int) (m : BeamLattice) (b : Beam) :
    (attrLoop beamAttr {} (b.attrs prec m)).1.beam (m.radius.back prec) m.capMode = b.back prec m := by
  rw [beam_attrs]
  have h1 : (if b.cap1 ≠ m.capMode then some b.cap1 else none).getD m.capMode = b.cap1 := by
    by_cases h : b.cap1 = m.capMode <;> simp [h]
  have h2 : (if b.cap2 ≠ m.capMode then some b.cap2 else none).getD m.capMode = b.cap2 := by
    by_cases h : b.cap2 = m.capMode <;> simp [h]
  simp only [BeamVars.beam, Beam.back, h1, h2]

theorem beams_good {prec : Int} {m : BeamLattice} (h : nsBeam ∈ D.map (·.2)) : Good D (m.beamsOps prec) :=
  .elem (nameOK_ext (by decide +kernel) h) .nil
    (.map fun b _ => .auto (nameOK_ext (by decide +kernel) h) (beam_dom prec m b))

theorem within_beams {prec : Int} {m : BeamLattice} {sets : List BeamSet}
    (h : Holds loc r (.beamLattice m)) :
    Within cfg (.ext loc .beamLattice) n (r.putAny loc (.beamLattice { m.back prec with beams := [], beamSets := sets }))
      (rd (m.beamsOps prec)) (r.putAny loc (.beamLattice { m.back prec with beamSets := sets })) := by
  refine within_ext_elem (k' := .beams) (i := -1) (r' := r.putAny loc (.beamLattice { m.back prec with beams := [], beamSets := sets }))
    nsB0 rfl (AttrsDom.nil (D := []) (skip := false)).read ?_ (by simp) (by simp) ?_ ?_
  · simp only [extChild, getAny_put (holds_beam h)]
    rw [if_pos trivial]
  · rfl
  · have := within_ext_list (cfg := cfg) (d := .ext loc .beams) (n := ⟨nsBeam, b!"beams"⟩) (g := Beam.back prec m)
      (op := Beam.op prec m)
      (st := fun acc => r.putAny loc (.beamLattice { m.back prec with beams := acc, beamSets := sets }))
      (xs := m.beams) (acc := []) (fun _ => trivial)
      (fun b _ acc => by
        refine within_ext_auto (k' := .beam) (i := acc.length) (as := b.attrs prec m) nsB0 rfl
          (beam_dom (D := []) prec m b).read ?_ (by simp) (by simp) ?_
        · simp only [extChild, getAny_put (holds_beam (y := { m.back prec with beams := acc, beamSets := sets }) h)]
          rw [if_pos trivial]
        · have e := beam_attrs prec m b
          simp only [extStart]
          rw [modAny_put (holds_beam h) (holds_beam h)]
          simp only [AnyElem.modBeam, BeamLattice.addBeam]
          rw [show ({ m.back prec with beams := acc, beamSets := sets } : BeamLattice).radius = m.radius.back prec from rfl,
            show ({ m.back prec with beams := acc, beamSets := sets } : BeamLattice).capMode = m.capMode from rfl,
            beam_back, e])
    simpa [BeamLattice.back] using this

/-- The texts of a beam set can be written and read back. -/
def BeamSet.Dom (s : BeamSet) : Prop := cleanText s.name = s.name ∧ cleanText s.identifier = s.identifier

theorem beamSet_dom {s : BeamSet} (h : s.Dom) : AttrsDom D false
    (attrIf (s.name ≠ []) b!"name" s.name ++ attrIf (s.identifier ≠ []) b!"identifier" s.identifier) :=
  .append (.ite fun _ => .text (by decide +kernel) h.1) (.ite fun _ => .text (by decide +kernel) h.2)

theorem ref_dom (i : UInt32) : AttrsDom D false [attr b!"index" (formatUint i)] :=
  .one (.plain (by decide +kernel) (plain_formatUint _))

theorem BeamSet.good {s : BeamSet} (h : nsBeam ∈ D.map (·.2)) (hs : s.Dom) : Good D s.ops :=
  .elem (nameOK_ext (by decide +kernel) h) (beamSet_dom hs)
    (.map fun i _ => .auto (nameOK_ext (by decide +kernel) h) (ref_dom i))

theorem holds_beamSet {e : AnyElem} {s : BeamSet} (h : Holds loc r e) : Holds loc { r with beamSet := s } e := by
  cases loc
  · exact h
  · trivial
  · exact h

theorem BeamSet.within {s : BeamSet} {g : BeamLattice} (hs : s.Dom) (h : Holds loc r (.beamLattice g)) :
    Within cfg (.ext loc .beamSets) n (r.putAny loc (.beamLattice g)) (rd s.ops)
      ({ r with beamSet := s }.putAny loc (.beamLattice { g with beamSets := g.beamSets ++ [s] })) := by
  have hb := within_ext_list (cfg := cfg) (d := .ext loc .beamSet) (n := ⟨nsBeam, b!"beamset"⟩) (g := fun i : UInt32 => i)
      (op := fun i => opAuto ⟨nsBeam, b!"ref"⟩ [attr b!"index" (formatUint i)])
      (st := fun acc => { r with beamSet := ⟨acc, s.name, s.identifier⟩ }.putAny loc (.beamLattice g))
      (xs := s.refs) (acc := []) (fun _ => trivial)
      (fun i _ acc => by
        refine within_ext_auto (k' := .beamRef) (i := acc.length) nsB0 rfl
          (ref_dom (D := []) i).read ?_ (by simp) (by simp) ?_
        · simp only [extChild, putAny_beamSet]
          rw [if_pos trivial]
        · have e : firstUint [attr b!"index" (formatUint i)] (fun a => a.name.space = [] ∧ a.name.loc = b!"index") = (i, []) := by
            have : ([attr b!"index" (formatUint i)].find? fun a => a.name.space = [] ∧ a.name.loc = b!"index") =
              some (attr b!"index" (formatUint i)) := rfl
            simp only [firstUint, this, uintAttr_format]
          simp only [extStart, e, putAny_beamSet]
          rw [put_beamSet])
  have := Within.ops (cfg := cfg) (n := n) (d := .ext loc .beamSets) (n' := ⟨nsBeam, b!"beamset"⟩) (skip := false)
    (as := attrIf (s.name ≠ []) b!"name" s.name ++ attrIf (s.identifier ≠ []) b!"identifier" s.identifier)
    (r := r.putAny loc (.beamLattice g))
    (r1 := { r with beamSet := ⟨[], [], []⟩ }.putAny loc (.beamLattice g))
    (r2 := { r with beamSet := ⟨[], s.name, s.identifier⟩ }.putAny loc (.beamLattice g))
    (k := g.beamSets.length) (d' := .ext loc .beamSet) rfl (by
      rw [fullName_ext nsB0]
      have : extChild (r.putAny loc (.beamLattice g)) loc .beamSets ⟨nsBeam, b!"beamset"⟩ =
          some ((g.beamSets.length : Int), ExtDec.beamSet) := by
        simp only [extChild, getAny_put h]
        rw [if_pos trivial]
      simp only [child, this]
      rw [put_beamSet])
    (by
      rw [(beamSet_dom (D := []) hs).read]
      have : (attrIf (s.name ≠ []) b!"name" s.name ++ attrIf (s.identifier ≠ []) b!"identifier" s.identifier).foldl
          beamSetAttr ⟨[], [], []⟩ = ⟨[], s.name, s.identifier⟩ := by
        rw [List.foldl_append]
        have e1 : (attrIf (s.name ≠ []) b!"name" s.name).foldl beamSetAttr ⟨[], [], []⟩ = ⟨[], s.name, []⟩ := by
          by_cases hn : s.name = [] <;> simp [attrIf, hn, beamSetAttr, attr]
        rw [e1]
        by_cases hn : s.identifier = [] <;> simp [attrIf, hn, beamSetAttr, attr]
      simp only [start, extStart, putAny_beamSet, this]
      rw [put_beamSet])
    (by rw [fullName_ext nsB0]; exact hb)
  simp only [stop, putAny_beamSet] at this
  rw [modAny_put (holds_beamSet h) (holds_beamSet (holds_beam h))] at this
  simpa [AnyElem.modBeam, BeamSet.ops, opStart] using this

theorem within_beamSets : ∀ {ss : List BeamSet} {g : BeamLattice} {r : Regs}, (∀ s ∈ ss, s.Dom) → Holds loc r (.beamLattice g) →
    ∃ v, Within cfg (.ext loc .beamSets) n (r.putAny loc (.beamLattice g)) (rd (ss.flatMap BeamSet.ops))
      ({ r with beamSet := v }.putAny loc (.beamLattice { g with beamSets := g.beamSets ++ ss }))
  | [], g, r, _, _ => ⟨r.beamSet, by rw [List.append_nil]; exact Within.nil⟩
  | s :: ss, g, r, hs, h => by
    have h1 := BeamSet.within (cfg := cfg) (n := n) (hs s (by simp)) h
    obtain ⟨v, h2⟩ := within_beamSets (ss := ss) (g := { g with beamSets := g.beamSets ++ [s] })
      (r := { r with beamSet := s }) (fun x hx => hs x (by simp [hx])) (holds_beamSet (holds_beam h))
    refine ⟨v, ?_⟩
    rw [List.flatMap_cons]
    have := h1.seq (noText_flatMap (f := BeamSet.ops) fun _ _ => trivial) h2
    simpa using this

/-- The attributes of a beam lattice. -/
def BeamLattice.attrs (prec : Int) (m : BeamLattice) : List Attr :=
  [attr b!"minlength" (m.minLength.format prec), attr b!"radius" (m.radius.format prec)] ++
    attrIf (m.clipMode ≠ .none) b!"clippingmode" m.clipMode.str ++
    attrIf (m.clippingMeshID ≠ 0) b!"clippingmesh" (formatUint m.clippingMeshID) ++
    attrIf (m.representationMeshID ≠ 0) b!"representationmesh" (formatUint m.representationMeshID) ++
    attrIf (m.capMode ≠ .sphere) b!"cap" m.capMode.str

theorem beamLattice_dom (prec : Int) (m : BeamLattice) : AttrsDom D false (m.attrs prec) :=
  .append (.append (.append (.append
    (.cons (.plain (by decide +kernel) (plain_format _ _)) (.one (.plain (by decide +kernel) (plain_format _ _))))
    (.ite fun _ => .plain (by decide +kernel) (plain_clipMode _)))
    (.ite fun _ => .plain (by decide +kernel) (plain_formatUint _)))
    (.ite fun _ => .plain (by decide +kernel) (plain_formatUint _)))
    (.ite fun _ => .plain (by decide +kernel) (plain_capMode _))

theorem beamLattice_attrs (prec : Int) (m : BeamLattice) :
    attrLoop beamLatticeAttr ⟨.none, 0, 0, [], [], .zero, .zero, .sphere⟩ (m.attrs prec) =
      ({ m.back prec with beams := [], beamSets := [] }, []) := by
  unfold BeamLattice.attrs
  have h1 : newClipMode m.clipMode.str = some m.clipMode := (C21_clipMode _ _).2 rfl
  have h2 : newCapMode m.capMode.str = some m.capMode := (C21_capMode _ _).2 rfl
  simp only [List.append_assoc, List.cons_append, List.nil_append]
  rw [attrLoop_cons (s' := ⟨.none, 0, 0, [], [], m.minLength.back prec, .zero, .sphere⟩)
      (by simp only [beamLatticeAttr, floatAttr_format]; rfl),
    attrLoop_cons (s' := ⟨.none, 0, 0, [], [], m.minLength.back prec, m.radius.back prec, .sphere⟩)
      (by simp only [beamLatticeAttr, floatAttr_format]; rfl),
    attrLoop_if (s' := ⟨m.clipMode, 0, 0, [], [], m.minLength.back prec, m.radius.back prec, .sphere⟩)
      (fun hc => by simp only [beamLatticeAttr, attr, h1]; rfl)
      (fun hc => by
        have : m.clipMode = .none := by simpa using hc
        rw [this]),
    attrLoop_if (s' := ⟨m.clipMode, m.clippingMeshID, 0, [], [], m.minLength.back prec, m.radius.back prec, .sphere⟩)
      (fun hc => by simp only [beamLatticeAttr, uintAttr_format]; rfl)
      (fun hc => by
        have : m.clippingMeshID = 0 := by simpa using hc
        rw [this]),
    attrLoop_if (s' := ⟨m.clipMode, m.clippingMeshID, m.representationMeshID, [], [], m.minLength.back prec,
        m.radius.back prec, .sphere⟩)
      (fun hc => by simp only [beamLatticeAttr, uintAttr_format]; rfl)
      (fun hc => by
        have : m.representationMeshID = 0 := by simpa using hc
        rw [this]),
    ← List.append_nil (attrIf _ _ _),
    attrLoop_if (s' := ⟨m.clipMode, m.clippingMeshID, m.representationMeshID, [], [], m.minLength.back prec,
        m.radius.back prec, m.capMode⟩)
      (fun hc => by simp only [beamLatticeAttr, attr, h2]; rfl)
      (fun hc => by
        have : m.capMode = .sphere := by simpa using hc
        rw [this])]
  rfl

theorem sets_good {m : BeamLattice} (h : nsBeam ∈ D.map (·.2)) (hs : ∀ s ∈ m.beamSets, s.Dom) : Good D m.setsOps :=
  .elem (nameOK_ext (by decide +kernel) h) .nil (.flatMap fun s hsm => BeamSet.good h (hs s hsm))

theorem beamLattice_ops_eq (prec : Int) (m : BeamLattice) : m.ops prec =
    .start ⟨nsBeam, b!"beamlattice"⟩ (m.attrs prec) false false :: (m.beamsOps prec ++ m.setsOps) ++
      [.stop ⟨nsBeam, b!"beamlattice"⟩] := by
  simp [BeamLattice.ops, opStart, BeamLattice.attrs]

theorem BeamLattice.good {prec : Int} {m : BeamLattice} (h : nsBeam ∈ D.map (·.2)) (hs : ∀ s ∈ m.beamSets, s.Dom) :
    Good D (m.ops prec) := by
  rw [beamLattice_ops_eq]
  exact .elem (nameOK_ext (by decide +kernel) h) (beamLattice_dom prec m) (.append (beams_good h) (sets_good h hs))

theorem BeamLattice.within {prec : Int} {m : BeamLattice} (he : cfg.env.beamlattice = true) (hs : ∀ s ∈ m.beamSets, s.Dom)
    (h : Holds loc r (.beamLattice m)) :
    ∃ v, Within cfg loc.parent n r (rd (m.ops prec)) ({ r with beamSet := v }.putAny loc (.beamLattice (m.back prec))) := by
  have h1 := within_beams (cfg := cfg) (n := ⟨nsBeam, b!"beamlattice"⟩) (prec := prec) (sets := []) h
  obtain ⟨v, h2⟩ := within_beamSets (cfg := cfg) (n := ⟨nsBeam, b!"beamsets"⟩) (ss := m.beamSets)
    (g := { m.back prec with beamSets := [] }) (r := r) (loc := loc) hs (holds_beam h)
  refine ⟨v, ?_⟩
  rw [beamLattice_ops_eq]
  refine within_top (x := .beamlattice) (k := .beamLattice) (e0 := .beamLattice ⟨.none, 0, 0, [], [], .zero, .zero, .sphere⟩)
    (e1 := .beamLattice { m.back prec with beams := [], beamSets := [] })
    nsB0 nsB1 (load_beam he) (by rfl) rfl (beamLattice_dom (D := []) prec m).read ?_ (holds_beam h) (holds_beam h) ?_
  · simp only [AnyElem.start]
    rw [beamLattice_attrs]
  · refine h1.seq trivial ?_
    refine within_ext_elem (k' := .beamSets) (i := -1) (r' := r.putAny loc (.beamLattice { m.back prec with beamSets := [] }))
      nsB0 rfl (AttrsDom.nil (D := []) (skip := false)).read ?_ (by simp) (by simp) ?_ ?_
    · simp only [extChild, getAny_put (holds_beam h)]
      rw [if_neg (by decide +kernel), if_pos trivial]
    · rfl
    · exact h2

end

end Go3mf
