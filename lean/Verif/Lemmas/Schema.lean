import Verif.Spec.Schema
import Verif.Lemmas.Forget
import Verif.Lemmas.Uniq
import Verif.Props.C103

/-!
# The tags that are written
-/

namespace Go3mf

open Spec Spec.Lang

/-- The tags read for a token written. -/
def opTags : Op → List Event
  | .start n as auto _ => .start (fullName nsCore n) (readAttrs as) :: if auto then [.stop (fullName nsCore n)] else []
  | .stop n => [.stop (fullName nsCore n)]
  | .chars _ => []

abbrev tags (ops : List Op) : List Event := ops.flatMap opTags

theorem tagsOf_append (a b : List (Option Event)) : tagsOf (a ++ b) = tagsOf a ++ tagsOf b := by
  simp [tagsOf, List.filterMap_append]

theorem tagsOf_flush (t : Str) : tagsOf (flushText t) = [] := by
  unfold flushText
  split <;> simp [tagsOf]

theorem tagsOf_readOps : ∀ (ops : List Op) (t : Str), tagsOf (readOps nsCore t ops) = tags ops
  | [], t => by simp [readOps, tagsOf_flush]
  | .chars s :: ops, t => by
    rw [readOps, tagsOf_readOps ops]
    simp [tags, opTags]
  | .stop n :: ops, t => by
    rw [readOps, tagsOf_append, tagsOf_flush, List.nil_append]
    have := tagsOf_readOps ops []
    simp only [tagsOf] at this ⊢
    simp [tags, opTags, this]
  | .start n as auto sk :: ops, t => by
    rw [readOps, tagsOf_append, tagsOf_flush, List.nil_append]
    have := tagsOf_readOps ops []
    simp only [tagsOf] at this ⊢
    cases auto <;> simp [tags, opTags, this]

/-! ## Attributes -/

theorem coreNames_append (a b : List Attr) : coreNames (a ++ b) = coreNames a ++ coreNames b := by simp [coreNames]

theorem coreNames_read {as : List Attr} (h : ∀ l ∈ coreNames as, l ≠ []) : coreNames (readAttrs as) = coreNames as := by
  induction as with
  | nil => rfl
  | cons a as ih =>
    have h' : ∀ l ∈ coreNames as, l ≠ [] := fun l hl => h l (by
      rw [← List.singleton_append, coreNames_append]; exact List.mem_append_right _ hl)
    have ih := ih h'
    by_cases hs : a.name.space = []
    · have hl : a.name.loc ≠ [] := h _ (by simp [coreNames, hs])
      simp only [coreNames, readAttrs, shown, ne_eq, decide_not] at ih ⊢
      simp [hs, hl, ih]
    · simp only [coreNames, readAttrs, shown, ne_eq, decide_not] at ih ⊢
      by_cases hl : a.name.loc = [] <;> simp [hs, hl, ih]

theorem coreNames_any {any : AnyAttr} (h : DistinctAttrs any) : coreNames (encodeAnyAttr any) = [] := by
  unfold coreNames
  rw [List.map_eq_nil_iff, List.filter_eq_nil_iff]
  intro a ha
  simpa using h.2 a.name ((anyAttr_names any).subset (List.mem_map.2 ⟨a, ha, rfl⟩))

theorem attrs_read {req opt : List Str} {as : List Attr} (hr : [] ∉ req ++ opt) (h : Attrs req opt as) :
    Attrs req opt (readAttrs as) := by
  have he : coreNames (readAttrs as) = coreNames as := coreNames_read fun l hl hl' => hr (by
    rw [← hl']; exact List.mem_append.2 (h.2 l hl))
  unfold Attrs
  rw [he]
  exact h

theorem coreNames_if (c : Bool) (l v : Str) : coreNames (attrIf c l v) = if c then [l] else [] := by
  cases c <;> simp [attrIf, coreNames, attr]

theorem coreNames_attr (l v : Str) (as : List Attr) : coreNames (attr l v :: as) = l :: coreNames as := by
  simp [coreNames, attr]

theorem coreNames_nil : coreNames [] = [] := rfl

/-- The attributes of an element in the schema. -/
macro "schema_attrs" h:term : tactic => `(tactic| (
  refine attrs_read (by decide +kernel) ?_
  unfold Attrs
  simp only [List.cons_append, List.nil_append, coreNames_attr, coreNames_append, coreNames_if, coreNames_any $h, coreNames_nil]
  refine ⟨?_, ?_⟩
  · simp
  · intro l hl
    simp only [List.mem_cons, List.mem_append, List.mem_ite_nil_right, List.not_mem_nil, or_false, false_or] at hl ⊢ <;>
    tauto))

theorem distinct_nil : DistinctAttrs [] := ⟨List.nodup_nil, fun _ h => nomatch h⟩

/-! ## Elements -/

theorem fullName_coreName (l : Str) : fullName nsCore (coreName l) = ⟨nsCore, l⟩ := rfl

theorem elem_tags {l : Str} {A : List Attr → Prop} {P : Lang} {as : List Attr} {body : List Op} (ha : A (readAttrs as))
    (hb : P (tags body)) : Elem l A P (tags (opStart (coreName l) as :: body ++ [.stop (coreName l)])) := by
  refine ⟨_, _, ?_, ha, hb⟩
  simp [tags, opStart, opTags, fullName_coreName]

theorem auto_tags {l : Str} {A : List Attr → Prop} {P : Lang} {as : List Attr} {sk : Bool} (ha : A (readAttrs as))
    (hb : P []) : Elem l A P (opTags (.start (coreName l) as true sk)) :=
  ⟨_, [], by simp [opTags, fullName_coreName], ha, hb⟩

theorem other_tags {n : Name} {as : List Attr} {body : List Op} (h0 : n.space ≠ []) (hn : n.space ≠ nsCore) :
    Other (tags (opStart n as :: body ++ [.stop n])) := by
  refine ⟨fullName nsCore n, readAttrs as, tags body, ?_, ?_⟩
  · simp [tags, opStart, opTags]
  · simpa [fullName, h0] using hn

theorem other_auto {n : Name} {as : List Attr} (h0 : n.space ≠ []) (hn : n.space ≠ nsCore) : Other (tags [opAuto n as]) := by
  refine ⟨fullName nsCore n, readAttrs as, [], ?_, ?_⟩
  · simp [tags, opAuto, opTags]
  · simpa [fullName, h0] using hn

theorem star_flatMap {α : Type} {P : Lang} {f : α → List Op} {xs : List α} (h : ∀ x ∈ xs, P (tags (f x))) :
    Star P (tags (xs.flatMap f)) := by
  refine ⟨xs.map fun x => tags (f x), ?_, ?_⟩
  · unfold tags
    rw [List.flatMap_assoc, List.flatMap_def]
  · intro y hy
    obtain ⟨x, hx, rfl⟩ := List.mem_map.1 hy
    exact h x hx

theorem star_map {α : Type} {P : Lang} {f : α → Op} {xs : List α} (h : ∀ x ∈ xs, P (opTags (f x))) :
    Star P (tags (xs.map f)) := by
  refine ⟨xs.map fun x => opTags (f x), ?_, ?_⟩
  · unfold tags
    rw [List.flatMap_map, List.flatMap_def]
  · intro y hy
    obtain ⟨x, hx, rfl⟩ := List.mem_map.1 hy
    exact h x hx

theorem cat_tags {P Q : Lang} {a b : List Op} (ha : P (tags a)) (hb : Q (tags b)) : Cat P Q (tags (a ++ b)) :=
  ⟨_, _, by simp [tags], ha, hb⟩

section
variable {env : Env} {exts : List Extension} {prec : Int} {other : Lang}

theorem metadata_schema (md : Metadata) : Schema.metadata (tags md.ops) := by
  refine ⟨_, [], by simp only [Metadata.ops, tags, opStart, opTags, fullName_coreName, List.flatMap_cons, List.flatMap_nil]; rfl, ?_, rfl⟩
  schema_attrs distinct_nil

theorem metadatas_schema (mds : List Metadata) : Star Schema.metadata (tags (encodeMetadata mds)) :=
  star_flatMap fun md _ => metadata_schema md

theorem group_schema {g : MetadataGroup} (h : DistinctAttrs g.anyAttr) : Schema.metadatagroup (tags g.ops) :=
  elem_tags (by schema_attrs h) (metadatas_schema _)

theorem item_schema {i : Item} (h : DistinctAttrs i.anyAttr) (h' : DistinctAttrs i.metadata.anyAttr) :
    Schema.item (tags i.ops) := by
  have ha : Attrs [b!"objectid"] [b!"transform", b!"partnumber"] (readAttrs i.attrs) := by
    unfold Item.attrs
    schema_attrs h
  unfold Item.ops
  split
  · exact elem_tags ha (.inr (group_schema h'))
  · have := auto_tags (l := b!"item") (P := Opt Schema.metadatagroup) (sk := false) ha (.inl rfl)
    simpa only [Schema.item, tags, opAuto, List.flatMap_cons, List.flatMap_nil, List.append_nil] using this

theorem build_schema {b : Build} (h : DistinctAttrs b.anyAttr)
    (h' : ∀ i ∈ b.items, DistinctAttrs i.anyAttr ∧ DistinctAttrs i.metadata.anyAttr) : Schema.build (tags b.ops) :=
  elem_tags (by schema_attrs h) (star_flatMap fun i hi => item_schema (h' i hi).1 (h' i hi).2)

theorem component_schema {c : Component} (h : DistinctAttrs c.anyAttr) : Schema.component (opTags c.op) :=
  auto_tags (by schema_attrs h) rfl

theorem components_schema {cs : Components} (h : DistinctAttrs cs.anyAttr)
    (h' : ∀ c ∈ cs.component, DistinctAttrs c.anyAttr) : Schema.components (tags cs.ops) :=
  elem_tags (by schema_attrs h) (star_map fun c hc => component_schema (h' c hc))

theorem base_schema {b : Base} (h : DistinctAttrs b.anyAttr) : Schema.base (opTags b.op) :=
  auto_tags (by schema_attrs h) rfl

theorem basematerials_schema {r : BaseMaterials} (h : DistinctAttrs r.anyAttr)
    (h' : ∀ b ∈ r.materials, DistinctAttrs b.anyAttr) : Schema.basematerials (tags r.ops) :=
  elem_tags (by schema_attrs h) (star_map fun b hb => base_schema (h' b hb))

theorem vertices_schema {m : Mesh} (h : DistinctAttrs m.verticesAttr) : Schema.vertices (tags (m.verticesOps prec)) :=
  elem_tags (by schema_attrs h) (star_map fun v _ => auto_tags (by schema_attrs distinct_nil) rfl)

theorem triangle_lengths {pid pindex : UInt32} (arr : List Attr) (t : Triangle) :
    (t.slice pid pindex arr).len = 3 ∨ (t.slice pid pindex arr).len = 5 ∨ (t.slice pid pindex arr).len = 7 := by
  unfold Triangle.slice
  simp only
  split
  · simp
  · split <;> simp

theorem coreNames_take {arr : List Attr} (h : arr.map (·.name) = triangleArray.map (·.name)) (n : Nat) :
    coreNames (arr.take n) = coreNames (triangleArray.take n) := by
  have h2 : ∀ as : List Attr, coreNames as = ((as.map (·.name)).filter fun n => n.space = []).map (·.loc) := by
    intro as
    simp only [coreNames, List.filter_map, List.map_map]
    rfl
  rw [h2, h2, List.map_take, List.map_take, h]

theorem triangles_star {pid pindex : UInt32} : ∀ {ts : List Triangle} {arr : List Attr},
    arr.map (·.name) = triangleArray.map (·.name) → (∀ t ∈ ts, t.anyAttr = []) →
    Star Schema.triangle (tags (trianglesLoop pid pindex arr ts))
  | [], _, _, _ => ⟨[], rfl, fun _ h => nomatch h⟩
  | t :: ts, arr, h, ht => by
    obtain ⟨h1, h2⟩ := triangle_slice_names (pid := pid) (pindex := pindex) arr t
    obtain ⟨ss, hs, hss⟩ := triangles_star (pid := pid) (pindex := pindex) (h1.trans h) fun x hx => ht x (List.mem_cons_of_mem _ hx)
    unfold trianglesLoop
    rw [ht t (by simp)]
    refine ⟨opTags (opFast (coreName b!"triangle") (t.slice pid pindex arr).attrs) :: ss, ?_, ?_⟩
    · rw [List.flatten_cons, ← hs]
      rfl
    · intro x hx
      rcases List.mem_cons.1 hx with rfl | hx
      · refine auto_tags ?_ rfl
        have he : coreNames (t.slice pid pindex arr).attrs = coreNames (triangleArray.take (t.slice pid pindex arr).len) := by
          unfold AttrSlice.attrs
          rw [h2, Option.getD_none]
          exact coreNames_take (h1.trans h) _
        have hn : Schema.triangleNames (t.slice pid pindex arr).attrs := by
          unfold Schema.triangleNames
          rw [he]
          rcases triangle_lengths (pid := pid) (pindex := pindex) arr t with hl | hl | hl <;> rw [hl] <;> decide +kernel
        unfold Schema.triangleNames at hn ⊢
        rwa [coreNames_read]
        intro l hl hl'
        subst hl'
        rcases hn with hn | hn | hn <;> rw [hn] at hl <;> revert hl <;> decide +kernel
      · exact hss x hx

theorem res_other (x : ExtRes) : Other (tags (x.ops prec)) := by
  cases x with
  | texture2D r => exact other_auto (by decide +kernel) (by decide +kernel)
  | colorGroup r => exact other_tags (by decide +kernel) (by decide +kernel)
  | texture2DGroup r => exact other_tags (by decide +kernel) (by decide +kernel)
  | composite r => exact other_tags (by decide +kernel) (by decide +kernel)
  | multi r => exact other_tags (by decide +kernel) (by decide +kernel)
  | sliceStack r =>
    simp only [ExtRes.ops, SliceStack.ops, List.cons_append]
    exact other_tags (by decide +kernel) (by decide +kernel)

theorem beam_other (b : BeamLattice) : Other (tags (b.ops prec)) := by
  simp only [BeamLattice.ops, List.cons_append]
  exact other_tags (by decide +kernel) (by decide +kernel)

theorem tokens_other {n : Name} {as : List Attr} {ts : List Token} (h : Element env exts n as ts) : Other (tags (tokensOps ts)) := by
  obtain ⟨body, -, rfl⟩ := h.tokens
  have := other_tags (as := as) (body := body.map Token.op) (h.name.space.resolve_left h.core).1 h.core
  simpa [tokensOps, Token.op] using this

/-- The elements that are not of the core are in the language. -/
structure Others (env : Env) (exts : List Extension) (prec : Int) (other : Lang) : Prop where
  tokens : ∀ n as ts, Element env exts n as ts → other (tags (tokensOps ts))
  res : ∀ x : ExtRes, other (tags (x.ops prec))
  beam : ∀ b : BeamLattice, other (tags (b.ops prec))

theorem others_other : Others env exts prec Other := ⟨fun _ _ _ => tokens_other, res_other, beam_other⟩

/-! ## Extensions -/

theorem elemIn_tags {ns l : Str} {A : List Attr → Prop} {P : Lang} {as : List Attr} {sk : Bool} {body : List Op} (hn : ns ≠ [])
    (ha : A (readAttrs as)) (hb : P (tags body)) : ElemIn ns l A P (tags (.start ⟨ns, l⟩ as false sk :: body ++ [.stop ⟨ns, l⟩])) := by
  refine ⟨_, _, ?_, ha, hb⟩
  simp [tags, opTags, fullName, hn]

theorem autoIn_tags {ns l : Str} {A : List Attr → Prop} {P : Lang} {as : List Attr} {sk : Bool} (hn : ns ≠ []) (ha : A (readAttrs as))
    (hb : P []) : ElemIn ns l A P (opTags (.start ⟨ns, l⟩ as true sk)) :=
  ⟨_, [], by simp [opTags, fullName, hn], ha, hb⟩

theorem materials_ne : nsMaterials ≠ [] := by decide +kernel

theorem slices_ne : nsSlices ≠ [] := by decide +kernel

theorem beam_ne : nsBeam ≠ [] := by decide +kernel

theorem segment_schema (s : Segment) : ElemIn nsSlices b!"segment" Schema.segmentNames Empty (opTags s.op) := by
  refine autoIn_tags slices_ne ?_ rfl
  unfold Schema.segmentNames
  rw [coreNames_read]
  · split
    · simp only [List.cons_append, List.nil_append, coreNames_attr, coreNames_if, coreNames_nil]
      split <;> simp
    · exact .inl rfl
  · intro l hl hl'
    subst hl'
    revert hl
    split
    · simp only [List.cons_append, List.nil_append, coreNames_attr, coreNames_if, coreNames_nil]
      split <;> simp
    · simp [coreNames, attr]

theorem polygon_schema (p : Polygon) : Schema.polygon (tags p.ops) :=
  elemIn_tags slices_ne (by schema_attrs distinct_nil) (star_map fun s _ => segment_schema s)

theorem slice_schema (s : Slice) : Schema.slice (tags (s.ops prec)) := by
  have hv : Schema.sliceVertices (tags (sliceVerticesOps prec s.vertices)) :=
    elemIn_tags slices_ne (by schema_attrs distinct_nil) (star_map fun v _ => autoIn_tags slices_ne (by schema_attrs distinct_nil) rfl)
  have := elemIn_tags (l := b!"slice") (A := Attrs [b!"ztop"] []) (as := [attr b!"ztop" (s.topZ.format prec)]) (sk := false) slices_ne
    (by schema_attrs distinct_nil)
    (cat_tags (P := Opt Schema.sliceVertices) (.inr hv) (star_flatMap (f := Polygon.ops) (xs := s.polygons) fun p _ => polygon_schema p))
  simpa only [Schema.slice, Slice.ops, opStart, List.append_assoc, List.cons_append] using this

theorem slicestack_schema (s : SliceStack) : Schema.slicestack (tags (s.ops prec)) := by
  have := elemIn_tags (l := b!"slicestack") (A := Attrs [b!"id"] [b!"zbottom"])
    (as := attr b!"id" (formatUint s.id) :: attrIf (!s.bottomZ.eq .zero) b!"zbottom" (s.bottomZ.format prec)) (sk := false) slices_ne
    (by schema_attrs distinct_nil)
    (cat_tags (star_flatMap (f := Slice.ops prec) (xs := s.slices) fun p _ => slice_schema p)
      (star_map (P := Schema.sliceref) (xs := s.refs) (f := fun r => opAuto ⟨nsSlices, b!"sliceref"⟩
        [attr b!"slicestackid" (formatUint r.sliceStackID), attr b!"slicepath" r.path])
        fun r _ => autoIn_tags slices_ne (by schema_attrs distinct_nil) rfl))
  simpa only [Schema.slicestack, SliceStack.ops, opStart, List.append_assoc, List.cons_append] using this

theorem beam_schema (m : BeamLattice) (b : Beam) : Schema.beam (opTags (b.op prec m)) :=
  autoIn_tags beam_ne (by schema_attrs distinct_nil) rfl

theorem beamset_schema (s : BeamSet) : Schema.beamset (tags s.ops) :=
  elemIn_tags beam_ne (by schema_attrs distinct_nil) (star_map fun i _ => autoIn_tags beam_ne (by schema_attrs distinct_nil) rfl)

theorem beamlattice_schema (m : BeamLattice) : Schema.beamlattice (tags (m.ops prec)) := by
  have h1 : ElemIn nsBeam b!"beams" (Attrs [] []) (Star Schema.beam) (tags (m.beamsOps prec)) :=
    elemIn_tags beam_ne (by schema_attrs distinct_nil) (star_map fun b _ => beam_schema m b)
  have h2 : ElemIn nsBeam b!"beamsets" (Attrs [] []) (Star Schema.beamset) (tags m.setsOps) :=
    elemIn_tags beam_ne (by schema_attrs distinct_nil) (star_flatMap fun b _ => beamset_schema b)
  have := elemIn_tags (ns := nsBeam) (l := b!"beamlattice")
    (A := Attrs [b!"minlength", b!"radius"] [b!"clippingmode", b!"clippingmesh", b!"representationmesh", b!"cap"])
    (as := [attr b!"minlength" (m.minLength.format prec), attr b!"radius" (m.radius.format prec)] ++
        attrIf (m.clipMode ≠ .none) b!"clippingmode" m.clipMode.str ++
        attrIf (m.clippingMeshID ≠ 0) b!"clippingmesh" (formatUint m.clippingMeshID) ++
        attrIf (m.representationMeshID ≠ 0) b!"representationmesh" (formatUint m.representationMeshID) ++
        attrIf (m.capMode ≠ .sphere) b!"cap" m.capMode.str) (sk := false) beam_ne (by schema_attrs distinct_nil)
    (cat_tags h1 (Q := Opt (ElemIn nsBeam b!"beamsets" (Attrs [] []) (Star Schema.beamset))) (.inr h2))
  simpa only [Schema.beamlattice, BeamLattice.ops, opStart, List.append_assoc, List.cons_append] using this

theorem res_schema (x : ExtRes) : Schema.extension (tags (x.ops prec)) := by
  have star (l : Str) (req : List Str) {α : Type} (xs : List α) (f : α → List Attr) (h : ∀ x ∈ xs, Attrs req [] (readAttrs (f x))) :
      Star (ElemIn nsMaterials l (Attrs req []) Empty) (tags (xs.map fun x => opFast ⟨nsMaterials, l⟩ (f x))) :=
    star_map fun x hx => autoIn_tags materials_ne (h x hx) rfl
  cases x with
  | colorGroup r =>
    exact .inl (elemIn_tags materials_ne (by schema_attrs distinct_nil) (star _ _ _ _ fun x _ => by schema_attrs distinct_nil))
  | texture2D r =>
    have := autoIn_tags (l := b!"texture2d") (P := Empty) (sk := false)
      (A := Attrs [b!"id", b!"path", b!"contenttype"] [b!"tilestyleu", b!"tilestylev", b!"filter"])
      (as := [attr b!"id" (formatUint r.id), attr b!"path" r.path, attr b!"contenttype" r.contentType.str] ++
        attrIf (r.tileU ≠ .wrap) b!"tilestyleu" r.tileU.str ++ attrIf (r.tileV ≠ .wrap) b!"tilestylev" r.tileV.str ++
        attrIf (r.filter ≠ .auto) b!"filter" r.filter.str) materials_ne (by schema_attrs distinct_nil) rfl
    refine .inr (.inl ?_)
    simpa only [Schema.texture2d, ExtRes.ops, Texture2D.ops, tags, opAuto, List.flatMap_cons, List.flatMap_nil, List.append_nil] using this
  | texture2DGroup r =>
    exact .inr (.inr (.inl
      (elemIn_tags materials_ne (by schema_attrs distinct_nil) (star _ _ _ _ fun x _ => by schema_attrs distinct_nil))))
  | composite r =>
    exact .inr (.inr (.inr (.inl
      (elemIn_tags materials_ne (by schema_attrs distinct_nil) (star _ _ _ _ fun x _ => by schema_attrs distinct_nil)))))
  | multi r =>
    exact .inr (.inr (.inr (.inr (.inl
      (elemIn_tags materials_ne (by schema_attrs distinct_nil) (star _ _ _ _ fun x _ => by schema_attrs distinct_nil))))))
  | sliceStack r => exact .inr (.inr (.inr (.inr (.inr (.inl (slicestack_schema r))))))

theorem others_extension (hm : env.materials = true) (hs : env.slices = true) (hb : env.beamlattice = true)
    (hp : env.production = true) : Others env exts prec Schema.extension := by
  refine ⟨fun n as ts h => ?_, res_schema, fun b => .inr (.inr (.inr (.inr (.inr (.inr (.inl (beamlattice_schema b)))))))⟩
  refine .inr (.inr (.inr (.inr (.inr (.inr (.inr ?_))))))
  obtain ⟨body, -, rfl⟩ := h.tokens
  have h0 : n.space ≠ [] := (h.name.space.resolve_left h.core).1
  have hf : fullName nsCore n = n := by simp [fullName, h0]
  refine ⟨n, readAttrs as, tags (body.map Token.op), ?_, ?_⟩
  · simp [tokensOps, Token.op, opStart, opTags, hf]
  · have hu := h.unknown
    have hc := h.core
    simp only [List.mem_cons, List.not_mem_nil, or_false]
    unfold Known at hu
    tauto

theorem any_schema {any : List AnyElem} (hO : Others env exts prec other) (h : ∀ e ∈ any, ElemWritable env exts e) :
    Star other (tags (encodeAny prec any)) := by
  match any, h with
  | [], _ => exact ⟨[], rfl, fun _ h => nomatch h⟩
  | e :: _, h =>
    have he := h e (by simp)
    refine ⟨[tags (e.ops prec)], by simp [encodeAny], ?_⟩
    intro y hy
    rw [List.mem_singleton] at hy
    subst hy
    cases e with
    | tokens ts => obtain ⟨n, as, he⟩ := he; exact hO.tokens _ _ _ he
    | res r => exact hO.res r
    | beamLattice b => exact hO.beam b

theorem mesh_schema {m : Mesh} {pid pindex : UInt32} (hO : Others env exts prec other) (hw : ∀ e ∈ m.any, ElemWritable env exts e) (h : DistinctMesh m) :
    Schema.mesh other (tags (m.ops prec pid pindex)) := by
  obtain ⟨h1, h2, h3, -, h5⟩ := h
  have ht : Schema.triangles (tags (m.trianglesOps pid pindex)) := elem_tags (by schema_attrs h2) (triangles_star rfl h5)
  have := elem_tags (l := b!"mesh") (A := Attrs [] []) (as := encodeAnyAttr m.anyAttr) (by schema_attrs h3)
    (cat_tags (vertices_schema (prec := prec) h1) (cat_tags ht (any_schema hO hw)))
  simpa only [Schema.mesh, Mesh.ops, List.append_assoc, List.cons_append] using this

theorem object_schema {known : List Extension} {o : Object} (hO : Others env exts prec other) (hw : ObjectWritable env exts known o) (h : DistinctObject o)
    (hs : o.mesh ≠ none ∨ o.components ≠ none) : Schema.object other (tags (o.ops prec)) := by
  obtain ⟨h1, h2, h3, h4⟩ := h
  have ha : Attrs [b!"id"] [b!"type", b!"pid", b!"pindex", b!"thumbnail", b!"partnumber", b!"name"] (readAttrs o.attrs) := by
    unfold Object.attrs
    split <;> schema_attrs h1
  have hg : Opt Schema.metadatagroup (tags (if o.metadata.metadata ≠ [] then o.metadata.ops else [])) := by
    split
    · exact .inr (group_schema h2)
    · exact .inl rfl
  have hb : Alt (Schema.mesh other) Schema.components (tags (o.shapeOps prec)) := by
    unfold Object.shapeOps
    cases hm : o.mesh with
    | some m => exact .inl (mesh_schema hO (hw.mesh m hm).any (h3 m hm))
    | none =>
      cases hc : o.components with
      | some cs => exact .inr (components_schema (h4 cs hc).1 (h4 cs hc).2)
      | none => rcases hs with hs | hs <;> contradiction
  have := elem_tags (l := b!"object") ha (cat_tags hg hb)
  simpa only [Schema.object, Object.ops, List.append_assoc, List.cons_append] using this

theorem asset_schema {a : Asset} (hO : Others env exts prec other) (hw : AssetWritable env exts a) (h : DistinctAsset a) :
    Alt Schema.basematerials other (tags (a.ops prec)) := by
  cases a with
  | base r => exact .inl (basematerials_schema h.1 h.2)
  | unknown id ts => obtain ⟨n, as, he, -⟩ := hw; exact .inr (hO.tokens _ _ _ he)
  | res x => exact .inr (hO.res x)

theorem resources_schema {known : List Extension} {r : Resources} (hO : Others env exts prec other) (ha : ∀ a ∈ r.assets, AssetWritable env exts a)
    (ho : ∀ o ∈ r.objects, ObjectWritable env exts known o) (h : DistinctResources r)
    (hs : ∀ o ∈ r.objects, o.mesh ≠ none ∨ o.components ≠ none) : Schema.resources other (tags (r.ops prec)) := by
  obtain ⟨h1, h2, h3⟩ := h
  have := elem_tags (l := b!"resources") (A := Attrs [] []) (as := encodeAnyAttr r.anyAttr) (by schema_attrs h1)
    (cat_tags (star_flatMap (f := Asset.ops prec) fun a h => asset_schema hO (ha a h) (h2 a h))
      (star_flatMap (f := Object.ops prec) fun o h => object_schema hO (ho o h) (h3 o h) (hs o h)))
  simpa only [Schema.resources, Resources.ops, List.append_assoc, List.cons_append] using this

theorem coreNames_decls (xs : List Extension) :
    coreNames (xs.map fun x => (⟨⟨b!"xmlns", x.localName⟩, x.ns⟩ : Attr)) = [] := by
  unfold coreNames
  rw [List.map_eq_nil_iff, List.filter_eq_nil_iff]
  intro a ha
  obtain ⟨x, -, rfl⟩ := List.mem_map.1 ha
  simp

theorem root_schema {m : Model} {isRoot : Bool} (h : DistinctAttrs m.anyAttr) (ht : isRoot = true → m.thumbnail = []) :
    Attrs [] [b!"unit", b!"requiredextensions", b!"recommendedextensions", b!"xmlns"] (readAttrs (m.rootAttrs isRoot)) := by
  refine attrs_read (by decide +kernel) ?_
  have hl (as : List Attr) : coreNames (⟨⟨nsXML, b!"lang"⟩, m.language⟩ :: as) = coreNames as := by simp [coreNames, nsXML]
  have ht' : attrIf (isRoot && m.thumbnail ≠ []) b!"thumbnail" m.thumbnail = [] := by
    cases isRoot with
    | false => rfl
    | true => simp [ht rfl, attrIf]
  unfold Model.rootAttrs Attrs
  rw [ht']
  simp only [List.cons_append, List.nil_append, coreNames_attr, coreNames_append, coreNames_if, coreNames_any h,
    coreNames_decls, coreNames_nil, hl]
  refine ⟨by simp, fun l hl => ?_⟩
  simp only [List.mem_cons, List.mem_append, List.mem_ite_nil_right, List.not_mem_nil, or_false, false_or] at hl ⊢
  tauto

theorem model_schema {m : Model} (hO : Others env m.extensions prec other) (hw : Writable env m) (h : DistinctModel m) (ht : m.thumbnail = [])
    (hs : ∀ o ∈ m.resources.objects, o.mesh ≠ none ∨ o.components ≠ none) : Schema.model other (tags (m.ops prec)) := by
  obtain ⟨h1, h2, -, h4, h5⟩ := h
  have := elem_tags (l := b!"model") (root_schema (isRoot := true) h1.1 fun _ => ht)
    (cat_tags (metadatas_schema m.metadata) (cat_tags (resources_schema hO hw.assets hw.objects h2 hs)
      (cat_tags (build_schema h4 h5) (any_schema hO hw.any))))
  simpa only [Schema.model, Model.ops, Model.bodyOps, List.append_assoc, List.cons_append] using this

end

end Go3mf
