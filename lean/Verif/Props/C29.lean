import Verif.Props.C28

/-!
# C29: the property of a triangle survives encode then decode

The property that applies to a triangle is `Spec.effective`: its own or, if it has none, the one of the object at all
corners.
-/

namespace Go3mf

open Spec

theorem forall2_get {α β : Type} {R : α → β → Prop} {l : List α} {l' : List β} (h : List.Forall₂ R l l') :
    ∀ {i : Nat} {a : α}, l[i]? = some a → ∃ b, l'[i]? = some b ∧ R a b := by
  induction h with
  | nil => intro i a h; simp at h
  | @cons x y xs ys hr _ ih =>
    intro i a h
    cases i with
    | zero => simp only [List.getElem?_cons_zero, Option.some.injEq] at h; subst h; exact ⟨y, by simp, hr⟩
    | succ i => simpa using ih (by simpa using h)

/-- The effective property does not change if the triangle gets it as its own. -/
theorem effective_near {pid pindex : UInt32} {t t' : Triangle} (h : NearTriangle pid pindex t t') :
    effective pid pindex t' = effective pid pindex t := by
  have hp := h.property
  unfold effective at hp ⊢
  by_cases ht : t.pid = 0
  · rw [if_pos ht] at hp ⊢
    simp only [Prod.mk.injEq] at hp
    obtain ⟨h1, h2, h3, h4⟩ := hp
    split <;> simp [h1, h2, h3, h4]
  · rw [if_neg ht] at hp ⊢
    simp only [Prod.mk.injEq] at hp
    obtain ⟨h1, h2, h3, h4⟩ := hp
    rw [if_neg (by rw [h1]; exact ht)]
    simp [h1, h2, h3, h4]

/-- **C29** (partial): every triangle of every object with a mesh has the same corners and the same effective property
after encoding and decoding.  The conditions restrict only texts and names, the radii of beam lattices and the like, except
for `ObjectWritable.triangles`; without it properties are lost, see `C29_exact` and `C29_alias_false`. -/
theorem C29_triangles_partial (env : Env) (mem : Nat → Str → Str) (prec : Int) (m : Model) (hw : Writable env m)
    (hk : ModelOk prec m) :
    ∃ m', unmarshalModel env mem (printOps (fun _ => []) (m.ops prec)) .zero = some (m', .ok) ∧
      ∀ (i : Nat) (o : Object) (x : Mesh) (j : Nat) (t : Triangle), m.resources.objects[i]? = some o → o.mesh = some x → x.triangles[j]? = some t →
      ∃ (o' : Object) (x' : Mesh) (t' : Triangle), m'.resources.objects[i]? = some o' ∧ o'.mesh = some x' ∧ x'.triangles[j]? = some t' ∧
        (t'.v1, t'.v2, t'.v3) = (t.v1, t.v2, t.v3) ∧
        effective o'.pid o'.pindex t' = effective o.pid o.pindex t := by
  obtain ⟨m', h1, h2⟩ := C28_marshal env mem prec m hw hk
  refine ⟨m', h1, fun i o x j t ho hx ht => ?_⟩
  obtain ⟨o', ho', hn⟩ := forall2_get h2.resources.objects ho
  have hm := hn.mesh
  rw [hx] at hm
  cases hx' : o'.mesh with
  | none => rw [hx'] at hm; cases hm
  | some x' =>
    rw [hx'] at hm
    cases hm with
    | some hm =>
      obtain ⟨t', ht', hnt⟩ := forall2_get hm.triangles ht
      refine ⟨o', x', t', ho', hx', ht', by rw [hnt.v1, hnt.v2, hnt.v3], ?_⟩
      rw [hn.pid, hn.pindex]
      exact effective_near hnt

/-- The second triangle of the model of C28 has a property of its own, the first one has the one of the object. -/
example : effective 1 1 ⟨0, 1, 2, 0, 0, 0, 0, []⟩ = (1, 1, 1, 1) ∧ effective 1 1 ⟨0, 1, 3, 1, 0, 1, 0, []⟩ = (1, 0, 1, 0) := by
  decide

/-! ## The shared array of attributes -/

/-- The first triangle has an unknown attribute and no property, the second one has a property. -/
def exAlias : Model :=
  { Model.zero with
    extensions := exExts
    resources :=
      { assets := []
        objects := [
          { id := 5, name := [], partNumber := [], thumbnail := [], pid := 0, pindex := 0, type := .model
            metadata := ⟨[], []⟩, components := none, anyAttr := []
            mesh := some ⟨[], [], [⟨0, 1, 2, 0, 0, 0, 0, exTriangleAttr⟩, ⟨0, 1, 2, 1, 5, 5, 5, []⟩], [], [], []⟩ }]
        anyAttr := [] } }
where
  exTriangleAttr : AnyAttr := [.unknown b!"http://example.com/v" [⟨⟨b!"http://example.com/v", b!"a"⟩, b!"x"⟩]]

/-- The triangles that are read back. -/
def aliasBack : Option (List Triangle) :=
  match unmarshalModel exEnv (fun _ t => t) (printOps (fun _ => []) (exAlias.ops 4)) .zero with
  | some (m', .ok) => (m'.resources.objects[0]?.bind (·.mesh)).map (·.triangles)
  | _ => none

/-- Unknown attributes of a triangle overwrite the name `pid` in the array that all triangles share: the next triangle
loses its property, and no error is reported. -/
theorem C29_alias_false : (exAlias.resources.objects.map fun o => (o.mesh.map (·.triangles.map (effective o.pid o.pindex)))) =
      [some [(0, 0, 0, 0), (1, 5, 5, 5)]] ∧
    aliasBack.map (·.map (effective 0 0)) = some [(0, 0, 0, 0), (0, 0, 0, 0)] := by
  decide +kernel

/-! ## The exact condition -/

/-- The attributes of a triangle as they should be written. -/
def Spec.triangleAttrs (pid pindex : UInt32) (t : Triangle) : List Attr :=
  ([attr b!"v1" (formatUint t.v1), attr b!"v2" (formatUint t.v2), attr b!"v3" (formatUint t.v3), attr b!"pid" (formatUint t.pid),
    attr b!"p1" (formatUint t.p1), attr b!"p2" (formatUint t.p2), attr b!"p3" (formatUint t.p3)]).take (triangleWidth pid pindex t) ++
  t.anyAttr.flatMap fun g => match g with
    | .unknown _ attrs => attrs
    | _ => []

theorem foreign_appends {env : Env} {exts : List Extension} {t : Triangle} (h : AttrsOk env exts b!"triangle" t.anyAttr) :
    ∀ g ∈ t.anyAttr, ∃ s as, g = .unknown s as ∧ as ≠ [] ∧ ∀ a ∈ as, a.name.space ≠ [] := by
  intro g hg
  have hk := h.groups g hg
  cases g with
  | unknown s as => exact ⟨s, as, rfl, hk.2.1, fun a ha => (by
    rcases (hk.2.2 a ha).2.space with e | e
    · rw [e]; decide +kernel
    · exact e.1)⟩
  | prodBuild u => exact absurd hk.2.2.1 (by decide +kernel)
  | prodItem u p => exact absurd hk.2.2.1 (by decide +kernel)
  | prodObject u => exact absurd hk.2.2.1 (by decide +kernel)
  | prodComponent u p => exact absurd hk.2.2.1 (by decide +kernel)
  | sliceObject i r => exact absurd hk.2.2 (by decide +kernel)

theorem triangleAttrs_eq {env : Env} {exts : List Extension} {t : Triangle} {pid pindex : UInt32}
    (h : AttrsOk env exts b!"triangle" t.anyAttr) :
    t.core pid pindex ++ encodeAnyAttr t.anyAttr = triangleAttrs pid pindex t := by
  unfold triangleAttrs encodeAnyAttr
  congr 1
  · unfold Triangle.core triangleWidth
    by_cases h0 : t.pid = 0
    · simp [h0]
    · simp only [h0, ne_eq, not_false_eq_true, true_and, if_false]
      split
      · rfl
      · split <;> rfl
  · have := foreign_appends h
    generalize t.anyAttr = any at this
    induction any with
    | nil => rfl
    | cons g gs ih =>
      obtain ⟨s, as, rfl, -, -⟩ := this g (by simp)
      simp only [List.flatMap_cons, AttrGroup.appends, List.cons_append, List.nil_append, List.flatten_cons]
      rw [ih fun g hg => this g (by simp [hg])]

/-- An entry of the shared array has lost its name. -/
def Lost (k : Nat) (arr : List Attr) : Prop := ∃ a, arr[k]? = some a ∧ a.name.space ≠ []

theorem lost_names {k : Nat} {arr arr' : List Attr} (h : arr'.map (·.name) = arr.map (·.name)) (hl : Lost k arr) : Lost k arr' := by
  obtain ⟨a, ha, hs⟩ := hl
  have := congrArg (·[k]?) h
  simp only [List.getElem?_map, ha, Option.map_some] at this
  cases hb : arr'[k]? with
  | none => rw [hb] at this; cases this
  | some b =>
    rw [hb] at this
    simp only [Option.map_some, Option.some.injEq] at this
    exact ⟨b, hb, by rw [this]; exact hs⟩

/-- What was lost stays lost, and the first attribute that goes into the array takes a name. -/
theorem lost_append : ∀ (xs : List (List Attr)) (arr : List Attr) (k j : Nat), (∀ x ∈ xs, ∀ a ∈ x, a.name.space ≠ []) →
    k ≤ arr.length →
    (Lost j arr ∨ (j = k ∧ ∃ x ys, xs.filter (· ≠ []) = x :: ys ∧ k + x.length ≤ arr.length)) →
    Lost j (xs.foldl AttrSlice.append ⟨arr, none, k⟩).arr
  | [], arr, k, j, _, _, h => by
    rcases h with h | ⟨-, x, ys, h, -⟩
    · exact h
    · cases h
  | x :: xs, arr, k, j, hf, hk, h => by
    rw [List.foldl_cons]
    by_cases hx : x = []
    · subst hx
      rw [append_nil hk]
      exact lost_append xs arr k j (fun x hx => hf x (by simp [hx])) hk (by simpa using h)
    · have hl : 0 < x.length := List.length_pos_iff.2 hx
      by_cases hr : k + x.length ≤ arr.length
      · have e : AttrSlice.append ⟨arr, none, k⟩ x =
            ⟨arr.take k ++ x ++ arr.drop (k + x.length), none, k + x.length⟩ := by
          simp only [AttrSlice.append]
          rw [if_pos hr]
        rw [e]
        refine lost_append xs _ _ j (fun x hx => hf x (by simp [hx])) (by simp; omega) (Or.inl ?_)
        by_cases h1 : j < k
        · rcases h with ⟨a, ha, hs⟩ | ⟨rfl, -⟩
          · refine ⟨a, ?_, hs⟩
            rw [List.append_assoc, List.getElem?_append_left (by simp; omega), List.getElem?_take_of_lt h1]
            exact ha
          · omega
        · by_cases h2 : j < k + x.length
          · refine ⟨x[j - k]'(by omega), ?_, hf x (by simp) _ (List.getElem_mem _)⟩
            rw [List.getElem?_append_left (by simp; omega), List.getElem?_append_right (by simp; omega)]
            rw [List.length_take, Nat.min_eq_left hk, List.getElem?_eq_getElem]
          · rcases h with ⟨a, ha, hs⟩ | ⟨rfl, -⟩
            · refine ⟨a, ?_, hs⟩
              rw [List.getElem?_append_right (by simp; omega), List.getElem?_drop]
              rw [← ha]
              congr 1
              simp
              omega
            · omega
      · have e : AttrSlice.append ⟨arr, none, k⟩ x = ⟨arr, some (arr.take k ++ x), k⟩ := by
          simp only [AttrSlice.append]
          rw [if_neg hr]
        rw [e, append_own]
        rcases h with h | ⟨rfl, y, ys, h, hy⟩
        · exact h
        · rw [List.filter_cons_of_pos (by simpa using hx)] at h
          obtain ⟨rfl, -⟩ := List.cons.inj h
          exact absurd hy hr

/-- Where the names are. -/
theorem core_names {pid pindex : UInt32} {t : Triangle} : ∀ a ∈ t.core pid pindex, a.name.space = [] := by
  unfold Triangle.core
  intro a ha
  rcases List.mem_append.1 ha with ha | ha
  · simp only [List.mem_cons, List.not_mem_nil, or_false] at ha
    rcases ha with rfl | rfl | rfl <;> rfl
  · split at ha
    · simp only [List.mem_cons, List.not_mem_nil, or_false] at ha
      rcases ha with rfl | rfl | rfl | rfl <;> rfl
    · split at ha
      · simp only [List.mem_cons, List.not_mem_nil, or_false] at ha
        rcases ha with rfl | rfl <;> rfl
      · simp at ha

/-- One step of the loop, whatever the array is. -/
theorem loop_step {pid pindex : UInt32} {t : Triangle} {arr : List Attr} (hl : arr.length = 7)
    (hf : ∀ x ∈ t.anyAttr.flatMap AttrGroup.appends, ∀ a ∈ x, a.name.space ≠ []) :
    let s := (t.anyAttr.flatMap AttrGroup.appends).foldl AttrSlice.append (t.slice pid pindex arr)
    s.arr.length = 7 ∧ (∀ j, Lost j arr → Lost j s.arr) ∧ (t.Spills pid pindex → Lost (t.core pid pindex).length s.arr) ∧
    (∀ j, Lost j arr → s.attrs = t.core pid pindex ++ encodeAnyAttr t.anyAttr → (t.core pid pindex).length ≤ j) := by
  intro s
  have h2 := t.slice_names pid pindex arr
  have h3 := t.slice_len pid pindex arr
  have h4 : (t.slice pid pindex arr).arr.length = 7 := by
    have := congrArg List.length h2
    simpa [hl] using this
  revert s
  generalize t.slice pid pindex arr = q at h2 h3 h4
  obtain ⟨sa, so, sl⟩ := q
  obtain ⟨rfl, rfl⟩ := h3
  simp only at h2 h4
  intro s
  have hk : (t.core pid pindex).length ≤ sa.length := by rw [h4]; exact core_length_le pid pindex t
  obtain ⟨e1, e2, -, -⟩ := append_all (t.anyAttr.flatMap AttrGroup.appends) sa (t.core pid pindex).length hk
  refine ⟨by rw [e2, h4], fun j hj => lost_append _ _ _ j hf hk (Or.inl (lost_names h2 hj)), fun ⟨x, xs, hx, hle⟩ =>
    lost_append _ _ _ _ hf hk (Or.inr ⟨rfl, x, xs, hx, by rw [h4]; exact hle⟩), fun j hj he => ?_⟩
  by_contra hlt
  obtain ⟨a, ha, hs⟩ := lost_names h2 hj
  rw [e1] at he
  have := congrArg (·[j]?) he
  rw [List.getElem?_append_left (by simp; omega), List.getElem?_append_left (by omega), List.getElem?_take_of_lt (by omega), ha] at this
  exact hs (core_names a (List.mem_of_getElem? this.symm))

theorem loop_lost {pid pindex : UInt32} {j : Nat} : ∀ {ts : List Triangle} {arr : List Attr}, arr.length = 7 →
    (∀ t ∈ ts, ∀ x ∈ t.anyAttr.flatMap AttrGroup.appends, ∀ a ∈ x, a.name.space ≠ []) → Lost j arr →
    trianglesLoop pid pindex arr ts = triangleOps pid pindex ts → ∀ u ∈ ts, (u.core pid pindex).length ≤ j
  | [], _, _, _, _, _ => by simp
  | t :: ts, arr, hl, hf, hj, he => by
    obtain ⟨h1, h2, -, h4⟩ := loop_step (pid := pid) (pindex := pindex) hl (hf t (by simp))
    rw [trianglesLoop] at he
    simp only [triangleOps, List.map_cons, List.cons.injEq, opFast, Op.start.injEq, true_and, and_true] at he
    intro u hu
    rcases List.mem_cons.1 hu with rfl | hu
    · exact h4 j hj he.1
    · exact loop_lost h1 (fun t ht => hf t (by simp [ht])) (h2 j hj) he.2 u hu

theorem loop_room {pid pindex : UInt32} : ∀ {ts : List Triangle} {arr : List Attr}, arr.length = 7 →
    (∀ t ∈ ts, ∀ x ∈ t.anyAttr.flatMap AttrGroup.appends, ∀ a ∈ x, a.name.space ≠ []) →
    trianglesLoop pid pindex arr ts = triangleOps pid pindex ts → Room pid pindex ts
  | [], _, _, _, _ => List.Pairwise.nil
  | t :: ts, arr, hl, hf, he => by
    obtain ⟨h1, -, h3, -⟩ := loop_step (pid := pid) (pindex := pindex) hl (hf t (by simp))
    rw [trianglesLoop] at he
    simp only [triangleOps, List.map_cons, List.cons.injEq, opFast, Op.start.injEq, true_and, and_true] at he
    refine List.pairwise_cons.2 ⟨fun u hu hs => ?_, loop_room h1 (fun t ht => hf t (by simp [ht])) he.2⟩
    exact loop_lost h1 (fun t ht => hf t (by simp [ht])) (h3 hs) he.2 u hu

/-- **C29** (exact): every triangle is written with its own attributes if and only if no triangle needs a name that was replaced
for an earlier one.  The conditions on the unknown attributes are those of `TriangleWritable`. -/
theorem C29_exact (env : Env) (exts : List Extension) (pid pindex : UInt32) (m : Mesh)
    (h : ∀ t ∈ m.triangles, AttrsOk env exts b!"triangle" t.anyAttr) :
    m.trianglesOps pid pindex = opStart (coreName b!"triangles") (encodeAnyAttr m.trianglesAttr) ::
        m.triangles.map (fun t => opFast (coreName b!"triangle") (triangleAttrs pid pindex t)) ++ [.stop (coreName b!"triangles")] ↔
      Undisturbed pid pindex m.triangles := by
  have e : m.triangles.map (fun t => opFast (coreName b!"triangle") (triangleAttrs pid pindex t)) =
      triangleOps pid pindex m.triangles :=
    List.map_congr_left fun t ht => by rw [triangleAttrs_eq (h t ht)]
  rw [e, ← room_iff h]
  unfold Mesh.trianglesOps
  constructor
  · intro he
    have he := List.append_cancel_right he
    simp only [List.cons.injEq, true_and] at he
    refine loop_room rfl (fun t ht x hx a ha => ?_) he
    obtain ⟨g, hg, hx⟩ := List.mem_flatMap.1 hx
    obtain ⟨s, as, rfl, -, hs⟩ := foreign_appends (h t ht) g hg
    simp only [AttrGroup.appends, List.mem_singleton] at hx
    subst hx
    exact hs a ha
  · intro hr
    rw [triangles_eq hr]

/-- Five unknown attributes have no room in the array, one attribute replaces a name that only the triangles before needed:
both are written and read as they are. -/
def exRoom : Mesh :=
  ⟨[], [], [⟨0, 1, 2, 0, 0, 0, 0, five⟩, ⟨0, 1, 2, 1, 5, 6, 7, exAlias.exTriangleAttr⟩, ⟨0, 1, 2, 1, 5, 5, 5, exAlias.exTriangleAttr⟩,
    ⟨0, 1, 2, 1, 6, 6, 6, []⟩, ⟨0, 1, 2, 0, 0, 0, 0, exAlias.exTriangleAttr⟩, ⟨3, 1, 2, 0, 0, 0, 0, exAlias.exTriangleAttr⟩], [], [], []⟩
where
  five : AnyAttr := [.unknown b!"http://example.com/v" ([b!"a", b!"b", b!"c", b!"d", b!"e"].map fun l =>
    ⟨⟨b!"http://example.com/v", l⟩, b!"x"⟩)]

example : exRoom.triangles.map (triangleWidth 0 0) = [3, 7, 5, 5, 3, 3] ∧
    exRoom.trianglesOps 0 0 = opStart (coreName b!"triangles") [] ::
      exRoom.triangles.map (fun t => opFast (coreName b!"triangle") (triangleAttrs 0 0 t)) ++ [.stop (coreName b!"triangles")] := by
  decide +kernel

end Go3mf
