import Verif.Model.Share
import Verif.Model.Package

/-!
# C76: saving and the memory of the model

`Encode` collects the relationships of every part in a slice, to which the extensions append.  For the root part this slice
is a copy; for a child part it is the slice of the model itself, so that `append` may write into the array of the caller,
behind the end of the slice.  Nothing that is visible through the model itself changes as long as no slice sees the spare
cells of another; otherwise saving changes the model and writes wrong relationships.
-/

namespace Go3mf

/-! ## Statement -/

/-- The slice is a window of its array. -/
def View.In {α : Type} (v : View) (h : Heap α) : Prop :=
  v.len ≤ v.cap ∧ (v.cap = 0 ∨ ∃ a, h[v.arr]? = some a ∧ v.off + v.cap ≤ a.length)

/-- No cell of `w` is one of the spare cells of `v`. -/
def View.Apart (v w : View) : Prop :=
  ∀ i, w.arr = v.arr → w.off ≤ i → i < w.off + w.len → v.off + v.len ≤ i → v.off + v.cap ≤ i

/-! ## Memory -/

namespace Heap
variable {α : Type} {h : Heap α} {v w : View} {grow : Nat → Nat} {z x : α}

/-- A cell of the memory. -/
def cell (h : Heap α) (a i : Nat) : Option α := (h[a]?).bind (·[i]?)

theorem cells_getElem (h : Heap α) (v : View) (i : Nat) : (h.cells v)[i]? = if i < v.len then h.cell v.arr (v.off + i) else none := by
  unfold cells cell
  rw [List.getElem?_take]
  by_cases hi : i < v.len
  · rw [if_pos hi, if_pos hi, List.getElem?_drop, List.getD_eq_getElem?_getD]
    cases h[v.arr]? <;> simp
  · rw [if_neg hi, if_neg hi]

/-- The elements of a slice depend on its cells only. -/
theorem cells_congr {h' : Heap α} (hc : ∀ i, v.off ≤ i → i < v.off + v.len → h'.cell v.arr i = h.cell v.arr i) :
    h'.cells v = h.cells v := by
  apply List.ext_getElem?
  intro i
  rw [cells_getElem, cells_getElem]
  by_cases hi : i < v.len
  · rw [if_pos hi, if_pos hi, hc _ (by omega) (by omega)]
  · rw [if_neg hi, if_neg hi]

theorem cells_length (hv : v.In h) : (h.cells v).length = v.len := by
  obtain ⟨h1, h2⟩ := hv
  unfold cells
  rw [List.length_take, List.length_drop]
  rcases h2 with h2 | ⟨a, ha, h2⟩
  · omega
  · rw [List.getD_eq_getElem?_getD, ha, Option.getD_some]
    omega

/-- `append` changes no cell but the one behind the end. -/
theorem push_cell (hv : v.In h) {a i : Nat} (ha : a < h.length) (hn : ¬ (a = v.arr ∧ i = v.off + v.len ∧ v.len < v.cap)) :
    (h.push grow z v x).1.cell a i = h.cell a i := by
  unfold push cell
  by_cases hc : v.len < v.cap
  · rw [if_pos hc]
    simp only [List.getElem?_modify]
    by_cases e : v.arr = a
    · subst e
      rw [List.getElem?_eq_getElem ha]
      simp only [if_true, Option.map_eq_map, Option.map_some, Option.bind_some]
      rw [List.getElem?_set_ne]
      intro e
      exact hn ⟨rfl, e.symm, hc⟩
    · simp [if_neg e]
  · rw [if_neg hc]
    simp only []
    rw [List.getElem?_append_left ha]

/-- `append` keeps the lengths of the arrays. -/
theorem push_size {a : Nat} (ha : a < h.length) : ((h.push grow z v x).1[a]?).map List.length = (h[a]?).map List.length := by
  unfold push
  by_cases hc : v.len < v.cap
  · rw [if_pos hc]
    simp only [List.getElem?_modify]
    by_cases e : v.arr = a
    · subst e
      simp only [if_true, Option.map_eq_map, Option.map_map]
      congr 1
      funext l
      simp
    · simp [if_neg e]
  · rw [if_neg hc]
    simp only []
    rw [List.getElem?_append_left ha]

/-- A slice stays a window of its array. -/
theorem in_of_size {h' : Heap α} (hv : v.In h) (hs : ∀ a, a < h.length → (h'[a]?).map List.length = (h[a]?).map List.length) : v.In h' := by
  obtain ⟨h1, h2⟩ := hv
  refine ⟨h1, h2.imp id ?_⟩
  rintro ⟨a, ha, h3⟩
  have h4 := hs v.arr (List.getElem?_eq_some_iff.1 ha).1
  rw [ha, Option.map_some, Option.map_eq_some_iff] at h4
  obtain ⟨b, h5, h6⟩ := h4
  exact ⟨b, h5, by omega⟩

theorem push_length : h.length ≤ (h.push grow z v x).1.length := by
  unfold push
  split <;> simp

/-- The result of `append` is what it should be. -/
theorem push_cells (hv : v.In h) : (h.push grow z v x).1.cells (h.push grow z v x).2 = h.cells v ++ [x] := by
  have hl := cells_length hv
  obtain ⟨h1, h2⟩ := hv
  unfold push
  by_cases hc : v.len < v.cap
  · rw [if_pos hc]
    obtain ⟨a, ha, h2⟩ := h2.resolve_left (by omega)
    simp only [cells, List.getD_eq_getElem?_getD, List.getElem?_modify, if_true, ha, Option.map_eq_map, Option.map_some, Option.getD_some]
    rw [List.take_add_one]
    congr 1
    · rw [List.drop_set, if_neg (by omega), List.take_set_of_le (by omega)]
    · rw [List.getElem?_drop, List.getElem?_set_self (by omega)]
      rfl
  · rw [if_neg hc]
    simp only [cells, List.getD_eq_getElem?_getD, List.getElem?_append_right (Nat.le_refl _), Nat.sub_self,
      List.getElem?_cons_zero, Option.getD_some, List.drop_zero]
    have hl' : (List.take v.len (List.drop v.off (h[v.arr]?.getD []))).length = v.len := by
      simpa only [cells, List.getD_eq_getElem?_getD] using hl
    rw [List.take_append, hl', List.take_of_length_le (by omega)]
    congr 1
    rw [show v.len + 1 - v.len = 1 by omega]
    rfl

/-- The result of `append` is a window of its array: the old one with one more element, or a new one. -/
theorem push_in (hv : v.In h) : (h.push grow z v x).2.In (h.push grow z v x).1 ∧
    ((v.len < v.cap ∧ (h.push grow z v x).2 = { v with len := v.len + 1 }) ∨
     (¬ v.len < v.cap ∧ h.length ≤ (h.push grow z v x).2.arr)) := by
  have hl := cells_length hv
  obtain ⟨h1, h2⟩ := hv
  unfold push
  by_cases hc : v.len < v.cap
  · rw [if_pos hc]
    obtain ⟨a, ha, h2⟩ := h2.resolve_left (by omega)
    refine ⟨⟨hc, Or.inr ⟨a.set (v.off + v.len) x, ?_, by simpa using h2⟩⟩, Or.inl ⟨hc, rfl⟩⟩
    simp [List.getElem?_modify, ha]
  · rw [if_neg hc]
    refine ⟨⟨by simp, Or.inr ⟨h.cells v ++ x :: List.replicate (grow v.len) z, by simp, ?_⟩⟩, Or.inr ⟨hc, Nat.le_refl _⟩⟩
    simp [hl]
    omega

end Heap

/-! ## Relationships -/

namespace Heap
variable {h : Heap Relationship} {v w : View} {grow : Nat → Nat}

theorem addRels_cons (r : Relationship) (rs : List Relationship) :
    Heap.addRels grow h v (r :: rs) = Heap.addRels grow (Heap.addRel grow (h, v) r).1 (Heap.addRel grow (h, v) r).2 rs := rfl

/-- A part gets the relationships of its slice and those that are added, whatever shares the memory; only spare cells of
the slice are written. -/
theorem addRels_spec : ∀ (rs : List Relationship) {h : Heap Relationship} {v : View}, v.In h →
    (Heap.addRels grow h v rs).1.cells (Heap.addRels grow h v rs).2 = rs.foldl addRelationship (h.cells v) ∧
    h.length ≤ (Heap.addRels grow h v rs).1.length ∧
    (∀ a, a < h.length → ((Heap.addRels grow h v rs).1[a]?).map List.length = (h[a]?).map List.length) ∧
    ∀ a i, a < h.length → ¬ (a = v.arr ∧ v.off + v.len ≤ i ∧ i < v.off + v.cap) →
      (Heap.addRels grow h v rs).1.cell a i = h.cell a i
  | [], h, v, hv => ⟨rfl, Nat.le_refl _, fun _ _ => rfl, fun _ _ _ _ => rfl⟩
  | r :: rs, h, v, hv => by
    rw [addRels_cons]
    by_cases hp : (h.cells v).any fun x => x.path = r.path
    · have e : Heap.addRel grow (h, v) r = (h, v) := if_pos hp
      rw [e, List.foldl_cons]
      have e2 : addRelationship (h.cells v) r = h.cells v := if_pos hp
      rw [e2]
      exact addRels_spec rs hv
    · have e : Heap.addRel grow (h, v) r = h.push grow .none v r := if_neg hp
      rw [e, List.foldl_cons]
      have e2 : addRelationship (h.cells v) r = h.cells v ++ [r] := if_neg hp
      obtain ⟨p1, p2⟩ := push_in (grow := grow) (z := .none) (x := r) hv
      obtain ⟨i1, i2, i4, i3⟩ := addRels_spec rs p1
      have hlen : h.length ≤ (h.push grow .none v r).1.length := push_length
      refine ⟨by rw [i1, push_cells hv, e2], hlen.trans i2, ?_, ?_⟩
      · intro a ha
        rw [i4 a (by omega), push_size ha]
      intro a i ha hn
      rw [i3 a i (by omega)]
      · refine push_cell hv ha ?_
        rintro ⟨rfl, rfl, hc⟩
        exact hn ⟨rfl, Nat.le_refl _, by omega⟩
      · rintro ⟨rfl, h1, h2⟩
        rcases p2 with ⟨-, e3⟩ | ⟨-, e3⟩
        · rw [e3] at h1 h2 hn
          exact hn ⟨rfl, by simp only at h1; omega, h2⟩
        · omega

theorem in_lt {α : Type} {h : Heap α} {v : View} (hv : v.In h) (hc : v.cap ≠ 0) : v.arr < h.length := by
  obtain ⟨a, ha, -⟩ := hv.2.resolve_left hc
  exact (List.getElem?_eq_some_iff.1 ha).1

/-- A slice that does not see the spare cells keeps its elements. -/
theorem addRels_apart {u : View} (rs : List Relationship) (hv : v.In h) (hu : u.In h) (ha : v.Apart u) :
    (Heap.addRels grow h v rs).1.cells u = h.cells u ∧ u.In (Heap.addRels grow h v rs).1 := by
  obtain ⟨-, -, h3, h4⟩ := addRels_spec (grow := grow) rs hv
  refine ⟨?_, in_of_size hu h3⟩
  by_cases h0 : u.cap = 0
  · have : u.len = 0 := by have := hu.1; omega
    exact cells_congr (fun i h1 h2 => by omega)
  · refine cells_congr (fun i h1 h2 => h4 _ _ (in_lt hu h0) ?_)
    rintro ⟨e, h5, h6⟩
    have := ha i e h1 h2 h5
    omega

/-- The child parts get their relationships, and nothing else changes, if the slices do not see each other's spare cells. -/
theorem childRels_spec : ∀ (cs : List (View × List Relationship)) {h : Heap Relationship}, (∀ c ∈ cs, c.1.In h) →
    cs.Pairwise (fun c d => c.1.Apart d.1) →
    (Heap.childRels grow h cs).1 = cs.map (fun c => c.2.foldl addRelationship (h.cells c.1)) ∧
    ∀ u : View, u.In h → (∀ c ∈ cs, c.1.Apart u) → (Heap.childRels grow h cs).2.cells u = h.cells u
  | [], h, _, _ => ⟨rfl, fun _ _ _ => rfl⟩
  | c :: cs, h, hv, hp => by
    rw [List.pairwise_cons] at hp
    have hc := hv c (by simp)
    have hcs : ∀ d ∈ cs, (Heap.addRels grow h c.1 c.2).1.cells d.1 = h.cells d.1 ∧ d.1.In (Heap.addRels grow h c.1 c.2).1 :=
      fun d hd => addRels_apart c.2 hc (hv d (by simp [hd])) (hp.1 d hd)
    obtain ⟨i1, i2⟩ := childRels_spec cs (fun d hd => (hcs d hd).2) hp.2
    refine ⟨?_, ?_⟩
    · simp only [Heap.childRels, List.map_cons]
      rw [i1, (addRels_spec c.2 hc).1]
      congr 1
      exact List.map_congr_left (fun d hd => by rw [(hcs d hd).1])
    · intro u hu ha
      obtain ⟨a1, a2⟩ := addRels_apart (grow := grow) c.2 hc hu (ha c (by simp))
      simp only [Heap.childRels]
      rw [i2 u a2 (fun d hd => ha d (by simp [hd])), a1]

/-- The copy for the root part is a window of a new array. -/
theorem copy_in (h : Heap Relationship) (v : View) :
    (⟨h.length, 0, (h.cells v).length, (h.cells v).length⟩ : View).In (h ++ [h.cells v]) := by
  refine ⟨Nat.le_refl _, Or.inr ⟨h.cells v, by simp, by simp⟩⟩

/-- The root part gets its relationships, and the memory of the model does not change at all. -/
theorem rootRels_spec (rs : List Relationship) (v : View) :
    (h.rootRels grow v rs).1.cells (h.rootRels grow v rs).2 = rs.foldl addRelationship (h.cells v) ∧
    (h.rootRels grow v rs).1.take h.length = h := by
  obtain ⟨h1, h2, h3, h4⟩ := addRels_spec (grow := grow) rs (copy_in h v)
  refine ⟨?_, ?_⟩
  · unfold Heap.rootRels
    rw [h1]
    congr 1
    generalize h.cells v = l
    simp [cells]
  · unfold Heap.rootRels
    generalize Heap.addRels grow (h ++ [h.cells v]) ⟨h.length, 0, (h.cells v).length, (h.cells v).length⟩ rs = q at *
    apply List.ext_getElem?
    intro a
    rw [List.getElem?_take]
    by_cases ha : a < h.length
    · rw [if_pos ha]
      have hl := h3 a (by simp; omega)
      rw [List.getElem?_append_left ha] at hl
      have hc : ∀ i, q.1.cell a i = h.cell a i := by
        intro i
        rw [h4 a i (by simp; omega) (by rintro ⟨e, -, -⟩; simp only at e; omega)]
        unfold cell
        rw [List.getElem?_append_left ha]
      rw [List.getElem?_eq_getElem ha] at hl ⊢
      obtain ⟨b, hb, -⟩ := Option.map_eq_some_iff.1 hl
      rw [hb]
      congr 1
      apply List.ext_getElem?
      intro i
      have := hc i
      unfold cell at this
      rw [hb, List.getElem?_eq_getElem ha] at this
      exact this
    · rw [if_neg ha, List.getElem?_eq_none (by omega)]

end Heap

/-! ## Saving -/

/-- What is appended to the relationships of the root part: encoder.go:166-170. -/
def Model.addedRels (m : Model) (order : List Str) : List Relationship :=
  order.map (fun p => (⟨p, relModel, []⟩ : Relationship)) ++ m.resources.rels ++ anyRels m.any

/-- What is appended to the relationships of a child part. -/
def ChildModel.addedRels (c : ChildModel) : List Relationship := c.resources.rels ++ anyRels c.any

/-- The slices in the memory are those of the model: of the root part and of the child models, in the order in which the map
is visited. -/
structure InMemory (h : Heap Relationship) (m : Model) (root : View) (cs : List (View × ChildModel)) : Prop where
  root : h.cells root = m.relationships
  window : ∀ c ∈ cs, c.1.In h
  childs : ∀ c ∈ cs, h.cells c.1 = c.2.relationships

/-- `Encode`, as far as the relationships of the parts go. -/
def Heap.saveRels (grow : Nat → Nat) (h : Heap Relationship) (m : Model) (root : View) (order : List Str)
    (cs : List (View × ChildModel)) : List Relationship × List (List Relationship) × Heap Relationship :=
  h.encodeRels grow root (m.addedRels order) (cs.map fun c => (c.1, c.2.addedRels))

theorem cells_take {h h' : Heap Relationship} (ht : h'.take h.length = h) {u : View} (hu : u.In h) :
    h'.cells u = h.cells u ∧ u.In h' := by
  have hg : ∀ a, a < h.length → h'[a]? = h[a]? := by
    intro a ha
    have := congrArg (·[a]?) ht
    simpa [List.getElem?_take, ha] using this
  refine ⟨?_, Heap.in_of_size hu (fun a ha => by rw [hg a ha])⟩
  by_cases h0 : u.cap = 0
  · have : u.len = 0 := by have := hu.1; omega
    exact Heap.cells_congr (fun i h1 h2 => by omega)
  · refine Heap.cells_congr (fun i _ _ => ?_)
    unfold Heap.cell
    rw [hg _ (Heap.in_lt hu h0)]

/-- **C76**: if no slice sees the spare cells of the slice of a child model, saving writes for every part the relationships
that it should, and all slices keep their elements, for every capacity that `append` gives to new arrays. -/
theorem C76_partial {grow : Nat → Nat} {h : Heap Relationship} {m : Model} {root : View} {cs : List (View × ChildModel)}
    (hm : InMemory h m root cs) (order : List Str) (hp : cs.Pairwise fun c d => c.1.Apart d.1) :
    (h.saveRels grow m root order cs).1 = m.rootPartRels order ∧
    (h.saveRels grow m root order cs).2.1 = cs.map (fun c => c.2.partRels) ∧
    ∀ u : View, u.In h → (∀ c ∈ cs, c.1.Apart u) → (h.saveRels grow m root order cs).2.2.cells u = h.cells u := by
  obtain ⟨r1, r2⟩ := Heap.rootRels_spec (grow := grow) (h := h) (m.addedRels order) root
  obtain ⟨c1, c2⟩ := Heap.childRels_spec (grow := grow) (h := (h.rootRels grow root (m.addedRels order)).1)
    (cs.map fun c => (c.1, c.2.addedRels))
    (by
      intro c hc
      obtain ⟨d, hd, rfl⟩ := List.mem_map.1 hc
      exact (cells_take r2 (hm.window d hd)).2)
    (by
      rw [List.pairwise_map]
      exact hp)
  refine ⟨?_, ?_, ?_⟩
  · unfold Heap.saveRels Heap.encodeRels Model.rootPartRels
    rw [← hm.root]
    exact r1
  · unfold Heap.saveRels Heap.encodeRels
    simp only []
    rw [c1, List.map_map]
    refine List.map_congr_left (fun c hc => ?_)
    simp only [Function.comp, (cells_take r2 (hm.window c hc)).1, hm.childs c hc]
    rfl
  · intro u hu ha
    unfold Heap.saveRels Heap.encodeRels
    simp only []
    rw [c2 u (cells_take r2 hu).2 (by
      intro c hc
      obtain ⟨d, hd, rfl⟩ := List.mem_map.1 hc
      exact ha d hd), (cells_take r2 hu).1]

/-- **C76**: a model without child models is never changed, and neither is any other memory. -/
theorem C76_root {grow : Nat → Nat} {h : Heap Relationship} (m : Model) (root : View) (order : List Str) :
    (h.saveRels grow m root order []).2.2.take h.length = h :=
  (Heap.rootRels_spec (grow := grow) (h := h) (m.addedRels order) root).2

/-- **C76**: slices of child models that are full are never written to: no slice changes. -/
theorem C76_full {grow : Nat → Nat} {h : Heap Relationship} {m : Model} {root : View} {cs : List (View × ChildModel)}
    (hm : InMemory h m root cs) (order : List Str) (hf : ∀ c ∈ cs, c.1.cap = c.1.len) :
    (h.saveRels grow m root order cs).2.1 = cs.map (fun c => c.2.partRels) ∧
    ∀ u : View, u.In h → (h.saveRels grow m root order cs).2.2.cells u = h.cells u := by
  have ha : ∀ c ∈ cs, ∀ u : View, c.1.Apart u := by
    intro c hc u i _ _ _ h4
    rw [hf c hc]
    exact h4
  have hp : cs.Pairwise fun c d => c.1.Apart d.1 := List.pairwise_iff_forall_sublist.2 fun {c d} hs =>
    ha c (hs.subset (by simp)) d.1
  obtain ⟨-, h2, h3⟩ := C76_partial (grow := grow) hm order hp
  exact ⟨h2, fun u hu => h3 u hu (fun c hc => ha c hc u)⟩

/-- **C76**: slices in different arrays, such as those that decoding makes, do not disturb each other. -/
theorem C76_separate {grow : Nat → Nat} {h : Heap Relationship} {m : Model} {root : View} {cs : List (View × ChildModel)}
    (hm : InMemory h m root cs) (order : List Str) (hd : cs.Pairwise fun c d => c.1.arr ≠ d.1.arr) :
    (h.saveRels grow m root order cs).2.1 = cs.map (fun c => c.2.partRels) ∧
    ∀ c ∈ cs, (h.saveRels grow m root order cs).2.2.cells c.1 = c.2.relationships := by
  have hp : cs.Pairwise fun c d => c.1.Apart d.1 := hd.imp (fun hn i e => absurd e.symm hn)
  obtain ⟨-, h2, h3⟩ := C76_partial (grow := grow) hm order hp
  refine ⟨h2, fun c hc => ?_⟩
  rw [h3 c.1 (hm.window c hc), hm.childs c hc]
  intro d hd' i e h1 h4 h5
  by_cases hcd : d.1.arr = c.1.arr
  · by_cases hne : d = c
    · subst hne
      omega
    · obtain ⟨j, hj, rfl⟩ := List.getElem_of_mem hd'
      obtain ⟨k, hk, rfl⟩ := List.getElem_of_mem hc
      have hd := List.pairwise_iff_getElem.1 hd
      rcases Nat.lt_trichotomy j k with hl | rfl | hl
      · exact absurd hcd (hd j k hj hk hl)
      · exact absurd rfl hne
      · exact absurd hcd.symm (hd k j hk hj hl)
  · exact absurd e.symm hcd

/-! ## The code violates the unrestricted statement -/

/-- Two relationships of the caller. -/
def shareA : Relationship := ⟨b!"/a.png", relTexture, b!"1"⟩

def shareB : Relationship := ⟨b!"/b.png", relTexture, b!"2"⟩

/-- The first child model has the first relationship and a texture, the second has both relationships: slices `rels[:1]`
and `rels[:2]` of one array. -/
def shareChilds : List (View × ChildModel) :=
  [(⟨0, 0, 1, 2⟩, { ChildModel.zero with
      relationships := [shareA]
      resources := { ChildModel.zero.resources with assets := [.res (.texture2D ⟨1, b!"/c.png", .png, .wrap, .wrap, .auto⟩)] } }),
   (⟨0, 0, 2, 2⟩, { ChildModel.zero with
      relationships := [shareA, shareB] })]

theorem share_inMemory : InMemory [[shareA, shareB]] Model.zero ⟨0, 0, 0, 0⟩ shareChilds :=
  ⟨by decide +kernel, by
    intro c hc
    refine ⟨?_, Or.inr ⟨[shareA, shareB], ?_, ?_⟩⟩ <;>
    · simp only [shareChilds, List.mem_cons, List.not_mem_nil, or_false] at hc
      rcases hc with rfl | rfl <;> decide, by decide +kernel⟩

/-- Saving two child models whose relationships share an array changes the second one, and its part is written without the
relationship to `/b.png` and with one that it does not need. -/
theorem C76_shared_false : ∃ (h : Heap Relationship) (m : Model) (root : View) (cs : List (View × ChildModel)),
    InMemory h m root cs ∧ ∀ grow order,
      (h.saveRels grow m root order cs).2.1 ≠ cs.map (fun c => c.2.partRels) ∧
      ∃ c ∈ cs, (h.saveRels grow m root order cs).2.2.cells c.1 ≠ c.2.relationships := by
  refine ⟨[[shareA, shareB]], Model.zero, ⟨0, 0, 0, 0⟩, shareChilds, share_inMemory, fun grow order => ?_⟩
  have ht := (Heap.rootRels_spec (grow := grow) (h := [[shareA, shareB]]) (Model.zero.addedRels order) ⟨0, 0, 0, 0⟩).2
  unfold Heap.saveRels Heap.encodeRels
  generalize Heap.rootRels grow [[shareA, shareB]] ⟨0, 0, 0, 0⟩ (Model.zero.addedRels order) = q at ht
  obtain ⟨h1, v⟩ := q
  cases h1 with
  | nil => exact absurd ht (by simp)
  | cons a rest =>
    obtain rfl : a = [shareA, shareB] := by simpa using ht
    refine ⟨fun e => ?_, _, List.mem_cons_of_mem _ (List.mem_cons_self ..), fun e => ?_⟩
    · exact absurd (congrArg (fun l => l.map (·.map (·.path))) e :
        [[b!"/a.png", b!"/c.png"], [b!"/a.png", b!"/c.png"]] = [[b!"/a.png", b!"/c.png"], [b!"/a.png", b!"/b.png"]]) (by decide)
    · exact absurd (congrArg (fun l => l.map (·.path)) e :
        [b!"/a.png", b!"/c.png"] = [b!"/a.png", b!"/b.png"]) (by decide)

/-! ## Non-vacuity -/

/-- Two slices of one array, each with a spare cell that the other does not see; the first child model adds a texture. -/
def apartChilds : List (View × ChildModel) :=
  [(⟨0, 0, 1, 2⟩, { ChildModel.zero with
      relationships := [shareA]
      resources := { ChildModel.zero.resources with assets := [.res (.texture2D ⟨1, b!"/c.png", .png, .wrap, .wrap, .auto⟩)] } }),
   (⟨0, 2, 1, 2⟩, { ChildModel.zero with
      relationships := [shareB] })]

def apartHeap : Heap Relationship := [[shareA, .none, shareB, .none]]

example : InMemory apartHeap Model.zero ⟨0, 0, 0, 0⟩ apartChilds ∧ apartChilds.Pairwise fun c d => c.1.Apart d.1 := by
  refine ⟨⟨by decide +kernel, ?_, by decide +kernel⟩, ?_⟩
  · intro c hc
    refine ⟨?_, Or.inr ⟨[shareA, .none, shareB, .none], ?_, ?_⟩⟩ <;>
    · simp only [apartChilds, List.mem_cons, List.not_mem_nil, or_false] at hc
      rcases hc with rfl | rfl <;> decide
  · simp only [apartChilds, List.pairwise_cons, List.mem_singleton, forall_eq, List.not_mem_nil, false_implies, implies_true,
      List.Pairwise.nil, and_true]
    intro i _ h1 _ _
    simp only at h1 ⊢
    omega

/-- The spare cell is written, and both parts get what they should. -/
example : apartHeap.saveRels (fun n => n) Model.zero ⟨0, 0, 0, 0⟩ [] apartChilds =
    ([], [[shareA, ⟨b!"/c.png", relTexture, []⟩], [shareB]],
      [[shareA, ⟨b!"/c.png", relTexture, []⟩, shareB, .none], []]) := by decide +kernel

end Go3mf
