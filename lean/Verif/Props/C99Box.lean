import Verif.Props.C99

/-!
# C99: the box after items are removed
-/

namespace Go3mf
open Spec F32

theorem foldl_min_le (l : List Int) (a : Int) : l.foldl Min.min a ≤ a ∧ ∀ x ∈ l, l.foldl Min.min a ≤ x := by
  induction l generalizing a with
  | nil => simp
  | cons y l ih =>
    obtain ⟨h1, h2⟩ := ih (Min.min a y)
    rw [List.foldl_cons]
    refine ⟨by omega, fun x hx => ?_⟩
    rcases List.mem_cons.1 hx with rfl | hx
    · omega
    · exact h2 x hx

theorem foldl_max_ge (l : List Int) (a : Int) : a ≤ l.foldl Max.max a ∧ ∀ x ∈ l, x ≤ l.foldl Max.max a := by
  induction l generalizing a with
  | nil => simp
  | cons y l ih =>
    obtain ⟨h1, h2⟩ := ih (Max.max a y)
    rw [List.foldl_cons]
    refine ⟨by omega, fun x hx => ?_⟩
    rcases List.mem_cons.1 hx with rfl | hx
    · omega
    · exact h2 x hx

theorem foldl_min_mem (l : List Int) (a : Int) : l.foldl Min.min a = a ∨ l.foldl Min.min a ∈ l := by
  induction l generalizing a with
  | nil => simp
  | cons y l ih =>
    rw [List.foldl_cons]
    rcases ih (Min.min a y) with h | h
    · rw [h]
      rcases Int.le_total a y with h' | h'
      · left; omega
      · right; rw [Int.min_eq_right h']; simp
    · right; simp [h]

theorem foldl_max_mem (l : List Int) (a : Int) : l.foldl Max.max a = a ∨ l.foldl Max.max a ∈ l := by
  induction l generalizing a with
  | nil => simp
  | cons y l ih =>
    rw [List.foldl_cons]
    rcases ih (Max.max a y) with h | h
    · rw [h]
      rcases Int.le_total a y with h' | h'
      · right; rw [Int.max_eq_right h']; simp
      · left; omega
    · right; simp [h]

theorem fold_min_sub {l l' : List F32} (hs : l' ⊆ l) (a : F32) (ha : a.isNaN = false) (hl : ∀ x ∈ l, x.isNaN = false) :
    (l.foldl F32.min a).key ≤ (l'.foldl F32.min a).key := by
  rw [(fold_min_key l a ha hl).2, (fold_min_key l' a ha (fun x hx => hl x (hs hx))).2]
  obtain ⟨h1, h2⟩ := foldl_min_le (l.map key) a.key
  rcases foldl_min_mem (l'.map key) a.key with h | h
  · rw [h]; exact h1
  · exact h2 _ (List.map_subset _ hs h)

theorem fold_max_sub {l l' : List F32} (hs : l' ⊆ l) (a : F32) (ha : a.isNaN = false) (hl : ∀ x ∈ l, x.isNaN = false) :
    (l'.foldl F32.max a).key ≤ (l.foldl F32.max a).key := by
  rw [(fold_max_key l a ha hl).2, (fold_max_key l' a ha (fun x hx => hl x (hs hx))).2]
  obtain ⟨h1, h2⟩ := foldl_max_ge (l.map key) a.key
  rcases foldl_max_mem (l'.map key) a.key with h | h
  · rw [h]; exact h1
  · exact h2 _ (List.map_subset _ hs h)

theorem fold_extend_sub {vs ws : List Box} (hs : ws ⊆ vs) (hn : ∀ v ∈ vs, ¬ Spec.HasNaN v) (p : Point3D)
    (h : Spec.Inside (ws.foldl Box.extend .limit) p) : Spec.Inside (vs.foldl Box.extend .limit) p := by
  rw [inside_iff, foldl_extend] at h ⊢
  have hm := maxVal_key
  have hall : ∀ v ∈ vs, v.min.x.isNaN = false ∧ v.min.y.isNaN = false ∧ v.min.z.isNaN = false ∧
      v.max.x.isNaN = false ∧ v.max.y.isNaN = false ∧ v.max.z.isNaN = false := by
    intro v hv
    have := hn v hv
    simp only [Spec.HasNaN, not_or, Bool.not_eq_true] at this
    exact this
  have hmin : ∀ f : Box → F32, (∀ v ∈ vs, (f v).isNaN = false) →
      ((vs.map f).foldl F32.min .maxVal).key ≤ ((ws.map f).foldl F32.min .maxVal).key := fun f hf =>
    fold_min_sub (List.map_subset _ hs) _ hm.2.2.1 (by intro x hx; obtain ⟨v, hv, rfl⟩ := List.mem_map.1 hx; exact hf v hv)
  have hmax : ∀ f : Box → F32, (∀ v ∈ vs, (f v).isNaN = false) →
      ((ws.map f).foldl F32.max F32.maxVal.neg).key ≤ ((vs.map f).foldl F32.max F32.maxVal.neg).key := fun f hf =>
    fold_max_sub (List.map_subset _ hs) _ hm.2.2.2.1 (by intro x hx; obtain ⟨v, hv, rfl⟩ := List.mem_map.1 hx; exact hf v hv)
  obtain ⟨⟨h1, h2⟩, ⟨h3, h4⟩, h5, h6⟩ := h
  exact ⟨⟨(hmin (·.min.x) fun v hv => (hall v hv).1).trans h1, h2.trans (hmax (·.max.x) fun v hv => (hall v hv).2.2.2.1)⟩,
    ⟨(hmin (·.min.y) fun v hv => (hall v hv).2.1).trans h3, h4.trans (hmax (·.max.y) fun v hv => (hall v hv).2.2.2.2.1)⟩,
    (hmin (·.min.z) fun v hv => (hall v hv).2.2.1).trans h5, h6.trans (hmax (·.max.z) fun v hv => (hall v hv).2.2.2.2.2)⟩

theorem boxFuel_items (m : Model) (its : List Item) (fuel : Nat) :
    Object.boxFuel { m with build := { m.build with items := its } } fuel = Object.boxFuel m fuel := by
  induction fuel with
  | zero => rfl
  | succ n ih =>
    funext o p
    have hc : ∀ rec p cs b, componentsBox rec { m with build := { m.build with items := its } } p cs b = componentsBox rec m p cs b := by
      intro rec p cs
      induction cs with
      | nil => intro b; rfl
      | cons c cs ih' =>
        intro b
        simp only [componentsBox, ih']
        rfl
    rw [Object.boxFuel, Object.boxFuel, ih]
    simp only [hc]

/-- What an item adds to the box is among what is added. -/
theorem mem_boxes {m : Model} {its : List Item} {ops : List (Option (Box → Box))} {vs : List Box}
    (h1 : List.Forall₂ (Item.BoxOp m) its ops) (h2 : ops.filterMap id = List.map (fun v b => Box.extend b v) vs)
    {it : Item} (hi : it ∈ its) {o : Object} {b : Box} (ho : m.findObject it.objectPath it.objectID = some o)
    (hb : o.BoundingBox m it.objectPath b) (hz : b.eq .zero = false) : it.transform.mulBox b ∈ vs := by
  have hinj : Function.Injective (fun (v b : Box) => Box.extend b v) := by
    intro v v' hv
    have := congrFun hv ⟨⟨.nan, .nan, .nan⟩, ⟨.nan, .nan, .nan⟩⟩
    simpa only [extend_nan] using this
  have : some (fun box : Box => box.extend (it.transform.mulBox b)) ∈ ops := by
    clear h2
    induction h1 with
    | nil => cases hi
    | cons h _ ih =>
      rcases List.mem_cons.1 hi with rfl | hi
      · rw [BoxOp_unique (.extend ho hb hz) h]; simp
      · exact List.mem_cons_of_mem _ (ih hi)
  have h3 : (fun box : Box => box.extend (it.transform.mulBox b)) ∈ ops.filterMap id := List.mem_filterMap.2 ⟨_, this, rfl⟩
  rw [h2] at h3
  obtain ⟨v, hv, e⟩ := List.mem_map.1 h3
  rw [← hinj e]; exact hv

/-- **C99**: the box of some of the items (at least one) lies in the box of all of them, under any schedules, if no box of an item has a
coordinate that is not a number. -/
theorem C99_box (m : Model) (its : List Item) (hs : its.Sublist m.build.items) (hne : its ≠ [])
    (hn : ∀ it ∈ m.build.items, ∀ o b, m.findObject it.objectPath it.objectID = some o →
      o.BoundingBox m it.objectPath b → ¬ Spec.HasNaN (it.transform.mulBox b))
    (r r' : Box) (h : m.BoundingBox r) (h' : ({ m with build := { m.build with items := its } } : Model).BoundingBox r')
    (p : Point3D) (hp : Spec.Inside r' p) : Spec.Inside r p := by
  have hne' : m.build.items.length ≠ 0 := fun e => hne (List.sublist_nil.1 (List.length_eq_zero_iff.1 e ▸ hs))
  obtain ⟨ops, vs, ws, h1, h2, h3, rfl, h4⟩ := model_box_fold h hne'
  obtain ⟨ops', vs', ws', k1, k2, k3, rfl, k4⟩ := model_box_fold h' (fun e => hne (List.length_eq_zero_iff.1 e))
  refine fold_extend_sub (fun v hv => ?_) (fun v hv => ?_) p hp
  · obtain ⟨it, hit, o, b, e1, ⟨n, e2⟩, e3, rfl⟩ := k4 v (k3.mem_iff.1 hv)
    rw [boxFuel_items] at e2
    exact h3.mem_iff.2 (mem_boxes h1 h2 (hs.subset hit) e1 ⟨n, e2⟩ e3)
  · obtain ⟨it, hit, o, b, e1, e2, -, rfl⟩ := h4 v (h3.mem_iff.1 hv)
    exact hn it hit o b e1 e2

/-! ## Cases -/

theorem twoDots_fine : ∀ it ∈ (twoDots ⟨.one, .one, .one⟩ ⟨.one, .one, .zero⟩).build.items, ∀ o b,
    (twoDots ⟨.one, .one, .one⟩ ⟨.one, .one, .zero⟩).findObject it.objectPath it.objectID = some o →
    o.BoundingBox (twoDots ⟨.one, .one, .one⟩ ⟨.one, .one, .zero⟩) it.objectPath b → ¬ HasNaN (it.transform.mulBox b) := by
  intro it hit o b ho hb
  simp only [twoDots, List.mem_cons, List.not_mem_nil, or_false] at hit
  rcases hit with rfl | rfl
  · have : o = dot 1 ⟨.one, .one, .one⟩ := (Option.some.inj ho).symm
    subst this
    have := BoundingBox_unique hb ⟨1, rfl⟩
    subst this
    unfold HasNaN
    decide +kernel
  · have : o = dot 2 ⟨.one, .one, .zero⟩ := (Option.some.inj ho).symm
    subst this
    have := BoundingBox_unique hb ⟨1, rfl⟩
    subst this
    unfold HasNaN
    decide +kernel

/-- Without the first of two items: whatever the boxes are, the new one lies in the old one. -/
example (r r' : Box) (h : (twoDots ⟨.one, .one, .one⟩ ⟨.one, .one, .zero⟩).BoundingBox r)
    (h' : ({ twoDots ⟨.one, .one, .one⟩ ⟨.one, .one, .zero⟩ with
      build := { (twoDots ⟨.one, .one, .one⟩ ⟨.one, .one, .zero⟩).build with items := [{ Item.zero with objectID := 2 }] } } : Model).BoundingBox r')
    (p : Point3D) (hp : Inside r' p) : Inside r p :=
  C99_box _ _ (.cons _ (.refl _)) (by simp) twoDots_fine r r' h h' p hp

/-- Without any items the box is that of the origin, which need not lie in the old one. -/
theorem C99_box_false : ¬ ∀ (m : Model) (its : List Item), its.Sublist m.build.items →
    (∀ it ∈ m.build.items, ∀ o b, m.findObject it.objectPath it.objectID = some o →
      o.BoundingBox m it.objectPath b → ¬ HasNaN (it.transform.mulBox b)) →
    ∀ r r', m.BoundingBox r → ({ m with build := { m.build with items := its } } : Model).BoundingBox r' →
    ∀ p, Inside r' p → Inside r p := by
  intro h
  have h1 := (twoDots_result ⟨.one, .one, .one⟩ ⟨.one, .one, .zero⟩ _ _ rfl rfl (by decide +kernel) (by decide +kernel)).1
  have h2 := h _ [] (List.nil_sublist _) twoDots_fine _ .zero h1 (by unfold Model.BoundingBox; exact rfl) ⟨.zero, .zero, .zero⟩
    ((inside_iff ..).2 (by decide +kernel))
  rw [inside_iff] at h2
  revert h2
  decide +kernel

end Go3mf
