import Mathlib.Data.Fintype.EquivFin
import Verif.Spec.Search
import Verif.Lemmas.AlikeRuns
import Verif.Props.C39

/-!
# Termination of the search of the slices validator
-/

namespace Go3mf

open Spec

variable {env : Env} {m : Model}

/-- With enough fuel there is a result. -/
def Eventually (f : Nat → Bool) : Prop := ∃ N, ∀ k, N ≤ k → f k = true

theorem Eventually.and {f g : Nat → Bool} (hf : Eventually f) (hg : Eventually g) : Eventually fun k => f k && g k := by
  obtain ⟨a, ha⟩ := hf
  obtain ⟨b, hb⟩ := hg
  exact ⟨max a b, fun k hk => by simp [ha k (le_trans (le_max_left _ _) hk), hb k (le_trans (le_max_right _ _) hk)]⟩

theorem eventually_true {f : Nat → Bool} (h : ∀ k, f k = true) : Eventually f := ⟨0, fun k _ => h k⟩

theorem Eventually.mono {f g : Nat → Bool} (h : Eventually f) (hi : ∀ k, f k = true → g k = true) : Eventually g := by
  obtain ⟨a, ha⟩ := h
  exact ⟨a, fun k hk => hi k (ha k hk)⟩

theorem eventually_all {α : Type} {f : α → Nat → Bool} {l : List α} (h : ∀ a ∈ l, Eventually (f a)) :
    Eventually fun k => l.all (f · k) := by
  induction l with
  | nil => exact eventually_true fun _ => rfl
  | cons a l ih =>
    refine ((h a (by simp)).and (ih fun b hb => h b (by simp [hb]))).mono fun k hk => ?_
    simpa using hk

/-- An object whose search ends with a tilted use. -/
theorem eventually_false (hwf : m.WF) {p : Str} {id : UInt32} {x : Object} (h : Eventually fun k => (objectPlanar m p id k x).isSome)
    (ht : TiltedIn m p id x) : Eventually fun k => objectPlanar m p id k x == some false := by
  refine h.mono fun k hk => ?_
  obtain ⟨b, hb⟩ := Option.isSome_iff_exists.1 hk
  rw [hb, (objectPlanar_iff hwf p id k x b hb).2 ht]
  rfl

theorem tiltsHere_iff (p : Str) (id : UInt32) (c : Component) : (c.objectID = id ∧ componentPart p c = p ∧
    c.transform.isTransform = true ∧ validTransform c.transform = false) ↔ TiltsHere p id c := by
  rw [validTransform_false]
  exact Iff.rfl

theorem tiltsItem_iff (p : Str) (id : UInt32) (c : Item) : (c.objectID = id ∧ itemPart p c = p ∧
    c.transform.isTransform = true ∧ validTransform c.transform = false) ↔
    (c.objectID = id ∧ itemPart p c = p ∧ Tilted c.transform) := by
  rw [validTransform_false]
  exact Iff.rfl

theorem eventually_components (hwf : m.WF) (p : Str) (id : UInt32) (o : Object) (cs : List Component)
    (h : ∀ (j : Nat) (c : Component) (x : Object), cs[j]? = some c →
      (∀ d ∈ cs.take (j + 1), ¬ (d.objectID = o.id ∧ componentPart p d = p) ∧ ¬ TiltsHere p id d) →
      (∀ d ∈ cs.take j, ∀ y, ObjectFound m (componentPart p d) d.objectID y → ¬ TiltedIn m p id y) →
      ObjectFound m (componentPart p c) c.objectID x →
      Eventually fun k => (objectPlanar m p id k x).isSome) :
    Eventually fun k => (componentsPlanar (objectPlanar m p id k) m o p id cs).isSome := by
  induction cs with
  | nil => exact eventually_true fun _ => rfl
  | cons c cs ih =>
    unfold componentsPlanar
    simp only [componentPart_eq]
    by_cases h1 : c.objectID = id ∧ componentPart p c = p ∧ c.transform.isTransform = true ∧ validTransform c.transform = false
    · simp only [if_pos h1]; exact eventually_true fun _ => rfl
    simp only [if_neg h1]
    rw [tiltsHere_iff] at h1
    by_cases h2 : c.objectID = o.id ∧ componentPart p c = p
    · simp only [if_pos h2]; exact eventually_true fun _ => rfl
    simp only [if_neg h2]
    have hrest : (∀ y, ObjectFound m (componentPart p c) c.objectID y → ¬ TiltedIn m p id y) → _ :=
      fun hn => ih fun j c' x hj hd ht hx => h (j + 1) c' x (by simpa using hj) (by
        simp only [List.take_succ_cons, List.forall_mem_cons]; exact ⟨⟨h2, h1⟩, hd⟩) (by
        simp only [List.take_succ_cons, List.forall_mem_cons]; exact ⟨hn, ht⟩) hx
    cases hf : m.findObject (componentPart p c) c.objectID with
    | none => exact hrest fun y hy => absurd ⟨y, hy⟩ ((findObject_none hwf).1 hf)
    | some x =>
      have hfx := (findObject_iff hwf).1 hf
      have hx := h 0 c x rfl (by simpa using ⟨fun a b => h2 ⟨a, b⟩, h1⟩) (by simp) hfx
      by_cases ht : TiltedIn m p id x
      · refine (eventually_false hwf hx ht).mono fun k hk => ?_
        simp only [beq_iff_eq] at hk
        simp only [hk]
        rfl
      refine (hx.and (hrest fun y hy => by rwa [objectFound_unique hwf hy hfx])).mono fun k hk => ?_
      simp only [Bool.and_eq_true] at hk
      obtain ⟨b, hb⟩ := Option.isSome_iff_exists.1 hk.1
      simp only [hb]
      cases b
      · rfl
      · exact hk.2

theorem eventually_object (hwf : m.WF) {p : Str} {id : UInt32} {o : Object}
    (h : ∀ x, SearchStep m p id o x → Eventually fun k => (objectPlanar m p id k x).isSome) :
    Eventually fun k => (objectPlanar m p id k o).isSome := by
  have key : Eventually fun k => (objectPlanar m p id (k + 1) o).isSome := by
    simp only [objectPlanar]
    cases hc : o.components with
    | none => exact eventually_true fun _ => rfl
    | some cs =>
      exact eventually_components hwf p id o cs.component fun j c x hj hd ht hx => h x ⟨cs, j, c, hc, hj, hd, ht, hx⟩
  obtain ⟨N, hN⟩ := key
  refine ⟨N + 1, fun k hk => ?_⟩
  obtain ⟨k, rfl⟩ : ∃ i, k = i + 1 := ⟨k - 1, by omega⟩
  exact hN k (by omega)

/-- An object whose search does not end starts an endless chain. -/
theorem chain_of_stuck (hwf : m.WF) {p : Str} {id : UInt32} {o : Object}
    (h : ¬ Eventually fun k => (objectPlanar m p id k o).isSome) :
    ∃ f : Nat → Object, f 0 = o ∧ ∀ n, SearchStep m p id (f n) (f (n + 1)) := by
  let S := { x : Object // ¬ Eventually fun k => (objectPlanar m p id k x).isSome }
  have step : ∀ x : S, ∃ y : S, SearchStep m p id x.1 y.1 := by
    rintro ⟨x, hx⟩
    by_contra hno
    refine hx (eventually_object hwf fun y hy => ?_)
    by_contra hye
    exact hno ⟨⟨y, hye⟩, hy⟩
  choose g hg using step
  refine ⟨fun n => (Nat.rec (⟨o, h⟩ : S) (fun _ x => g x) n : S).1, rfl, fun n => hg _⟩

theorem eventually_items (hwf : m.WF) (p : Str) (id : UInt32) (its : List Item)
    (h : ∀ (j : Nat) (it : Item) (x : Object), its[j]? = some it →
      (∀ d ∈ its.take (j + 1), ¬ (d.objectID = id ∧ itemPart p d = p ∧ Tilted d.transform)) →
      (∀ d ∈ its.take j, ∀ y, ObjectFound m (itemPart p d) d.objectID y → ¬ TiltedIn m p id y) →
      ObjectFound m (itemPart p it) it.objectID x →
      Eventually fun k => (objectPlanar m p id k x).isSome) :
    Eventually fun k => (buildPlanar m k p id its).isSome := by
  induction its with
  | nil => exact eventually_true fun _ => rfl
  | cons c cs ih =>
    unfold buildPlanar
    have hip : (if c.objectPath = [] then p else c.objectPath) = itemPart p c := rfl
    simp only [hip]
    by_cases h1 : c.objectID = id ∧ itemPart p c = p ∧ c.transform.isTransform = true ∧ validTransform c.transform = false
    · simp only [if_pos h1]; exact eventually_true fun _ => rfl
    simp only [if_neg h1]
    rw [tiltsItem_iff] at h1
    have hrest : (∀ y, ObjectFound m (itemPart p c) c.objectID y → ¬ TiltedIn m p id y) → _ :=
      fun hn => ih fun j c' x hj hd ht hx => h (j + 1) c' x (by simpa using hj) (by
        simp only [List.take_succ_cons, List.forall_mem_cons]; exact ⟨h1, hd⟩) (by
        simp only [List.take_succ_cons, List.forall_mem_cons]; exact ⟨hn, ht⟩) hx
    cases hf : m.findObject (itemPart p c) c.objectID with
    | none => exact hrest fun y hy => absurd ⟨y, hy⟩ ((findObject_none hwf).1 hf)
    | some x =>
      have hfx := (findObject_iff hwf).1 hf
      have hx := h 0 c x rfl (by simpa using fun a b c => h1 ⟨a, b, c⟩) (by simp) hfx
      by_cases ht : TiltedIn m p id x
      · refine (eventually_false hwf hx ht).mono fun k hk => ?_
        simp only [beq_iff_eq] at hk
        simp only [hk]
        rfl
      refine (hx.and (hrest fun y hy => by rwa [objectFound_unique hwf hy hfx])).mono fun k hk => ?_
      simp only [Bool.and_eq_true] at hk
      obtain ⟨b, hb⟩ := Option.isSome_iff_exists.1 hk.1
      simp only [hb]
      cases b
      · rfl
      · exact hk.2

theorem eventually_build (hwf : m.WF) {p : Str} {id : UInt32} (h : ¬ Endless m p id) :
    Eventually fun k => (buildPlanar m k p id m.build.items).isSome := by
  refine eventually_items hwf p id _ fun j it x hj hd ht hx => ?_
  by_contra hno
  obtain ⟨f, rfl, hf⟩ := chain_of_stuck hwf hno
  exact h ⟨f, ⟨j, it, hj, hd, ht, hx⟩, hf⟩

/-- The search has a result only if it has one below. -/
theorem planar_step (hwf : m.WF) {p : Str} {id : UInt32} {k : Nat} {o x : Object} (h : (objectPlanar m p id (k + 1) o).isSome = true)
    (hs : SearchStep m p id o x) : (objectPlanar m p id k x).isSome = true := by
  obtain ⟨cs, j, c, hc, hj, hd, ht, hx⟩ := hs
  unfold objectPlanar at h
  rw [hc] at h
  simp only at h
  revert h j
  generalize cs.component = l
  intro j hj hd ht h
  induction l generalizing j with
  | nil => cases hj
  | cons e l ih =>
    unfold componentsPlanar at h
    simp only [componentPart_eq] at h
    simp only [List.take_succ_cons, List.forall_mem_cons] at hd
    rw [if_neg (mt (tiltsHere_iff p id e).1 hd.1.2), if_neg hd.1.1] at h
    cases j with
    | zero =>
      cases hj
      rw [(findObject_iff hwf).2 hx] at h
      cases hr : objectPlanar m p id k x with
      | none => simp [hr] at h
      | some => rfl
    | succ j =>
      simp only [List.take_succ_cons, List.forall_mem_cons] at ht
      refine ih j (by simpa using hj) hd.2 ht.2 ?_
      cases hf : m.findObject (componentPart p e) e.objectID with
      | none => rwa [hf] at h
      | some y =>
        rw [hf] at h
        simp only at h
        cases hr : objectPlanar m p id k y with
        | none => rw [hr] at h; cases h
        | some b =>
          rw [hr] at h
          cases b with
          | false => exact absurd ((objectPlanar_iff hwf p id k y _ hr).1 rfl) (ht.1 y ((findObject_iff hwf).1 hf))
          | true => exact h

theorem chain_stuck (hwf : m.WF) {p : Str} {id : UInt32} {f : Nat → Object} (hf : ∀ n, SearchStep m p id (f n) (f (n + 1))) (k : Nat) :
    ∀ n, ¬ (objectPlanar m p id k (f n)).isSome = true := by
  induction k with
  | zero => intro n h; cases h
  | succ k ih => intro n h; exact ih (n + 1) (planar_step hwf h (hf n))

theorem build_stuck (hwf : m.WF) {p : Str} {id : UInt32} (h : Endless m p id) (k : Nat) :
    ¬ (buildPlanar m k p id m.build.items).isSome = true := by
  obtain ⟨f, ⟨j, it, hj, hd, ht, h0⟩, hf⟩ := h
  have h1 := chain_stuck hwf hf k 0
  revert j
  generalize m.build.items = its
  intro j hj hd ht hb
  induction its generalizing j with
  | nil => cases hj
  | cons e its ih =>
    unfold buildPlanar at hb
    have hip : (if e.objectPath = [] then p else e.objectPath) = itemPart p e := rfl
    simp only [hip] at hb
    simp only [List.take_succ_cons, List.forall_mem_cons] at hd
    rw [if_neg (mt (tiltsItem_iff p id e).1 hd.1)] at hb
    cases j with
    | zero =>
      cases hj
      rw [(findObject_iff hwf).2 h0] at hb
      cases hr : objectPlanar m p id k (f 0) with
      | none => simp [hr] at hb
      | some => exact h1 (by rw [hr]; rfl)
    | succ j =>
      simp only [List.take_succ_cons, List.forall_mem_cons] at ht
      refine ih j (by simpa using hj) hd.2 ht.2 ?_
      cases hfo : m.findObject (itemPart p e) e.objectID with
      | none => rwa [hfo] at hb
      | some y =>
        rw [hfo] at hb
        simp only at hb
        cases hr : objectPlanar m p id k y with
        | none => rw [hr] at hb; cases hb
        | some b =>
          rw [hr] at hb
          cases b with
          | false => exact absurd ((objectPlanar_iff hwf p id k y _ hr).1 rfl) (ht.1 y ((findObject_iff hwf).1 hfo))
          | true => exact hb

/-! ## From the search to `Model.Validate` -/

theorem slicesObject_isSome (hwf : m.WF) (k : Nat) (p : Str) (o : Object) : (slicesValidateObject m k p o).isSome = true ↔
    ∀ i res r, sliceAttr o.anyAttr = some (i, res) → i ≠ 0 → AssetFound m p i (.res (.sliceStack r)) →
      (buildPlanar m k p o.id m.build.items).isSome = true := by
  unfold slicesValidateObject
  rw [getSliceAttr_find]
  cases ha : sliceAttr o.anyAttr with
  | none => simp
  | some v =>
    obtain ⟨i, res⟩ := v
    simp only [getD_findAsset, Option.some.injEq, Prod.mk.injEq]
    by_cases h0 : i = 0
    · simp only [if_pos h0, Option.isSome_some, true_iff]
      rintro _ _ _ ⟨rfl, -⟩ h
      exact absurd h0 h
    · rw [if_neg h0]
      split
      · next r hf =>
        have hr := (findAsset_iff hwf).1 hf
        constructor
        · rintro h _ _ _ - - -
          cases hb : buildPlanar m k p o.id m.build.items with
          | none => rw [hb] at h; cases h
          | some => rfl
        · intro h
          obtain ⟨b, hb⟩ := Option.isSome_iff_exists.1 (h i res r ⟨rfl, rfl⟩ h0 hr)
          rw [hb]; rfl
      · next a hne hf =>
        simp only [Option.isSome_some, true_iff]
        rintro _ _ r ⟨rfl, -⟩ - hr
        rw [(findAsset_iff hwf).2 hr] at hf
        cases hf
        exact absurd rfl (hne r)
      · next hf =>
        simp only [Option.isSome_some, true_iff]
        rintro _ _ r ⟨rfl, -⟩ - hr
        rw [(findAsset_iff hwf).2 hr] at hf
        cases hf

theorem object_isSome (hwf : m.WF) (k : Nat) (p : Str) (o : Object) : (o.validate env m k p).isSome = true ↔
    (Active env m .slices → (slicesValidateObject m k p o).isSome = true) := by
  unfold Object.validate extObjectErrs
  rw [Option.isSome_map, Option.isSome_map, mapM_isSome, active_iff]
  constructor
  · rintro h ⟨e, he, hl⟩
    have := h e he
    rw [hl] at this
    exact this
  · intro h e he
    split
    · rfl
    · next hl => exact h ⟨e, he, hl⟩
    · rfl
    · rfl

theorem objects_isSome (k : Nat) (p : Str) (os : List Object) : ∀ (i : Nat) (seen : List UInt32),
    ((objectsErrs env m k p i seen os).isSome = true ↔ ∀ o ∈ os, (o.validate env m k p).isSome = true) := by
  induction os with
  | nil => intro i seen; simp [objectsErrs]
  | cons o os ih =>
    intro i seen
    unfold objectsErrs
    rw [List.forall_mem_cons, ← ih (i + 1) (o.id :: seen)]
    cases o.validate env m k p <;> cases objectsErrs env m k p (i + 1) (o.id :: seen) os <;> simp

theorem resources_isSome (k : Nat) (p : Str) (rs : Resources) :
    (rs.validate env m k p).isSome = true ↔ ∀ o ∈ rs.objects, (o.validate env m k p).isSome = true := by
  unfold Resources.validate
  rw [Option.isSome_map, objects_isSome]

/-- `Model.Validate` has a result exactly if all searches for objects with slices have one. -/
theorem validate_isSome (hwf : m.WF) (k : Nat) : (m.validateFuel env k).isSome = true ↔
    ∀ p o, HasSlices env m p o → (buildPlanar m k p o.id m.build.items).isSome = true := by
  have h1 : (m.validateFuel env k).isSome = true ↔ (childsErrs env m k m.sortedChilds).isSome = true ∧
      (m.resources.validate env m k m.pathOrDefault).isSome = true := by
    unfold Model.validateFuel
    cases childsErrs env m k m.sortedChilds <;> cases m.resources.validate env m k m.pathOrDefault <;> simp
  rw [h1, childs_some hwf, resources_isSome]
  have h2 : ∀ (p : Str) (o : Object), (o.validate env m k p).isSome = true ↔ (Active env m .slices → ∀ i res r, sliceAttr o.anyAttr = some (i, res) →
      i ≠ 0 → AssetFound m p i (.res (.sliceStack r)) → (buildPlanar m k p o.id m.build.items).isSome = true) := by
    intro p o
    rw [object_isSome hwf, slicesObject_isSome hwf]
  simp only [resources_isSome, h2]
  constructor
  · rintro ⟨hc, hr⟩ p o ⟨ha, ⟨rs, ⟨rfl, rfl⟩ | ⟨c, hm, rfl⟩, ho⟩, i, res, r, h3, h4, h5⟩
    · exact hr o ho ha i res r h3 h4 h5
    · exact hc p c hm o ho ha i res r h3 h4 h5
  · intro h
    exact ⟨fun p c hm o ho ha i res r h3 h4 h5 => h p o ⟨ha, ⟨_, .inr ⟨c, hm, rfl⟩, ho⟩, i, res, r, h3, h4, h5⟩,
      fun o ho ha i res r h3 h4 h5 => h _ o ⟨ha, ⟨_, .inl ⟨rfl, rfl⟩, ho⟩, i, res, r, h3, h4, h5⟩⟩

/-- The objects that can have slices: finitely many. -/
def sliceCandidates (m : Model) : List (Str × Object) :=
  m.resources.objects.map (rootPath m, ·) ++ m.childs.flatMap fun c => c.2.resources.objects.map (c.1, ·)

theorem mem_candidates {p : Str} {o : Object} (h : HasSlices env m p o) : (p, o) ∈ sliceCandidates m := by
  obtain ⟨-, ⟨rs, ⟨rfl, rfl⟩ | ⟨c, hm, rfl⟩, ho⟩, -⟩ := h
  · exact List.mem_append_left _ (List.mem_map_of_mem ho)
  · exact List.mem_append_right _ (List.mem_flatMap.2 ⟨_, hm, List.mem_map_of_mem ho⟩)

theorem validate_returns (hwf : m.WF) (h : ∀ p o, HasSlices env m p o → ¬ Endless m p o.id) : ∃ errs, m.Validate env errs := by
  classical
  have : Eventually fun k => (sliceCandidates m).all fun c =>
      (if HasSlices env m c.1 c.2 then (buildPlanar m k c.1 c.2.id m.build.items).isSome else true) := by
    refine eventually_all (f := fun (c : Str × Object) k => if HasSlices env m c.1 c.2 then (buildPlanar m k c.1 c.2.id m.build.items).isSome else true) ?_
    intro c _
    by_cases hs : HasSlices env m c.1 c.2
    · simp only [if_pos hs]
      exact eventually_build hwf (h _ _ hs)
    · simp only [if_neg hs]
      exact eventually_true fun _ => rfl
  obtain ⟨N, hN⟩ := this
  have := hN N (le_refl _)
  rw [List.all_eq_true] at this
  have h2 : (m.validateFuel env N).isSome = true := by
    rw [validate_isSome hwf]
    intro p o hs
    have := this _ (mem_candidates hs)
    simpa [hs] using this
  obtain ⟨e, he⟩ := Option.isSome_iff_exists.1 h2
  exact ⟨e, N, he⟩

theorem validate_stuck (hwf : m.WF) {p : Str} {o : Object} (hs : HasSlices env m p o) (he : Endless m p o.id) :
    ¬ ∃ errs, m.Validate env errs := by
  rintro ⟨errs, k, h⟩
  have h1 : (m.validateFuel env k).isSome = true := by rw [h]; rfl
  rw [validate_isSome hwf] at h1
  exact build_stuck hwf he k (h1 p o hs)

end Go3mf
