import Verif.Lemmas.Search
import Verif.Props.C13

/-!
# C13: exactly when `Model.BoundingBox` returns
-/

namespace Go3mf

/-- The box of the object `o` needs that of `x`, which is the object of a component; paths that are not given mean the part `p`
of the item of the build, whatever the part of `o`. -/
def Spec.BoxNeeds (m : Model) (p : Str) (o x : Object) : Prop :=
  o.mesh = none ∧ ∃ cs c, o.components = some cs ∧ c ∈ cs.component ∧ Spec.ObjectFound m (Spec.componentPart p c) c.objectID x

/-- Below the object of an item, one box needs another forever. -/
def Spec.EndlessBox (m : Model) (it : Item) : Prop :=
  ∃ f : Nat → Object, Spec.ObjectFound m it.objectPath it.objectID (f 0) ∧ ∀ n, Spec.BoxNeeds m it.objectPath (f n) (f (n + 1))

variable {m : Model}

theorem box_components (hwf : m.WF) (p : Str) (l : List Component)
    (h : ∀ c ∈ l, ∀ x, Spec.ObjectFound m (Spec.componentPart p c) c.objectID x → ∃ n b, x.boxFuel m n p = some b) :
    ∃ n, ∀ k, n ≤ k → ∀ b, ∃ b', componentsBox (Object.boxFuel m k) m p l b = some b' := by
  induction l with
  | nil => exact ⟨0, fun k _ b => ⟨b, rfl⟩⟩
  | cons c l ihl =>
    obtain ⟨n1, h1⟩ := ihl fun d hd => h d (by simp [hd])
    cases hobj : m.findObject (c.objectPath p) c.objectID with
    | none =>
      refine ⟨n1, fun k hk b => ?_⟩
      rw [componentsBox]
      simp only [hobj]
      exact h1 k hk b
    | some obj =>
      obtain ⟨n2, b2, h2⟩ := h c (by simp) obj (by rw [componentPart_eq] at hobj; exact (findObject_iff hwf).1 hobj)
      refine ⟨max n1 n2, fun k hk b => ?_⟩
      rw [componentsBox]
      simp only [hobj, boxFuel_mono m (le_trans (le_max_right _ _) hk) h2]
      exact h1 k (le_trans (le_max_left _ _) hk) _

theorem box_object (hwf : m.WF) {p : Str} {o : Object} (h : ∀ x, Spec.BoxNeeds m p o x → ∃ n b, x.boxFuel m n p = some b) :
    ∃ n b, o.boxFuel m n p = some b := by
  cases hm : o.mesh with
  | some mesh => exact ⟨1, mesh.boundingBox, by rw [Object.boxFuel]; simp only [hm]⟩
  | none =>
    cases hc : o.components with
    | none => exact ⟨1, .zero, by rw [Object.boxFuel]; simp only [hm, hc]⟩
    | some cs =>
      by_cases hl : cs.component.length = 0
      · exact ⟨1, .zero, by rw [Object.boxFuel]; simp only [hm, hc, hl, if_true]⟩
      · obtain ⟨n, hn⟩ := box_components hwf p cs.component fun c hcm x hx => h x ⟨hm, cs, c, hc, hcm, hx⟩
        obtain ⟨b, hb⟩ := hn n (le_refl _) .limit
        exact ⟨n + 1, b, by rw [Object.boxFuel]; simp only [hm, hc, hl, if_false]; exact hb⟩

/-- An object whose box is not found starts an endless chain. -/
theorem box_chain (hwf : m.WF) {p : Str} {o : Object} (h : ¬ ∃ n b, o.boxFuel m n p = some b) :
    ∃ f : Nat → Object, f 0 = o ∧ ∀ n, Spec.BoxNeeds m p (f n) (f (n + 1)) := by
  let S := { x : Object // ¬ ∃ n b, x.boxFuel m n p = some b }
  have step : ∀ x : S, ∃ y : S, Spec.BoxNeeds m p x.1 y.1 := by
    rintro ⟨x, hx⟩
    by_contra hno
    refine hx (box_object hwf fun y hy => ?_)
    by_contra hye
    exact hno ⟨⟨y, hye⟩, hy⟩
  choose g hg using step
  exact ⟨fun n => (Nat.rec (⟨o, h⟩ : S) (fun _ x => g x) n : S).1, rfl, fun n => hg _⟩

theorem box_step (hwf : m.WF) {p : Str} {k : Nat} {o x : Object} {b : Box} (h : o.boxFuel m (k + 1) p = some b)
    (hs : Spec.BoxNeeds m p o x) : ∃ b', x.boxFuel m k p = some b' := by
  obtain ⟨hm, cs, c, hc, hcm, hx⟩ := hs
  rw [Object.boxFuel] at h
  simp only [hm, hc] at h
  rw [if_neg (by rw [List.length_eq_zero_iff]; rintro e; rw [e] at hcm; cases hcm)] at h
  revert h hcm
  generalize cs.component = l
  generalize Box.limit = b0
  intro hcm h
  induction l generalizing b0 with
  | nil => cases hcm
  | cons e l ih =>
    rw [componentsBox] at h
    simp only [componentPart_eq] at h
    rcases List.mem_cons.1 hcm with rfl | hcm
    · rw [(findObject_iff hwf).2 hx] at h
      cases hr : x.boxFuel m k p with
      | none => simp [hr] at h
      | some b' => exact ⟨b', rfl⟩
    · cases hf : m.findObject (Spec.componentPart p e) e.objectID with
      | none => rw [hf] at h; exact ih b0 hcm h
      | some y =>
        rw [hf] at h
        simp only at h
        cases hr : y.boxFuel m k p with
        | none => rw [hr] at h; cases h
        | some b' => rw [hr] at h; exact ih _ hcm h

theorem box_stuck (hwf : m.WF) {p : Str} {f : Nat → Object} (hf : ∀ n, Spec.BoxNeeds m p (f n) (f (n + 1))) (k : Nat) :
    ∀ n b, (f n).boxFuel m k p ≠ some b := by
  induction k with
  | zero => intro n b h; cases h
  | succ k ih =>
    intro n b h
    obtain ⟨b', h'⟩ := box_step hwf h (hf n)
    exact ih (n + 1) b' h'

/-- **C13**: `BoundingBox` returns exactly if below no item of the build one box needs another forever. -/
theorem C13_exact (m : Model) (hwf : m.WF) : (∃ r, m.BoundingBox r) ↔ ∀ it ∈ m.build.items, ¬ Spec.EndlessBox m it := by
  constructor
  · rintro ⟨r, hr⟩ it hit ⟨f, h0, hf⟩
    rw [Model.BoundingBox, if_neg (by rw [List.length_eq_zero_iff]; rintro e; rw [e] at hit; cases hit)] at hr
    obtain ⟨ops, hops, -⟩ := hr
    have : ∃ op, it.BoxOp m op := by
      generalize m.build.items = its at hit hops
      induction hops with
      | nil => cases hit
      | cons h _ ih =>
        rcases List.mem_cons.1 hit with rfl | hit
        · exact ⟨_, h⟩
        · exact ih hit
    obtain ⟨op, h⟩ := this
    have h0' := (findObject_iff hwf).2 h0
    cases h with
    | missing e => rw [h0'] at e; cases e
    | empty e hb _ => rw [h0'] at e; cases e; obtain ⟨n, hn⟩ := hb; exact box_stuck hwf hf n 0 _ hn
    | extend e hb _ => rw [h0'] at e; cases e; obtain ⟨n, hn⟩ := hb; exact box_stuck hwf hf n 0 _ hn
  · intro h
    refine C11_returns m fun it hit o ho => ?_
    by_contra hno
    obtain ⟨f, rfl, hf⟩ := box_chain hwf (p := it.objectPath) (o := o) fun ⟨n, b, hb⟩ => hno ⟨b, n, hb⟩
    exact h it hit ⟨f, (findObject_iff hwf).1 ho, hf⟩

/- Both cases occur: `Spec.twoCycle` has an endless chain, and one mesh has none. -/
example : ∃ it ∈ Spec.twoCycle.build.items, Spec.EndlessBox Spec.twoCycle it := by
  by_contra h
  obtain ⟨r, hr⟩ := (C13_exact Spec.twoCycle (by decide)).2 fun it hit he => h ⟨it, hit, he⟩
  refine not_terminates (o := Spec.link 1 2 []) rfl rfl (fun n => ?_) r hr
  have : ∀ n, (Spec.link 1 2 []).boxFuel Spec.twoCycle n [] = none ∧ (Spec.link 2 1 []).boxFuel Spec.twoCycle n [] = none := by
    intro n
    induction n with
    | zero => exact ⟨rfl, rfl⟩
    | succ n ih => exact ⟨link_fuel n rfl ih.2, link_fuel n rfl ih.1⟩
  exact (this n).1

/-- One mesh in the build. -/
def Spec.oneDot : Model :=
  { Model.zero with
    resources := { Resources.zero with objects := [Spec.dot 1 ⟨.one, .one, .one⟩] }
    build := { Build.zero with items := [{ Item.zero with objectID := 1 }] } }

example : ∀ it ∈ Spec.oneDot.build.items, ¬ Spec.EndlessBox Spec.oneDot it := by
  rintro it hit ⟨f, h0, hf⟩
  rw [List.mem_singleton.1 hit] at h0
  have h1 : Spec.oneDot.findObject [] 1 = some (f 0) := (findObject_iff (by decide)).2 h0
  have h2 : Spec.dot 1 ⟨.one, .one, .one⟩ = f 0 := Option.some.inj (h1 ▸ rfl)
  have := (hf 0).1
  rw [← h2] at this
  cases this

end Go3mf
