import Verif.Model.Par
import Mathlib.Data.List.Perm.Basic

/-!
# Lock-protected updates are applied once each, in some order, under every schedule
-/

namespace Go3mf.Par

variable {S : Type}

/-- The update of a goroutine that has already stored. -/
def contrib : Worker S → Option (S → S)
  | (op, .stored) => op
  | (op, .done) => op
  | _ => none

theorem filterMap_set_same {α β : Type} (g : α → Option β) (l : List α) (i : Nat) (a x : α) (h : l[i]? = some a)
    (hx : g x = g a) : (l.set i x).filterMap g = l.filterMap g := by
  induction l generalizing i with
  | nil => rfl
  | cons b l ih =>
    cases i with
    | zero =>
      simp only [List.getElem?_cons_zero, Option.some.injEq] at h
      subst h
      simp only [List.set_cons_zero, List.filterMap_cons, hx]
    | succ i =>
      simp only [List.getElem?_cons_succ] at h
      simp only [List.set_cons_succ, List.filterMap_cons, ih i h]

theorem filterMap_set_new {α β : Type} (g : α → Option β) (l : List α) (i : Nat) (a x : α) (y : β) (h : l[i]? = some a)
    (ha : g a = none) (hx : g x = some y) : ((l.set i x).filterMap g).Perm (l.filterMap g ++ [y]) := by
  induction l generalizing i with
  | nil => simp at h
  | cons b l ih =>
    cases i with
    | zero =>
      simp only [List.getElem?_cons_zero, Option.some.injEq] at h
      subst h
      simp only [List.set_cons_zero, List.filterMap_cons, hx, ha]
      exact (List.perm_append_singleton _ _).symm
    | succ i =>
      simp only [List.getElem?_cons_succ] at h
      simp only [List.set_cons_succ, List.filterMap_cons]
      cases g b with
      | none => exact ih i h
      | some c => exact (ih i h).cons c

/-- Invariant of the runs from `init ops x`. -/
structure Inv (ops : List (Option (S → S))) (x : S) (s : State S) : Prop where
  ops : s.workers.map (·.1) = ops
  /-- only the holder is between `Lock` and `Unlock` -/
  excl : ∀ (i : Nat) (w : Worker S), s.workers[i]? = some w → (w.2 = .idle ∨ w.2 = .done) ∨ s.lock = some i
  holder : ∀ i : Nat, s.lock = some i → ∃ f p, s.workers[i]? = some (some f, p) ∧ p ≠ .idle ∧ p ≠ .done
  /-- what has been loaded is still current -/
  fresh : ∀ (i : Nat) (f : Option (S → S)) (l : S), s.workers[i]? = some (f, .loaded l) → l = s.shared
  order : ∃ fs : List (S → S), fs.Perm (s.workers.filterMap contrib) ∧ s.shared = fs.foldl (fun y f => f y) x

theorem inv_init (ops : List (Option (S → S))) (x : S) : Inv ops x (init ops x) := by
  refine ⟨?_, ?_, ?_, ?_, [], ?_, rfl⟩
  · simp only [init, List.map_map]; exact List.map_id _
  · intro i w h
    simp only [init, List.getElem?_map, Option.map_eq_some_iff] at h
    obtain ⟨a, -, rfl⟩ := h
    exact .inl (.inl rfl)
  · intro i h; simp [init] at h
  · intro i f l h
    simp only [init, List.getElem?_map, Option.map_eq_some_iff] at h
    obtain ⟨a, -, h⟩ := h
    cases h
  · have : (init ops x).workers.filterMap contrib = [] := by
      rw [List.filterMap_eq_nil_iff]
      intro w hw
      simp only [init, List.mem_map] at hw
      obtain ⟨a, -, rfl⟩ := hw
      rfl
    rw [this]

theorem getElem?_set_cases {α : Type} (l : List α) (i j : Nat) (x w : α) (h : (l.set i x)[j]? = some w) :
    (i = j ∧ w = x) ∨ (i ≠ j ∧ l[j]? = some w) := by
  rw [List.getElem?_set] at h
  split at h
  next hij =>
    split at h
    · exact .inl ⟨hij, (Option.some.inj h).symm⟩
    · cases h
  next hij => exact .inr ⟨hij, h⟩

theorem set_get {α : Type} (l : List α) (i : Nat) (a x : α) (h : l[i]? = some a) : (l.set i x)[i]? = some x := by
  have := (List.getElem?_eq_some_iff.1 h).1
  simp [List.getElem?_set, this]

theorem map_fst_set (l : List (Worker S)) (i : Nat) (op : Option (S → S)) (p q : Phase S) (h : l[i]? = some (op, p)) :
    (l.set i (op, q)).map (·.1) = l.map (·.1) := by
  rw [List.map_set]
  simp only
  have : (l.map (·.1))[i]? = some op := by simp [h]
  apply List.ext_getElem?
  intro j
  rw [List.getElem?_set]
  split
  next hij =>
    subst hij
    rw [this]
    have := (List.getElem?_eq_some_iff.1 this).1
    rw [if_pos this]
  next => rfl

theorem inv_step {ops : List (Option (S → S))} {x : S} {s t : State S} (h : Inv ops x s) (st : Step s t) : Inv ops x t := by
  cases st with
  | @skip i hi =>
    refine ⟨?_, ?_, ?_, ?_, ?_⟩
    · rw [← h.ops]; exact map_fst_set _ _ _ _ _ hi
    · intro j w hw
      rcases getElem?_set_cases _ _ _ _ _ hw with ⟨rfl, rfl⟩ | ⟨-, hw⟩
      · exact .inl (.inr rfl)
      · exact h.excl j w hw
    · intro j hj
      obtain ⟨f, p, h1, h2⟩ := h.holder j hj
      refine ⟨f, p, ?_, h2⟩
      have hij : i ≠ j := by rintro rfl; rw [hi] at h1; cases h1
      simp only [List.getElem?_set, hij, if_false]; exact h1
    · intro j f l hw
      rcases getElem?_set_cases _ _ _ _ _ hw with ⟨rfl, hw'⟩ | ⟨-, hw⟩
      · cases hw'
      · exact h.fresh j f l hw
    · obtain ⟨fs, h1, h2⟩ := h.order
      exact ⟨fs, by simp only; rw [filterMap_set_same _ _ _ _ _ hi (by rfl)]; exact h1, h2⟩
  | @acquire i f hi hl =>
    refine ⟨?_, ?_, ?_, ?_, ?_⟩
    · rw [← h.ops]; exact map_fst_set _ _ _ _ _ hi
    · intro j w hw
      rcases getElem?_set_cases _ _ _ _ _ hw with ⟨rfl, rfl⟩ | ⟨-, hw⟩
      · exact .inr rfl
      · rcases h.excl j w hw with h' | h'
        · exact .inl h'
        · rw [hl] at h'; cases h'
    · intro j hj
      obtain rfl := Option.some.inj hj
      exact ⟨f, .holding, set_get _ _ _ _ hi, by simp, by simp⟩
    · intro j g l hw
      rcases getElem?_set_cases _ _ _ _ _ hw with ⟨rfl, hw'⟩ | ⟨-, hw⟩
      · cases hw'
      · exact h.fresh j g l hw
    · obtain ⟨fs, h1, h2⟩ := h.order
      exact ⟨fs, by simp only; rw [filterMap_set_same _ _ _ _ _ hi (by rfl)]; exact h1, h2⟩
  | @load i f hi =>
    have hlk : s.lock = some i := by
      rcases h.excl i _ hi with h' | h'
      · simp at h'
      · exact h'
    refine ⟨?_, ?_, ?_, ?_, ?_⟩
    · rw [← h.ops]; exact map_fst_set _ _ _ _ _ hi
    · intro j w hw
      rcases getElem?_set_cases _ _ _ _ _ hw with ⟨rfl, rfl⟩ | ⟨-, hw⟩
      · exact .inr hlk
      · exact h.excl j w hw
    · intro j hj
      rw [hlk] at hj
      obtain rfl := Option.some.inj hj
      exact ⟨f, _, set_get _ _ _ _ hi, by simp, by simp⟩
    · intro j g l hw
      rcases getElem?_set_cases _ _ _ _ _ hw with ⟨rfl, hw'⟩ | ⟨-, hw⟩
      · simp only [Prod.mk.injEq, Phase.loaded.injEq] at hw'; exact hw'.2
      · exact h.fresh j g l hw
    · obtain ⟨fs, h1, h2⟩ := h.order
      exact ⟨fs, by simp only; rw [filterMap_set_same _ _ _ _ _ hi (by rfl)]; exact h1, h2⟩
  | @store i f l hi =>
    have hlk : s.lock = some i := by
      rcases h.excl i _ hi with h' | h'
      · simp at h'
      · exact h'
    refine ⟨?_, ?_, ?_, ?_, ?_⟩
    · rw [← h.ops]; exact map_fst_set _ _ _ _ _ hi
    · intro j w hw
      rcases getElem?_set_cases _ _ _ _ _ hw with ⟨rfl, rfl⟩ | ⟨-, hw⟩
      · exact .inr hlk
      · exact h.excl j w hw
    · intro j hj
      simp only [hlk] at hj
      obtain rfl := Option.some.inj hj
      exact ⟨f, _, set_get _ _ _ _ hi, by simp, by simp⟩
    · intro j g l' hw
      rcases getElem?_set_cases _ _ _ _ _ hw with ⟨rfl, hw'⟩ | ⟨hij, hw⟩
      · cases hw'
      · exfalso
        rcases h.excl j _ hw with h' | h'
        · simp at h'
        · rw [hlk] at h'; exact hij (Option.some.inj h')
    · obtain ⟨fs, h1, h2⟩ := h.order
      refine ⟨fs ++ [f], ?_, ?_⟩
      · refine List.Perm.trans ?_ (filterMap_set_new contrib _ _ _ (some f, .stored) f hi rfl rfl).symm
        exact h1.append_right _
      · rw [List.foldl_append, ← h2, h.fresh i _ l hi]; rfl
  | @release i f hi =>
    have hlk : s.lock = some i := by
      rcases h.excl i _ hi with h' | h'
      · simp at h'
      · exact h'
    refine ⟨?_, ?_, ?_, ?_, ?_⟩
    · rw [← h.ops]; exact map_fst_set _ _ _ _ _ hi
    · intro j w hw
      rcases getElem?_set_cases _ _ _ _ _ hw with ⟨rfl, rfl⟩ | ⟨hij, hw⟩
      · exact .inl (.inr rfl)
      · rcases h.excl j w hw with h' | h'
        · exact .inl h'
        · rw [hlk] at h'; exact absurd (Option.some.inj h') hij
    · intro j hj; cases hj
    · intro j g l hw
      rcases getElem?_set_cases _ _ _ _ _ hw with ⟨rfl, hw'⟩ | ⟨-, hw⟩
      · cases hw'
      · exact h.fresh j g l hw
    · obtain ⟨fs, h1, h2⟩ := h.order
      exact ⟨fs, by simp only; rw [filterMap_set_same _ _ _ _ _ hi (by rfl)]; exact h1, h2⟩

theorem inv_reachable {ops : List (Option (S → S))} {x : S} {s : State S}
    (h : Relation.ReflTransGen Step (init ops x) s) : Inv ops x s := by
  induction h with
  | refl => exact inv_init ops x
  | tail _ st ih => exact inv_step ih st

/-- Under every schedule the final value is that of applying all the updates, once each, in some order. -/
theorem result_perm {ops : List (Option (S → S))} {x y : S} (h : Result ops x y) :
    ∃ fs : List (S → S), fs.Perm (ops.filterMap id) ∧ y = fs.foldl (fun y f => f y) x := by
  obtain ⟨s, hr, hf, rfl⟩ := h
  have hi := inv_reachable hr
  obtain ⟨fs, h1, h2⟩ := hi.order
  refine ⟨fs, ?_, h2⟩
  have : s.workers.filterMap contrib = ops.filterMap id := by
    rw [← hi.ops, List.filterMap_map]
    apply List.filterMap_congr
    intro w hw
    obtain ⟨i, hi⟩ := List.getElem?_of_mem hw
    have := hf i w hi
    obtain ⟨op, p⟩ := w
    simp only at this
    subst this
    rfl
  rw [← this]
  exact h1

/-- Steps left of a goroutine. -/
def Worker.left : Worker S → Nat
  | (none, .done) => 0
  | (none, _) => 1
  | (some _, .idle) => 4
  | (some _, .holding) => 3
  | (some _, .loaded _) => 2
  | (some _, .stored) => 1
  | (some _, .done) => 0

/-- Steps left. -/
def State.left (s : State S) : Nat := (s.workers.map Worker.left).sum

theorem sum_set (l : List (Worker S)) (i : Nat) (a x : Worker S) (h : l[i]? = some a) (hx : Worker.left x < Worker.left a) :
    ((l.set i x).map Worker.left).sum < (l.map Worker.left).sum := by
  induction l generalizing i with
  | nil => simp at h
  | cons b l ih =>
    cases i with
    | zero =>
      simp only [List.getElem?_cons_zero, Option.some.injEq] at h
      subst h
      simp; omega
    | succ i =>
      simp only [List.getElem?_cons_succ] at h
      have := ih i h
      simp only [List.set_cons_succ, List.map_cons, List.sum_cons]; omega

/-- Every step brings the end nearer: no schedule runs forever. -/
theorem step_left {s t : State S} (st : Step s t) : t.left < s.left := by
  cases st with
  | skip hi => exact sum_set _ _ _ _ hi (by simp [Worker.left])
  | acquire hi _ => exact sum_set _ _ _ _ hi (by simp [Worker.left])
  | load hi => exact sum_set _ _ _ _ hi (by simp [Worker.left])
  | store hi => exact sum_set _ _ _ _ hi (by simp [Worker.left])
  | release hi => exact sum_set _ _ _ _ hi (by simp [Worker.left])

/-- No deadlock: a reachable state is finished or can make a step. -/
theorem progress {ops : List (Option (S → S))} {x : S} {s : State S}
    (h : Relation.ReflTransGen Step (init ops x) s) (hn : ¬ Finished s) : ∃ t, Step s t := by
  have hi := inv_reachable h
  cases hl : s.lock with
  | some i =>
    obtain ⟨f, p, h1, h2, h3⟩ := hi.holder i hl
    cases p with
    | idle => exact absurd rfl h2
    | done => exact absurd rfl h3
    | holding => exact ⟨_, .load h1⟩
    | loaded l => exact ⟨_, .store h1⟩
    | stored => exact ⟨_, .release h1⟩
  | none =>
    have : ∃ (i : Nat) (w : Worker S), s.workers[i]? = some w ∧ w.2 ≠ .done := by
      by_contra hc
      apply hn
      intro i w hw
      by_contra hd
      exact hc ⟨i, w, hw, hd⟩
    obtain ⟨i, ⟨op, p⟩, hw, hd⟩ := this
    rcases hi.excl i _ hw with (h' | h') | h'
    · simp only at h'
      subst h'
      cases op with
      | none => exact ⟨_, .skip hw⟩
      | some f => exact ⟨_, .acquire hw hl⟩
    · exact absurd h' hd
    · rw [hl] at h'; cases h'

/-- Some result is always reached. -/
theorem result_exists (ops : List (Option (S → S))) (x : S) : ∃ y, Result ops x y := by
  suffices h : ∀ n (s : State S), s.left = n → Relation.ReflTransGen Step (init ops x) s → ∃ y, Result ops x y from
    h _ _ rfl .refl
  intro n
  induction n using Nat.strongRecOn with
  | ind n ih =>
    intro s hs hr
    by_cases hf : Finished s
    · exact ⟨s.shared, s, hr, hf, rfl⟩
    · obtain ⟨t, st⟩ := progress hr hf
      exact ih t.left (hs ▸ step_left st) t rfl (hr.tail st)

/-- A goroutine can run to its end without interruption. -/
theorem run_one {s : State S} {i : Nat} {f : S → S} (hi : s.workers[i]? = some (some f, .idle)) (hl : s.lock = none) :
    Relation.ReflTransGen Step s ⟨s.workers.set i (some f, .done), none, f s.shared⟩ := by
  have h1 := Step.acquire hi hl
  have h2 := Step.load (s := { s with workers := s.workers.set i (some f, .holding), lock := some i }) (i := i) (f := f)
    (set_get _ _ _ _ hi)
  have h3 := Step.store (s := { s with
      workers := (s.workers.set i (some f, .holding)).set i (some f, .loaded s.shared), lock := some i }) (i := i) (f := f)
    (l := s.shared) (set_get _ _ _ _ (set_get _ _ _ _ hi))
  have h4 := Step.release (s := ⟨((s.workers.set i (some f, .holding)).set i (some f, .loaded s.shared)).set i (some f, .stored),
      some i, f s.shared⟩) (i := i) (f := f) (set_get _ _ _ _ (set_get _ _ _ _ (set_get _ _ _ _ hi)))
  have := ((Relation.ReflTransGen.single h1).tail h2 |>.tail h3).tail h4
  simpa [List.set_set] using this

/-- One goroutine. -/
theorem result_one (f : S → S) (x : S) : Result [some f] x (f x) := by
  refine ⟨_, run_one (s := init [some f] x) (i := 0) (f := f) rfl rfl, ?_, rfl⟩
  intro i w hw
  match i with
  | 0 => simp [init] at hw; rw [← hw]
  | i + 1 => simp [init] at hw

/-- Two goroutines, the first one first. -/
theorem result_two (f g : S → S) (x : S) : Result [some f, some g] x (g (f x)) := by
  refine ⟨_, (run_one (s := init [some f, some g] x) (i := 0) (f := f) rfl rfl).trans
    (run_one (i := 1) (f := g) rfl rfl), ?_, rfl⟩
  intro i w hw
  match i with
  | 0 => simp [init] at hw; rw [← hw]
  | 1 => simp [init] at hw; rw [← hw]
  | i + 2 => simp [init] at hw

/-- Two goroutines, the second one first. -/
theorem result_two_swap (f g : S → S) (x : S) : Result [some f, some g] x (f (g x)) := by
  refine ⟨_, (run_one (s := init [some f, some g] x) (i := 1) (f := g) rfl rfl).trans
    (run_one (i := 0) (f := f) rfl rfl), ?_, rfl⟩
  intro i w hw
  match i with
  | 0 => simp [init] at hw; rw [← hw]
  | 1 => simp [init] at hw; rw [← hw]
  | i + 2 => simp [init] at hw

end Go3mf.Par
