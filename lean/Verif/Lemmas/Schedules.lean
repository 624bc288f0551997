import Verif.Lemmas.Par

/-!
# Which results the goroutines can reach

Every order of the updates is that of some schedule.
-/

namespace Go3mf.Par
variable {S : Type}

/-- The update that a goroutine has yet to do. -/
def pending : Worker S → Option (S → S)
  | (op, .idle) => op
  | _ => none

theorem filterMap_set_gone {α β : Type} (g : α → Option β) (l : List α) (i : Nat) (a x : α) (y : β) (h : l[i]? = some a)
    (ha : g a = some y) (hx : g x = none) : (l.filterMap g).Perm (y :: (l.set i x).filterMap g) := by
  have h1 := filterMap_set_new g (l.set i x) i x a y (set_get _ _ _ _ h) hx ha
  rw [List.set_set, List.set_getElem?_self h] at h1
  exact h1.trans (List.perm_append_singleton _ _)
where
  List.set_getElem?_self {l : List α} {i : Nat} {a : α} (h : l[i]? = some a) : l.set i a = l := by
    obtain ⟨hi, rfl⟩ := List.getElem?_eq_some_iff.1 h
    simp

/-- Between two goroutines. -/
def Between (s : State S) : Prop := s.lock = none ∧ ∀ (i : Nat) (w : Worker S), s.workers[i]? = some w → w.2 = .idle ∨ w.2 = .done

/-- The number of goroutines that have not finished. -/
def waiting (l : List (Worker S)) : Nat := l.countP fun w => match w.2 with
  | .done => false
  | _ => true

theorem waiting_set (l : List (Worker S)) (i : Nat) (op op' : Option (S → S)) (h : l[i]? = some (op, .idle)) :
    waiting (l.set i (op', .done)) < waiting l := by
  induction l generalizing i with
  | nil => simp at h
  | cons b l ih =>
    cases i with
    | zero =>
      simp only [List.getElem?_cons_zero, Option.some.injEq] at h
      subst h
      simp [waiting, List.countP_cons]
    | succ i =>
      simp only [List.getElem?_cons_succ] at h
      have := ih i h
      simp only [waiting, List.set_cons_succ, List.countP_cons] at this ⊢
      omega

/-- From a state between two goroutines the updates that are left can be done in any order. -/
theorem run_order : ∀ (n : Nat) (s : State S), waiting s.workers ≤ n → Between s → ∀ fs : List (S → S),
    fs.Perm (s.workers.filterMap pending) →
    ∃ t, Relation.ReflTransGen Step s t ∧ Finished t ∧ t.shared = fs.foldl (fun y f => f y) s.shared := by
  intro n
  induction n with
  | zero =>
    intro s hn hb fs hp
    have hd : Finished s := by
      intro i w hw
      rcases hb.2 i w hw with h | h
      · have h1 : 0 < waiting s.workers := List.countP_pos_iff.2 ⟨w, List.mem_of_getElem? hw, by rw [h]⟩
        omega
      · exact h
    refine ⟨s, .refl, hd, ?_⟩
    have : s.workers.filterMap pending = [] := by
      rw [List.filterMap_eq_nil_iff]
      intro w hw
      obtain ⟨i, hi⟩ := List.getElem?_of_mem hw
      have := hd i w hi
      obtain ⟨op, p⟩ := w
      simp only at this
      subst this
      rfl
    rw [this, List.perm_nil] at hp
    rw [hp]; rfl
  | succ n ih =>
    intro s hn hb fs hp
    have hset : ∀ (i : Nat) (op : Option (S → S)) (x : S), Between ⟨s.workers.set i (op, .done), none, x⟩ := by
      refine fun i op x => ⟨rfl, fun j w hw => ?_⟩
      rcases getElem?_set_cases _ _ _ _ _ hw with h | h
      · rw [h.2]; exact .inr rfl
      · exact hb.2 j w h.2
    cases fs with
    | cons f fs =>
      have hf : f ∈ s.workers.filterMap pending := hp.mem_iff.1 (List.mem_cons_self ..)
      obtain ⟨⟨op, p⟩, hw, he⟩ := List.mem_filterMap.1 hf
      cases p <;> simp only [pending, reduceCtorEq] at he
      subst he
      obtain ⟨i, hi⟩ := List.getElem?_of_mem hw
      obtain ⟨t, h1, h2, h3⟩ := ih ⟨s.workers.set i (some f, .done), none, f s.shared⟩
        (by have := waiting_set _ i _ (some f) hi; simp only; omega) (hset i _ _) fs
        ((hp.trans (filterMap_set_gone pending _ i _ (some f, .done) f hi rfl rfl)).cons_inv)
      exact ⟨t, (run_one hi hb.1).trans h1, h2, h3⟩
    | nil =>
      by_cases hd : Finished s
      · exact ⟨s, .refl, hd, rfl⟩
      · have : ∃ (i : Nat) (w : Worker S), s.workers[i]? = some w ∧ w.2 ≠ .done := by
          by_contra hc
          exact hd fun i w hw => by_contra fun h => hc ⟨i, w, hw, h⟩
        obtain ⟨i, ⟨op, p⟩, hi, h⟩ := this
        have hid : p = .idle := (hb.2 i _ hi).resolve_right h
        subst hid
        have hop : op = none := by
          have := List.filterMap_eq_nil_iff.1 (List.nil_perm.1 hp) _ (List.mem_of_getElem? hi)
          exact this
        subst hop
        have hstep := Step.skip hi
        rw [show ({ s with workers := s.workers.set i (none, .done) } : State S) = ⟨s.workers.set i (none, .done), none, s.shared⟩ by
          rw [hb.1]] at hstep
        obtain ⟨t, h1, h2, h3⟩ := ih ⟨s.workers.set i (none, .done), none, s.shared⟩
          (by have := waiting_set _ i _ none hi; simp only; omega) (hset i _ _) []
          (by rw [filterMap_set_same pending _ i _ (none, .done) hi rfl]; exact hp)
        exact ⟨t, .head hstep h1, h2, h3⟩

/-- The results are exactly those of applying all the updates, once each, in some order. -/
theorem result_iff {ops : List (Option (S → S))} {x y : S} :
    Result ops x y ↔ ∃ fs : List (S → S), fs.Perm (ops.filterMap id) ∧ y = fs.foldl (fun y f => f y) x := by
  refine ⟨result_perm, ?_⟩
  rintro ⟨fs, hp, rfl⟩
  refine run_order _ (init ops x) (Nat.le_refl _) ⟨rfl, fun i w hw => .inl ?_⟩ fs ?_
  · simp only [init, List.getElem?_map, Option.map_eq_some_iff] at hw
    obtain ⟨_, _, rfl⟩ := hw
    rfl
  · rw [init, List.filterMap_map]
    exact hp

/-- The order in which the goroutines are started does not matter. -/
theorem Result.perm {ops ops' : List (Option (S → S))} (h : ops'.Perm ops) {x y : S} : Result ops' x y ↔ Result ops x y := by
  rw [result_iff, result_iff]
  constructor <;> rintro ⟨fs, h1, h2⟩
  · exact ⟨fs, h1.trans (h.filterMap _), h2⟩
  · exact ⟨fs, h1.trans (h.filterMap _).symm, h2⟩

end Go3mf.Par
