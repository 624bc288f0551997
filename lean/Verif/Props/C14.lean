import Verif.Model.Errors

/-!
# C14: accumulating errors loses and invents nothing
-/

namespace Go3mf

/-- What one argument of `Append` contributes: nothing if nil, the members of a list, else itself. -/
def Spec.contrib : ErrVal → List Err
  | .nil => []
  | .nilList => []
  | .err (.list l) => l
  | .err e => [e]

theorem appendLoop_some (l : List Err) (es : List ErrVal) :
    appendLoop (some l) es = some (l ++ es.flatMap Spec.contrib) := by
  induction es generalizing l with
  | nil => simp [appendLoop]
  | cons e es ih =>
    cases e with
    | nil => simp [appendLoop, ih, Spec.contrib]
    | nilList => simp [appendLoop, ih, Spec.contrib]
    | err e => cases e <;> simp [appendLoop, ih, Spec.contrib]

theorem appendLoop_none (es : List ErrVal) :
    appendLoop none es = if es.all (fun e => !e.nonNil) then none else some (es.flatMap Spec.contrib) := by
  induction es with
  | nil => simp [appendLoop]
  | cons e es ih =>
    cases e with
    | nil => simp [appendLoop, ih, Spec.contrib, ErrVal.nonNil]
    | nilList => simp [appendLoop, appendLoop_some, Spec.contrib, ErrVal.nonNil]
    | err e => cases e <;> simp [appendLoop, appendLoop_some, Spec.contrib, ErrVal.nonNil]

theorem contrib_filter (es : List ErrVal) :
    (es.filter ErrVal.nonNil).flatMap Spec.contrib = es.flatMap Spec.contrib := by
  induction es with
  | nil => rfl
  | cons e es ih => cases e <;> simp [List.filter_cons, ErrVal.nonNil, ih, Spec.contrib]

theorem contrib_all_nil {es : List ErrVal} (ha : es.all (fun e => !e.nonNil) = true) : es.flatMap Spec.contrib = [] := by
  rw [List.flatMap_eq_nil_iff]
  intro e hm
  have := List.all_eq_true.1 ha e hm
  cases e <;> simp_all [ErrVal.nonNil, Spec.contrib]

/-- An error value with its own list wrapper: nil stays nil, a nil list stays one, an error becomes a list. -/
def Spec.asList : ErrVal → ErrVal
  | .err e => .err (.list (Spec.contrib (.err e)))
  | e => e

/-- One call with at least one argument.  If all the arguments are nil the result is the accumulator, made a list if
it was a single error; otherwise it is the list of the elements of the accumulator followed by the
contributions of the arguments, in order. -/
theorem C14_call (err : ErrVal) (es : List ErrVal) (h : es ≠ []) :
    err.append es =
      if es.all (fun e => !e.nonNil) then Spec.asList err
      else .err (.list (Spec.contrib err ++ es.flatMap Spec.contrib)) := by
  have he : es.isEmpty = false := by cases es <;> simp_all
  by_cases ha : es.all (fun e => !e.nonNil) = true
  · rw [if_pos ha]
    have hf : es.filter ErrVal.nonNil = [] := by
      rw [List.filter_eq_nil_iff]; simpa using ha
    have hc := contrib_all_nil ha
    cases err with
    | nil => simp [ErrVal.append, he, hf, ErrVal.nonNil, Spec.asList]
    | nilList => simp only [ErrVal.append, he, appendLoop_none, if_pos ha]; rfl
    | err e =>
      cases e <;> simp [ErrVal.append, he, hf, ErrVal.nonNil, Spec.asList, appendLoop_some, hc, Spec.contrib, ErrVal.ofList]
  · rw [if_neg ha]
    have hf : es.filter ErrVal.nonNil ≠ [] := by
      rw [Ne, List.filter_eq_nil_iff]; simpa using ha
    cases err with
    | nil => simp [ErrVal.append, he, hf, appendLoop_some, contrib_filter, ErrVal.ofList, Spec.contrib, show ErrVal.nil.nonNil = false from rfl]
    | nilList => simp only [ErrVal.append, he, appendLoop_none, if_neg ha]; rfl
    | err e =>
      have hn : (ErrVal.err e).nonNil = true := rfl
      cases e <;> simp [ErrVal.append, he, appendLoop_some, contrib_filter, Spec.contrib, ErrVal.ofList, hn]

/-- Calling without further arguments changes nothing. -/
theorem C14_call_empty (err : ErrVal) : err.append [] = err := by simp [ErrVal.append]

/-- Histories: after any sequence of calls `errs = Append(errs, args…)` starting from nil, the result is nil
exactly if every argument was nil, and otherwise the list of all contributions, in order. -/
theorem C14_history (calls : List (List ErrVal)) :
    calls.foldl ErrVal.append .nil =
      if calls.all (fun es => es.all fun e => !e.nonNil) then .nil
      else .err (.list (calls.flatMap fun es => es.flatMap Spec.contrib)) := by
  suffices h : ∀ (acc : List Err),
      calls.foldl ErrVal.append (.err (.list acc)) = .err (.list (acc ++ calls.flatMap fun es => es.flatMap Spec.contrib)) ∧
      calls.foldl ErrVal.append .nil =
        if calls.all (fun es => es.all fun e => !e.nonNil) then .nil
        else .err (.list (calls.flatMap fun es => es.flatMap Spec.contrib)) from (h []).2
  induction calls with
  | nil => simp
  | cons es calls ih =>
    intro acc
    by_cases he : es = []
    · subst he
      have := ih acc
      simpa [C14_call_empty] using this
    · refine ⟨?_, ?_⟩
      · rw [List.foldl_cons, C14_call _ es he]
        by_cases ha : es.all (fun e => !e.nonNil) = true
        · rw [if_pos ha]
          simp [Spec.asList, Spec.contrib, (ih _).1, contrib_all_nil ha]
        · rw [if_neg ha]
          simp [Spec.contrib, (ih _).1]
      · rw [List.foldl_cons, C14_call _ es he]
        by_cases ha : es.all (fun e => !e.nonNil) = true
        · rw [if_pos ha]
          simp only [Spec.asList, (ih acc).2, List.all_cons, ha, Bool.true_and, List.flatMap_cons, contrib_all_nil ha, List.nil_append]
        · rw [if_neg ha]
          simp only [Spec.contrib, List.nil_append, (ih _).1, List.all_cons, (Bool.not_eq_true _).mp ha, Bool.false_and, List.flatMap_cons]
          rfl

/-- The representation used in the model of the validators: on values built by `Append` from nil, `Append`
is concatenation of the lists of elements, whether the argument is a list or a single error. -/
theorem C14_validators (a b : List Err) (e : Err) :
    (ErrVal.ofErrs a).append [.ofErrs b] = .ofErrs (a ++ b) ∧
    ((∀ l, e ≠ .list l) → (ErrVal.ofErrs a).append [.err e] = .ofErrs (a ++ [e])) := by
  refine ⟨?_, fun he => ?_⟩
  · rw [C14_call _ _ (by simp)]
    cases a <;> cases b <;> simp [ErrVal.ofErrs, ErrVal.nonNil, Spec.contrib, Spec.asList]
  · rw [C14_call _ _ (by simp)]
    cases e with
    | list l => exact absurd rfl (he l)
    | leaf l => cases a <;> simp [ErrVal.ofErrs, ErrVal.nonNil, Spec.contrib]
    | wrapped t e p => cases a <;> simp [ErrVal.ofErrs, ErrVal.nonNil, Spec.contrib]

/- A history with nil arguments, single errors and a list, which is flattened. -/
example (e1 e2 : Err) (l1 : Leaf) (h1 : e1 = .leaf l1) :
    [[ErrVal.nil], [.err e1, .nil], [], [.err (.list [e1, e2])], [.nilList]].foldl ErrVal.append .nil =
      .err (.list [e1, e1, e2]) := by subst h1; rfl

end Go3mf
