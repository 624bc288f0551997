import Verif.Model.Validate

/-!
# Loops that collect errors
-/

namespace Go3mf

theorem errsIdx_nil {α : Type} (f : Nat → α → List Err) (l : List α) :
    errsIdx f l = [] ↔ ∀ i a, l[i]? = some a → f i a = [] := by
  unfold errsIdx
  rw [List.flatten_eq_nil_iff]
  constructor
  · intro h i a hi
    apply h
    rw [List.mem_mapIdx]
    obtain ⟨h1, h2⟩ := List.getElem?_eq_some_iff.1 hi
    exact ⟨i, h1, by rw [h2]⟩
  · intro h x hx
    rw [List.mem_mapIdx] at hx
    obtain ⟨i, hi, rfl⟩ := hx
    exact h i _ (List.getElem?_eq_getElem hi)

theorem mem_errsIdx {α : Type} (f : Nat → α → List Err) (l : List α) (e : Err) :
    e ∈ errsIdx f l ↔ ∃ i a, l[i]? = some a ∧ e ∈ f i a := by
  unfold errsIdx
  rw [List.mem_flatten]
  constructor
  · rintro ⟨x, hx, he⟩
    rw [List.mem_mapIdx] at hx
    obtain ⟨i, hi, rfl⟩ := hx
    exact ⟨i, _, List.getElem?_eq_getElem hi, he⟩
  · rintro ⟨i, a, hi, he⟩
    obtain ⟨h1, h2⟩ := List.getElem?_eq_some_iff.1 hi
    exact ⟨_, List.mem_mapIdx.2 ⟨i, h1, rfl⟩, by rw [h2]; exact he⟩

theorem errsIdx_cons {α : Type} (f : Nat → α → List Err) (a : α) (l : List α) :
    errsIdx f (a :: l) = f 0 a ++ errsIdx (fun i => f (i + 1)) l := by
  simp [errsIdx, List.mapIdx_cons]

/-- A loop whose body depends on the elements already seen. -/
theorem errsIdx_scan {α : Type} (loop : Nat → List α → List α → List Err) (f : List α → Nat → α → List Err)
    (h0 : ∀ i done, loop i done [] = [])
    (h1 : ∀ i done a l, loop i done (a :: l) = f done i a ++ loop (i + 1) (done ++ [a]) l) (l : List α) :
    loop 0 [] l = errsIdx (fun i a => f (l.take i) i a) l := by
  have gen : ∀ (l done : List α), loop done.length done l =
      errsIdx (fun i a => f ((done ++ l).take (done.length + i)) (done.length + i) a) l := by
    intro l
    induction l with
    | nil => intro done; rw [h0]; rfl
    | cons a l ih =>
      intro done
      rw [h1, errsIdx_cons]
      have := ih (done ++ [a])
      simp only [List.length_append, List.length_cons, List.length_nil, Nat.zero_add] at this
      rw [this]
      simp only [Nat.add_zero, List.take_left]
      congr 1
      simp only [List.append_assoc, List.cons_append, List.nil_append, Nat.add_assoc, Nat.add_comm 1]
  have := gen l []
  simpa using this

theorem map_mapIdx {α β γ : Type} (g : β → γ) (f : Nat → α → β) (l : List α) :
    (l.mapIdx f).map g = l.mapIdx fun i a => g (f i a) := by
  apply List.ext_getElem?
  intro i
  simp
  rfl

theorem ite_nil {c : Prop} [Decidable c] {α : Type} (a : α) (l : List α) : (if c then a :: l else []) = [] ↔ ¬ c := by
  split <;> simp [*]

end Go3mf
