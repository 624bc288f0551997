import Verif.Model.Core

/-!
# The byte-lexical order is a linear order, and sorting is canonical
-/

namespace Go3mf

theorem Str.lex_cons_iff (x y : UInt8) (a b : Str) :
    List.Lex (· < ·) (x :: a) (y :: b) ↔ x < y ∨ x = y ∧ List.Lex (· < ·) a b := by
  constructor
  · intro h
    cases h with
    | rel h => exact .inl h
    | cons h => exact .inr ⟨rfl, h⟩
  · rintro (h | ⟨rfl, h⟩)
    · exact .rel h
    · exact .cons h

theorem Str.lt_iff (a b : Str) : Str.lt a b = true ↔ List.Lex (· < ·) a b := by
  induction a generalizing b with
  | nil => cases b <;> simp [Str.lt]
  | cons x a ih =>
    cases b with
    | nil => simp [Str.lt]
    | cons y b =>
      simp only [Str.lt]
      rw [Str.lex_cons_iff]
      rcases Nat.lt_trichotomy x.toNat y.toNat with h | h | h
      · have h1 : x < y := UInt8.lt_iff_toNat_lt.2 h
        simp [h1]
      · have h1 : x = y := UInt8.toNat_inj.1 h
        subst h1
        simp [UInt8.lt_irrefl, ih]
      · have h1 : y < x := UInt8.lt_iff_toNat_lt.2 h
        have h2 : ¬ x < y := fun h' => by rw [UInt8.lt_iff_toNat_lt] at h'; omega
        have h3 : x ≠ y := fun h' => by subst h'; omega
        simp [h1, h2, h3]

theorem Str.lt_irrefl (a : Str) : Str.lt a a = false := by
  induction a with
  | nil => rfl
  | cons x a ih => simp [Str.lt, UInt8.lt_irrefl, ih]

theorem Str.lt_trans {a b c : Str} (h1 : Str.lt a b = true) (h2 : Str.lt b c = true) : Str.lt a c = true := by
  induction a generalizing b c with
  | nil =>
    cases b with
    | nil => simp [Str.lt] at h1
    | cons y b => cases c <;> simp_all [Str.lt]
  | cons x a ih =>
    cases b with
    | nil => simp [Str.lt] at h1
    | cons y b =>
      cases c with
      | nil => simp [Str.lt] at h2
      | cons z c =>
        simp only [Str.lt, UInt8.lt_iff_toNat_lt] at *
        have := @ih b c
        split at h1 <;> split at h2 <;> (try split at h1) <;> (try split at h2) <;>
          (split <;> try split) <;> first | rfl | omega | simp_all

theorem Str.lt_total (a b : Str) : Str.lt a b = true ∨ a = b ∨ Str.lt b a = true := by
  induction a generalizing b with
  | nil => cases b <;> simp [Str.lt]
  | cons x a ih =>
    cases b with
    | nil => simp [Str.lt]
    | cons y b =>
      simp only [Str.lt]
      rcases Nat.lt_trichotomy x.toNat y.toNat with h | h | h
      · have h1 : x < y := UInt8.lt_iff_toNat_lt.2 h
        simp [h1]
      · have h1 : x = y := UInt8.toNat_inj.1 h
        subst h1
        simpa [UInt8.lt_irrefl] using ih b
      · have h1 : y < x := UInt8.lt_iff_toNat_lt.2 h
        simp [h1]

theorem Str.lt_asymm {a b : Str} (h : Str.lt a b = true) : Str.lt b a = false := by
  cases h' : Str.lt b a with
  | false => rfl
  | true => have := Str.lt_trans h h'; rw [Str.lt_irrefl] at this; cases this

theorem Str.le_trans {a b c : Str} (h1 : Str.le a b = true) (h2 : Str.le b c = true) : Str.le a c = true := by
  simp only [Str.le, Bool.not_eq_true'] at *
  cases h : Str.lt c a with
  | false => rfl
  | true =>
    rcases Str.lt_total b c with h3 | h3 | h3
    · have := Str.lt_trans h3 h; simp_all
    · subst h3; simp_all
    · simp_all

theorem Str.le_total (a b : Str) : Str.le a b = true ∨ Str.le b a = true := by
  simp only [Str.le, Bool.not_eq_true']
  cases h : Str.lt b a with
  | false => simp
  | true => right; exact Str.lt_asymm h

instance : Std.Total (fun a b : Str => Str.le a b = true) := ⟨Str.le_total⟩
instance : IsTrans Str (fun a b : Str => Str.le a b = true) := ⟨fun _ _ _ => Str.le_trans⟩

theorem Str.le_antisymm {a b : Str} (h1 : Str.le a b = true) (h2 : Str.le b a = true) : a = b := by
  simp only [Str.le, Bool.not_eq_true'] at *
  rcases Str.lt_total a b with h3 | h3 | h3 <;> simp_all

instance : Std.Antisymm (fun a b : Str => Str.le a b = true) := ⟨fun _ _ => Str.le_antisymm⟩

/-- A list sorted strictly is what `sort.Strings` makes of any of its permutations. -/
theorem Str.sort_eq {l s : List Str} (hp : s.Perm l) (hs : s.Pairwise (List.Lex (· < ·))) :
    l.insertionSort (fun a b => Str.le a b = true) = s := by
  have h1 : (l.insertionSort (fun a b => Str.le a b = true)).Pairwise (fun a b => Str.le a b = true) :=
    List.pairwise_insertionSort _ _
  have h2 : s.Pairwise (fun a b => Str.le a b = true) := hs.imp (fun {a b} h => by
    have := Str.lt_asymm ((Str.lt_iff a b).2 h)
    simp [Str.le, this])
  exact List.Perm.eq_of_pairwise (fun a b _ _ h1 h2 => Str.le_antisymm h1 h2) h1 h2
    ((List.perm_insertionSort _ _).trans hp.symm)

end Go3mf
