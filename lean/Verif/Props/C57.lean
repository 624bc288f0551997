import Verif.Model.Matrix
import Verif.Model.Coherency
import Mathlib.Data.List.Induction

/-!
# C57: pair and vector dictionaries
-/

namespace Go3mf

/-! ## Specification -/

/-- A call that changes a vector tree. -/
inductive Spec.TreeCall where
  | add (p : Point3D) (v : UInt32)
  | remove (p : Point3D)

/-- The point of the call. -/
def Spec.TreeCall.point : Spec.TreeCall → Point3D
  | .add p _ => p
  | .remove p => p

/-- Two points that the dictionary does not tell apart. -/
def Spec.SameCell (p q : Point3D) : Prop := cellOf p = cellOf q

/-- The value `v` of `p` was added, and no later call was about the cell of `p`. -/
def Spec.Latest (calls : List Spec.TreeCall) (p : Point3D) (v : UInt32) : Prop :=
  ∃ before q after, calls = before ++ .add q v :: after ∧ Spec.SameCell q p ∧ ∀ c ∈ after, ¬ Spec.SameCell c.point p

/-- The unordered pairs are equal. -/
def Spec.SamePair (a b c d : UInt32) : Prop := (a = c ∧ b = d) ∨ (a = d ∧ b = c)

/-- The value `v` of the pair was added, and no later call was about the pair. -/
def Spec.LatestPair (calls : List (UInt32 × UInt32 × UInt32)) (a b v : UInt32) : Prop :=
  ∃ before x y after, calls = before ++ (x, y, v) :: after ∧ Spec.SamePair x y a b ∧
    ∀ c ∈ after, ¬ Spec.SamePair c.1 c.2.1 a b

/-- The calls performed on a tree. -/
def TreeCall.run (t : VectorTree) : Spec.TreeCall → VectorTree
  | .add p v => t.addVector p v
  | .remove p => t.removeVector p

/-- The calls performed on a pair match. -/
def pairRun (t : PairMatch) (c : UInt32 × UInt32 × UInt32) : PairMatch := t.add c.1 c.2.1 c.2.2

/-! ## Vector tree -/

theorem lookup_filter_ne {K V : Type} [BEq K] [LawfulBEq K] (l : List (K × V)) (k q : K) :
    (l.filter fun e => e.1 != k).lookup q = if q == k then none else l.lookup q := by
  induction l with
  | nil => simp
  | cons e l ih =>
    obtain ⟨a, b⟩ := e
    by_cases hak : a = k
    · subst hak
      simp only [bne_self_eq_false, List.filter_cons, Bool.false_eq_true, if_false, ih, List.lookup_cons]
      by_cases hqa : q = a
      · simp [hqa]
      · simp [beq_eq_false_iff_ne.2 hqa]
    · have : (a != k) = true := by simpa using hak
      simp only [List.filter_cons, this, if_true, List.lookup_cons, ih]
      by_cases hqa : q = a
      · subst hqa; simp [hak]
      · simp [beq_eq_false_iff_ne.2 hqa]

theorem find_step (t : VectorTree) (c : Spec.TreeCall) (p : Point3D) :
    (TreeCall.run t c).findVector p =
      if cellOf c.point = cellOf p then (match c with | .add _ v => some v | .remove _ => none) else t.findVector p := by
  cases c with
  | add q v =>
    simp only [TreeCall.run, VectorTree.addVector, VectorTree.findVector, Spec.TreeCall.point, List.lookup_cons]
    by_cases h : cellOf q = cellOf p
    · simp [h]
    · simp [h, beq_eq_false_iff_ne.2 (Ne.symm h)]
  | remove q =>
    simp only [TreeCall.run, VectorTree.removeVector, VectorTree.findVector, Spec.TreeCall.point]
    rw [lookup_filter_ne]
    by_cases h : cellOf q = cellOf p
    · simp [h]
    · simp [h, Ne.symm h]

/-- C57: after any history of calls, `FindVector` returns the value added last for the cell of the point, unless it was
removed since. -/
theorem C57_vector (calls : List Spec.TreeCall) (p : Point3D) (v : UInt32) :
    VectorTree.findVector (calls.foldl TreeCall.run []) p = some v ↔ Spec.Latest calls p v := by
  induction calls using List.reverseRecOn with
  | nil =>
    constructor
    · intro h; cases h
    · rintro ⟨b, q, a, h, -⟩; simp at h
  | append_singleton l c ih =>
    rw [List.foldl_concat, find_step]
    by_cases hc : cellOf c.point = cellOf p
    · rw [if_pos hc]
      constructor
      · intro h
        cases c with
        | remove q => cases h
        | add q w =>
          cases h
          exact ⟨l, q, [], rfl, hc, by simp⟩
      · rintro ⟨b, q, a, h, hq, ha⟩
        rcases List.eq_nil_or_concat a with rfl | ⟨a', x, rfl⟩
        · obtain ⟨-, e⟩ := List.append_inj' h rfl
          cases e; rfl
        · have h' : l ++ [c] = (b ++ Spec.TreeCall.add q v :: a') ++ [x] := by simpa using h
          obtain ⟨-, e⟩ := List.append_inj' h' rfl
          cases e
          exact absurd hc (ha c (by simp))
    · rw [if_neg hc, ih]
      constructor
      · rintro ⟨b, q, a, rfl, hq, ha⟩
        refine ⟨b, q, a ++ [c], by simp, hq, ?_⟩
        intro x hx
        rcases List.mem_append.1 hx with hx | hx
        · exact ha x hx
        · rw [List.mem_singleton.1 hx]; exact hc
      · rintro ⟨b, q, a, h, hq, ha⟩
        rcases List.eq_nil_or_concat a with rfl | ⟨a', x, rfl⟩
        · obtain ⟨-, e⟩ := List.append_inj' h rfl
          cases e
          exact absurd hq hc
        · have h' : l ++ [c] = (b ++ Spec.TreeCall.add q v :: a') ++ [x] := by simpa using h
          obtain ⟨rfl, -⟩ := List.append_inj' h' rfl
          exact ⟨b, q, a', rfl, hq, fun y hy => ha y (by simp [hy])⟩

/-! ## Pairs -/

theorem pairEntry_same (a b c d : UInt32) : newPairEntry a b = newPairEntry c d ↔ Spec.SamePair a b c d := by
  unfold newPairEntry Spec.SamePair
  simp only [UInt32.lt_iff_toNat_lt, ← UInt32.toNat_inj]
  split <;> split <;> simp only [Prod.mk.injEq, ← UInt32.toNat_inj] <;> omega

theorem check_step (t : PairMatch) (c : UInt32 × UInt32 × UInt32) (a b : UInt32) :
    (Spec.SamePair c.1 c.2.1 a b → (pairRun t c).check a b = some c.2.2) ∧
    (¬ Spec.SamePair c.1 c.2.1 a b → (pairRun t c).check a b = t.check a b) := by
  rw [← pairEntry_same]
  simp only [pairRun, PairMatch.add, PairMatch.check]
  constructor <;> intro h
  · rw [if_pos h]
  · rw [if_neg h]

/-- C57: `CheckMatch` returns the value added last for the pair, in either order of its members. -/
theorem C57_pair (calls : List (UInt32 × UInt32 × UInt32)) (a b v : UInt32) :
    PairMatch.check (calls.foldl pairRun []) a b = some v ↔ Spec.LatestPair calls a b v := by
  induction calls using List.reverseRecOn with
  | nil =>
    constructor
    · intro h; cases h
    · rintro ⟨b, x, y, a, h, -⟩; simp at h
  | append_singleton l c ih =>
    rw [List.foldl_concat]
    by_cases hc : Spec.SamePair c.1 c.2.1 a b
    · rw [(check_step _ c a b).1 hc]
      constructor
      · intro h
        cases h
        exact ⟨l, c.1, c.2.1, [], rfl, hc, by simp⟩
      · rintro ⟨b', x, y, a', h, hq, ha⟩
        rcases List.eq_nil_or_concat a' with rfl | ⟨a'', z, rfl⟩
        · obtain ⟨-, e⟩ := List.append_inj' h rfl
          cases e; rfl
        · have h' : l ++ [c] = (b' ++ (x, y, v) :: a'') ++ [z] := by simpa using h
          obtain ⟨-, e⟩ := List.append_inj' h' rfl
          cases e
          exact absurd hc (ha c (by simp))
    · rw [(check_step _ c a b).2 hc, ih]
      constructor
      · rintro ⟨b', x, y, a', rfl, hq, ha⟩
        refine ⟨b', x, y, a' ++ [c], by simp, hq, ?_⟩
        intro z hz
        rcases List.mem_append.1 hz with hz | hz
        · exact ha z hz
        · rw [List.mem_singleton.1 hz]; exact hc
      · rintro ⟨b', x, y, a', h, hq, ha⟩
        rcases List.eq_nil_or_concat a' with rfl | ⟨a'', z, rfl⟩
        · obtain ⟨-, e⟩ := List.append_inj' h rfl
          cases e
          exact absurd hq hc
        · have h' : l ++ [c] = (b' ++ (x, y, v) :: a'') ++ [z] := by simpa using h
          obtain ⟨rfl, -⟩ := List.append_inj' h' rfl
          exact ⟨b', x, y, a'', rfl, hq, fun w hw => ha w (by simp [hw])⟩

/-! ## Examples -/

/-- The point `(n, 0, 0)` in units of 10⁻⁷. -/
def c57p (n : Nat) : Point3D := ⟨F32.ofRat false (n * scale) (10 ^ 7), .zero, .zero⟩

/-- A point is found through another one of its cell and is gone after a removal through a third one. -/
example :
    VectorTree.findVector ([.add (c57p 51) 7, .add (c57p 91) 8].foldl TreeCall.run []) (c57p 55) = some 7 ∧
    VectorTree.findVector ([.add (c57p 51) 7, .add (c57p 91) 8, .remove (c57p 58)].foldl TreeCall.run []) (c57p 51) = none ∧
    VectorTree.findVector ([.add (c57p 51) 7, .add (c57p 55) 8].foldl TreeCall.run []) (c57p 51) = some 8 := by decide +kernel

example : PairMatch.check ([(1, 2, 7), (2, 1, 8), (1, 3, 9)].foldl pairRun []) 1 2 = some 8 ∧
    PairMatch.check ([(1, 2, 7), (2, 1, 8), (1, 3, 9)].foldl pairRun []) 3 1 = some 9 ∧
    PairMatch.check ([(1, 2, 7), (2, 1, 8), (1, 3, 9)].foldl pairRun []) 3 2 = none := by decide +kernel

end Go3mf
