import Verif.Lemmas.DocModel

/-!
# The conditions of documents can be checked
-/

namespace Go3mf
open Spec

instance (env : Env) (k : Kind) (ns : Str) : Decidable (Allowed env k ns) := by
  unfold Allowed
  cases env.load ns with
  | none => exact inferInstanceAs (Decidable True)
  | some e => cases e <;> infer_instance

/-- The condition on the attributes of an element. -/
def attrsFitB (env : Env) (k : Kind) (as : List Attr) : Bool :=
  decide (as.map (·.name)).Nodup &&
  (!k.holder.isSome || as.all fun a => decide (Allowed env k a.name.space)) &&
  (!k.strictAttrs || as.all fun a => a.name.space ≠ [] || decide (a.name.loc ∈ (attributes k).map (·.1))) &&
  (!k.ofSlices || as.all fun a => a.name.space = []) &&
  (k ≠ .color || (plain? as b!"color").isSome) &&
  (k ≠ .segment || (attrFaults env k as).isEmpty) &&
  (k ≠ .beamLattice || (!((plain? as b!"minlength").isSome && (plain? as b!"precision").isSome) &&
    !((plain? as b!"clippingmode").isSome && (plain? as b!"clipping").isSome)))

theorem attrsFit_of {env : Env} {k : Kind} {as : List Attr} (h : attrsFitB env k as = true) : AttrsFit env k as := by
  simp only [attrsFitB, Bool.and_eq_true, Bool.or_eq_true, decide_eq_true_eq, Bool.not_eq_true', List.all_eq_true,
    List.isEmpty_iff] at h
  obtain ⟨⟨⟨⟨⟨⟨h1, h2⟩, h3⟩, h4⟩, h5⟩, h6⟩, h7⟩ := h
  refine ⟨h1, fun hk => ?_, fun hk a ha hs => ?_, fun hk => ?_, fun hk => ?_, fun hk => ?_, fun hk => ?_⟩
  · rcases h2 with h2 | h2
    · rw [hk] at h2; simp at h2
    · exact h2
  · rcases h3 with h3 | h3
    · rw [hk] at h3; simp at h3
    · rcases h3 a ha with h | h
      · exact absurd hs h
      · exact h
  · rcases h4 with h4 | h4
    · rw [hk] at h4; simp at h4
    · exact h4
  · exact h5.resolve_left (fun h => h hk)
  · exact h6.resolve_left (fun h => h hk)
  · obtain ⟨h8, h9⟩ := h7.resolve_left (fun h => h hk)
    refine ⟨fun h => ?_, fun h => ?_⟩
    · rw [h.1, h.2] at h8; simp at h8
    · rw [h.1, h.2] at h9; simp at h9

/-- The condition on the number of elements. -/
def onceB (k : Kind) (c : List Node) : Bool :=
  ((elements k).all fun p => p.2.2 ≠ .single || (children p.1 c).length ≤ 1) && (k ≠ .metadata || texts c ≤ 1)

theorem mem_of_lookup {α β : Type} [BEq α] [LawfulBEq α] {a : α} {b : β} :
    ∀ {l : List (α × β)}, l.lookup a = some b → (a, b) ∈ l
  | [], h => by simp at h
  | (x, y) :: l, h => by
    rw [List.lookup_cons] at h
    by_cases e : (a == x) = true
    · rw [e] at h
      simp only [Option.some.injEq] at h
      rw [LawfulBEq.eq_of_beq e, h]; exact List.mem_cons_self
    · rw [Bool.not_eq_true] at e
      rw [e] at h
      exact List.mem_cons_of_mem _ (mem_of_lookup h)

theorem once_of {env : Env} {k : Kind} {c : List Node} (h : onceB k c = true) : Once env k c := by
  simp only [onceB, Bool.and_eq_true, Bool.or_eq_true, decide_eq_true_eq, List.all_eq_true] at h
  refine ⟨fun n k' hk => ?_, fun hk => h.2.resolve_left fun h => h hk⟩
  rw [childKind] at hk
  split at hk
  · exfalso
    dsimp only at hk
    split at hk
    · rw [Option.map_eq_some_iff] at hk
      obtain ⟨_, _, e⟩ := hk
      split at e <;> simp at e
    · split at hk <;> simp at hk
  · exact (h.1 _ (mem_of_lookup hk)).resolve_left (by simp)

mutual
/-- The condition on nodes that are passed over, if texts are kept. -/
def passedB (env : Env) (k : Kind) (n : Name) : Node → Bool
  | .elem m _ c => (childKind env k m).isNone && decide (m ≠ n) && passedAllB env k n c
  | .text _ => true
  | .other => true

/-- The same for a content. -/
def passedAllB (env : Env) (k : Kind) (n : Name) : List Node → Bool
  | [] => true
  | x :: xs => passedB env k n x && passedAllB env k n xs
end

mutual
theorem passed_of {env : Env} {k : Kind} {n : Name} : ∀ x, passedB env k n x = true → Passed env True k n x
  | .elem m as c, h => by
    simp only [passedB, Bool.and_eq_true, Option.isNone_iff_eq_none, decide_eq_true_eq] at h
    rw [Passed]
    exact ⟨h.1.1, h.1.2, passedAll_of c h.2⟩
  | .text _, _ => by rw [Passed]; exact fun _ => trivial
  | .other, _ => by rw [Passed]; trivial

theorem passedAll_of {env : Env} {k : Kind} {n : Name} : ∀ c, passedAllB env k n c = true → PassedAll env True k n c
  | [], _ => by rw [PassedAll]; trivial
  | x :: xs, h => by
    simp only [passedAllB, Bool.and_eq_true] at h
    rw [PassedAll]
    exact ⟨passed_of x h.1, passedAll_of xs h.2⟩
end

mutual
/-- The condition on nodes, if texts are kept. -/
def nodeOkB (env : Env) (k : Kind) (n : Name) : Node → Bool
  | .elem m as c =>
    match childKind env k m with
    | none => decide (k ≠ .metadata) && decide (m ≠ n) && passedAllB env k n c
    | some (k', _) =>
      !(decide (k = .resources) && decide (k' = .beamLattice)) && attrsFitB env k' as && onceB k' c && contentOkB env k' m c
  | .text _ => true
  | .other => true

/-- The same for a content. -/
def contentOkB (env : Env) (k : Kind) (n : Name) : List Node → Bool
  | [] => true
  | x :: xs => nodeOkB env k n x && contentOkB env k n xs
end

mutual
theorem nodeOk_of {env : Env} {k : Kind} {n : Name} : ∀ x, nodeOkB env k n x = true → NodeOk env True k n x
  | .elem m as c, h => by
    rw [nodeOkB] at h
    rw [NodeOk]
    cases hk : childKind env k m with
    | none =>
      rw [hk] at h
      simp only [Bool.and_eq_true, decide_eq_true_eq] at h
      exact ⟨h.1.1, h.1.2, passedAll_of c h.2⟩
    | some p =>
      obtain ⟨k', mu⟩ := p
      rw [hk] at h
      simp only [Bool.and_eq_true, decide_eq_true_eq, Bool.not_eq_true', Bool.and_eq_false_iff, decide_eq_false_iff_not] at h
      obtain ⟨⟨⟨h1, h2⟩, h3⟩, h4⟩ := h
      exact ⟨fun e => h1.elim (fun h => h e.1) (fun h => h e.2), attrsFit_of h2, once_of h3, contentOk_of c h4⟩
  | .text _, _ => by rw [NodeOk]; exact fun _ => trivial
  | .other, _ => by rw [NodeOk]; trivial

theorem contentOk_of {env : Env} {k : Kind} {n : Name} : ∀ c, contentOkB env k n c = true → ContentOk env True k n c
  | [], _ => by rw [ContentOk]; trivial
  | x :: xs, h => by
    simp only [contentOkB, Bool.and_eq_true] at h
    rw [ContentOk]
    exact ⟨nodeOk_of x h.1, contentOk_of xs h.2⟩
end

end Go3mf
