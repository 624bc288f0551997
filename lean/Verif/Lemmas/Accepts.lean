import Verif.Lemmas.Validate
import Verif.Props.C03

/-!
# What acceptance by `Model.Validate` means, part by part
-/

namespace Go3mf

theorem mapM_flatten_nil {α : Type} (f : α → Option (List Err)) (l : List α) :
    (l.mapM f).map List.flatten = some [] ↔ ∀ a ∈ l, f a = some [] := by
  induction l with
  | nil => simp
  | cons a l ih =>
    rw [List.mapM_cons]
    simp only [List.mem_cons, forall_eq_or_imp]
    cases hf : f a with
    | none => simp
    | some es =>
      cases hl : l.mapM f with
      | none =>
        rw [hl] at ih
        simp only [Option.map_none, reduceCtorEq, false_iff] at ih
        simp [ih]
      | some ls =>
        rw [hl] at ih
        simp only [Option.map_some, Option.some.injEq] at ih
        rw [← ih]
        simp

theorem map_append_nil {a : List Err} {o : Option (List Err)} : o.map (a ++ ·) = some [] ↔ a = [] ∧ o = some [] := by
  cases o <;> simp

/-- The identifiers other than 0 are distinct, and not among `seen`. -/
def distinctIds : List UInt32 → List UInt32 → Prop
  | _, [] => True
  | seen, x :: xs => (x ≠ 0 → x ∉ seen) ∧ distinctIds (x :: seen) xs

theorem distinctIds_iff (seen l : List UInt32) :
    distinctIds seen l ↔ (l.filter (· ≠ 0)).Nodup ∧ ∀ x ∈ l, x ≠ 0 → x ∉ seen := by
  induction l generalizing seen with
  | nil => simp [distinctIds]
  | cons x xs ih =>
    rw [distinctIds, ih]
    by_cases hx : x = 0
    · subst hx
      simp only [ne_eq, not_true_eq_false, false_implies, true_and, decide_false, Bool.false_eq_true, not_false_eq_true,
        List.filter_cons_of_neg, List.mem_cons, forall_eq_or_imp]
      refine and_congr_right fun _ => forall_congr' fun y => forall_congr' fun _ => forall_congr' fun hy => ?_
      simp [hy]
    · rw [List.filter_cons_of_pos (by simpa using hx), List.nodup_cons]
      simp only [ne_eq, hx, not_false_eq_true, true_implies, List.mem_cons, forall_eq_or_imp, List.mem_filter,
        decide_not, Bool.not_eq_true', decide_eq_false_iff_not, not_and, not_or]
      constructor
      · rintro ⟨h1, h2, h3⟩
        exact ⟨⟨fun h => absurd rfl (h3 x h hx).1, h2⟩, h1, fun y hy hy0 => (h3 y hy hy0).2⟩
      · rintro ⟨⟨h1, h2⟩, h3, h4⟩
        refine ⟨h3, h2, fun y hy hy0 => ⟨?_, h4 y hy hy0⟩⟩
        rintro rfl
        exact h1 hy trivial

theorem distinctIds_both (a o : List UInt32) :
    distinctIds [] a ∧ distinctIds a o ↔ ((a ++ o).filter (· ≠ 0)).Nodup := by
  rw [distinctIds_iff, distinctIds_iff, List.filter_append, List.nodup_append]
  simp only [List.not_mem_nil, not_false_eq_true, implies_true, and_true]
  refine and_congr_right fun _ => and_congr_right fun _ => ?_
  constructor
  · rintro h x hx y hy rfl
    rw [List.mem_filter] at hx hy
    exact h x hy.1 (by simpa using hy.2) hx.1
  · intro h x hx h0 hxa
    exact h x (List.mem_filter.2 ⟨hxa, by simpa using h0⟩) x (List.mem_filter.2 ⟨hx, by simpa using h0⟩) rfl

theorem assetsErrs_nil (env : Env) (m : Model) (path : Str) (i : Nat) (seen : List UInt32) (as : List Asset) :
    assetsErrs env m path i seen as = [] ↔
      distinctIds seen (as.map Asset.identify) ∧
      ∀ a ∈ as, (∀ r, a = .base r → r.validate = []) ∧ extAssetErrs env m path a = [] := by
  induction as generalizing i seen with
  | nil => simp [assetsErrs, distinctIds]
  | cons a as ih =>
    rw [assetsErrs, List.append_eq_nil_iff, ih, List.map_eq_nil_iff, List.append_eq_nil_iff, List.append_eq_nil_iff,
      ite_nil, List.map_cons, distinctIds]
    simp only [List.mem_cons, forall_eq_or_imp, not_and]
    have : a.validate = [] ↔ ∀ r, a = .base r → r.validate = [] := by
      cases a <;> simp [Asset.validate]
    rw [this]
    tauto

theorem objectsErrs_nil (env : Env) (m : Model) (fuel : Nat) (path : Str) (i : Nat) (seen : List UInt32) (os : List Object) :
    objectsErrs env m fuel path i seen os = some [] ↔
      distinctIds seen (os.map Object.id) ∧ ∀ o ∈ os, o.validate env m fuel path = some [] := by
  induction os generalizing i seen with
  | nil => simp [objectsErrs, distinctIds]
  | cons o os ih =>
    rw [objectsErrs, List.map_cons, distinctIds]
    have ih' := ih (i + 1) (o.id :: seen)
    simp only [List.mem_cons, forall_eq_or_imp]
    cases h1 : o.validate env m fuel path with
    | none => simp
    | some e =>
      cases h2 : objectsErrs env m fuel path (i + 1) (o.id :: seen) os with
      | none =>
        rw [h2] at ih'
        simp only [reduceCtorEq, false_iff] at ih'
        simp only [reduceCtorEq, false_iff]
        tauto
      | some es =>
        rw [h2] at ih'
        simp only [Option.some.injEq] at ih' ⊢
        rw [List.append_eq_nil_iff, List.append_eq_nil_iff, ite_nil, ih', List.map_eq_nil_iff]
        tauto

theorem resources_nil (env : Env) (m : Model) (fuel : Nat) (path : Str) (rs : Resources) :
    rs.validate env m fuel path = some [] ↔
      ((rs.assets.map Asset.identify ++ rs.objects.map Object.id).filter (· ≠ 0)).Nodup ∧
      (∀ a ∈ rs.assets, (∀ r, a = .base r → r.validate = []) ∧ extAssetErrs env m path a = []) ∧
      ∀ o ∈ rs.objects, o.validateCore m path = [] ∧ extObjectErrs env m fuel path o = some [] := by
  unfold Resources.validate
  rw [map_append_nil, assetsErrs_nil, objectsErrs_nil, ← distinctIds_both]
  simp only [Object.validate, map_append_nil]
  tauto

theorem mem_sortedChilds (m : Model) (p : Str) : p ∈ m.sortedChilds ↔ ∃ c, (p, c) ∈ m.childs := by
  unfold Model.sortedChilds
  rw [(List.perm_insertionSort _ _).mem_iff]
  simp

/-- `Model.Validate` returns nil exactly if each of its steps does. -/
theorem accepts_iff (env : Env) (m : Model) (hwf : m.WF) :
    m.Accepts env ↔
      validateRelationship env m m.rootRelationships [] = [] ∧
      m.validateNamespaces env = [] ∧
      (∀ p c, (p, c) ∈ m.childs → p ≠ m.pathOrDefault ∧ validateRelationship env m c.relationships p = []) ∧
      validateRelationship env m m.relationships m.pathOrDefault = [] ∧
      checkMetadata m m.metadata = [] ∧
      extModelErrs env m = [] ∧
      (∃ fuel, (∀ p c, (p, c) ∈ m.childs → c.resources.validate env m fuel p = some []) ∧
        m.resources.validate env m fuel m.pathOrDefault = some []) ∧
      m.build.validate m = [] := by
  unfold Model.Accepts Model.Validate
  have hr : childRelErrs env m m.sortedChilds = [] ↔
      ∀ p c, (p, c) ∈ m.childs → p ≠ m.pathOrDefault ∧ validateRelationship env m c.relationships p = [] := by
    unfold childRelErrs
    rw [List.flatMap_eq_nil_iff]
    constructor
    · intro h p c hc
      have := h p ((mem_sortedChilds m p).2 ⟨c, hc⟩)
      rw [(lookupChild_spec hwf p c).2 hc] at this
      simp only at this
      split at this
      · cases this
      · exact ⟨by assumption, this⟩
    · intro h p hp
      obtain ⟨c, hc⟩ := (mem_sortedChilds m p).1 hp
      rw [(lookupChild_spec hwf p c).2 hc]
      simp only
      rw [if_neg (h p c hc).1]
      exact (h p c hc).2
  have hc : ∀ fuel, childsErrs env m fuel m.sortedChilds = some [] ↔
      ∀ p c, (p, c) ∈ m.childs → c.resources.validate env m fuel p = some [] := by
    intro fuel
    unfold childsErrs
    rw [mapM_flatten_nil]
    constructor
    · intro h p c hc
      have := h p ((mem_sortedChilds m p).2 ⟨c, hc⟩)
      rw [(lookupChild_spec hwf p c).2 hc] at this
      simpa using this
    · intro h p hp
      obtain ⟨c, hc⟩ := (mem_sortedChilds m p).1 hp
      rw [(lookupChild_spec hwf p c).2 hc]
      simp [h p c hc]
  rw [← hr]
  simp only [← hc]
  constructor
  · rintro ⟨fuel, h⟩
    unfold Model.validateFuel at h
    split at h
    next ce re h1 h2 =>
      simp only [Option.some.injEq, List.map_eq_nil_iff, List.append_eq_nil_iff] at h
      obtain ⟨⟨⟨⟨⟨⟨⟨⟨a1, a2⟩, a3⟩, a4⟩, a5⟩, a6⟩, rfl⟩, rfl⟩, a9⟩ := h
      exact ⟨a1, a2, a3, a4, a5, a6, ⟨fuel, h1, h2⟩, a9⟩
    · cases h
  · rintro ⟨a1, a2, a3, a4, a5, a6, ⟨fuel, h1, h2⟩, a9⟩
    refine ⟨fuel, ?_⟩
    unfold Model.validateFuel
    rw [h1, h2]
    simp [a1, a2, a3, a4, a5, a6, a9]

end Go3mf
