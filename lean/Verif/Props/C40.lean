import Verif.Lemmas.Validate

/-!
# C40: validation of relationships
-/

namespace Go3mf

/-- A part name the package accepts: it begins with a slash and no segment begins with a dot. -/
def Spec.PartName (p : Str) : Prop := (∃ s, p = 0x2f :: s) ∧ ¬ ∃ a b : Str, p = a ++ b!"/." ++ b

/-- The attachment a path refers to: the first whose path is equal to it up to case. -/
def Spec.target (env : Env) (m : Model) (p : Str) : Option Attachment :=
  m.attachments.find? fun a => env.fold a.path = env.fold p

/-- The relationship is a print ticket of the package. -/
def Spec.IsTicket (env : Env) (m : Model) (r : Relationship) : Prop :=
  r.type = relPrintTicket ∧ Spec.target env m r.path ≠ none

/-- What is wrong with the relationship `r`, listed after the relationships `earlier`. -/
def Spec.RelFault (env : Env) (m : Model) (earlier : List Relationship) (r : Relationship) : Sentinel → Prop
  | .opcPartName => ¬ Spec.PartName r.path
  | .opcRelTarget => Spec.PartName r.path ∧ Spec.target env m r.path = none
  | .opcDuplicatedRel => Spec.PartName r.path ∧ ∃ r' ∈ earlier, r'.path = r.path ∧ r'.type = r.type
  | .opcContentType => r.type = relPrintTicket ∧
      ∃ a, Spec.target env m r.path = some a ∧ a.contentType ≠ contentTypePrintTicket
  | .opcDuplicatedTicket => Spec.IsTicket env m r ∧ ∃ r' ∈ earlier, Spec.IsTicket env m r'
  | _ => False

/-- The five kinds of fault, in the order in which they are reported for one relationship. -/
def Spec.relFaults : List Sentinel := [.opcPartName, .opcRelTarget, .opcDuplicatedRel, .opcContentType, .opcDuplicatedTicket]

/-- The error that reports a fault of the relationship number `i` of the part `path`. -/
def Spec.relErr (path : Str) (i : Nat) (s : Sentinel) : Err := .wrapped [⟨b!"relationship", i⟩] (.leaf (.sentinel s)) path

/-! ### Proof -/

theorem hasPrefix_iff (s p : Str) : Str.hasPrefix s p = true ↔ ∃ b, s = p ++ b := by
  induction p generalizing s with
  | nil => simp [Str.hasPrefix]
  | cons c p ih =>
    cases s with
    | nil => simp [Str.hasPrefix]
    | cons d s =>
      rw [Str.hasPrefix, Bool.and_eq_true, ih]
      simp only [beq_iff_eq, List.cons_append, List.cons.injEq, exists_and_left]

theorem contains_iff (sub s : Str) : Str.contains sub s = true ↔ ∃ a b, s = a ++ sub ++ b := by
  induction s with
  | nil =>
    rw [Str.contains, List.isEmpty_iff]
    constructor
    · rintro rfl; exact ⟨[], [], rfl⟩
    · rintro ⟨a, b, h⟩
      simp at h
      exact h.2.1
  | cons c s ih =>
    rw [Str.contains, Bool.or_eq_true, hasPrefix_iff, ih]
    constructor
    · rintro (⟨b, hb⟩ | ⟨a, b, hb⟩)
      · exact ⟨[], b, by simpa using hb⟩
      · exact ⟨c :: a, b, by simp [hb]⟩
    · rintro ⟨a, b, h⟩
      cases a with
      | nil => left; exact ⟨b, by simpa using h⟩
      | cons d a =>
        right
        simp only [List.cons_append, List.cons.injEq] at h
        exact ⟨a, b, h.2⟩

theorem badPartName_iff (p : Str) : badPartName p = true ↔ ¬ Spec.PartName p := by
  unfold badPartName Spec.PartName
  rw [Bool.or_eq_true, Bool.or_eq_true, contains_iff]
  cases p with
  | nil => simp
  | cons c p =>
    simp only [List.isEmpty_cons, Bool.false_eq_true, false_or, List.head?_cons, bne_iff_ne, ne_eq, Option.some.injEq,
      List.cons.injEq, exists_and_left, exists_eq', and_true, not_and_or, not_not]

theorem findAttachment_eq (env : Env) (m : Model) (p : Str) : findAttachment env m.attachments p = Spec.target env m p := by
  unfold Spec.target
  induction m.attachments with
  | nil => rfl
  | cons a as ih =>
    rw [findAttachment, List.find?_cons, ih]
    by_cases h : env.fold a.path = env.fold p <;> simp [Env.equalFold, h]

noncomputable instance (env : Env) (m : Model) (earlier : List Relationship) (r : Relationship) (s : Sentinel) :
    Decidable (Spec.RelFault env m earlier r s) := Classical.propDecidable _

theorem relationship_step (env : Env) (m : Model) (done : List Relationship) (i : Nat) (r : Relationship) (rs : List Relationship)
    (visited : List (Str × Str)) (ht : Bool)
    (hv : ∀ p t, (p, t) ∈ visited ↔ Spec.PartName p ∧ ∃ r' ∈ done, r'.path = p ∧ r'.type = t)
    (hh : ht = true ↔ ∃ r' ∈ done, Spec.IsTicket env m r') :
    ∃ visited' ht', relationshipErrs env m i visited ht (r :: rs) =
        ((Spec.relFaults.filter fun s => Spec.RelFault env m done r s).map fun s => Spec.relErr [] i s) ++
        relationshipErrs env m (i + 1) visited' ht' rs ∧
      (∀ p t, (p, t) ∈ visited' ↔ Spec.PartName p ∧ ∃ r' ∈ done ++ [r], r'.path = p ∧ r'.type = t) ∧
      (ht' = true ↔ ∃ r' ∈ done ++ [r], Spec.IsTicket env m r') := by
  rw [relationshipErrs]
  simp only [findAttachment_eq]
  refine ⟨if badPartName r.path = true then visited else (r.path, r.type) :: visited,
    ht || decide (r.type = relPrintTicket) && (Spec.target env m r.path).isSome, ?_, ?_, ?_⟩
  rotate_left
  · intro p t
    by_cases hb : badPartName r.path = true
    · rw [if_pos hb, hv]
      rw [badPartName_iff] at hb
      constructor
      · rintro ⟨h1, r', h2, h3⟩; exact ⟨h1, r', by simp [h2], h3⟩
      · rintro ⟨h1, r', h2, h3, h4⟩
        refine ⟨h1, r', ?_, h3, h4⟩
        rw [List.mem_append, List.mem_singleton] at h2
        rcases h2 with h2 | rfl
        · exact h2
        · rw [h3] at hb; exact absurd h1 hb
    · rw [if_neg hb, List.mem_cons, hv]
      rw [badPartName_iff, not_not] at hb
      constructor
      · rintro (h | ⟨h1, r', h2, h3⟩)
        · obtain ⟨rfl, rfl⟩ := Prod.mk.injEq .. ▸ h
          exact ⟨hb, r, by simp, rfl, rfl⟩
        · exact ⟨h1, r', by simp [h2], h3⟩
      · rintro ⟨h1, r', h2, rfl, rfl⟩
        rw [List.mem_append, List.mem_singleton] at h2
        rcases h2 with h2 | rfl
        · exact .inr ⟨h1, r', h2, rfl, rfl⟩
        · exact .inl rfl
  · rw [Bool.or_eq_true, hh, Bool.and_eq_true, decide_eq_true_eq]
    constructor
    · rintro (⟨r', h1, h2⟩ | ⟨h1, h2⟩)
      · exact ⟨r', by simp [h1], h2⟩
      · exact ⟨r, by simp, h1, by intro h; rw [h] at h2; cases h2⟩
    · rintro ⟨r', h1, h2⟩
      rw [List.mem_append, List.mem_singleton] at h1
      rcases h1 with h1 | rfl
      · exact .inl ⟨r', h1, h2⟩
      · exact .inr ⟨h2.1, Option.isSome_iff_ne_none.2 h2.2⟩
  · congr 1
    have hvr := hv r.path r.type
    simp only [Spec.relFaults, List.filter_cons, List.filter_nil, Spec.RelFault, decide_eq_true_eq]
    have hw : ∀ s, wrapIndex b!"relationship" i (Err.of s) = Spec.relErr [] i s := fun s => rfl
    simp only [hw]
    have hor : Spec.target env m r.path = none ∨ ∃ a, Spec.target env m r.path = some a := by
      cases Spec.target env m r.path <;> simp
    by_cases hb : badPartName r.path = true
    · have hb' := (badPartName_iff _).1 hb
      simp only [hb, if_true, hb', not_false_eq_true, false_and]
      rcases hor with hf | ⟨a, hf⟩
      · simp [hf, Spec.IsTicket]
      · by_cases ht1 : r.type = relPrintTicket
        · by_cases hc : a.contentType = contentTypePrintTicket <;> by_cases hht : ht = true
          all_goals
            have h2 := hh
            simp [hf, ht1, hc, hht, Spec.IsTicket] at h2 ⊢
            try simp [h2]
            try assumption
        · simp [hf, ht1, Spec.IsTicket]
    · have hb' := hb
      rw [badPartName_iff, not_not] at hb'
      simp only [hb, Bool.false_eq_true, if_false, hb', not_true_eq_false, true_and]
      simp only [hb', true_and] at hvr
      simp only [← hvr]
      rcases hor with hf | ⟨a, hf⟩
      · by_cases hm : (r.path, r.type) ∈ visited <;> simp [hf, Spec.IsTicket, hm]
      · by_cases ht1 : r.type = relPrintTicket
        · by_cases hm : (r.path, relPrintTicket) ∈ visited <;>
          by_cases hc : a.contentType = contentTypePrintTicket <;> by_cases hht : ht = true
          all_goals
            have h2 := hh
            simp [hf, ht1, hc, hht, Spec.IsTicket, hm] at h2 ⊢
            try simp [h2]
            try assumption
        · by_cases hm : (r.path, r.type) ∈ visited <;> simp [hf, ht1, Spec.IsTicket, hm]

/-- **C40**: for each relationship of a list, in order, exactly its faults are reported, each once, with its index and
the path of the part. -/
theorem C40_exact (env : Env) (m : Model) (rels : List Relationship) (path : Str) :
    validateRelationship env m rels path =
      (rels.mapIdx fun i r =>
        (Spec.relFaults.filter fun s => Spec.RelFault env m (rels.take i) r s).map (Spec.relErr path i)).flatten := by
  have gen : ∀ (rs done : List Relationship) (visited : List (Str × Str)) (ht : Bool),
      (∀ p t, (p, t) ∈ visited ↔ Spec.PartName p ∧ ∃ r' ∈ done, r'.path = p ∧ r'.type = t) →
      (ht = true ↔ ∃ r' ∈ done, Spec.IsTicket env m r') →
      relationshipErrs env m done.length visited ht rs =
        (rs.mapIdx fun i r => (Spec.relFaults.filter fun s => Spec.RelFault env m ((done ++ rs).take (done.length + i)) r s).map
          (Spec.relErr [] (done.length + i : Nat))).flatten := by
    intro rs
    induction rs with
    | nil => intro done visited ht _ _; rfl
    | cons r rs ih =>
      intro done visited ht hv hh
      obtain ⟨v', h', e1, e2, e3⟩ := relationship_step env m done done.length r rs visited ht hv hh
      rw [e1, List.mapIdx_cons, List.flatten_cons]
      simp only [Nat.add_zero, List.take_left]
      congr 1
      have := ih (done ++ [r]) v' h' e2 e3
      simp only [List.length_append, List.length_cons, List.length_nil, Nat.zero_add] at this
      rw [this]
      simp only [List.append_assoc, List.cons_append, List.nil_append, Nat.add_assoc, Nat.add_comm 1]
  have h := gen rels [] [] false (by simp) (by simp)
  simp only [List.length_nil, List.nil_append, Nat.zero_add] at h
  unfold validateRelationship
  simp only
  rw [h]
  split
  · rw [List.map_flatten, map_mapIdx]
    congr 2
    funext i r
    simp only [List.map_map]
    rfl
  next hp =>
    have : path = [] := by simpa using hp
    subst this
    rfl

/-- **C40**: a list of relationships is accepted exactly if none of them has a fault. -/
theorem C40_accepts (env : Env) (m : Model) (rels : List Relationship) (path : Str) :
    validateRelationship env m rels path = [] ↔
      ∀ i r, rels[i]? = some r → ∀ s, ¬ Spec.RelFault env m (rels.take i) r s := by
  rw [C40_exact, List.flatten_eq_nil_iff]
  constructor
  · intro h i r hi s hs
    obtain ⟨h1, h2⟩ := List.getElem?_eq_some_iff.1 hi
    have := h _ (List.mem_mapIdx.2 ⟨i, h1, rfl⟩)
    rw [List.map_eq_nil_iff, List.filter_eq_nil_iff] at this
    refine this s ?_ (by rw [h2]; simpa using hs)
    cases s <;> first | exact False.elim hs | simp [Spec.relFaults]
  · intro h x hx
    rw [List.mem_mapIdx] at hx
    obtain ⟨i, hi, rfl⟩ := hx
    rw [List.map_eq_nil_iff, List.filter_eq_nil_iff]
    intro s _
    simpa using h i _ (List.getElem?_eq_getElem hi) s

/-- Attachments are compared by ASCII lower case in the examples. -/
def Env.ascii (production slices beamlattice materials : Bool) : Env :=
  ⟨fun s => s.map asciiLower, production, slices, beamlattice, materials⟩

/- A relationship to `/Ticket`, given twice, and one to a hidden part: the second is a repetition, in which the ticket
is repeated too. -/
example : (validateRelationship (.ascii false false false false)
    { Model.zero with attachments := [{ stream := [], path := b!"/ticket", contentType := contentTypePrintTicket }] }
    [⟨b!"/Ticket", relPrintTicket, []⟩, ⟨b!"/Ticket", relPrintTicket, []⟩, ⟨b!"/.a", [], []⟩] b!"/p").map
      (fun | .wrapped _ (.leaf (.sentinel s)) _ => some s | _ => none) =
    [some .opcDuplicatedRel, some .opcDuplicatedTicket, some .opcPartName] := by decide +kernel

end Go3mf
