import Verif.Lemmas.Validate

/-!
# C41: validation of metadata
-/

namespace Go3mf

/-- The nine names that need no namespace. -/
def Spec.metadataNames : List Str :=
  [b!"title", b!"designer", b!"description", b!"copyright", b!"licenseterms", b!"rating", b!"creationdate",
   b!"modificationdate", b!"application"]

/-- Equality up to case of a string with one made of the letters a to z: besides the 26 capitals, the characters U+0130
and U+212A have an ASCII lower case (they are given here by their UTF-8 encodings). -/
inductive Spec.SameLetters : Str → Str → Prop where
  | nil : Spec.SameLetters [] []
  | same (c : Byte) {s t : Str} : Spec.SameLetters s t → Spec.SameLetters (c :: s) (c :: t)
  | capital (c : Byte) {s t : Str} (h : 0x41 ≤ c ∧ c ≤ 0x5a) :
      Spec.SameLetters s t → Spec.SameLetters (c :: s) ((c + 0x20) :: t)
  | dottedI {s t : Str} : Spec.SameLetters s t → Spec.SameLetters (0xc4 :: 0xb0 :: s) (0x69 :: t)
  | kelvin {s t : Str} : Spec.SameLetters s t → Spec.SameLetters (0xe2 :: 0x84 :: 0xaa :: s) (0x6b :: t)

/-- The kinds of fault of a metadata element, in the order of their report. -/
inductive Spec.MetaFault where
  | noName | unknownName | unknownNamespace | repeated
  deriving DecidableEq

/-- What is wrong with the metadata `md`, listed after `earlier`. -/
def Spec.MetaFault.Holds (m : Model) (earlier : List Metadata) (md : Metadata) : Spec.MetaFault → Prop
  | .noName => md.name.loc = []
  | .unknownName => md.name.loc ≠ [] ∧ md.name.space = [] ∧ ¬ ∃ n ∈ Spec.metadataNames, Spec.SameLetters md.name.loc n
  | .unknownNamespace => md.name.loc ≠ [] ∧ md.name.space ≠ [] ∧ ¬ ∃ e ∈ m.extensions, e.ns = md.name.space
  | .repeated => ∃ d ∈ earlier, d.name = md.name

/-- The error that reports a fault. -/
def Spec.MetaFault.leaf : Spec.MetaFault → Leaf
  | .noName => .missingField b!"name"
  | .unknownName => .sentinel .metadataName
  | .unknownNamespace => .sentinel .metadataNamespace
  | .repeated => .sentinel .metadataDuplicated

def Spec.MetaFault.err (i : Nat) (k : Spec.MetaFault) : Err := .wrapped [⟨b!"metadata", i⟩] (.leaf k.leaf) []

noncomputable instance (m : Model) (earlier : List Metadata) (md : Metadata) (k : Spec.MetaFault) :
    Decidable (k.Holds m earlier md) := Classical.propDecidable _

/-! ### Proof -/

theorem lowerName_iff (s t : Str) (ht : ∀ c ∈ t, 0x61 ≤ c ∧ c ≤ 0x7a) : lowerName s = t ↔ Spec.SameLetters s t := by
  constructor
  · intro h
    subst h
    clear ht
    fun_induction lowerName s with
    | case1 => exact .nil
    | case2 s ih => exact .dottedI ih
    | case3 s ih => exact .kelvin ih
    | case4 c s _ _ ih =>
      unfold asciiLower
      split
      next hc =>
        simp only [Bool.and_eq_true, decide_eq_true_eq] at hc
        exact .capital c hc ih
      · exact .same c ih
  · intro h
    induction h with
    | nil => rfl
    | @same c s t h ih =>
      have hc := ht c (by simp)
      rw [lowerName, ih (fun d hd => ht d (by simp [hd]))]
      · have : asciiLower c = c := by
          unfold asciiLower
          rw [if_neg]
          simp only [Bool.and_eq_true, decide_eq_true_eq, not_and]
          intro _ h2
          have h3 := hc.1
          rw [UInt8.le_iff_toNat_le] at h2 h3
          simp at h2 h3
          omega
        rw [this]
      · rintro s1 rfl; exact absurd hc (by decide)
      · rintro s1 rfl; exact absurd hc (by decide)
    | @capital c s t hc h ih =>
      rw [lowerName, ih (fun d hd => ht d (by simp [hd]))]
      · have : asciiLower c = c + 0x20 := by
          unfold asciiLower
          rw [if_pos (by simpa using hc)]
        rw [this]
      · rintro s1 rfl; exact absurd hc (by decide)
      · rintro s1 rfl; exact absurd hc (by decide)
    | dottedI h ih => rw [lowerName, ih (fun d hd => ht d (by simp [hd]))]
    | kelvin h ih => rw [lowerName, ih (fun d hd => ht d (by simp [hd]))]

theorem allowed_iff (s : Str) :
    allowedMetadataNames[searchStrings allowedMetadataNames (lowerName s)]? = some (lowerName s) ↔
      ∃ n ∈ Spec.metadataNames, Spec.SameLetters s n := by
  have h1 : ∀ n ∈ Spec.metadataNames, ∀ c ∈ n, 0x61 ≤ c ∧ c ≤ 0x7a := by decide +kernel
  have h2 : ∀ n ∈ Spec.metadataNames, allowedMetadataNames[searchStrings allowedMetadataNames n]? = some n := by decide +kernel
  have h3 : ∀ n ∈ allowedMetadataNames, n ∈ Spec.metadataNames := by decide +kernel
  constructor
  · intro h
    have h4 := h3 _ (List.mem_of_getElem? h)
    exact ⟨_, h4, (lowerName_iff _ _ (h1 _ h4)).1 rfl⟩
  · rintro ⟨n, hn, hs⟩
    have := (lowerName_iff _ _ (h1 _ hn)).2 hs
    rw [this]
    exact h2 _ hn

/-- **C41**: for each metadata element of a list, in order, exactly its faults are reported, each once, with its
index. -/
theorem C41_exact (m : Model) (mds : List Metadata) :
    checkMetadata m mds = (mds.mapIdx fun i md =>
      (([.noName, .unknownName, .unknownNamespace, .repeated] : List Spec.MetaFault).filter
        fun k => k.Holds m (mds.take i) md).map (Spec.MetaFault.err i)).flatten := by
  unfold checkMetadata
  refine errsIdx_scan (fun i done l => metadataErrs m i (done.map Metadata.name).reverse l)
    (fun done i md => (([.noName, .unknownName, .unknownNamespace, .repeated] : List Spec.MetaFault).filter
        fun k => k.Holds m done md).map (Spec.MetaFault.err i)) (fun i done => rfl) ?_ mds
  intro i done md l
  simp only [metadataErrs, List.map_append, List.map_cons, List.map_nil, List.reverse_append, List.reverse_cons,
    List.reverse_nil, List.nil_append, List.cons_append]
  congr 1
  have e1 : md.name ∈ (done.map Metadata.name).reverse ↔ Spec.MetaFault.Holds m done md .repeated := by
    simp [Spec.MetaFault.Holds]
  have e2 := allowed_iff md.name.loc
  simp only [List.filter_cons, List.filter_nil, decide_eq_true_eq, e1]
  by_cases hn : md.name.loc = []
  · have a1 : Spec.MetaFault.Holds m done md .noName := hn
    have a2 : ¬ Spec.MetaFault.Holds m done md .unknownName := fun h => h.1 hn
    have a3 : ¬ Spec.MetaFault.Holds m done md .unknownNamespace := fun h => h.1 hn
    simp only [Metadata.validate, hn, a1, a2, a3, if_true, if_false]
    by_cases hr : Spec.MetaFault.Holds m done md .repeated <;> simp only [hr, if_true, if_false] <;> rfl
  · have a1 : ¬ Spec.MetaFault.Holds m done md .noName := hn
    by_cases hs : md.name.space = []
    · have a3 : ¬ Spec.MetaFault.Holds m done md .unknownNamespace := fun h => h.2.1 hs
      have a2 : Spec.MetaFault.Holds m done md .unknownName ↔
          allowedMetadataNames[searchStrings allowedMetadataNames (lowerName md.name.loc)]? ≠ some (lowerName md.name.loc) := by
        rw [Ne, e2]
        simp [Spec.MetaFault.Holds, hn, hs]
      simp only [Metadata.validate, hn, hs, a1, a3, if_true, if_false, ← a2]
      by_cases hu : Spec.MetaFault.Holds m done md .unknownName <;>
        by_cases hr : Spec.MetaFault.Holds m done md .repeated <;> simp only [hu, hr, if_true, if_false] <;> rfl
    · have a2 : ¬ Spec.MetaFault.Holds m done md .unknownName := fun h => hs h.2.1
      have a3 : ¬ Spec.MetaFault.Holds m done md .unknownNamespace ↔ (m.extensions.any fun e => e.ns = md.name.space) = true := by
        simp [Spec.MetaFault.Holds, hn, hs]
      simp only [Metadata.validate, hn, hs, a1, a2, if_false, ← a3]
      by_cases hu : Spec.MetaFault.Holds m done md .unknownNamespace <;>
        by_cases hr : Spec.MetaFault.Holds m done md .repeated <;>
          simp only [hu, hr, if_true, if_false, not_true_eq_false, not_false_eq_true] <;> rfl

/-- **C41**: a list of metadata is accepted exactly if none of them has a fault. -/
theorem C41_accepts (m : Model) (mds : List Metadata) :
    checkMetadata m mds = [] ↔ ∀ i md, mds[i]? = some md → ∀ k : Spec.MetaFault, ¬ k.Holds m (mds.take i) md := by
  rw [C41_exact, List.flatten_eq_nil_iff]
  constructor
  · intro h i md hi k hk
    obtain ⟨h1, h2⟩ := List.getElem?_eq_some_iff.1 hi
    have := h _ (List.mem_mapIdx.2 ⟨i, h1, rfl⟩)
    rw [List.map_eq_nil_iff, List.filter_eq_nil_iff] at this
    refine this k ?_ (by rw [h2]; simpa using hk)
    cases k <;> simp
  · intro h x hx
    rw [List.mem_mapIdx] at hx
    obtain ⟨i, hi, rfl⟩ := hx
    rw [List.map_eq_nil_iff, List.filter_eq_nil_iff]
    intro k _
    simpa using h i _ (List.getElem?_eq_getElem hi) k

/-- A metadata element of the given namespace and name. -/
def Spec.metadata (space loc : Str) : Metadata := ⟨⟨space, loc⟩, [], [], false⟩

/- An allowed name in capitals, the same name again, an unknown name and an undeclared namespace. -/
example : (checkMetadata Model.zero [Spec.metadata [] b!"TITLE", Spec.metadata [] b!"TITLE", Spec.metadata [] b!"titles",
    Spec.metadata b!"x" b!"y", Spec.metadata [] []]).map (fun | .wrapped [l] (.leaf f) _ => some (l.index, f) | _ => none) =
    [some (1, .sentinel .metadataDuplicated), some (2, .sentinel .metadataName), some (3, .sentinel .metadataNamespace),
     some (4, .missingField b!"name")] := by decide +kernel

end Go3mf
