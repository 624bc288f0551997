import Verif.Model.Core

/-!
# C01: `UnusedID` returns the lowest free identifier

As stated the property is false of the code: the scan compares sorted identifiers with their positions, so
a repeated identifier, or an identifier 0, makes it stop early.  It is proved for collections whose
identifiers are non-zero and pairwise distinct (what `Validate` requires of a model).
-/

namespace Go3mf

/-- The identifiers in use in a collection. -/
def Spec.idsOf (rs : Resources) : List UInt32 := rs.assets.map (·.identify) ++ rs.objects.map (·.id)

/-- The English property: `n` is positive, free, and every smaller positive identifier is taken. -/
def Spec.IsLowestUnused (rs : Resources) (n : UInt32) : Prop :=
  0 < n ∧ n ∉ Spec.idsOf rs ∧ ∀ k : UInt32, 0 < k → k < n → k ∈ Spec.idsOf rs

/-- On a strictly increasing list of values `≥ i`, `firstGap i` finds the first value missing from it; when
nothing is missing the list is `i, i+1, …`. -/
theorem firstGap_sorted (l : List Nat) (i : Nat) (hs : l.Pairwise (· < ·)) (hge : ∀ x ∈ l, i ≤ x) :
    (firstGap i l = 0 ∧ l = List.range' i l.length) ∨
    (firstGap i l ∉ l ∧ i ≤ firstGap i l ∧ (∀ k, i ≤ k → k < firstGap i l → k ∈ l) ∧
      ∃ x ∈ l, firstGap i l < x) := by
  induction l generalizing i with
  | nil => simp [firstGap]
  | cons a l ih =>
    simp only [List.pairwise_cons] at hs
    by_cases ha : a = i
    · subst ha
      simp only [firstGap, ne_eq, not_true_eq_false, if_false, List.length_cons, List.range'_succ]
      rcases ih (a + 1) hs.2 (fun x hx => hs.1 x hx) with ⟨h1, h2⟩ | ⟨h3, h4, h5, x, hx, h6⟩
      · exact .inl ⟨h1, by rw [← h2]⟩
      · refine .inr ⟨by simp only [List.mem_cons, not_or]; exact ⟨by omega, h3⟩, by omega, ?_, x, by simp [hx], h6⟩
        intro k hk1 hk2
        by_cases hka : k = a
        · simp [hka]
        · exact List.mem_cons_of_mem _ (h5 k (by omega) hk2)
    · have : i < a := by have := hge a (by simp); omega
      simp only [firstGap, ne_eq, ha, not_false_eq_true, if_true]
      refine .inr ⟨?_, le_refl _, fun k h1 h2 => by omega, a, by simp, this⟩
      simp only [List.mem_cons, not_or]
      exact ⟨fun h => ha h.symm, fun hm => by have := hs.1 i hm; omega⟩

/-- The hypothesis: identifiers are non-zero and distinct. -/
def Spec.ValidIDs (rs : Resources) : Prop := (0 : UInt32) ∉ Spec.idsOf rs ∧ (Spec.idsOf rs).Nodup

/-- `UnusedID` returns the lowest unused identifier when identifiers are non-zero and distinct, and at
least one identifier is free (fewer than 2^32 - 1 resources).
Missing for the full property: collections with repeated or zero identifiers, where it fails. -/
theorem C01_unusedID_partial (rs : Resources) (h : Spec.ValidIDs rs)
    (hlen : rs.assets.length + rs.objects.length < 2 ^ 32 - 1) :
    Spec.IsLowestUnused rs rs.unusedID := by
  unfold Resources.unusedID
  split
  · rename_i h0
    obtain ⟨h1, h2⟩ := h0
    rw [List.length_eq_zero_iff] at h1 h2
    simp only [Spec.IsLowestUnused, Spec.idsOf, h1, h2]
    refine ⟨by decide, by simp, fun k hk hk1 => ?_⟩
    rw [UInt32.lt_iff_toNat_lt] at hk hk1
    simp at hk hk1; omega
  · rename_i hne
    have hids : rs.idList = 0 :: (Spec.idsOf rs).map (·.toNat) := by
      simp [Resources.idList, Spec.idsOf, Function.comp_def]
    obtain ⟨hz, hnd⟩ := h
    have hnd' : rs.idList.Nodup := by
      rw [hids, List.nodup_cons]
      refine ⟨?_, ?_⟩
      · rw [List.mem_map]
        rintro ⟨x, hx, h0⟩
        exact hz (by rwa [show (0 : UInt32) = x from (UInt32.toNat_inj.1 (by simpa using h0)).symm])
      · exact hnd.map (fun a b hab => UInt32.toNat_inj.1 hab)
    set ids := rs.idList.insertionSort (· ≤ ·) with hidsdef
    have hperm : ids.Perm rs.idList := List.perm_insertionSort _ _
    have hsorted : ids.Pairwise (· < ·) := by
      have h1 : ids.Pairwise (· ≤ ·) := List.pairwise_insertionSort _ _
      have h2 : ids.Pairwise (· ≠ ·) := (hperm.nodup_iff.2 hnd')
      exact (h1.and h2).imp (fun {a b} h => lt_of_le_of_ne h.1 h.2)
    have hmem : ∀ k, k ∈ ids ↔ k = 0 ∨ ∃ x ∈ Spec.idsOf rs, x.toNat = k := by
      intro k; rw [hperm.mem_iff, hids]; simp
    have hlenids : ids.length = rs.assets.length + rs.objects.length + 1 := by
      rw [hperm.length_eq]; simp [Resources.idList]
    have key : ∃ n : Nat, n = (if firstGap 0 ids = 0 then ids.getLastD 0 + 1 else firstGap 0 ids) ∧
        0 < n ∧ n ∉ ids ∧ (∀ k, k < n → k ∈ ids) ∧ n < 2 ^ 32 := by
      refine ⟨_, rfl, ?_⟩
      rcases firstGap_sorted ids 0 hsorted (by simp) with ⟨h1, h2⟩ | ⟨h3, -, h5, x, hx, h6⟩
      · have hlast : ids.getLastD 0 + 1 = ids.length := by
          rw [h2, hlenids, List.range'_concat]
          simp
        rw [if_pos h1, hlast]
        have hm : ∀ k, k ∈ ids ↔ k < ids.length := by
          intro k
          conv_lhs => rw [h2]
          simp
        refine ⟨by omega, by simp [hm], fun k hk => (hm k).2 hk, by omega⟩
      · have hne0 : firstGap 0 ids ≠ 0 := fun h0 => h3 (by rw [h0]; exact (hmem 0).2 (.inl rfl))
        rw [if_neg hne0]
        refine ⟨by omega, h3, fun k hk => h5 k (by omega) hk, ?_⟩
        rcases (hmem x).1 hx with rfl | ⟨y, -, rfl⟩
        · omega
        · have := y.toNat_lt; omega
    obtain ⟨n, hn, h1, h2, h3, h4⟩ := key
    simp only [← hn]
    have hto : (UInt32.ofNat n).toNat = n := UInt32.toNat_ofNat_of_lt' h4
    refine ⟨?_, ?_, ?_⟩
    · rw [UInt32.lt_iff_toNat_lt, hto]; simpa using h1
    · intro hm
      exact h2 ((hmem n).2 (.inr ⟨_, hm, hto⟩))
    · intro k hk1 hk2
      rw [UInt32.lt_iff_toNat_lt] at hk1 hk2
      rw [hto] at hk2
      rcases (hmem k.toNat).1 (h3 _ hk2) with h | ⟨x, hx, h⟩
      · simp [h] at hk1
      · rwa [← UInt32.toNat_inj.1 h]

/-! ### Collections with repeated or zero identifiers -/

theorem firstGap_split (l : List Nat) (i : Nat) :
    (firstGap i l = 0 ∧ l = List.range' i l.length) ∨
    (i ≤ firstGap i l ∧ ∃ x rest, l = List.range' i (firstGap i l - i) ++ x :: rest ∧ x ≠ firstGap i l) := by
  induction l generalizing i with
  | nil => simp [firstGap]
  | cons a l ih =>
    by_cases ha : a = i
    · subst ha
      simp only [firstGap, ne_eq, not_true_eq_false, if_false, List.length_cons, List.range'_succ]
      rcases ih (a + 1) with ⟨h1, h2⟩ | ⟨h1, x, rest, h2, h3⟩
      · exact .inl ⟨h1, by rw [← h2]⟩
      · refine .inr ⟨by omega, x, rest, ?_, h3⟩
        have : firstGap (a + 1) l - a = firstGap (a + 1) l - (a + 1) + 1 := by omega
        rw [this, List.range'_succ, List.cons_append, ← h2]
    · simp only [firstGap, ne_eq, ha, not_false_eq_true, if_true]
      exact .inr ⟨le_refl _, a, l, by simp, ha⟩

/-- What the code looks for: a number that is not used, or that follows one used twice.  Zero counts as used. -/
def Spec.Stop (ids : List Nat) (j : Nat) : Prop := j ∉ ids ∨ 2 ≤ (0 :: ids).count (j - 1)

theorem gap_exact (ids : List Nat) :
    let s := (0 :: ids).insertionSort (· ≤ ·)
    let j := if firstGap 0 s = 0 then s.getLastD 0 + 1 else firstGap 0 s
    0 < j ∧ Spec.Stop ids j ∧ ∀ k, 0 < k → k < j → ¬ Spec.Stop ids k := by
  intro s
  have hperm : s.Perm (0 :: ids) := List.perm_insertionSort _ _
  have hs : s.Pairwise (· ≤ ·) := List.pairwise_insertionSort _ _
  have hc : ∀ k, (0 :: ids).count k = s.count k := fun k => (hperm.count_eq k).symm
  have hm : ∀ k, 0 < k → (k ∈ ids ↔ k ∈ s) := by
    intro k hk
    rw [hperm.mem_iff, List.mem_cons]
    constructor
    · exact .inr
    · rintro (h | h)
      · omega
      · exact h
  rcases firstGap_split s 0 with ⟨h1, h2⟩ | ⟨-, x, rest, h2, h3⟩
  · have hlen : s.length = ids.length + 1 := by rw [hperm.length_eq]; rfl
    have hlast : s.getLastD 0 + 1 = s.length := by
      rw [h2, hlen, List.range'_concat]
      simp
    intro j
    have hj : j = s.length := by simp only [j, if_pos h1, hlast]
    have hr : ∀ k, k ∈ s ↔ k < s.length := fun k => by conv_lhs => rw [h2]; simp
    refine ⟨by omega, .inl ?_, ?_⟩
    · rw [hm j (by omega), hr, hj]; omega
    · rintro k hk hkj (h | h)
      · exact h ((hm k hk).2 ((hr k).2 (by omega)))
      · rw [hc] at h
        have hnd : s.Nodup := by rw [h2]; exact List.nodup_range'
        have := List.nodup_iff_count_le_one.1 hnd (k - 1)
        omega
  · have h0 : firstGap 0 s ≠ 0 := by
      intro h
      rw [h] at h2 h3
      simp only [Nat.sub_self, List.range'_zero, List.nil_append] at h2
      rw [h2] at hs hperm
      have : (0 : Nat) ∈ x :: rest := hperm.mem_iff.2 (by simp)
      rcases List.mem_cons.1 this with h | h
      · exact h3 h.symm
      · have := (List.pairwise_cons.1 hs).1 0 h
        omega
    intro j
    have hj : j = firstGap 0 s := by simp only [j, if_neg h0]
    rw [← hj, Nat.sub_zero] at h2
    rw [← hj] at h3 h0
    clear_value j
    rw [h2, List.pairwise_append, List.pairwise_cons] at hs
    obtain ⟨-, ⟨hx, -⟩, hle⟩ := hs
    have hxj : j - 1 ≤ x := hle (j - 1) (by simp; omega) x (by simp)
    have hge : ∀ y ∈ x :: rest, j - 1 ≤ y := by
      intro y hy
      exact hle (j - 1) (by simp; omega) y hy
    refine ⟨by omega, ?_, ?_⟩
    · by_cases he : x = j - 1
      · right
        rw [hc, h2, List.count_append, List.count_cons]
        have : 0 < (List.range' 0 j).count (j - 1) := List.count_pos_iff.2 (by simp; omega)
        simp [he] at this ⊢
        omega
      · left
        rw [hm j (by omega), h2]
        simp only [List.mem_append, List.mem_cons, List.mem_range'_1, not_or]
        refine ⟨by omega, by omega, fun h => ?_⟩
        have := hx j h
        omega
    · rintro k hk hkj (h | h)
      · exact h ((hm k hk).2 (by rw [h2]; simp; omega))
      · rw [hc, h2, List.count_append] at h
        have h4 : (x :: rest).count (k - 1) = 0 := by
          rw [List.count_eq_zero]
          intro hmem
          have := hge _ hmem
          omega
        have h5 := List.nodup_iff_count_le_one.1 (List.nodup_range' (s := 0) (n := j)) (k - 1)
        omega
/-- The identifiers in use, as numbers. -/
def Spec.used (rs : Resources) : List Nat := (Spec.idsOf rs).map (·.toNat)

/-- **C01**, what is returned for every collection: the lowest positive number that is free or follows one that is used twice,
where zero counts as used once in any case. -/
theorem C01_exact (rs : Resources) (hlen : rs.assets.length + rs.objects.length < 2 ^ 32 - 1) :
    0 < rs.unusedID.toNat ∧ Spec.Stop (Spec.used rs) rs.unusedID.toNat ∧
      ∀ k, 0 < k → k < rs.unusedID.toNat → ¬ Spec.Stop (Spec.used rs) k := by
  have hids : rs.idList = 0 :: Spec.used rs := by
    simp [Resources.idList, Spec.used, Spec.idsOf, Function.comp_def]
  unfold Resources.unusedID
  split
  · rename_i h0
    obtain ⟨h1, h2⟩ := h0
    rw [List.length_eq_zero_iff] at h1 h2
    have : Spec.used rs = [] := by simp [Spec.used, Spec.idsOf, h1, h2]
    rw [this]
    exact ⟨by decide, .inl (by simp), fun k h1 h2 => absurd h2 (by rw [show (1 : UInt32).toNat = 1 from rfl]; omega)⟩
  · have key := gap_exact (Spec.used rs)
    simp only at key
    rw [← hids] at key
    simp only
    generalize (if firstGap 0 (rs.idList.insertionSort (· ≤ ·)) = 0 then (rs.idList.insertionSort (· ≤ ·)).getLastD 0 + 1
      else firstGap 0 (rs.idList.insertionSort (· ≤ ·))) = j at key ⊢
    have hsub : List.range' 1 (j - 1) ⊆ Spec.used rs := by
      intro k hk
      rw [List.mem_range'_1] at hk
      by_contra h
      exact key.2.2 k (by omega) (by omega) (.inl h)
    have hle := (List.subperm_of_subset List.nodup_range' hsub).length_le
    have hused : (Spec.used rs).length = rs.assets.length + rs.objects.length := by simp [Spec.used, Spec.idsOf]
    rw [List.length_range', hused] at hle
    rw [UInt32.toNat_ofNat_of_lt' (by simp [UInt32.size]; omega)]
    exact key

/-- **C01**, when the result is right: exactly if no number is used twice of which the successor and all lower positive
numbers are used (zero counts as used once in any case). -/
theorem C01_right (rs : Resources) (hlen : rs.assets.length + rs.objects.length < 2 ^ 32 - 1) :
    Spec.IsLowestUnused rs rs.unusedID ↔
      ∀ k, (∀ i, 0 < i → i ≤ k + 1 → i ∈ Spec.used rs) → (0 :: Spec.used rs).count k ≤ 1 := by
  obtain ⟨h1, h2, h3⟩ := C01_exact rs hlen
  have hmem : ∀ n : UInt32, n ∈ Spec.idsOf rs ↔ n.toNat ∈ Spec.used rs := by
    intro n
    unfold Spec.used
    rw [List.mem_map]
    constructor
    · exact fun h => ⟨n, h, rfl⟩
    · rintro ⟨x, hx, e⟩; rwa [← UInt32.toNat_inj.1 e]
  have hlow : ∀ k, 0 < k → k < rs.unusedID.toNat → k ∈ Spec.used rs := by
    intro k hk hlt
    by_contra h
    exact h3 k hk hlt (.inl h)
  constructor
  · rintro ⟨-, hf, -⟩ k hk
    rw [hmem] at hf
    have hlt : k + 1 < rs.unusedID.toNat := by
      by_contra h
      exact hf (hk _ h1 (by omega))
    by_contra h
    exact h3 (k + 1) (by omega) hlt (.inr (by simp only [Nat.add_sub_cancel]; omega))
  · intro h
    refine ⟨by rw [UInt32.lt_iff_toNat_lt]; simpa using h1, ?_, ?_⟩
    · rw [hmem]
      intro hin
      rcases h2 with h2 | h2
      · exact h2 hin
      · have := h (rs.unusedID.toNat - 1) fun i hi hle => by
          rcases Nat.lt_or_ge i rs.unusedID.toNat with hlt | hge
          · exact hlow i hi hlt
          · rwa [show i = rs.unusedID.toNat by omega]
        omega
    · intro k hk hlt
      rw [hmem]
      rw [UInt32.lt_iff_toNat_lt] at hk hlt
      exact hlow _ (by simpa using hk) hlt

/-- A collection of objects with the given identifiers. -/
def Spec.withIDs (ids : List UInt32) : Resources :=
  { Resources.zero with objects := ids.map fun i => { Object.zero with id := i } }

/-- The property fails with a repeated identifier: with objects 1, 1, 2 the answer is 2, which is taken. -/
theorem C01_unusedID_duplicate_false :
    ¬ ∀ rs : Resources, rs.assets.length + rs.objects.length < 2 ^ 32 - 1 →
      (0 : UInt32) ∉ Spec.idsOf rs → Spec.IsLowestUnused rs rs.unusedID := by
  intro h
  exact (h (Spec.withIDs [1, 1, 2]) (by decide) (by decide)).2.1 (by decide)

/-- The property fails with an identifier 0: with objects 0, 1 the answer is 1, which is taken. -/
theorem C01_unusedID_zero_false :
    ¬ ∀ rs : Resources, rs.assets.length + rs.objects.length < 2 ^ 32 - 1 →
      (Spec.idsOf rs).Nodup → Spec.IsLowestUnused rs rs.unusedID := by
  intro h
  exact (h (Spec.withIDs [0, 1]) (by decide) (by decide)).2.1 (by decide)

/- The condition of `C01_right` holds with an identifier used twice above the gap, and fails with one used twice below. -/
example : (Spec.withIDs [1, 3, 3]).unusedID = 2 ∧ (Spec.withIDs [1, 1, 2, 3]).unusedID = 2 ∧
    Spec.used (Spec.withIDs [1, 3, 3]) = [1, 3, 3] := by decide

/- The hypotheses of the partial theorem hold of a collection with a gap, in any order. -/
example : Spec.ValidIDs (Spec.withIDs [5, 1, 3, 2]) ∧ (Spec.withIDs [5, 1, 3, 2]).unusedID = 4 := by
  unfold Spec.ValidIDs; decide

end Go3mf
