import Verif.Model.Coherency
import Mathlib.Data.List.Perm.Basic
import Mathlib.Data.List.Count

/-!
# C07, C08: mesh coherency
-/

namespace Go3mf

/-- The directed edges of a mesh: three per triangle, following its orientation. -/
def Spec.directedEdges (m : Mesh) : List (UInt32 × UInt32) :=
  m.triangles.flatMap fun t => [(t.v1, t.v2), (t.v2, t.v3), (t.v3, t.v1)]

/-- Closed, manifold and consistently oriented: each directed edge joins two different vertices, occurs
once, and its reverse occurs once. -/
def Spec.Manifold (es : List (UInt32 × UInt32)) : Prop :=
  ∀ e ∈ es, e.1 ≠ e.2 ∧ es.count e = 1 ∧ es.count (e.2, e.1) = 1

instance (es : List (UInt32 × UInt32)) : Decidable (Spec.Manifold es) := List.decidableBAll _ _

/-! ## First pass -/

/-- Two edges have the same key. -/
def SameKey (e f : UInt32 × UInt32) : Prop := newPairEntry e.1 e.2 = newPairEntry f.1 f.2

instance (e f : UInt32 × UInt32) : Decidable (SameKey e f) := inferInstanceAs (Decidable (_ = _))

theorem sameKey_iff (e f : UInt32 × UInt32) : SameKey e f ↔ e = f ∨ e = (f.2, f.1) := by
  obtain ⟨a, b⟩ := e
  obtain ⟨c, d⟩ := f
  unfold SameKey newPairEntry
  simp only [Prod.mk.injEq]
  by_cases h1 : a < b <;> by_cases h2 : c < d <;> simp only [h1, h2, if_true, if_false, Prod.mk.injEq]
  · constructor
    · exact .inl
    · rintro (h | ⟨rfl, rfl⟩)
      · exact h
      · exact absurd h1 (by rw [UInt32.not_lt]; exact UInt32.le_of_lt h2)
  · constructor
    · exact .inr
    · rintro (⟨rfl, rfl⟩ | h)
      · exact absurd h1 h2
      · exact h
  · constructor
    · rintro ⟨h, h'⟩; exact .inr ⟨h', h⟩
    · rintro (⟨rfl, rfl⟩ | ⟨h, h'⟩)
      · exact absurd h2 h1
      · exact ⟨h', h⟩
  · constructor
    · rintro ⟨h, h'⟩; exact .inl ⟨h', h⟩
    · rintro (⟨h, h'⟩ | ⟨rfl, rfl⟩)
      · exact ⟨h', h⟩
      · rw [UInt32.not_lt] at h1 h2
        have := UInt32.le_antisymm h1 h2
        exact ⟨this, this.symm⟩

/-- The index of an edge in the map. -/
def PairMatch.idx (pm : PairMatch) (e : UInt32 × UInt32) : Option UInt32 := pm.check e.1 e.2

theorem check_cons (v : UInt32) (t : PairMatch) (e f : UInt32 × UInt32) :
    PairMatch.idx (PairMatch.add t f.1 f.2 v) e = if SameKey f e then some v else PairMatch.idx t e := by
  simp only [PairMatch.idx, PairMatch.add, PairMatch.check]
  by_cases h : SameKey f e
  · rw [if_pos h, if_pos (show newPairEntry f.1 f.2 = newPairEntry e.1 e.2 from h)]
  · rw [if_neg h, if_neg (show ¬ newPairEntry f.1 f.2 = newPairEntry e.1 e.2 from h)]

/-- Invariant of the first pass after the edges `done`. -/
structure Pass1 (done : List (UInt32 × UInt32)) (st : PairMatch × UInt32) : Prop where
  small : st.2.toNat ≤ done.length
  mem : ∀ e ∈ done, ∃ v, st.1.idx e = some v
  key : ∀ e v, st.1.idx e = some v → v.toNat < st.2.toNat ∧ ∃ f ∈ done, SameKey f e
  same : ∀ e f, SameKey e f → st.1.idx e = st.1.idx f
  inj : ∀ e f v, st.1.idx e = some v → st.1.idx f = some v → SameKey e f
  surj : ∀ i < st.2.toNat, ∃ e ∈ done, ∃ v, st.1.idx e = some v ∧ v.toNat = i

theorem pass1_step (done : List (UInt32 × UInt32)) (st : PairMatch × UInt32) (e : UInt32 × UInt32)
    (h : Pass1 done st) (hl : done.length + 1 < 2 ^ 32) : Pass1 (done ++ [e]) (countEdge st e) := by
  cases hc : st.1.check e.1 e.2 with
  | some v =>
    simp only [countEdge, hc]
    refine ⟨?_, ?_, ?_, h.same, h.inj, ?_⟩
    · have := h.small; simp; omega
    · intro f hf
      rw [List.mem_append, List.mem_singleton] at hf
      rcases hf with hf | rfl
      · exact h.mem f hf
      · exact ⟨v, hc⟩
    · intro f v hv
      obtain ⟨h1, g, hg, h2⟩ := h.key f v hv
      exact ⟨h1, g, by simp [hg], h2⟩
    · intro i hi
      obtain ⟨f, hf, v, h1, h2⟩ := h.surj i hi
      exact ⟨f, by simp [hf], v, h1, h2⟩
  | none =>
    simp only [countEdge, hc]
    have hs := h.small
    have hn : (st.2 + 1).toNat = st.2.toNat + 1 := by
      rw [UInt32.toNat_add]
      have : (1 : UInt32).toNat = 1 := rfl
      omega
    have hnone : ∀ f, SameKey e f → st.1.idx f = none := by
      intro f hf
      rw [← h.same e f hf]; exact hc
    have hfresh : ∀ f v, st.1.idx f = some v → v ≠ st.2 := by
      rintro f v hv rfl
      exact absurd (h.key f _ hv).1 (Nat.lt_irrefl _)
    refine ⟨?_, ?_, ?_, ?_, ?_, ?_⟩
    · rw [hn]; simp; omega
    · intro f hf
      rw [check_cons]
      split
      · exact ⟨_, rfl⟩
      · rw [List.mem_append, List.mem_singleton] at hf
        rcases hf with hf | rfl
        · exact h.mem f hf
        · rename_i hk; exact absurd rfl hk
    · intro f v hv
      rw [check_cons] at hv
      rw [hn]
      split at hv
      next hk =>
        obtain rfl := Option.some.inj hv
        exact ⟨Nat.lt_succ_self _, e, by simp, hk⟩
      next =>
        obtain ⟨h1, g, hg, h2⟩ := h.key f v hv
        exact ⟨Nat.lt_succ_of_lt h1, g, by simp [hg], h2⟩
    · intro f g hfg
      rw [check_cons, check_cons]
      have : SameKey e f ↔ SameKey e g := by
        unfold SameKey at *; rw [hfg]
      by_cases hk : SameKey e f
      · rw [if_pos hk, if_pos (this.1 hk)]
      · rw [if_neg hk, if_neg (fun x => hk (this.2 x))]
        exact h.same f g hfg
    · intro f g v hf hg
      rw [check_cons] at hf hg
      split at hf <;> split at hg
      next h1 h2 => exact h1.symm.trans h2
      next h1 h2 =>
        obtain rfl := Option.some.inj hf
        exact absurd rfl (hfresh g _ hg)
      next h1 h2 =>
        obtain rfl := Option.some.inj hg
        exact absurd rfl (hfresh f _ hf)
      next => exact h.inj f g v hf hg
    · intro i hi
      rw [hn] at hi
      by_cases he : i = st.2.toNat
      · subst he
        exact ⟨e, by simp, st.2, by rw [check_cons, if_pos (show SameKey e e from rfl)], rfl⟩
      · obtain ⟨f, hf, v, h1, h2⟩ := h.surj i (by omega)
        refine ⟨f, by simp [hf], v, ?_, h2⟩
        rw [check_cons, if_neg]
        · exact h1
        · intro hk
          rw [hnone f hk] at h1; cases h1

theorem pass1 (es done : List (UInt32 × UInt32)) (st : PairMatch × UInt32) (h : Pass1 done st)
    (hl : done.length + es.length < 2 ^ 32) : Pass1 (done ++ es) (es.foldl countEdge st) := by
  induction es generalizing done st with
  | nil => simpa using h
  | cons e es ih =>
    rw [List.foldl_cons]
    have := ih (done ++ [e]) _ (pass1_step done st e h (by simp at hl; omega)) (by simp at hl ⊢; omega)
    simpa using this

theorem pass1_init : Pass1 [] ([], 0) :=
  ⟨by simp, by simp, by intro e v h; simp [PairMatch.idx, PairMatch.check] at h,
    by intro e f _; rfl, by intro e f v h; simp [PairMatch.idx, PairMatch.check] at h, by simp⟩

/-! ## Second pass -/

/-- Number of edges with index `i` and the given direction. -/
def tally (pm : PairMatch) (up : Bool) (i : Nat) (es : List (UInt32 × UInt32)) : Nat :=
  es.countP fun e => decide (((pm.idx e).getD 0).toNat = i) && (decide (e.1 ≤ e.2) == up)

theorem tally_le (pm : PairMatch) (up : Bool) (i : Nat) (es : List (UInt32 × UInt32)) : tally pm up i es ≤ es.length :=
  List.countP_le_length

theorem tally_fold (pm : PairMatch) (es : List (UInt32 × UInt32)) (st : List UInt32 × List UInt32) (i : Nat) :
    (es.foldl (tallyEdge pm) st).1[i]? = st.1[i]?.map (· + UInt32.ofNat (tally pm true i es)) ∧
    (es.foldl (tallyEdge pm) st).2[i]? = st.2[i]?.map (· + UInt32.ofNat (tally pm false i es)) := by
  induction es generalizing st with
  | nil => simp [tally]
  | cons e es ih =>
    rw [List.foldl_cons]
    obtain ⟨h1, h2⟩ := ih (tallyEdge pm st e)
    rw [h1, h2]
    have hadd : ∀ (x : UInt32) (n : Nat), x + 1 + UInt32.ofNat n = x + UInt32.ofNat (n + 1) := by
      intro x n
      rw [UInt32.ofNat_add, UInt32.add_assoc, UInt32.add_comm 1]
      rfl
    by_cases hle : e.1 ≤ e.2 <;> by_cases hi : ((pm.idx e).getD 0).toNat = i
    all_goals
      simp only [tally, List.countP_cons, hle, hi, decide_true, decide_false, Bool.true_and, Bool.false_and, beq_self_eq_true,
        if_true, Bool.true_beq, Bool.false_beq, Bool.not_true, Bool.false_eq_true, if_false, Nat.add_zero, Bool.not_false]
      simp only [tallyEdge, hle, if_true, if_false, List.getElem?_modify]
      simp only [PairMatch.idx] at hi
      simp only [hi, if_true, if_false]
      constructor <;> cases st.1[i]? <;> cases st.2[i]? <;> simp [hadd]

theorem tally_spec (es : List (UInt32 × UInt32)) (st : PairMatch × UInt32) (h : Pass1 es st)
    (e : UInt32 × UInt32) (he : e ∈ es) (v : UInt32) (hv : st.1.idx e = some v) (up : Bool) :
    tally st.1 up v.toNat es = es.countP fun f => decide (f = e ∨ f = (e.2, e.1)) && (decide (f.1 ≤ f.2) == up) := by
  apply List.countP_congr
  intro f hf
  obtain ⟨w, hw⟩ := h.mem f hf
  have : ((st.1.idx f).getD 0).toNat = v.toNat ↔ (f = e ∨ f = (e.2, e.1)) := by
    rw [hw, Option.getD_some, UInt32.toNat_inj, ← sameKey_iff]
    constructor
    · rintro rfl; exact h.inj f e w hw hv
    · intro hs
      have := h.same f e hs
      rw [hw, hv] at this
      exact Option.some.inj this
  simp only [this]

theorem count_le (es : List (UInt32 × UInt32)) (e : UInt32 × UInt32) :
    (es.countP fun f => decide (f = e ∨ f = (e.2, e.1)) && (decide (f.1 ≤ f.2) == true)) =
      (if e.1 ≤ e.2 then es.count e else es.count (e.2, e.1)) ∧
    (es.countP fun f => decide (f = e ∨ f = (e.2, e.1)) && (decide (f.1 ≤ f.2) == false)) =
      (if e.1 = e.2 then 0 else if e.1 ≤ e.2 then es.count (e.2, e.1) else es.count e) := by
  obtain ⟨a, b⟩ := e
  have hrev : ∀ {x y : UInt32}, ¬ x ≤ y → y ≤ x := fun h => by
    rcases UInt32.le_total _ _ with h' | h'
    · exact h'
    · exact absurd h' h
  constructor
  · simp only
    split
    next hle =>
      rw [List.count]
      apply List.countP_congr
      rintro ⟨c, d⟩ -
      simp only [Prod.mk.injEq, Bool.and_eq_true, decide_eq_true_eq, beq_iff_eq, ]
      constructor
      · rintro ⟨⟨rfl, rfl⟩ | ⟨rfl, rfl⟩, h⟩
        · exact ⟨rfl, rfl⟩
        · have := UInt32.le_antisymm hle h
          exact ⟨this.symm, this⟩
      · rintro ⟨rfl, rfl⟩; exact ⟨.inl ⟨rfl, rfl⟩, hle⟩
    next hle =>
      rw [List.count]
      apply List.countP_congr
      rintro ⟨c, d⟩ -
      simp only [Prod.mk.injEq, Bool.and_eq_true, decide_eq_true_eq, beq_iff_eq]
      constructor
      · rintro ⟨⟨rfl, rfl⟩ | ⟨rfl, rfl⟩, h⟩
        · exact absurd h hle
        · exact ⟨rfl, rfl⟩
      · rintro ⟨rfl, rfl⟩; exact ⟨.inr ⟨rfl, rfl⟩, hrev hle⟩
  · simp only
    split
    next heq =>
      subst heq
      rw [List.countP_eq_zero]
      rintro ⟨c, d⟩ -
      simp only [Prod.mk.injEq, Bool.and_eq_true, decide_eq_true_eq, beq_iff_eq, decide_eq_false_iff_not, not_and]
      rintro (⟨rfl, rfl⟩ | ⟨rfl, rfl⟩) h <;> exact h (UInt32.le_refl _)
    next hne =>
    split
    next hle =>
      rw [List.count]
      apply List.countP_congr
      rintro ⟨c, d⟩ -
      simp only [Prod.mk.injEq, Bool.and_eq_true, decide_eq_true_eq, beq_iff_eq, decide_eq_false_iff_not]
      constructor
      · rintro ⟨⟨rfl, rfl⟩ | ⟨rfl, rfl⟩, h⟩
        · exact absurd hle h
        · exact ⟨rfl, rfl⟩
      · rintro ⟨rfl, rfl⟩
        exact ⟨.inr ⟨rfl, rfl⟩, fun h => hne (UInt32.le_antisymm hle h)⟩
    next hle =>
      rw [List.count]
      apply List.countP_congr
      rintro ⟨c, d⟩ -
      simp only [Prod.mk.injEq, Bool.and_eq_true, decide_eq_true_eq, beq_iff_eq, decide_eq_false_iff_not]
      constructor
      · rintro ⟨⟨rfl, rfl⟩ | ⟨rfl, rfl⟩, h⟩
        · exact ⟨rfl, rfl⟩
        · exact absurd (hrev hle) h
      · rintro ⟨rfl, rfl⟩; exact ⟨.inl ⟨rfl, rfl⟩, hle⟩

theorem directedEdges_length (m : Mesh) : (Spec.directedEdges m).length = 3 * m.triangles.length := by
  unfold Spec.directedEdges
  induction m.triangles with
  | nil => rfl
  | cons t ts ih => rw [List.flatMap_cons, List.length_append, ih, List.length_cons]; simp; omega

/-- The result of `Mesh.ValidateCoherency` in terms of the directed edges. -/
theorem C07_coherency (m : Mesh) (hs : 3 * m.triangles.length < 2 ^ 32) :
    m.validateCoherency =
      if m.vertices.length < 3 then some .insufficientVertices
      else if m.triangles.length < 4 then some .insufficientTriangles
      else if Spec.Manifold (Spec.directedEdges m) then none
      else some .meshConsistency := by
  unfold Mesh.validateCoherency
  split
  · rfl
  by_cases ht : m.triangles.length ≤ 3
  · rw [if_pos ht, if_pos (by omega)]
  rw [if_neg ht, if_neg (by omega)]
  have hes : m.triangles.flatMap Triangle.edges = Spec.directedEdges m := rfl
  have hlen := directedEdges_length m
  rw [hes]
  generalize hE : Spec.directedEdges m = es at *
  have hp : Pass1 es (es.foldl countEdge ([], 0)) := by
    simpa using pass1 es [] _ pass1_init (by simp; omega)
  generalize hst : es.foldl countEdge ([], 0) = st at *
  obtain ⟨pm, n⟩ := st
  simp only [hst]
  have hget : ∀ i < n.toNat, ((es.foldl (tallyEdge pm) (List.replicate n.toNat 0, List.replicate n.toNat 0)).1[i]? =
        some (UInt32.ofNat (tally pm true i es))) ∧
      (es.foldl (tallyEdge pm) (List.replicate n.toNat 0, List.replicate n.toNat 0)).2[i]? =
        some (UInt32.ofNat (tally pm false i es)) := by
    intro i hi
    obtain ⟨h1, h2⟩ := tally_fold pm es (List.replicate n.toNat 0, List.replicate n.toNat 0) i
    rw [h1, h2]
    simp [List.getElem?_replicate, hi]
  have hone : ∀ k : Nat, k ≤ es.length → (UInt32.ofNat k = 1 ↔ k = 1) := by
    intro k hk
    rw [← UInt32.toNat_inj, UInt32.toNat_ofNat_of_lt' (by rw [show UInt32.size = 2 ^ 32 from rfl]; omega)]
    rfl
  have key : (List.range n.toNat).any (fun i =>
      (es.foldl (tallyEdge pm) (List.replicate n.toNat 0, List.replicate n.toNat 0)).1[i]? != some 1 ||
      (es.foldl (tallyEdge pm) (List.replicate n.toNat 0, List.replicate n.toNat 0)).2[i]? != some 1) = true ↔
      ¬ Spec.Manifold es := by
    rw [← not_iff_not, not_not, Bool.not_eq_true, List.any_eq_false]
    constructor
    · intro h e he
      obtain ⟨v, hv⟩ := hp.mem e he
      have hlt := (hp.key e v hv).1
      have h1 := h v.toNat (List.mem_range.2 hlt)
      rw [(hget _ hlt).1, (hget _ hlt).2] at h1
      simp only [Bool.or_eq_true, bne_iff_ne, ne_eq, Option.some.injEq, not_or, not_not] at h1
      rw [hone _ (tally_le ..), hone _ (tally_le ..)] at h1
      rw [tally_spec es _ hp e he v hv, tally_spec es _ hp e he v hv, (count_le es e).1, (count_le es e).2] at h1
      by_cases heq : e.1 = e.2
      · rw [if_pos heq] at h1
        exact absurd h1.2 (by decide)
      · rw [if_neg heq] at h1
        refine ⟨heq, ?_⟩
        split at h1
        · exact h1
        · exact ⟨h1.2, h1.1⟩
    · intro h i hi
      rw [List.mem_range] at hi
      obtain ⟨e, he, v, hv, rfl⟩ := hp.surj i hi
      rw [(hget _ hi).1, (hget _ hi).2]
      simp only [Bool.or_eq_true, bne_iff_ne, ne_eq, Option.some.injEq, not_or, not_not]
      rw [hone _ (tally_le ..), hone _ (tally_le ..)]
      rw [tally_spec es _ hp e he v hv, tally_spec es _ hp e he v hv, (count_le es e).1, (count_le es e).2]
      obtain ⟨hne, h1, h2⟩ := h e he
      rw [if_neg hne]
      split
      · exact ⟨h1, h2⟩
      · exact ⟨h2, h1⟩
  by_cases hm : Spec.Manifold es
  · rw [if_pos hm, if_neg (fun h => key.1 h hm)]
  · rw [if_neg hm, if_pos (key.2 hm)]

/-- **C07**: nil exactly on meshes with at least 3 vertices and 4 triangles that are manifold and oriented. -/
theorem C07_nil_iff (m : Mesh) (hs : 3 * m.triangles.length < 2 ^ 32) :
    m.validateCoherency = none ↔
      3 ≤ m.vertices.length ∧ 4 ≤ m.triangles.length ∧ Spec.Manifold (Spec.directedEdges m) := by
  rw [C07_coherency m hs]
  split
  next h => simp; omega
  next h =>
    split
    next h' => simp; omega
    next h' =>
      split
      next hm => simp [hm]; omega
      next hm => simp [hm]

/-- **C07**: `ValidateCoherency` does not panic: in the second loop every edge is found, with an index inside both slices. -/
theorem C07_indices (m : Mesh) (hs : 3 * m.triangles.length < 2 ^ 32) (e : UInt32 × UInt32)
    (he : e ∈ m.triangles.flatMap Triangle.edges) :
    ∃ i, ((m.triangles.flatMap Triangle.edges).foldl countEdge ([], 0)).1.check e.1 e.2 = some i ∧
      i.toNat < ((m.triangles.flatMap Triangle.edges).foldl countEdge ([], 0)).2.toNat := by
  have hl : (m.triangles.flatMap Triangle.edges).length = 3 * m.triangles.length := directedEdges_length m
  have h := pass1 (m.triangles.flatMap Triangle.edges) [] _ pass1_init (by simp only [List.length_nil]; omega)
  rw [List.nil_append] at h
  obtain ⟨i, hi⟩ := h.mem e he
  exact ⟨i, hi, (h.key e i hi).1⟩

/-! ## C08 -/

theorem coherency_congr (m m' : Mesh) (hs : 3 * m.triangles.length < 2 ^ 32) (hv : m'.vertices.length = m.vertices.length)
    (ht : m'.triangles.length = m.triangles.length)
    (h : Spec.Manifold (Spec.directedEdges m') ↔ Spec.Manifold (Spec.directedEdges m)) :
    m'.validateCoherency = m.validateCoherency := by
  rw [C07_coherency m hs, C07_coherency m' (by rw [ht]; exact hs), hv, ht]
  simp only [h]

theorem manifold_perm {es fs : List (UInt32 × UInt32)} (h : es.Perm fs) : Spec.Manifold es ↔ Spec.Manifold fs := by
  unfold Spec.Manifold
  simp only [h.mem_iff, h.count_eq]

/-- **C08**: the order of the triangles is irrelevant. -/
theorem C08_permute (m : Mesh) (ts : List Triangle) (hs : 3 * m.triangles.length < 2 ^ 32) (h : ts.Perm m.triangles) :
    { m with triangles := ts }.validateCoherency = m.validateCoherency :=
  coherency_congr _ _ hs rfl h.length_eq (manifold_perm (h.flatMap_right _))

/-- `t'` is `t` starting from another corner. -/
def Spec.Rotated (t' t : Triangle) : Prop :=
  (t'.v1, t'.v2, t'.v3) = (t.v1, t.v2, t.v3) ∨ (t'.v1, t'.v2, t'.v3) = (t.v2, t.v3, t.v1) ∨
  (t'.v1, t'.v2, t'.v3) = (t.v3, t.v1, t.v2)

/-- **C08**: the corner each triangle starts from is irrelevant. -/
theorem C08_rotate (m : Mesh) (ts : List Triangle) (hs : 3 * m.triangles.length < 2 ^ 32)
    (h : List.Forall₂ Spec.Rotated ts m.triangles) :
    { m with triangles := ts }.validateCoherency = m.validateCoherency := by
  refine coherency_congr _ _ hs rfl h.length_eq (manifold_perm ?_)
  unfold Spec.directedEdges
  simp only
  generalize m.triangles = us at h
  induction h with
  | nil => exact .nil
  | @cons t u ts us h _ ih =>
    simp only [List.flatMap_cons]
    refine List.Perm.append ?_ ih
    rcases h with h | h | h
    all_goals
      simp only [Prod.mk.injEq] at h
      rw [h.1, h.2.1, h.2.2]
    · exact (List.perm_append_singleton (u.v1, u.v2) [(u.v2, u.v3), (u.v3, u.v1)])
    · exact (List.perm_append_comm (l₁ := [(u.v3, u.v1)]) (l₂ := [(u.v1, u.v2), (u.v2, u.v3)]))

/-- The triangle with the opposite orientation. -/
def Spec.flip (t : Triangle) : Triangle := { t with v2 := t.v3, v3 := t.v2 }

theorem manifold_map (f : UInt32 × UInt32 → UInt32 × UInt32) (hf : Function.Injective f)
    (hr : ∀ e, f (e.2, e.1) = ((f e).2, (f e).1)) (hd : ∀ e, (f e).1 = (f e).2 ↔ e.1 = e.2) (es : List (UInt32 × UInt32)) :
    Spec.Manifold (es.map f) ↔ Spec.Manifold es := by
  unfold Spec.Manifold
  simp only [List.mem_map, forall_exists_index, and_imp, forall_apply_eq_imp_iff₂, ne_eq, hd, ← hr,
    List.count_map_of_injective _ f hf]

/-- **C08**: flipping the orientation of all the triangles is irrelevant. -/
theorem C08_flip (m : Mesh) (hs : 3 * m.triangles.length < 2 ^ 32) :
    { m with triangles := m.triangles.map Spec.flip }.validateCoherency = m.validateCoherency := by
  refine coherency_congr _ _ hs rfl (by simp) ?_
  rw [← manifold_map Prod.swap Prod.swap_injective (fun _ => rfl) (fun _ => eq_comm) (Spec.directedEdges m)]
  apply manifold_perm
  unfold Spec.directedEdges
  simp only
  induction m.triangles with
  | nil => exact .nil
  | cons t ts ih =>
    simp only [List.map_cons, List.flatMap_cons, List.map_append, List.map_nil]
    refine List.Perm.append ?_ ih
    simp only [Spec.flip, Prod.swap_prod_mk]
    exact (List.reverse_perm [(t.v2, t.v1), (t.v3, t.v2), (t.v1, t.v3)])

/-- Renaming the vertices of a triangle. -/
def Spec.rename (f : UInt32 → UInt32) (t : Triangle) : Triangle := { t with v1 := f t.v1, v2 := f t.v2, v3 := f t.v3 }

/-- **C08**: renaming the vertices injectively is irrelevant (the vertex list may be replaced by one of the same
length). -/
theorem C08_rename (m : Mesh) (f : UInt32 → UInt32) (hf : Function.Injective f) (vs : List Point3D)
    (hv : vs.length = m.vertices.length) (hs : 3 * m.triangles.length < 2 ^ 32) :
    { m with vertices := vs, triangles := m.triangles.map (Spec.rename f) }.validateCoherency = m.validateCoherency := by
  refine coherency_congr _ _ hs hv (by simp) ?_
  rw [← manifold_map (Prod.map f f) (hf.prodMap hf) (fun _ => rfl) (fun e => hf.eq_iff) (Spec.directedEdges m)]
  apply manifold_perm
  unfold Spec.directedEdges
  simp only [List.flatMap_map, List.map_flatMap, Spec.rename]
  exact .refl _

/-- A tetrahedron, used to show that the hypotheses can be met. -/
def Spec.tetra : Mesh :=
  let t (a b c : UInt32) : Triangle := ⟨a, b, c, 0, 0, 0, 0, []⟩
  { Mesh.zero with
    vertices := List.replicate 4 ⟨.zero, .zero, .zero⟩
    triangles := [t 0 1 2, t 0 3 1, t 0 2 3, t 1 3 2] }

example : Spec.tetra.validateCoherency = none := by decide +kernel
example : Spec.Manifold (Spec.directedEdges Spec.tetra) := by decide +kernel
example : { Spec.tetra with triangles := Spec.tetra.triangles.map (Spec.rename (· + 10)) }.validateCoherency = none := by decide +kernel
/- An inconsistently oriented face is detected. -/
example : { Spec.tetra with triangles := Spec.flip ⟨0, 1, 2, 0, 0, 0, 0, []⟩ :: Spec.tetra.triangles.drop 1 }.validateCoherency =
    some .meshConsistency := by decide +kernel

end Go3mf
