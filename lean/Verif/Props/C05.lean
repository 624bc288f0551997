import Verif.Model.Core

/-!
# C05, C06: `MeshBuilder` histories

`P` are points, `K` quantisation cells and `cell : P → K` the (arbitrary) quantisation.  A history is a list of
operations: adding a vertex, or setting the public flag `CalculateConnectivity`.  The log records each
call's argument and result.  Theorems about indices assume that the mesh has at most 2^32 vertices, the range of the
returned index.
-/

namespace Go3mf

variable {P K : Type} [DecidableEq K]

/-- What a user can do to a builder. -/
inductive Spec.BuilderOp (P : Type) where
  | add (p : P)
  | setConn (b : Bool)

/-- Run a history; the log has one entry per `AddVertex` call, in order. -/
def Spec.runBuilder (cell : P → K) : List (Spec.BuilderOp P) → MeshBuilder P K → MeshBuilder P K × List (P × UInt32)
  | [], mb => (mb, [])
  | .add p :: ops, mb =>
    let r := mb.addVertex cell p
    let r' := Spec.runBuilder cell ops r.1
    (r'.1, (p, r.2) :: r'.2)
  | .setConn b :: ops, mb => Spec.runBuilder cell ops { mb with conn := b }

/-- Every binding of the tree designates a stored vertex of that cell. -/
def MeshBuilder.Inv (cell : P → K) (mb : MeshBuilder P K) : Prop :=
  ∀ k i, treeFind mb.tree k = some i → ∃ q, mb.vertices[i.toNat]? = some q ∧ cell q = k

theorem ofNat_succ_sub_one (n : Nat) (h : n < 2 ^ 32) : (UInt32.ofNat (n + 1) - 1).toNat = n := by
  rw [show UInt32.ofNat (n + 1) = UInt32.ofNat n + 1 by simp [UInt32.ofNat_add]]
  rw [UInt32.add_sub_cancel, UInt32.toNat_ofNat_of_lt' h]

theorem addVertex_prefix (cell : P → K) (mb : MeshBuilder P K) (p : P) :
    mb.vertices <+: (mb.addVertex cell p).1.vertices := by
  unfold MeshBuilder.addVertex
  split
  · exact List.prefix_refl _
  · exact List.prefix_append _ _

theorem addVertex_inv (cell : P → K) (mb : MeshBuilder P K) (p : P) (h : mb.Inv cell)
    (hl : (mb.addVertex cell p).1.vertices.length ≤ 2 ^ 32) :
    (mb.addVertex cell p).1.Inv cell ∧
      ∃ q, (mb.addVertex cell p).1.vertices[(mb.addVertex cell p).2.toNat]? = some q ∧ cell q = cell p := by
  cases hi : (if mb.conn then treeFind mb.tree (cell p) else none) with
  | some i =>
    simp only [MeshBuilder.addVertex, hi]
    split at hi
    · exact ⟨h, h _ _ hi⟩
    · cases hi
  | none =>
    simp only [MeshBuilder.addVertex, hi] at hl ⊢
    clear hi
    simp only [List.length_append, List.length_singleton] at hl ⊢
    have hidx := ofNat_succ_sub_one mb.vertices.length (by omega)
    refine ⟨?_, p, by rw [hidx]; simp, rfl⟩
    intro k i hki
    have old : ∀ j, treeFind mb.tree k = some j →
        ∃ q, (mb.vertices ++ [p])[j.toNat]? = some q ∧ cell q = k := by
      intro j hj
      obtain ⟨q, h1, h2⟩ := h k j hj
      refine ⟨q, ?_, h2⟩
      rw [List.getElem?_append_left (by rw [List.getElem?_eq_some_iff] at h1; exact h1.1)]
      exact h1
    cases hc : mb.conn
    · simp only [hc] at hki; exact old _ (by simpa using hki)
    · simp only [hc, if_true, treeFind] at hki
      split at hki
      · rename_i hk
        cases hki
        exact ⟨p, by simp only [hidx]; simp, hk⟩
      · exact old _ hki

theorem runBuilder_prefix (cell : P → K) (ops : List (Spec.BuilderOp P)) (mb : MeshBuilder P K) :
    mb.vertices <+: (Spec.runBuilder cell ops mb).1.vertices := by
  induction ops generalizing mb with
  | nil => exact List.prefix_refl _
  | cons op ops ih =>
    cases op with
    | add p => exact (addVertex_prefix cell mb p).trans (ih _)
    | setConn b => exact ih { mb with conn := b }

theorem prefix_getElem? {α : Type} {l l' : List α} (h : l <+: l') {i : Nat} {a : α} (hi : l[i]? = some a) :
    l'[i]? = some a := by
  obtain ⟨t, rfl⟩ := h
  rw [List.getElem?_append_left (by rw [List.getElem?_eq_some_iff] at hi; exact hi.1)]
  exact hi

theorem runBuilder_index (cell : P → K) (ops : List (Spec.BuilderOp P)) (mb : MeshBuilder P K)
    (h : mb.Inv cell) (hl : (Spec.runBuilder cell ops mb).1.vertices.length ≤ 2 ^ 32) :
    ∀ p i, (p, i) ∈ (Spec.runBuilder cell ops mb).2 →
      ∃ q, (Spec.runBuilder cell ops mb).1.vertices[i.toNat]? = some q ∧ cell q = cell p := by
  induction ops generalizing mb with
  | nil => simp [Spec.runBuilder]
  | cons op ops ih =>
    cases op with
    | setConn b => exact ih { mb with conn := b } h hl
    | add p =>
      simp only [Spec.runBuilder] at hl ⊢
      have hp := runBuilder_prefix cell ops (mb.addVertex cell p).1
      obtain ⟨h1, q, h2, h3⟩ := addVertex_inv cell mb p h (le_trans hp.length_le hl)
      intro p' i hm
      rcases List.mem_cons.1 hm with hm | hm
      · cases hm
        exact ⟨q, prefix_getElem? hp h2, h3⟩
      · exact ih _ h1 hl p' i hm

/-- Under any history, flag changes included, starting from a mesh with any vertices: every index ever
returned designates, at the end, a vertex in the cell of the requested point; and the vertices present
before are still there, at the same positions. -/
theorem C06_toggle (cell : P → K) (vs : List P) (ops : List (Spec.BuilderOp P))
    (hl : (Spec.runBuilder cell ops (.new vs)).1.vertices.length ≤ 2 ^ 32) :
    (∀ p i, (p, i) ∈ (Spec.runBuilder cell ops (.new vs)).2 →
      ∃ q, (Spec.runBuilder cell ops (.new vs)).1.vertices[i.toNat]? = some q ∧ cell q = cell p) ∧
    vs <+: (Spec.runBuilder cell ops (.new vs)).1.vertices :=
  ⟨runBuilder_index cell ops _ (by intro k i h; simp [MeshBuilder.new, treeFind] at h) hl,
    runBuilder_prefix cell ops (.new vs)⟩

/-- Stored vertices never change afterwards: the vertices after a history are a prefix of the vertices
after any continuation of it. -/
theorem C06_monotone (cell : P → K) (vs : List P) (ops ops' : List (Spec.BuilderOp P)) :
    (Spec.runBuilder cell ops (.new vs)).1.vertices <+:
      (Spec.runBuilder cell (ops ++ ops') (.new vs)).1.vertices := by
  suffices h : ∀ mb : MeshBuilder P K, (Spec.runBuilder cell ops mb).1.vertices <+:
      (Spec.runBuilder cell (ops ++ ops') mb).1.vertices from h _
  intro mb
  induction ops generalizing mb with
  | nil => exact runBuilder_prefix cell ops' mb
  | cons op ops ih => cases op <;> exact ih _

/-- With the flag off, in any state, adding a vertex appends it and returns its position. -/
theorem C06_off (cell : P → K) (mb : MeshBuilder P K) (p : P) (h : mb.conn = false)
    (hl : mb.vertices.length < 2 ^ 32) :
    (mb.addVertex cell p).1.vertices = mb.vertices ++ [p] ∧
    (mb.addVertex cell p).2.toNat = mb.vertices.length := by
  have := ofNat_succ_sub_one _ hl
  simp only [MeshBuilder.addVertex, h]
  exact ⟨rfl, by simpa using this⟩

/-! ## C05: the flag stays on -/

/-- `ps` without the points whose cell occurred before. -/
def Spec.firsts (cell : P → K) : List P → List P
  | [] => []
  | p :: ps => p :: (Spec.firsts cell ps).filter (fun q => cell q ≠ cell p)

/-- The tree holds exactly the vertices added after the first `n`, which are in pairwise different cells. -/
def MeshBuilder.Full (cell : P → K) (n : Nat) (mb : MeshBuilder P K) : Prop :=
  mb.conn = true ∧ n ≤ mb.vertices.length ∧
  (∀ k i, treeFind mb.tree k = some i ↔
    n ≤ i.toNat ∧ ∃ q, mb.vertices[i.toNat]? = some q ∧ cell q = k)

theorem full_inv {cell : P → K} {n : Nat} {mb : MeshBuilder P K} (h : mb.Full cell n) : mb.Inv cell :=
  fun k i hk => ((h.2.2 k i).1 hk).2

theorem addVertex_full (cell : P → K) (n : Nat) (mb : MeshBuilder P K) (p : P) (h : mb.Full cell n)
    (hl : (mb.addVertex cell p).1.vertices.length ≤ 2 ^ 32) :
    (mb.addVertex cell p).1.Full cell n ∧ n ≤ (mb.addVertex cell p).2.toNat ∧
    (mb.addVertex cell p).1.vertices =
      (if ∃ q ∈ mb.vertices.drop n, cell q = cell p then mb.vertices else mb.vertices ++ [p]) := by
  have hmem : (∃ q ∈ mb.vertices.drop n, cell q = cell p) ↔
      ∃ j, n ≤ j ∧ ∃ q, mb.vertices[j]? = some q ∧ cell q = cell p := by
    constructor
    · rintro ⟨q, hq, hc⟩
      obtain ⟨j, hj⟩ := List.mem_iff_getElem?.1 hq
      rw [List.getElem?_drop] at hj
      exact ⟨n + j, by omega, q, hj, hc⟩
    · rintro ⟨j, hn, q, hq, hc⟩
      refine ⟨q, List.mem_iff_getElem?.2 ⟨j - n, ?_⟩, hc⟩
      rw [List.getElem?_drop, show n + (j - n) = j by omega, hq]
  have hl0 : mb.vertices.length ≤ 2 ^ 32 := le_trans (addVertex_prefix cell mb p).length_le hl
  have hinRange : ∀ j, (∃ q, mb.vertices[j]? = some q ∧ cell q = cell p) → j < 2 ^ 32 := by
    rintro j ⟨q, hq, -⟩
    rw [List.getElem?_eq_some_iff] at hq
    have := hq.1; omega
  obtain ⟨hconn, hn, htree⟩ := h
  cases ht : treeFind mb.tree (cell p) with
  | some i =>
    have := (htree _ _).1 ht
    have hif : ∃ q ∈ mb.vertices.drop n, cell q = cell p := hmem.2 ⟨i.toNat, this⟩
    simp only [MeshBuilder.addVertex, hconn, if_true, ht]
    exact ⟨⟨hconn, hn, htree⟩, this.1, by rw [if_pos hif]⟩
  | none =>
    have hif : ¬ ∃ q ∈ mb.vertices.drop n, cell q = cell p := by
      rw [hmem]
      rintro ⟨j, hj, hq⟩
      have hlt := hinRange j hq
      have : treeFind mb.tree (cell p) = some (UInt32.ofNat j) :=
        (htree _ _).2 (by rw [UInt32.toNat_ofNat_of_lt' hlt]; exact ⟨hj, hq⟩)
      rw [ht] at this; cases this
    simp only [MeshBuilder.addVertex, hconn, if_true, ht] at hl ⊢
    simp only [List.length_append, List.length_singleton] at hl ⊢
    have hidx := ofNat_succ_sub_one mb.vertices.length (by omega)
    refine ⟨⟨rfl, by simp; omega, ?_⟩, by rw [hidx]; exact hn, by rw [if_neg hif]⟩
    intro k i
    simp only [treeFind]
    constructor
    · split
      · rename_i hk
        rintro ⟨⟩
        exact ⟨by rw [hidx]; exact hn, p, by rw [hidx]; simp, hk⟩
      · intro hk
        obtain ⟨h1, q, h2, h3⟩ := (htree _ _).1 hk
        refine ⟨h1, q, ?_, h3⟩
        rw [List.getElem?_append_left (by rw [List.getElem?_eq_some_iff] at h2; exact h2.1)]
        exact h2
    · rintro ⟨h1, q, h2, h3⟩
      by_cases hi : i.toNat < mb.vertices.length
      · rw [List.getElem?_append_left hi] at h2
        have h4 := (htree k i).2 ⟨h1, q, h2, h3⟩
        rw [if_neg, h4]
        rintro rfl
        rw [ht] at h4; cases h4
      · have hlt : i.toNat < (mb.vertices ++ [p]).length := by
          rw [List.getElem?_eq_some_iff] at h2; exact h2.1
        simp only [List.length_append, List.length_singleton] at hlt
        have hie : i.toNat = mb.vertices.length := by omega
        rw [hie] at h2
        simp at h2
        subst h2
        rw [if_pos h3]
        congr 1
        exact UInt32.toNat_inj.1 (by rw [hidx, hie])

/-- A history of additions only. -/
def Spec.adds (ps : List P) : List (Spec.BuilderOp P) := ps.map .add

theorem firsts_filter_mem (cell : P → K) (ps : List P) (q : P) (h : q ∈ Spec.firsts cell ps) : q ∈ ps := by
  induction ps with
  | nil => simp [Spec.firsts] at h
  | cons p ps ih =>
    simp only [Spec.firsts, List.mem_cons, List.mem_filter] at h ⊢
    rcases h with h | h
    · exact .inl h
    · exact .inr (ih h.1)

theorem runBuilder_full (cell : P → K) (n : Nat) (ps : List P) (mb : MeshBuilder P K) (h : mb.Full cell n)
    (hl : (Spec.runBuilder cell (Spec.adds ps) mb).1.vertices.length ≤ 2 ^ 32) :
    (Spec.runBuilder cell (Spec.adds ps) mb).1.Full cell n ∧
    (∀ p i, (p, i) ∈ (Spec.runBuilder cell (Spec.adds ps) mb).2 → n ≤ i.toNat) ∧
    (Spec.runBuilder cell (Spec.adds ps) mb).1.vertices =
      mb.vertices ++ (Spec.firsts cell ps).filter (fun q => ∀ v ∈ mb.vertices.drop n, cell v ≠ cell q) := by
  induction ps generalizing mb with
  | nil => simp [Spec.adds, Spec.runBuilder, Spec.firsts, h]
  | cons p ps ih =>
    simp only [Spec.adds, List.map_cons, Spec.runBuilder] at hl ⊢
    have hp := runBuilder_prefix cell (ps.map .add) (mb.addVertex cell p).1
    obtain ⟨h1, h2, h3⟩ := addVertex_full cell n mb p h (le_trans hp.length_le hl)
    obtain ⟨h4, h5, h6⟩ := ih _ h1 hl
    refine ⟨h4, ?_, ?_⟩
    · intro p' i hm
      rcases List.mem_cons.1 hm with hm | hm
      · cases hm; exact h2
      · exact h5 _ _ hm
    · simp only [Spec.adds] at h6
      rw [h6, h3]
      have hn := h.2.1
      by_cases hif : ∃ q ∈ mb.vertices.drop n, cell q = cell p
      · rw [if_pos hif]
        obtain ⟨q0, hq0, hq0c⟩ := hif
        congr 1
        simp only [Spec.firsts, List.filter_cons, List.filter_filter]
        rw [if_neg]
        · apply List.filter_congr
          intro x _
          simp only [ne_eq, decide_not, Bool.and_eq_true]
          by_cases hx : cell x = cell p
          · simp [hx]; exact ⟨q0, hq0, hq0c⟩
          · simp [hx]
        · simp only [decide_eq_true_eq]
          intro hall
          exact hall q0 hq0 hq0c
      · rw [if_neg hif]
        rw [List.append_assoc]
        congr 1
        simp only [Spec.firsts, List.filter_cons, List.filter_filter]
        rw [if_pos]
        · simp only [List.singleton_append, List.cons.injEq, true_and]
          apply List.filter_congr
          intro x _
          rw [List.drop_append_of_le_length hn]
          rw [Bool.eq_iff_iff]
          simp only [List.mem_append, List.mem_singleton, decide_eq_true_eq, ne_eq, Bool.and_eq_true]
          grind
        · simp only [decide_eq_true_eq]
          intro v hv hc
          exact hif ⟨v, hv, hc⟩

theorem full_new (cell : P → K) (vs : List P) (hv : vs.length ≤ 2 ^ 32) :
    (MeshBuilder.new vs : MeshBuilder P K).Full cell vs.length := by
  refine ⟨rfl, le_refl _, fun k i => ?_⟩
  simp only [MeshBuilder.new, treeFind, reduceCtorEq, false_iff]
  rintro ⟨h1, q, h2, -⟩
  rw [List.getElem?_eq_some_iff] at h2
  have := h2.1; omega

theorem runBuilder_args (cell : P → K) (ps : List P) (mb : MeshBuilder P K) :
    (Spec.runBuilder cell (Spec.adds ps) mb).2.map (·.1) = ps := by
  induction ps generalizing mb with
  | nil => rfl
  | cons p ps ih =>
    simp only [Spec.adds, List.map_cons, Spec.runBuilder, List.cons.injEq, true_and]
    exact ih _

theorem firsts_nodup (cell : P → K) (ps : List P) :
    (Spec.firsts cell ps).Pairwise (fun p q => cell p ≠ cell q) := by
  induction ps with
  | nil => exact List.Pairwise.nil
  | cons p ps ih =>
    refine List.Pairwise.cons ?_ (ih.filter _)
    intro q hq
    simp only [List.mem_filter, decide_eq_true_eq] at hq
    exact fun h => hq.2 h.symm

theorem addVertex_seen (cell : P → K) (mb : MeshBuilder P K) (p : P) (hc : mb.conn = true) :
    (mb.addVertex cell p).1.conn = true ∧
    (mb.addVertex cell p).1.vertices = mb.vertices ++ (if (treeFind mb.tree (cell p)).isSome then [] else [p]) ∧
    ∀ k, (treeFind (mb.addVertex cell p).1.tree k).isSome = ((treeFind mb.tree k).isSome || decide (k = cell p)) := by
  cases ht : treeFind mb.tree (cell p) with
  | some i =>
    simp only [MeshBuilder.addVertex, hc, if_true, ht]
    refine ⟨by simp, by simp, fun k => ?_⟩
    by_cases hk : k = cell p
    · simp [hk, ht]
    · simp [hk]
  | none =>
    simp only [MeshBuilder.addVertex, hc, if_true, ht]
    refine ⟨trivial, by simp, fun k => ?_⟩
    simp only [treeFind]
    by_cases hk : k = cell p
    · simp [hk]
    · simp [hk, Ne.symm hk]

theorem runBuilder_seen (cell : P → K) (ps : List P) (mb : MeshBuilder P K) (hc : mb.conn = true) :
    (Spec.runBuilder cell (Spec.adds ps) mb).1.vertices =
      mb.vertices ++ (Spec.firsts cell ps).filter (fun q => !(treeFind mb.tree (cell q)).isSome) := by
  induction ps generalizing mb with
  | nil => simp [Spec.adds, Spec.runBuilder, Spec.firsts]
  | cons p ps ih =>
    obtain ⟨h1, h2, h3⟩ := addVertex_seen cell mb p hc
    have h := ih _ h1
    simp only [Spec.adds, List.map_cons, Spec.runBuilder] at h ⊢
    rw [h, h2, List.append_assoc]
    congr 1
    simp only [h3, Spec.firsts, List.filter_cons, List.filter_filter]
    cases hs : (treeFind mb.tree (cell p)).isSome with
    | true =>
      simp
    | false =>
      simp

/-- The vertices after adding `ps`: the vertices present before, then the points of `ps` whose cell had not
occurred before in `ps`. -/
theorem C05_vertices (cell : P → K) (vs ps : List P) :
    (Spec.runBuilder cell (Spec.adds ps) (.new vs)).1.vertices = vs ++ Spec.firsts cell ps := by
  rw [runBuilder_seen cell ps _ rfl]
  simp [MeshBuilder.new, treeFind]

/-- The vertices added are in pairwise different cells, and every requested cell is represented. -/
theorem C05_distinct (cell : P → K) (vs ps : List P) :
    ((Spec.runBuilder cell (Spec.adds ps) (.new vs)).1.vertices.drop vs.length).Pairwise
      (fun p q => cell p ≠ cell q) ∧
    ∀ p ∈ ps, ∃ q ∈ (Spec.runBuilder cell (Spec.adds ps) (.new vs)).1.vertices.drop vs.length, cell q = cell p := by
  rw [C05_vertices cell vs ps]
  simp only [List.drop_left']
  refine ⟨firsts_nodup cell ps, ?_⟩
  induction ps with
  | nil => simp
  | cons p ps ih =>
    intro p' hp'
    simp only [Spec.firsts, List.mem_cons, List.mem_filter, decide_eq_true_eq]
    by_cases hc : cell p' = cell p
    · exact ⟨p, .inl rfl, hc.symm⟩
    · rcases List.mem_cons.1 hp' with rfl | hp'
      · exact absurd rfl hc
      · obtain ⟨q, hq, hqc⟩ := ih p' hp'
        exact ⟨q, .inr ⟨hq, by rw [hqc]; exact hc⟩, hqc⟩

/-- One result per call; each returned index is that of an added vertex, in range and in the requested
cell; two calls return the same index exactly when their points are in the same cell. -/
theorem C05_index (cell : P → K) (vs ps : List P)
    (hl : (Spec.runBuilder cell (Spec.adds ps) (.new vs)).1.vertices.length ≤ 2 ^ 32) :
    let r := Spec.runBuilder cell (Spec.adds ps) (.new vs)
    r.2.map (·.1) = ps ∧
    (∀ p i, (p, i) ∈ r.2 → vs.length ≤ i.toNat ∧ ∃ q, r.1.vertices[i.toNat]? = some q ∧ cell q = cell p) ∧
    (∀ p i p' i', (p, i) ∈ r.2 → (p', i') ∈ r.2 → (i = i' ↔ cell p = cell p')) := by
  have hv : vs.length ≤ 2 ^ 32 :=
    le_trans (runBuilder_prefix cell (Spec.adds ps) (.new vs)).length_le hl
  obtain ⟨hfull, hge, -⟩ := runBuilder_full cell vs.length ps (.new vs) (full_new cell vs hv) hl
  have hidx := (C06_toggle cell vs (Spec.adds ps) hl).1
  refine ⟨runBuilder_args cell ps _, fun p i h => ⟨hge p i h, hidx p i h⟩, ?_⟩
  intro p i p' i' h h'
  obtain ⟨q, hq, hc⟩ := hidx p i h
  obtain ⟨q', hq', hc'⟩ := hidx p' i' h'
  constructor
  · rintro rfl
    rw [hq] at hq'
    cases hq'
    rw [← hc, ← hc']
  · intro hcc
    have e1 := (hfull.2.2 (cell p) i).2 ⟨hge p i h, q, hq, hc⟩
    have e2 := (hfull.2.2 (cell p) i').2 ⟨hge p' i' h', q', hq', by rw [hc', hcc]⟩
    rw [e1] at e2
    simpa using e2

/- Points on a line with cells of width 10: adding 3, 25, 7, 21 to a mesh holding one vertex. -/
example :
    let r := Spec.runBuilder (fun n : Nat => n / 10) (Spec.adds [3, 25, 7, 21]) (.new [99])
    r.1.vertices = [99, 3, 25] ∧ r.2 = [(3, 1), (25, 2), (7, 1), (21, 2)] ∧ r.1.vertices.length ≤ 2 ^ 32 := by decide
/- Toggling: the vertex added with the flag off is not found later. -/
example :
    let r := Spec.runBuilder (fun n : Nat => n / 10) [.setConn false, .add 3, .setConn true, .add 4, .add 5] (.new [])
    r.1.vertices = [3, 4] ∧ r.2 = [(3, 0), (4, 1), (5, 1)] := by decide

end Go3mf
