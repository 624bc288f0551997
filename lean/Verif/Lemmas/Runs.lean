import Verif.Spec.Document
import Verif.Lemmas.Within

/-!
# Running the decoder over a tree
-/

namespace Go3mf
open Spec

/-- The error for a fault in an element with the given stack. -/
def faultErr (st : List Frame) (f : Fault) : Err :=
  .wrapped (f.1 ++ st.map fun x => ⟨x.name.loc, x.index⟩) (.leaf f.2) []

/-- Inside of an element `n` with decoder `d`, the tokens `evs` lead from the registers `r` to `r'`, without a panic and
back to the same element, and the faults `fs` are reported. -/
def Runs (cfg : DecCfg) (d : Dec) (n : Name) (r : Regs) (evs : List (Option Event)) (r' : Regs) (fs : List Fault) : Prop :=
  ∀ (fin : LexErr) (i : Nat) (idx : Int) (st : List Frame) (rest : List (Option Event)) (E : List Err),
    runTokens cfg false (fun _ => false) fin i ⟨r, d, n, ⟨d, n, idx⟩ :: st, E⟩ (evs ++ rest) =
      runTokens cfg false (fun _ => false) fin (i + evs.length)
        ⟨r', d, n, ⟨d, n, idx⟩ :: st, E ++ fs.map (faultErr (⟨d, n, idx⟩ :: st))⟩ rest

theorem Runs.nil {cfg : DecCfg} {d : Dec} {n : Name} {r : Regs} : Runs cfg d n r [] r [] := by
  intro fin i idx st rest E; simp

theorem Runs.append {cfg : DecCfg} {d : Dec} {n : Name} {r r' r'' : Regs} {evs evs' : List (Option Event)}
    {fs fs' : List Fault} (h : Runs cfg d n r evs r' fs) (h' : Runs cfg d n r' evs' r'' fs') :
    Runs cfg d n r (evs ++ evs') r'' (fs ++ fs') := by
  intro fin i idx st rest E
  rw [List.append_assoc, h, h', List.length_append, Nat.add_assoc, List.map_append, List.append_assoc]

theorem run_step {cfg : DecCfg} {fin : LexErr} {i : Nat} {s s' : DState} {ev : Option Event}
    {evs : List (Option Event)} (h : s.step cfg i ev = some s') :
    runTokens cfg false (fun _ => false) fin i s (ev :: evs) = runTokens cfg false (fun _ => false) fin (i + 1) s' evs := by
  rw [runTokens, h]; simp

theorem Runs.single {cfg : DecCfg} {d : Dec} {n : Name} {r r' : Regs} {ev : Option Event}
    (h : ∀ i idx st E, DState.step cfg ⟨r, d, n, ⟨d, n, idx⟩ :: st, E⟩ i ev = some ⟨r', d, n, ⟨d, n, idx⟩ :: st, E⟩) :
    Runs cfg d n r [ev] r' [] := by
  intro fin i idx st rest E
  rw [List.singleton_append, run_step (h i idx st E)]
  simp

theorem faultErr_up (st : List Frame) (x : Frame) (f : Fault) :
    faultErr st (f.up ⟨x.name.loc, x.index⟩) = faultErr (x :: st) f := by
  simp [faultErr, Fault.up]

theorem Runs.elem {cfg : DecCfg} {d d' : Dec} {n n' : Name} {r r1 r2 r3 : Regs} {k : Int} {as : List Attr}
    {evs : List (Option Event)} {es : List Leaf} {fs : List Fault} (hc : d.hasChild = true)
    (h1 : child cfg r d n' = some (r1, some (k, d'))) (h2 : start cfg r1 d' as = some (r2, es))
    (h3 : Runs cfg d' n' r2 evs r3 fs) :
    Runs cfg d n r (some (.start n' as) :: (evs ++ [some (.stop n')])) (stop r3 d')
      ((es.map (fun l => (([], l) : Fault)) ++ fs).map (Fault.up ⟨n'.loc, k⟩)) := by
  intro fin i idx st rest E
  have e : DState.step cfg ⟨r, d, n, ⟨d, n, idx⟩ :: st, E⟩ i (some (.start n' as)) =
      some ⟨r2, d', n', ⟨d', n', k⟩ :: ⟨d, n, idx⟩ :: st,
        E ++ es.map (wrapStack (⟨d', n', k⟩ :: ⟨d, n, idx⟩ :: st))⟩ := by
    simp [DState.step, DState.onStart, hc, h1, h2]
  rw [List.cons_append, run_step e, List.append_assoc, h3]
  have e2 : ∀ E' j, DState.step cfg ⟨r3, d', n', ⟨d', n', k⟩ :: ⟨d, n, idx⟩ :: st, E'⟩ j (some (.stop n')) =
      some ⟨stop r3 d', d, n, ⟨d, n, idx⟩ :: st, E'⟩ := by
    intro E' j
    simp [DState.step, DState.onEnd]
  rw [List.singleton_append, run_step (e2 _ _)]
  congr 1
  · simp; omega
  · have h4 : ∀ l : Leaf, wrapStack (⟨d', n', k⟩ :: ⟨d, n, idx⟩ :: st) l =
        faultErr (⟨d, n, idx⟩ :: st) (Fault.up ⟨n'.loc, k⟩ ([], l)) := by
      intro l; simp [wrapStack, faultErr, Fault.up]
    have h5 : ∀ f : Fault, faultErr (⟨d', n', k⟩ :: ⟨d, n, idx⟩ :: st) f =
        faultErr (⟨d, n, idx⟩ :: st) (Fault.up ⟨n'.loc, k⟩ f) := by
      intro f; simp [faultErr, Fault.up]
    rw [funext h4, funext h5]
    simp only [List.map_append, List.map_map, List.append_assoc, Function.comp_def]

/-! ## Nodes without meaning -/

/-- The decoder `d` for elements of type `k` ignores texts and the elements without meaning. -/
structure Quiet (cfg : DecCfg) (k : Kind) (d : Dec) (r : Regs) : Prop where
  skip : d.hasChild = true → ∀ m, childKind cfg.env k m = none → child cfg r d m = some (r, none)
  still : ∀ t, r.addToken d t = r
  noMeta : ∀ l, d ≠ .metadata l

theorem Quiet.chars {cfg : DecCfg} {k : Kind} {d : Dec} {n : Name} {r : Regs} (h : Quiet cfg k d r) (t : Str) :
    Runs cfg d n r [some (.chars t)] r [] := by
  refine Runs.single fun i idx st E => ?_
  have := h.noMeta
  cases d <;> first | exact absurd rfl (this _) | simp [DState.step, DState.onChar, h.still]

theorem runs_other {cfg : DecCfg} {d : Dec} {n : Name} {r : Regs} : Runs cfg d n r [none] r [] :=
  Runs.single fun _ _ _ _ => rfl

theorem Quiet.start {cfg : DecCfg} {k : Kind} {d : Dec} {n m : Name} {as : List Attr} {r : Regs} (h : Quiet cfg k d r)
    (hm : childKind cfg.env k m = none) : Runs cfg d n r [some (.start m as)] r [] := by
  refine Runs.single fun i idx st E => ?_
  by_cases hc : d.hasChild = true
  · simp [DState.step, DState.onStart, hc, h.skip hc m hm]
  · simp [DState.step, DState.onStart, hc, h.still]

theorem Quiet.stop {cfg : DecCfg} {k : Kind} {d : Dec} {n m : Name} {r : Regs} (h : Quiet cfg k d r)
    (hm : m ≠ n) : Runs cfg d n r [some (.stop m)] r [] := by
  refine Runs.single fun i idx st E => ?_
  simp [DState.step, DState.onEnd, Ne.symm hm, h.still]

mutual
theorem runs_passed {cfg : DecCfg} {kept : Prop} {k : Kind} {d : Dec} {n : Name} {r : Regs} (h : Quiet cfg k d r) :
    ∀ x, Passed cfg.env kept k n x → Runs cfg d n r x.events r []
  | .elem m as c, hp => by
    rw [Passed] at hp
    rw [Node.events]
    exact (h.start hp.1).append ((runs_passedAll h c hp.2.2).append (h.stop hp.2.1))
  | .text t, _ => by rw [Node.events]; exact h.chars t
  | .other, _ => by rw [Node.events]; exact runs_other

theorem runs_passedAll {cfg : DecCfg} {kept : Prop} {k : Kind} {d : Dec} {n : Name} {r : Regs} (h : Quiet cfg k d r) :
    ∀ c, PassedAll cfg.env kept k n c → Runs cfg d n r (treeEvents c) r []
  | [], _ => by rw [treeEvents]; exact Runs.nil
  | x :: xs, hp => by
    rw [PassedAll] at hp
    rw [treeEvents]
    exact (runs_passed h x hp.1).append (runs_passedAll h xs hp.2)
end

/-- The node has no meaning in an element of type `k`. -/
def Ignored (env : Env) (k : Kind) : Node → Prop
  | .elem m _ _ => childKind env k m = none
  | _ => True

theorem nodeFaults_ignored {env : Env} {k : Kind} {before : List Node} {x : Node} (h : Ignored env k x) :
    nodeFaults env k before x = [] := by
  cases x with
  | elem m as c => rw [nodeFaults]; rw [Ignored] at h; rw [h]
  | text t => rfl
  | other => rfl

theorem nodeFaults_elem {env : Env} {k k' : Kind} {mu : Mult} {before : List Node} {m : Name} {as : List Attr}
    {c : List Node} (h : childKind env k m = some (k', mu)) : nodeFaults env k before (.elem m as c) =
      ((attrFaults env k' as).map (fun l => (([], l) : Fault)) ++ contentFaults env k' [] c).map
        (Fault.up ⟨m.loc, indexOf env k before m mu⟩) := by
  rw [nodeFaults, h]

/-- An element with a meaning. -/
theorem runs_elem {cfg : DecCfg} {k k' : Kind} {mu : Mult} {d d' : Dec} {n m : Name} {r r1 r2 r3 : Regs} {as : List Attr}
    {before c : List Node} {i : Int} (hk : childKind cfg.env k m = some (k', mu)) (hc : d.hasChild = true)
    (h1 : child cfg r d m = some (r1, some (i, d'))) (hi : i = indexOf cfg.env k before m mu)
    (h2 : start cfg r1 d' as = some (r2, attrFaults cfg.env k' as))
    (h3 : Runs cfg d' m r2 (treeEvents c) r3 (contentFaults cfg.env k' [] c)) :
    Runs cfg d n r (Node.elem m as c).events (stop r3 d') (nodeFaults cfg.env k before (.elem m as c)) := by
  rw [nodeFaults_elem hk, Node.events, ← hi]
  exact Runs.elem hc h1 h2 h3

theorem children_append (n : Name) (a b : List Node) : children n (a ++ b) = children n a ++ children n b := by
  simp [children]

theorem children_ignored {env : Env} {k : Kind} {n : Name} {x : Node} (h : Ignored env k x)
    (hn : childKind env k n ≠ none) (before : List Node) : children n (before ++ [x]) = children n before := by
  rw [children_append]
  cases x with
  | elem m as c =>
    have : m ≠ n := by rintro rfl; exact hn h
    simp [children, this]
  | text t => simp [children]
  | other => simp [children]

theorem children_one (n m : Name) (as : List Attr) (c before : List Node) :
    children n (before ++ [.elem m as c]) = children n before ++ if m = n then [(as, c)] else [] := by
  rw [children_append]
  by_cases h : m = n <;> simp [children, h]

/-- The content of an element: `I before r` says that the registers are `r` after the nodes `before`. -/
theorem runs_content {cfg : DecCfg} {kept : Prop} {k : Kind} {d : Dec} {n : Name} {I : List Node → Regs → Prop}
    (hk : k ≠ .metadata)
    (hq : ∀ before r, I before r → Quiet cfg k d r)
    (hi : ∀ before x r, I before r → Ignored cfg.env k x → I (before ++ [x]) r)
    (he : ∀ before m as c k' mu r, I before r → childKind cfg.env k m = some (k', mu) →
      ¬ (k = .resources ∧ k' = .beamLattice) → AttrsFit cfg.env k' as → Once cfg.env k' c →
      ContentOk cfg.env kept k' m c → (mu = .single → children m before = []) →
      ∃ r', Runs cfg d n r (Node.elem m as c).events r' (nodeFaults cfg.env k before (.elem m as c)) ∧
        I (before ++ [.elem m as c]) r') :
    ∀ (c before : List Node) (r : Regs), ContentOk cfg.env kept k n c → Once cfg.env k (before ++ c) → I before r →
      ∃ r', Runs cfg d n r (treeEvents c) r' (contentFaults cfg.env k before c) ∧ I (before ++ c) r'
  | [], before, r, _, _, h => ⟨r, by rw [treeEvents, contentFaults]; exact Runs.nil, by simpa using h⟩
  | x :: xs, before, r, hok, ho, h => by
    rw [ContentOk] at hok
    have hstep : ∃ r1, Runs cfg d n r x.events r1 (nodeFaults cfg.env k before x) ∧ I (before ++ [x]) r1 := by
      have hx := hok.1
      cases x with
      | text t =>
        exact ⟨r, by rw [nodeFaults_ignored (show Ignored cfg.env k (.text t) from trivial), Node.events]; exact (hq _ _ h).chars t,
          hi _ _ _ h (show Ignored cfg.env k (.text t) from trivial)⟩
      | other =>
        exact ⟨r, by rw [nodeFaults_ignored (show Ignored cfg.env k .other from trivial), Node.events]; exact runs_other,
          hi _ _ _ h (show Ignored cfg.env k .other from trivial)⟩
      | elem m as c =>
        rw [NodeOk] at hx
        cases hm : childKind cfg.env k m with
        | none =>
          rw [hm] at hx
          refine ⟨r, ?_, hi _ _ _ h hm⟩
          rw [nodeFaults_ignored (show Ignored cfg.env k (.elem m as c) from hm)]
          exact runs_passed (kept := kept) (hq _ _ h) _ (by rw [Passed]; exact ⟨hm, hx.2⟩)
        | some p =>
          obtain ⟨k', mu⟩ := p
          rw [hm] at hx
          refine he before m as c k' mu r h hm hx.1 hx.2.1 hx.2.2.1 hx.2.2.2 ?_
          rintro rfl
          have := ho.1 m k' hm
          rw [children_append] at this
          have h2 : 0 < (children m (Node.elem m as c :: xs)).length := by simp [children]
          rw [List.length_append] at this
          exact List.eq_nil_of_length_eq_zero (by omega)
    obtain ⟨r1, w1, i1⟩ := hstep
    obtain ⟨r2, w2, i2⟩ := runs_content hk hq hi he xs (before ++ [x]) r1 hok.2 (by simpa using ho) i1
    refine ⟨r2, ?_, by simpa using i2⟩
    rw [treeEvents, contentFaults]
    exact w1.append w2

/-- The content of an element that has no elements. -/
theorem runs_leaf {cfg : DecCfg} {kept : Prop} {k : Kind} {d : Dec} {n : Name} {r : Regs} {c : List Node}
    (hk : k ≠ .metadata) (hn : ∀ m, childKind cfg.env k m = none) (hq : Quiet cfg k d r)
    (hok : ContentOk cfg.env kept k n c) (ho : Once cfg.env k c) :
    Runs cfg d n r (treeEvents c) r (contentFaults cfg.env k [] c) := by
  obtain ⟨r', w, rfl⟩ := runs_content (cfg := cfg) (kept := kept) (k := k) (d := d) (n := n) (I := fun _ x => x = r) hk
    (by rintro _ _ rfl; exact hq) (by intro _ _ _ h _; exact h)
    (by intro before m as c k' mu r _ h; rw [hn] at h; exact absurd h (by simp)) c [] r hok (by simpa using ho) rfl
  exact w

end Go3mf
