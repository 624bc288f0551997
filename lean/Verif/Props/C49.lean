import Verif.Props.C48

/-!
# C49: cancelling a decode takes effect
-/

namespace Go3mf

/-- A run in which the context is found done ends because of it, or because of an error in strict mode. -/
theorem run_cancel {cfg : DecCfg} {strict : Bool} {done : Nat → Bool} {fin : LexErr} :
    ∀ {evs : List (Option Event)} {i : Nat} {s s' : DState} {le : LoopEnd},
    (∃ j, i ≤ j ∧ j < i + evs.length ∧ j % 1000 = 0 ∧ done j = true) →
    runTokens cfg strict done fin i s evs = some (s', le) → le = .ctx ∨ (le = .strict ∧ strict = true ∧ s'.errs ≠ [])
  | [], i, s, s', le, ⟨j, h1, h2, _⟩, _ => by simp at h2; omega
  | ev :: evs, i, s, s', le, ⟨j, h1, h2, h3, h4⟩, e => by
    simp only [runTokens] at e
    cases hs : s.step cfg i ev with
    | none => simp only [hs, reduceCtorEq] at e
    | some s1 =>
      simp only [hs] at e
      by_cases c1 : (strict && !s1.errs.isEmpty) = true
      · rw [if_pos c1] at e
        simp only [Option.some.injEq, Prod.mk.injEq] at e
        obtain ⟨rfl, rfl⟩ := e
        simp only [Bool.and_eq_true, Bool.not_eq_true', List.isEmpty_eq_false_iff] at c1
        exact .inr ⟨rfl, c1⟩
      · rw [if_neg c1] at e
        by_cases c2 : (i % 1000 == 0 && done i) = true
        · rw [if_pos c2] at e
          simp only [Option.some.injEq, Prod.mk.injEq] at e
          exact .inl e.2.symm
        · rw [if_neg c2] at e
          refine run_cancel ⟨j, ?_, ?_, h3, h4⟩ e
          · rcases Nat.lt_or_ge i j with h | h
            · omega
            · have : i = j := by omega
              subst this
              simp [h3, h4] at c2
          · simp only [List.length_cons] at h2; omega

theorem cancel_result {cfg : DecCfg} {strict : Bool} {done : Nat → Bool} {fin : LexErr} {m m' : Model} {path : Str}
    {evs : List (Option Event)} {r : DecodeResult} (h : ∃ j, j < evs.length ∧ j % 1000 = 0 ∧ done j = true)
    (e : decodeEvents cfg strict done m path evs fin = some (m', r)) :
    r = .ctx ∨ (strict = true ∧ ∃ e, r = .first e) := by
  simp only [decodeEvents, Option.map_eq_some_iff, Prod.mk.injEq] at e
  obtain ⟨⟨s, le⟩, h1, -, h3⟩ := e
  obtain ⟨j, hj, hj'⟩ := h
  rcases run_cancel ⟨j, Nat.zero_le j, by simpa using hj, hj'⟩ h1 with rfl | ⟨rfl, rfl, h2⟩
  · exact .inl h3.symm
  · right
    refine ⟨rfl, ?_⟩
    match he : s.errs, h2 with
    | [x], _ => rw [← h3]; simp only [he, decodeResult]; exact ⟨_, rfl⟩
    | x :: y :: l, _ => rw [← h3]; simp only [he, decodeResult, if_true]; exact ⟨_, rfl⟩

/-- **C49**: if the context is done when decoding starts and the part has a token, then `decodeModelFile` returns the error of
the context, or in strict mode the error of the first token. -/
theorem C49_before_partial (cfg : DecCfg) (strict : Bool) (done : Nat → Bool) (m : Model) (path : Str)
    (evs : List (Option Event)) (fin : LexErr) (m' : Model) (r : DecodeResult) (hd : ∀ i, done i = true) (hne : evs ≠ [])
    (h : decodeEvents cfg strict done m path evs fin = some (m', r)) : r = .ctx ∨ (strict = true ∧ ∃ e, r = .first e) :=
  cancel_result ⟨0, List.length_pos_iff.mpr hne, rfl, hd 0⟩ h

/-- **C49**: if the context becomes done before token number `k` and at least 1000 tokens remain, then `decodeModelFile` returns the
error of the context, or in strict mode an earlier error. -/
theorem C49_later (cfg : DecCfg) (strict : Bool) (done : Nat → Bool) (m : Model) (path : Str)
    (evs : List (Option Event)) (fin : LexErr) (m' : Model) (r : DecodeResult) (k : Nat) (hd : ∀ i, k ≤ i → done i = true)
    (hk : k + 1000 ≤ evs.length) (h : decodeEvents cfg strict done m path evs fin = some (m', r)) :
    r = .ctx ∨ (strict = true ∧ ∃ e, r = .first e) := by
  refine cancel_result ⟨(k + 999) / 1000 * 1000, ?_, Nat.mul_mod_left _ _, hd _ ?_⟩ h <;> omega

theorem run_prefix {cfg : DecCfg} {strict : Bool} {done : Nat → Bool} {fin fin' : LexErr} :
    ∀ {pre : List (Option Event)} {i : Nat} {s : DState} {rest rest' : List (Option Event)},
    (∃ j, i ≤ j ∧ j < i + pre.length ∧ j % 1000 = 0 ∧ done j = true) →
    runTokens cfg strict done fin i s (pre ++ rest) = runTokens cfg strict done fin' i s (pre ++ rest')
  | [], i, s, rest, rest', ⟨j, h1, h2, _⟩ => by simp at h2; omega
  | ev :: pre, i, s, rest, rest', ⟨j, h1, h2, h3, h4⟩ => by
    simp only [List.cons_append, runTokens]
    cases hs : s.step cfg i ev with
    | none => rfl
    | some s1 =>
      simp only
      by_cases c1 : (strict && !s1.errs.isEmpty) = true
      · rw [if_pos c1, if_pos c1]
      · rw [if_neg c1, if_neg c1]
        by_cases c2 : (i % 1000 == 0 && done i) = true
        · rw [if_pos c2, if_pos c2]
        · rw [if_neg c2, if_neg c2]
          refine run_prefix ⟨j, ?_, ?_, h3, h4⟩
          · rcases Nat.lt_or_ge i j with h | h
            · omega
            · have : i = j := by omega
              subst this
              simp [h3, h4] at c2
          · simp only [List.length_cons] at h2; omega

/-- **C49**: at most 1000 tokens are read after the context is done: what follows them does not matter. -/
theorem C49_prompt (cfg : DecCfg) (strict : Bool) (done : Nat → Bool) (m : Model) (path : Str)
    (pre rest rest' : List (Option Event)) (fin fin' : LexErr) (k : Nat) (hd : ∀ i, k ≤ i → done i = true)
    (hk : k + 1000 ≤ pre.length) :
    decodeEvents cfg strict done m path (pre ++ rest) fin = decodeEvents cfg strict done m path (pre ++ rest') fin' := by
  unfold decodeEvents
  rw [run_prefix ⟨(k + 999) / 1000 * 1000, Nat.zero_le _, by omega, Nat.mul_mod_left _ _, hd _ (by omega)⟩]

/-! ## Child parts -/

/-- The goroutine has not yet looked at the context for the last time (read.go:316-320). -/
def Phase.early : Phase → Bool
  | .failed _ _ | .stored _ | .finished _ => false
  | _ => true

/-- The goroutine cannot finish without writing `errs`. -/
def Phase.Late (sh : Shared) : Phase → Prop
  | .finished _ => sh.errs.isSome
  | .stored _ => sh.errs.isSome
  | _ => True

theorem late_step {c : PkgCfg} {m : Model} {g : Nat} {f : InFile} {sh sh' : Shared} {p p' : Phase} (hd : sh.done = true)
    (h : p.Late sh) (e : p.step c m g f sh = some (sh', p')) : p'.Late sh' := by
  cases p with
  | ready =>
    simp only [Phase.step] at e
    split at e <;> (simp only [Option.some.injEq, Prod.mk.injEq] at e; obtain ⟨rfl, rfl⟩ := e; trivial)
  | running i s evs =>
    cases evs with
    | nil =>
      simp only [Phase.step] at e
      split at e
      · cases e
      · simp only [Option.some.injEq, Prod.mk.injEq] at e; obtain ⟨rfl, rfl⟩ := e; trivial
    | cons ev evs =>
      simp only [Phase.step] at e
      split at e
      · simp only [Option.some.injEq, Prod.mk.injEq] at e; obtain ⟨rfl, rfl⟩ := e; trivial
      · split at e <;> (simp only [Option.some.injEq, Prod.mk.injEq] at e; obtain ⟨rfl, rfl⟩ := e; trivial)
  | appending i s evs l => simp only [Phase.step, Option.some.injEq, Prod.mk.injEq] at e; obtain ⟨rfl, rfl⟩ := e; trivial
  | polling i s evs =>
    simp only [Phase.step] at e
    split at e
    · simp only [Option.some.injEq, Prod.mk.injEq] at e; obtain ⟨rfl, rfl⟩ := e; trivial
    · split at e <;> (simp only [Option.some.injEq, Prod.mk.injEq] at e; obtain ⟨rfl, rfl⟩ := e; trivial)
  | decoded s r =>
    simp only [Phase.step, hd, if_true, Option.some.injEq, Prod.mk.injEq] at e
    obtain ⟨rfl, rfl⟩ := e; trivial
  | failed s x => simp only [Phase.step, Option.some.injEq, Prod.mk.injEq] at e; obtain ⟨rfl, rfl⟩ := e; rfl
  | stored s => simp only [Phase.step, Option.some.injEq, Prod.mk.injEq] at e; obtain ⟨rfl, rfl⟩ := e; exact h
  | finished s => cases e
  | panicked => cases e

theorem Phase.Late.mono {sh sh' : Shared} (h2 : sh.errs.isSome → sh'.errs.isSome) {p : Phase} (h : p.Late sh) : p.Late sh' := by
  cases p with
  | finished s => exact h2 h
  | stored s => exact h2 h
  | _ => trivial

theorem late_children {c : PkgCfg} {m : Model} {fs : List InFile} {st st' : ChildrenState} {g : Nat}
    (h : Relation.ReflTransGen (ChildrenStepC c m fs) st st') (hd : st.sh.done = true)
    (hp : ∃ p, st.ps[g]? = some p ∧ p.Late st.sh) : st'.sh.done = true ∧ ∃ p, st'.ps[g]? = some p ∧ p.Late st'.sh := by
  induction h with
  | refl => exact ⟨hd, hp⟩
  | tail _ e ih =>
    obtain ⟨hd1, p, hp1, hl⟩ := ih
    cases e with
    | cancel => exact ⟨rfl, p, hp1, hl.mono id⟩
    | step e =>
      cases e with
      | @step g' f q q' sh' h1 h2 h3 =>
        have hm := Phase.step_mono h3
        refine ⟨hm.1 hd1, ?_⟩
        by_cases hg : g' = g
        · subst hg
          rw [hp1] at h2; injection h2 with h2; subst h2
          exact ⟨q', List.getElem?_set_self (List.getElem?_eq_some_iff.mp hp1).1, late_step hd1 hl h3⟩
        · exact ⟨p, by rw [List.getElem?_set_ne hg]; exact hp1, hl.mono hm.2⟩

theorem done_children {c : PkgCfg} {m : Model} {fs : List InFile} {st st' : ChildrenState}
    (h : Relation.ReflTransGen (ChildrenStepC c m fs) st st') (hd : st.sh.done = true) : st'.sh.done = true := by
  induction h with
  | refl => exact hd
  | tail _ e ih =>
    cases e with
    | cancel => rfl
    | step e =>
      cases e with
      | step h1 h2 h3 => exact (Phase.step_mono h3).1 ih

/-- **C49**: if the context is done while some goroutine has not yet looked at it for the last time, then decoding the child parts
fails, for every interleaving. -/
theorem C49_children (c : PkgCfg) (m : Model) (fs : List InFile) (st st' : ChildrenState) (g : Nat) (p : Phase)
    (hd : st.sh.done = true) (hg : st.ps[g]? = some p) (hp : p.early = true)
    (h : Relation.ReflTransGen (ChildrenStepC c m fs) st st') (hf : st'.Finished) : st'.sh.errs.isSome := by
  have hl : p.Late st.sh := by cases p <;> first | trivial | cases hp
  obtain ⟨-, q, hq, hl'⟩ := late_children h hd ⟨p, hg, hl⟩
  obtain ⟨s, rfl⟩ := hf g q hq
  exact hl'

theorem children_before {c : PkgCfg} {m m' : Model} {fs : List InFile} {e : Option ChildErr} {b' : Bool} (hne : fs ≠ [])
    (h : ChildrenOutcomeC c m fs true m' e b') : e.isSome := by
  obtain ⟨st, h1, h2, rfl, -, -⟩ := h
  have hl : 0 < fs.length := List.length_pos_iff.mpr hne
  exact C49_children c m fs (.init fs true) st 0 .ready rfl
    (by simp only [ChildrenState.init, List.getElem?_map, List.getElem?_eq_getElem hl, Option.map_some]) rfl h1 h2

/-- **C49**: a context that is done before `DecodeContext` is called is still done while the root part is decoded. -/
theorem C49_stays (c : PkgCfg) (o : Opc) (pk : InPkg) (m m' : Model) (done : Nat → Bool) (r : DecodeResult)
    (h : Decodes c o pk m true done m' (.root r)) (i : Nat) : done i = true := by
  cases h with
  | @root m1 m2 _ root fs b' _ h1 h2 h3 h4 =>
    obtain ⟨st, g1, -, g3, -, g5⟩ := h2
    exact h3 ((g5 g3) ▸ done_children g1 rfl) i

/-- **C49**: if the context is done before `DecodeContext` is called, it does not return success, unless the root part has
no token at all and there is no child part. -/
theorem C49_package_partial (c : PkgCfg) (o : Opc) (pk : InPkg) (m m' : Model) (done : Nat → Bool) (r : DecodeResult)
    (h : Decodes c o pk m true done m' (.root r)) :
    (r = .ctx ∨ (c.strict = true ∧ ∃ e, r = .first e)) ∨
      ∃ m1 root data fin, processOPC c.env o pk m = some (m1, root, []) ∧ root.content = some (data, fin) ∧
        (lex fin (.new data)).1 = [] := by
  have hall := C49_stays c o pk m m' done r h
  cases h with
  | @root m1 m2 _ root fs b' _ h1 h2 h3 h4 =>
    by_cases hfs : fs = []
    · subst hfs
      unfold processRoot at h4
      cases hc : root.content with
      | none => simp [hc] at h4
      | some p =>
        obtain ⟨data, fin⟩ := p
        simp only [hc, Option.map_eq_some_iff, Prod.mk.injEq, PkgResult.root.injEq] at h4
        obtain ⟨⟨q1, q2⟩, h4, h5, h6⟩ := h4
        simp only at h5 h6
        subst h5 h6
        by_cases he : (partTokens (data, fin)).1 = []
        · exact .inr ⟨m1, root, data, fin, h1, hc, he⟩
        · exact .inl (C49_before_partial _ _ _ _ _ _ _ _ _ hall he h4)
    · have := children_before hfs h2
      cases this

/-- **C49**: if the context becomes done before token number `k` of the root part and at least 1000 tokens remain, `DecodeContext`
does not return success. -/
theorem C49_packageLater (c : PkgCfg) (o : Opc) (pk : InPkg) (m m' : Model) (b : Bool) (done : Nat → Bool) (r : DecodeResult)
    (k : Nat) (hd : ∀ i, k ≤ i → done i = true) (h : Decodes c o pk m b done m' (.root r))
    (hk : ∀ m1 root fs data fin, processOPC c.env o pk m = some (m1, root, fs) → root.content = some (data, fin) →
      k + 1000 ≤ (lex fin (.new data)).1.length) : r = .ctx ∨ (c.strict = true ∧ ∃ e, r = .first e) := by
  cases h with
  | @root m1 m2 _ root fs b' _ h1 h2 h3 h4 =>
    unfold processRoot at h4
    cases hc : root.content with
    | none => simp [hc] at h4
    | some p =>
      obtain ⟨data, fin⟩ := p
      simp only [hc, Option.map_eq_some_iff, Prod.mk.injEq, PkgResult.root.injEq] at h4
      obtain ⟨⟨q1, q2⟩, h4, h5, h6⟩ := h4
      simp only at h5 h6
      subst h5 h6
      exact C49_later _ _ _ _ _ _ _ _ _ k hd (hk m1 root fs data fin h1 hc) h4

/-! ## Examples -/

/-- A package library for the examples: names are kept as they are. -/
def c49Opc : Opc := ⟨id, fun _ p => p, fun _ _ _ => true⟩

/-- A package whose root part has the given content, with the given child parts. -/
def c49Pkg (data : Str) (childs : List InFile) : InPkg :=
  ⟨[⟨b!"/3D/3dmodel.model", relModel, []⟩],
    ⟨b!"/3D/3dmodel.model", contentTypeModel, childs.map (fun f => ⟨f.name, relModel, []⟩), some (data, .eof)⟩ :: childs⟩

/-- The outcome of decoding a package without child parts. -/
def c49Run (data : Str) (done : Nat → Bool) : Option DecodeResult :=
  match processOPC allExt c49Opc (c49Pkg data []) .zero with
  | some (m, root, []) => match processRoot c48Cfg done m root with
    | some (_, .root r) => some r
    | _ => none
  | _ => none

theorem childrenOutcome_nil (c : PkgCfg) (m : Model) (b : Bool) : ChildrenOutcomeC c m [] b m none b :=
  ⟨.init [] b, .refl, by intro g p h; simp [ChildrenState.init] at h, rfl, by
    simp [ChildrenState.model, ChildrenState.init, ChildrenState.anyElems, setChilds], fun _ => rfl⟩

theorem decodes_of_run {data : Str} {b : Bool} {done : Nat → Bool} {r : DecodeResult} (h : c49Run data done = some r)
    (hb : b = true → ∀ i, done i = true) : ∃ m', Decodes c48Cfg c49Opc (c49Pkg data []) .zero b done m' (.root r) := by
  unfold c49Run at h
  cases h1 : processOPC allExt c49Opc (c49Pkg data []) .zero with
  | none => simp [h1] at h
  | some q =>
    obtain ⟨m, root, fs⟩ := q
    cases fs with
    | cons f fs => simp [h1] at h
    | nil =>
      simp only [h1] at h
      cases h2 : processRoot c48Cfg done m root with
      | none => simp [h2] at h
      | some w =>
        obtain ⟨m', r'⟩ := w
        cases r' with
        | root r1 =>
          simp only [h2, Option.some.injEq] at h
          subst h
          exact ⟨m', .root h1 (childrenOutcome_nil _ _ _) hb h2⟩
        | _ => simp [h2] at h

/-- Is the outcome success? -/
def DecodeResult.isOk : DecodeResult → Bool
  | .ok => true
  | _ => false

theorem c49_empty : (c49Run [] fun _ => true).any (·.isOk) = true := by decide +kernel

/-- **C49** is false if the root part is empty: it has no token, and the context is only looked at after a token. -/
theorem C49_empty_false : ∃ c o pk m', Decodes c o pk .zero true (fun _ => true) m' (.root .ok) := by
  have h := c49_empty
  cases hr : c49Run [] fun _ => true with
  | none => rw [hr] at h; cases h
  | some r =>
    rw [hr] at h
    have : r = .ok := by cases r <;> first | rfl | cases h
    subst this
    obtain ⟨m', h⟩ := decodes_of_run (b := true) hr fun _ _ => rfl
    exact ⟨_, _, _, m', h⟩

/-- The same package with a root element: the error of the context. -/
example : (c49Run b!"<model xmlns=\"http://schemas.microsoft.com/3dmanufacturing/core/2015/02\"/>" fun _ => true).any
    (fun r => match r with | .ctx => true | _ => false) = true := by decide +kernel

/-- Without cancellation it decodes. -/
example : (c49Run b!"<model xmlns=\"http://schemas.microsoft.com/3dmanufacturing/core/2015/02\"/>" fun _ => false).any
    (·.isOk) = true := by decide +kernel

/-- A document of more than 1000 tokens, cancelled after the first one. -/
example : ∃ evs : List (Option Event), 1 + 1000 ≤ evs.length ∧
    ((decodeEvents ⟨allExt, true, fun _ t => t⟩ true (fun i => decide (1 ≤ i)) .zero defaultModelPath evs .eof).any
      fun p => match p.2 with | .ctx => true | _ => false) = true :=
  ⟨List.replicate 1001 none, by rw [List.length_replicate], by decide +kernel⟩

end Go3mf
