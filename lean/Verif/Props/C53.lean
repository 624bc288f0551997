import Verif.Props.C26
import Verif.Props.C24
import Verif.Lemmas.DecodeErrs
import Mathlib.Data.List.Forall2

/-!
# C53: decode errors point at the offending element

The elements of a document are given by its start tags; `starts` gives for each of them the names of the elements that are
open, the innermost (the element itself) first, and its attributes.  It does not refer to the decoder.
-/

namespace Go3mf

/-- The start tags of a document, given the elements that are open. -/
def starts : List Name → List (Option Event) → List (List Name × List Attr)
  | _, [] => []
  | up, some (.start n as) :: evs => (n :: up, as) :: starts (n :: up) evs
  | up, some (.stop _) :: evs => starts up.tail evs
  | up, _ :: evs => starts up evs

/-- The names of the levels of an error, the innermost first. -/
def Err.levelNames : Err → List Str
  | .wrapped target _ _ => target.map (·.name)
  | _ => []

/-- The error is about an attribute of the element. -/
def AboutAttr (e : Err) (as : List Attr) : Prop :=
  ∃ target a req, e = .wrapped target (.leaf (.parseAttr a.name.loc req)) [] ∧ a ∈ as

/-- The error is about an attribute of the element, and its path consists of the element and some of the elements around
it. -/
def PointsInto (e : Err) (st : List Name × List Attr) : Prop :=
  AboutAttr e st.2 ∧ e.levelNames.Sublist (st.1.map (·.loc)) ∧ e.levelNames.head? = (st.1.map (·.loc)).head?

/-- The errors are, in the order of the elements, groups of errors for each of the elements. -/
def InOrder (P : Err → List Name × List Attr → Prop) (es : List Err) (sts : List (List Name × List Attr)) : Prop :=
  ∃ groups : List (List Err), es = groups.flatten ∧ List.Forall₂ (fun g st => ∀ e ∈ g, P e st) groups sts

theorem InOrder.nil (P : Err → List Name × List Attr → Prop) : ∀ sts, InOrder P [] sts
  | [] => ⟨[], rfl, .nil⟩
  | st :: sts => by
    obtain ⟨g, h1, h2⟩ := InOrder.nil P sts
    exact ⟨[] :: g, by simpa using h1, .cons (by simp) h2⟩

theorem InOrder.cons {P : Err → List Name × List Attr → Prop} {g es : List Err} {st : List Name × List Attr}
    {sts : List (List Name × List Attr)} (hg : ∀ e ∈ g, P e st) (h : InOrder P es sts) : InOrder P (g ++ es) (st :: sts) := by
  obtain ⟨gs, h1, h2⟩ := h
  exact ⟨g :: gs, by simp [h1], .cons hg h2⟩

/-! ## One step -/

/-- The name of the current element is on top of the stack. -/
def DState.Top (s : DState) : Prop := ∀ f st, s.stack = f :: st → s.cur = f.dec ∧ s.curName = f.name

/-- The errors of one step. -/
theorem step_points {cfg : DecCfg} {s s' : DState} {i : Nat} {n : Name} {as : List Attr}
    (h : s.step cfg i (some (.start n as)) = some s') :
    ∃ g, s'.errs = s.errs ++ g ∧
      (g = [] ∧ s'.names = s.names ∨ s'.names = n :: s.names ∧
        ∀ e ∈ g, AboutAttr e as ∧ e.levelNames = (n :: s.names).map (·.loc)) := by
  simp only [DState.step, DState.onStart] at h
  by_cases hc : s.cur.hasChild = true
  · rw [if_pos hc] at h
    cases hch : child cfg s.regs s.cur n with
    | none => rw [hch] at h; simp at h
    | some p =>
      obtain ⟨r, c⟩ := p
      rw [hch] at h
      cases c with
      | none =>
        simp only [Option.some.injEq] at h; subst h
        exact ⟨[], by simp, Or.inl ⟨rfl, rfl⟩⟩
      | some q =>
        obtain ⟨j, d⟩ := q
        simp only [] at h
        cases hs : start cfg r d as with
        | none => rw [hs] at h; simp at h
        | some q =>
          obtain ⟨r', l⟩ := q
          rw [hs] at h
          simp only [Option.some.injEq] at h
          subst h
          refine ⟨_, rfl, Or.inr ⟨by simp [DState.names], ?_⟩⟩
          intro e he
          obtain ⟨lf, hl, rfl⟩ := List.mem_map.1 he
          obtain ⟨a, ha, req, rfl⟩ := start_from hs lf hl
          exact ⟨⟨_, a, req, rfl, ha⟩, by simp [wrapStack, Err.levelNames, DState.names]⟩
  · rw [if_neg hc] at h
    simp only [Option.some.injEq] at h; subst h
    exact ⟨[], by simp, Or.inl ⟨rfl, rfl⟩⟩

/-- The stack is a part of the open elements. -/
structure SubState (up : List Name) (s : DState) : Prop where
  top : s.Top
  sub : s.names.Sublist up

theorem sub_step {cfg : DecCfg} {s s' : DState} {i : Nat} {ev : Option Event} {up : List Name} (h : SubState up s)
    (hs : s.step cfg i ev = some s') (hn : ∀ n, ev = some (.stop n) → ∃ t, up = n :: t) : SubState (openNext up ev) s' := by
  match ev, hs with
  | none, hs =>
    simp only [DState.step, Option.some.injEq] at hs; subst hs; exact h
  | some (.chars t), hs =>
    simp only [DState.step, Option.some.injEq] at hs; subst hs
    unfold DState.onChar
    split <;> exact ⟨h.top, h.sub⟩
  | some (.start n as), hs =>
    have hst : SubState (n :: up) s' := by
      simp only [DState.step, DState.onStart] at hs
      by_cases hc : s.cur.hasChild = true
      · rw [if_pos hc] at hs
        cases hch : child cfg s.regs s.cur n with
        | none => rw [hch] at hs; simp at hs
        | some p =>
          obtain ⟨r, c⟩ := p
          rw [hch] at hs
          cases c with
          | none =>
            simp only [Option.some.injEq] at hs; subst hs
            exact ⟨h.top, h.sub.cons _⟩
          | some q =>
            obtain ⟨j, d⟩ := q
            simp only [] at hs
            cases hst : start cfg r d as with
            | none => rw [hst] at hs; simp at hs
            | some q =>
              rw [hst] at hs
              simp only [Option.some.injEq] at hs
              subst hs
              refine ⟨?_, h.sub.cons_cons n⟩
              intro f st hf
              simp only [List.cons.injEq] at hf
              obtain ⟨rfl, -⟩ := hf
              exact ⟨rfl, rfl⟩
      · rw [if_neg hc] at hs
        simp only [Option.some.injEq] at hs; subst hs
        exact ⟨h.top, h.sub.cons _⟩
    exact hst
  | some (.stop n), hs =>
    obtain ⟨t, rfl⟩ := hn n rfl
    show SubState t s'
    simp only [DState.step, DState.onEnd] at hs
    have hsub := h.sub
    by_cases hc : s.curName = n
    · rw [if_pos hc] at hs
      cases hst : s.stack with
      | nil => rw [hst] at hs; simp at hs
      | cons f st =>
        have hf : f.name = n := by rw [← (h.top f st hst).2, hc]
        rw [hst] at hs
        rw [show s.names = n :: st.map (·.name) by simp [DState.names, hst, hf]] at hsub
        have hsub' := List.cons_sublist_cons.1 hsub
        cases st with
        | nil =>
          simp only [Option.some.injEq] at hs; subst hs
          exact ⟨by simp [DState.Top], by simp [DState.names]⟩
        | cons g st =>
          simp only [Option.some.injEq] at hs; subst hs
          refine ⟨?_, hsub'⟩
          intro f' st' hf'
          simp only [List.cons.injEq] at hf'
          obtain ⟨rfl, -⟩ := hf'
          exact ⟨rfl, rfl⟩
    · rw [if_neg hc] at hs
      simp only [Option.some.injEq] at hs; subst hs
      refine ⟨h.top, ?_⟩
      show s.names.Sublist t
      cases hst : s.stack with
      | nil => simp [DState.names, hst]
      | cons f st =>
        have hf := (h.top f st hst).2
        rw [show s.names = f.name :: st.map (·.name) by simp [DState.names, hst]] at hsub ⊢
        cases hsub with
        | cons _ h2 => exact h2
        | cons_cons _ h2 => exact absurd hf hc

/-- The errors of a step that is not a start tag. -/
theorem step_noStart {cfg : DecCfg} {s s' : DState} {i : Nat} {ev : Option Event} (h : s.step cfg i ev = some s')
    (hn : ∀ n as, ev ≠ some (.start n as)) : s'.errs = s.errs := by
  match ev, h with
  | none, h => simp only [DState.step, Option.some.injEq] at h; rw [h]
  | some (.chars t), h =>
    simp only [DState.step, Option.some.injEq, DState.onChar] at h
    subst h
    split <;> rfl
  | some (.start n as), h => exact absurd rfl (hn n as)
  | some (.stop n), h =>
    simp only [DState.step, DState.onEnd] at h
    by_cases hc : s.curName = n
    · rw [if_pos hc] at h
      cases hs : s.stack with
      | nil => rw [hs] at h; simp at h
      | cons f st =>
        rw [hs] at h
        cases st <;> (simp only [Option.some.injEq] at h; subst h; rfl)
    · rw [if_neg hc] at h
      simp only [Option.some.injEq] at h; subst h; rfl

theorem openAfter_cons {up st : List Name} {ev : Option Event} {evs : List (Option Event)}
    (h : openAfter up (ev :: evs) = some st) : openAfter (openNext up ev) evs = some st ∧
      ∀ n, ev = some (.stop n) → ∃ t, up = n :: t := by
  match ev, up, h with
  | none, up, h => exact ⟨h, by simp⟩
  | some (.chars t), up, h => exact ⟨h, by simp⟩
  | some (.start n as), up, h => exact ⟨h, by simp⟩
  | some (.stop n), [], h => simp [openAfter] at h
  | some (.stop n), m :: up, h =>
    simp only [openAfter] at h
    by_cases hn : n = m
    · rw [if_pos hn] at h
      refine ⟨h, ?_⟩
      intro k hk
      simp only [Option.some.injEq, Event.stop.injEq] at hk
      exact ⟨up, by rw [← hk, hn]⟩
    · rw [if_neg hn] at h; simp at h

theorem starts_cons (up : List Name) (ev : Option Event) (evs : List (Option Event)) :
    starts up (ev :: evs) = (match ev with | some (.start n as) => [(n :: up, as)] | _ => []) ++ starts (openNext up ev) evs := by
  match ev with
  | none => rfl
  | some (.chars t) => rfl
  | some (.start n as) => rfl
  | some (.stop n) => rfl

/-! ## The run -/

/-- The errors of a run point into the document, in order. -/
theorem run_points {cfg : DecCfg} {strict : Bool} {done : Nat → Bool} {fin : LexErr} :
    ∀ {evs : List (Option Event)} {up st : List Name} {i : Nat} {s s' : DState} {e : LoopEnd}, SubState up s →
    openAfter up evs = some st → runTokens cfg strict done fin i s evs = some (s', e) →
    ∃ es, s'.errs = s.errs ++ es ∧ InOrder PointsInto es (starts up evs)
  | [], up, st, i, s, s', e, hs, ho, h => by
    simp only [runTokens, Option.some.injEq, Prod.mk.injEq] at h
    exact ⟨[], by simp [h.1], .nil _ _⟩
  | ev :: evs, up, st, i, s, s', e, hs, ho, h => by
    obtain ⟨ho', hstop⟩ := openAfter_cons ho
    unfold runTokens at h
    cases h1 : s.step cfg i ev with
    | none => rw [h1] at h; simp at h
    | some s1 =>
      have hs1 := sub_step hs h1 hstop
      rw [h1] at h
      simp only [] at h
      -- the rest of the run
      have hrest : ∃ es, s'.errs = s1.errs ++ es ∧ InOrder PointsInto es (starts (openNext up ev) evs) := by
        by_cases h2 : (strict && !s1.errs.isEmpty) = true
        · rw [if_pos h2] at h
          simp only [Option.some.injEq, Prod.mk.injEq] at h
          exact ⟨[], by simp [h.1], .nil _ _⟩
        · rw [if_neg h2] at h
          by_cases h3 : (i % 1000 == 0 && done i) = true
          · rw [if_pos h3] at h
            simp only [Option.some.injEq, Prod.mk.injEq] at h
            exact ⟨[], by simp [h.1], .nil _ _⟩
          · rw [if_neg h3] at h
            exact run_points hs1 ho' h
      obtain ⟨es, h4, h5⟩ := hrest
      rw [starts_cons]
      match ev, h1, h5 with
      | some (.start n as), h1, h5 =>
        obtain ⟨g, hg, h6⟩ := step_points h1
        refine ⟨g ++ es, by rw [h4, hg, List.append_assoc], .cons ?_ h5⟩
        rcases h6 with ⟨rfl, -⟩ | ⟨-, h7⟩
        · simp
        · intro x hx
          obtain ⟨ha, hl⟩ := h7 x hx
          exact ⟨ha, by rw [hl]; exact (hs.sub.cons_cons n).map _, by rw [hl]; rfl⟩
      | none, h1, h5 => exact ⟨es, by rw [h4, step_noStart h1 (by simp)], by simpa using h5⟩
      | some (.chars t), h1, h5 => exact ⟨es, by rw [h4, step_noStart h1 (by simp)], by simpa using h5⟩
      | some (.stop n), h1, h5 => exact ⟨es, by rw [h4, step_noStart h1 (by simp)], by simpa using h5⟩

/-! ## Theorems -/

/-- The errors of a result. -/
def DecodeResult.errors : DecodeResult → List Err
  | .first e => [e]
  | .list es => es
  | _ => []

theorem decodeResult_errors (errs : List Err) (e : LoopEnd) (he : e ≠ .strict) :
    (decodeResult false errs e).errors = errs ∨ (decodeResult false errs e).errors = [] := by
  cases e with
  | strict => exact absurd rfl he
  | ctx => exact Or.inr rfl
  | token t =>
    cases t with
    | eof =>
      match errs with
      | [] => exact Or.inl rfl
      | [e] => exact Or.inl rfl
      | e :: e' :: es => exact Or.inl rfl
    | _ => exact Or.inr rfl

/-- **C53**, without the indices: for every byte string, the errors that `UnmarshalModel` reports are about attributes of
elements of the document, in document order, and the path of each of them ends with this element and has otherwise names
of elements around it, in order.  Missing: an element that is not in the path (see `C53_skip_false`), and the indices. -/
theorem C53_partial (env : Env) (mem : Nat → Str → Str) (data : Str) (m m' : Model) (res : DecodeResult)
    (h : unmarshalModel env mem data m = some (m', res)) :
    InOrder PointsInto res.errors (starts [] (lex .eof (.new data)).1) := by
  unfold unmarshalModel decodeEvents at h
  rw [Option.map_eq_some_iff] at h
  obtain ⟨⟨s, e⟩, h1, h2⟩ := h
  simp only [Prod.mk.injEq] at h2
  obtain ⟨st, hst, -⟩ := C24_balanced .eof data
  obtain ⟨es, h3, h4⟩ := run_points (up := []) ⟨by simp [DState.Top, DState.init], by simp [DState.names, DState.init]⟩ hst h1
  simp only [DState.init, List.nil_append] at h3
  rw [← h2.2]
  have hd : (decodeResult false s.errs e).errors = s.errs ∨ (decodeResult false s.errs e).errors = [] := by
    cases e with
    | strict =>
      cases hs : s.errs with
      | nil => exact Or.inl rfl
      | cons a l => cases l <;> exact Or.inl rfl
    | ctx => exact decodeResult_errors _ _ (by simp)
    | token t => exact decodeResult_errors _ _ (by simp)
  rcases hd with hd | hd
  · rw [hd, h3]; exact h4
  · rw [hd]; exact .nil _ _

/-- The error has the path of the element if all elements around it are those of the core specification. -/
def PointsAt (isRoot : Bool) (e : Err) (st : List Name × List Attr) : Prop :=
  AboutAttr e st.2 ∧ (CorePath isRoot st.1 → e.levelNames = st.1.map (·.loc))

theorem text_errs {cfg : DecCfg} {strict : Bool} {done : Nat → Bool} {fin : LexErr} :
    ∀ {evs : List (Option Event)} {i : Nat} {s s' : DState} {e : LoopEnd}, TextOnly evs →
    runTokens cfg strict done fin i s evs = some (s', e) → s'.errs = s.errs
  | [], i, s, s', e, _, h => by
    simp only [runTokens, Option.some.injEq, Prod.mk.injEq] at h
    rw [h.1]
  | ev :: evs, i, s, s', e, ht, h => by
    unfold runTokens at h
    cases h1 : s.step cfg i ev with
    | none => rw [h1] at h; simp at h
    | some s1 =>
      rw [h1] at h
      simp only [] at h
      have he : s1.errs = s.errs := step_noStart h1 (by
        intro n as hh
        rcases ht ev (by simp) with h2 | ⟨t, h2⟩ <;> rw [h2] at hh <;> simp at hh)
      by_cases h2 : (strict && !s1.errs.isEmpty) = true
      · rw [if_pos h2] at h
        simp only [Option.some.injEq, Prod.mk.injEq] at h
        rw [← h.1, he]
      · rw [if_neg h2] at h
        by_cases h3 : (i % 1000 == 0 && done i) = true
        · rw [if_pos h3] at h
          simp only [Option.some.injEq, Prod.mk.injEq] at h
          rw [← h.1, he]
        · rw [if_neg h3] at h
          rw [text_errs (fun x hx => ht x (by simp [hx])) h, he]

/-- What a start tag adds to the errors. -/
theorem safe_points {cfg : DecCfg} {s s' : DState} {i : Nat} {n : Name} {as : List Attr} {up : List Name}
    (hs : SafeState cfg.isRoot up s) (h : s.step cfg i (some (.start n as)) = some s') :
    ∃ g, s'.errs = s.errs ++ g ∧ ∀ e ∈ g, PointsAt cfg.isRoot e (n :: up, as) := by
  obtain ⟨g, hg, h6⟩ := step_points h
  refine ⟨g, hg, ?_⟩
  rcases h6 with ⟨rfl, -⟩ | ⟨-, h7⟩
  · simp
  · intro x hx
    obtain ⟨ha, hl⟩ := h7 x hx
    refine ⟨ha, fun hcp => ?_⟩
    have hnm : s.names = up := suffix_sub_eq (hs.chain up hcp.tail List.suffix_rfl) hs.sub rfl
    rw [hl, hnm]

/-- The end of a step in the loop: it stops, or it goes on. -/
theorem run_next {cfg : DecCfg} {strict : Bool} {done : Nat → Bool} {fin : LexErr} {evs : List (Option Event)} {i : Nat}
    {s s1 s' : DState} {e : LoopEnd} {ev : Option Event} (h1 : s.step cfg i ev = some s1)
    (h : runTokens cfg strict done fin i s (ev :: evs) = some (s', e)) :
    s' = s1 ∨ runTokens cfg strict done fin (i + 1) s1 evs = some (s', e) := by
  unfold runTokens at h
  rw [h1] at h
  simp only [] at h
  by_cases h2 : (strict && !s1.errs.isEmpty) = true
  · rw [if_pos h2] at h
    simp only [Option.some.injEq, Prod.mk.injEq] at h
    exact Or.inl h.1.symm
  · rw [if_neg h2] at h
    by_cases h3 : (i % 1000 == 0 && done i) = true
    · rw [if_pos h3] at h
      simp only [Option.some.injEq, Prod.mk.injEq] at h
      exact Or.inl h.1.symm
    · rw [if_neg h3] at h; exact Or.inr h

theorem rest_points {cfg : DecCfg} {strict : Bool} {done : Nat → Bool} {fin : LexErr} :
    ∀ {evs : List (Option Event)} {up : List Name} {i : Nat} {s s' : DState} {e : LoopEnd}, InRoot cfg.isRoot up s →
    SafeRest cfg.env up evs → runTokens cfg strict done fin i s evs = some (s', e) →
    ∃ es, s'.errs = s.errs ++ es ∧ InOrder (PointsAt cfg.isRoot) es (starts up evs)
  | [], up, i, s, s', e, hs, ho, h => by
    simp only [runTokens, Option.some.injEq, Prod.mk.injEq] at h
    exact ⟨[], by simp [h.1], .nil _ _⟩
  | ev :: evs, up, i, s, s', e, hs, ho, h => by
    obtain ⟨s1, h1, hn⟩ := rest_step (i := i) hs ho
    have hrest : ∃ es, s'.errs = s1.errs ++ es ∧ InOrder (PointsAt cfg.isRoot) es (starts (openNext up ev) evs) := by
      rcases run_next h1 h with rfl | h2
      · exact ⟨[], by simp, .nil _ _⟩
      · rcases hn with ⟨h3, h4⟩ | ⟨h3, h4⟩
        · exact ⟨[], by simp [text_errs h4 h2], .nil _ _⟩
        · exact rest_points h3 h4 h2
    obtain ⟨es, h4, h5⟩ := hrest
    rw [starts_cons]
    match ev, h1, h5 with
    | some (.start n as), h1, h5 =>
      obtain ⟨g, hg, h6⟩ := safe_points hs.safe h1
      exact ⟨g ++ es, by rw [h4, hg, List.append_assoc], .cons h6 h5⟩
    | none, h1, h5 => exact ⟨es, by rw [h4, step_noStart h1 (by simp)], by simpa using h5⟩
    | some (.chars t), h1, h5 => exact ⟨es, by rw [h4, step_noStart h1 (by simp)], by simpa using h5⟩
    | some (.stop n), h1, h5 => exact ⟨es, by rw [h4, step_noStart h1 (by simp)], by simpa using h5⟩

theorem doc_points {cfg : DecCfg} {strict : Bool} {done : Nat → Bool} {fin : LexErr} {n : Name} {as : List Attr}
    {rest : List (Option Event)} (hz : n.loc ≠ []) (hl : cfg.env.beamlattice = true → n ≠ latticeName)
    (ha : AttrsAllowed cfg.env n as) (hs : SafeRest cfg.env [n] rest) :
    ∀ {pre : List (Option Event)} {i : Nat} {s s' : DState} {e : LoopEnd}, TextOnly pre → SafeState cfg.isRoot [] s →
    runTokens cfg strict done fin i s (pre ++ some (.start n as) :: rest) = some (s', e) →
    ∃ es, s'.errs = s.errs ++ es ∧
      InOrder (PointsAt cfg.isRoot) es (starts [] (pre ++ some (.start n as) :: rest))
  | [], i, s, s', e, _, h, hr => by
    obtain ⟨s1, h1, h2⟩ := root_step hz hl ha h
    have h1' : s.step cfg i (some (.start n as)) = some s1 := h1
    obtain ⟨g, hg, h6⟩ := safe_points h h1'
    have hrest : ∃ es, s'.errs = s1.errs ++ es ∧ InOrder (PointsAt cfg.isRoot) es (starts [n] rest) := by
      rcases run_next h1' hr with rfl | h3
      · exact ⟨[], by simp, .nil _ _⟩
      · exact rest_points h2 hs h3
    obtain ⟨es, h4, h5⟩ := hrest
    exact ⟨g ++ es, by rw [h4, hg, List.append_assoc], .cons h6 h5⟩
  | ev :: pre, i, s, s', e, hp, h, hr => by
    obtain ⟨s1, h1, h2, -⟩ := safe_text (cfg := cfg) (i := i) h (hp ev (by simp))
    have hno : ∀ k bs, ev ≠ some (.start k bs) := by
      intro k bs hh
      rcases hp ev (by simp) with h2 | ⟨t, h2⟩ <;> rw [h2] at hh <;> simp at hh
    have hst : starts [] (ev :: (pre ++ some (.start n as) :: rest)) = starts [] (pre ++ some (.start n as) :: rest) := by
      rcases hp ev (by simp) with h2 | ⟨t, h2⟩ <;> rw [h2] <;> rfl
    rw [List.cons_append, hst]
    rcases run_next h1 hr with rfl | h3
    · exact ⟨[], by simp [step_noStart h1 hno], .nil _ _⟩
    · obtain ⟨es, h4, h5⟩ := doc_points hz hl ha hs (fun x hx => hp x (by simp [hx])) h2 h3
      exact ⟨es, by rw [h4, step_noStart h1 hno], h5⟩

/-- **C53**, without the indices, for documents with one root element in which no element is inside of an element of the
same name: the error of an element of the core specification has the whole path, from the root to the element. -/
theorem C53_core_partial (env : Env) (mem : Nat → Str → Str) (data : Str) (m m' : Model) (res : DecodeResult)
    (hm : m.path = [] ∨ m.path = defaultModelPath) (hd : SafeDoc env (lex .eof (.new data)).1)
    (h : unmarshalModel env mem data m = some (m', res)) :
    InOrder (PointsAt true) res.errors (starts [] (lex .eof (.new data)).1) := by
  unfold unmarshalModel decodeEvents at h
  rw [Option.map_eq_some_iff] at h
  obtain ⟨⟨s, e⟩, h1, h2⟩ := h
  simp only [Prod.mk.injEq] at h2
  rw [← h2.2]
  have h0 : SafeState true [] (DState.init m defaultModelPath) := safe_init true (by
    unfold Model.findResources
    rw [if_pos (by rcases hm with h | h <;> simp [h])]
    rfl)
  have hes : ∃ es, s.errs = es ∧ InOrder (PointsAt true) es (starts [] (lex .eof (.new data)).1) := by
    rcases hd with hd | ⟨pre, n, as, rest, he, hp, hz, hl, ha, hs⟩
    · exact ⟨[], by rw [text_errs hd h1]; rfl, .nil _ _⟩
    · rw [he] at h1 ⊢
      obtain ⟨es, h4, h5⟩ := doc_points (cfg := ⟨env, true, mem⟩) hz hl ha hs hp h0 h1
      exact ⟨es, by rw [h4]; rfl, h5⟩
  obtain ⟨es, h3, h4⟩ := hes
  have hd : (decodeResult false s.errs e).errors = s.errs ∨ (decodeResult false s.errs e).errors = [] := by
    cases e with
    | strict =>
      cases hs : s.errs with
      | nil => exact Or.inl rfl
      | cons a l => cases l <;> exact Or.inl rfl
    | ctx => exact decodeResult_errors _ _ (by simp)
    | token t => exact decodeResult_errors _ _ (by simp)
  rcases hd with hd | hd
  · rw [hd, h3]; exact h4
  · rw [hd]; exact .nil _ _

/-- **C53**, the loop of read.go:88-92: wrapping an error of `Start` by the elements of the stack, the innermost first,
gives the errors of the model. -/
theorem C53_wrap (f : Frame) (st : List Frame) (l : Leaf) :
    (f :: st).foldl (fun e (f : Frame) => wrapIndex f.name.loc f.index e) (.leaf l) = wrapStack (f :: st) l := by
  have key : ∀ (st : List Frame) (t : List Level),
      st.foldl (fun e (f : Frame) => wrapIndex f.name.loc f.index e) (Err.wrapped t (.leaf l) []) =
        .wrapped (t ++ st.map fun f => ⟨f.name.loc, f.index⟩) (.leaf l) [] := by
    intro st
    induction st with
    | nil => intro t; simp
    | cons g st ih => intro t; simp only [List.foldl_cons, wrapIndex, ih, List.map_cons]; simp
  simp only [List.foldl_cons, wrapIndex, key, wrapStack, List.map_cons]
  simp

/-- **C53**, the same for a list of errors. -/
theorem C53_wrap_list (f : Frame) (st : List Frame) (ls : List Leaf) :
    (f :: st).foldl (fun e (f : Frame) => wrapIndex f.name.loc f.index e) (.list (ls.map .leaf)) =
      .list (ls.map (wrapStack (f :: st))) := by
  have key : ∀ (st : List Frame) (es : List Err),
      st.foldl (fun e (f : Frame) => wrapIndex f.name.loc f.index e) (.list es) =
        .list (es.map fun e => st.foldl (fun e (f : Frame) => wrapIndex f.name.loc f.index e) e) := by
    intro st
    induction st with
    | nil => intro es; simp
    | cons g st ih =>
      intro es
      have hl : ∀ es, wrapIndexList g.name.loc g.index es = es.map (wrapIndex g.name.loc g.index) := by
        intro es
        induction es with
        | nil => rfl
        | cons e es ih => simp [wrapIndexList, ih]
      simp only [List.foldl_cons, wrapIndex, ih, hl, List.map_map]
      rfl
  rw [key, List.map_map]
  congr 1
  apply List.map_congr_left
  intro l _
  exact C53_wrap f st l

/-- **C53** is false: elements that the decoder does not know are not in the path, and their children are read as if they
were not there. -/
theorem C53_skip_false :
    (starts [] (lex .eof (.new b!"<model xmlns=\"http://schemas.microsoft.com/3dmanufacturing/core/2015/02\"><x><resources><object id=\"a\"/></resources></x></model>")).1).getLast? =
      some ([⟨nsCore, b!"object"⟩, ⟨nsCore, b!"resources"⟩, ⟨nsCore, b!"x"⟩, modelName], [⟨⟨[], b!"id"⟩, b!"a"⟩]) ∧
    ((unmarshalModel allExt (fun _ t => t) b!"<model xmlns=\"http://schemas.microsoft.com/3dmanufacturing/core/2015/02\"><x><resources><object id=\"a\"/></resources></x></model>"
      .zero).map fun p => p.2.errors.map Err.levelNames) = some [[b!"object", b!"resources", b!"model"]] := by
  decide +kernel

/-- The indices of the levels of an error, the innermost first. -/
def Err.levelIndices : Err → List Int
  | .wrapped target _ _ => target.map (·.index)
  | _ => []

/-- **C53** is false: the first segment of a polygon is reported as the second one (slices/decoder.go:217). -/
theorem C53_segment_false :
    ((unmarshalModel allExt (fun _ t => t) b!"<model xmlns=\"http://schemas.microsoft.com/3dmanufacturing/core/2015/02\" xmlns:s=\"http://schemas.microsoft.com/3dmanufacturing/slice/2015/07\"><resources><s:slicestack><s:slice><s:polygon><s:segment v2=\"a\"/></s:polygon></s:slice></s:slicestack></resources></model>"
      .zero).map fun p => p.2.errors.map fun e => (e.levelNames, e.levelIndices)) =
    some [([b!"segment", b!"polygon", b!"slice", b!"slicestack", b!"resources", b!"model"], [1, 0, 0, 0, -1, -1])] := by
  decide +kernel

/-- **C53** is false: a colour without value does not count (materials/decoder.go:76-91). -/
theorem C53_color_false :
    ((unmarshalModel allExt (fun _ t => t) b!"<model xmlns=\"http://schemas.microsoft.com/3dmanufacturing/core/2015/02\" xmlns:m=\"http://schemas.microsoft.com/3dmanufacturing/material/2015/02\"><resources><m:colorgroup><m:color/><m:color color=\"x\"/></m:colorgroup></resources></model>"
      .zero).map fun p => p.2.errors.map fun e => (e.levelNames, e.levelIndices)) =
    some [([b!"color", b!"colorgroup", b!"resources", b!"model"], [0, 0, -1, -1])] := by
  decide +kernel

/-- A document with errors in two elements. -/
def badExample : Str :=
  b!"<model xmlns=\"http://schemas.microsoft.com/3dmanufacturing/core/2015/02\"><resources><object id=\"1\"/><object id=\"2\" pid=\"x\"><mesh><triangles><triangle v1=\"0\" v2=\"1\" v3=\"2\"/><triangle v1=\"q\" v2=\"1\" v3=\"r\"/></triangles></mesh></object></resources></model>"

theorem badExample_eq : (lex .eof (.new badExample)).1 =
    [] ++ some (.start modelName [⟨⟨[], b!"xmlns"⟩, nsCore⟩]) :: (lex .eof (.new badExample)).1.drop 1 := by decide +kernel

theorem badExample_ex : ∃ rest,
    (lex .eof (.new badExample)).1 = [] ++ some (.start modelName [⟨⟨[], b!"xmlns"⟩, nsCore⟩]) :: rest ∧
    safeRestB allExt [modelName] rest = true := ⟨_, badExample_eq, by decide +kernel⟩

/-- Non-vacuity: the document satisfies the hypotheses of `C53_core_partial`. -/
example : SafeDoc allExt (lex .eof (.new badExample)).1 := by
  obtain ⟨rest, h1, h2⟩ := badExample_ex
  rw [h1]
  refine Or.inr ⟨[], modelName, _, rest, rfl, by simp [TextOnly], by decide +kernel, by decide +kernel, ?_, safeRest_of h2⟩
  intro _
  decide +kernel

/-- Non-vacuity: its errors, with the right indices. -/
example : ((unmarshalModel allExt (fun _ t => t) badExample .zero).map fun p =>
      p.2.errors.map fun e => (e.levelNames, e.levelIndices)) =
    some [([b!"object", b!"resources", b!"model"], [1, -1, -1]),
      ([b!"triangle", b!"triangles", b!"mesh", b!"object", b!"resources", b!"model"], [1, -1, -1, 1, -1, -1]),
      ([b!"triangle", b!"triangles", b!"mesh", b!"object", b!"resources", b!"model"], [1, -1, -1, 1, -1, -1])] := by
  decide +kernel

end Go3mf
