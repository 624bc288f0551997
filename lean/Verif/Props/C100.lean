import Verif.Lemmas.Cut
import Verif.Props.C24
import Verif.Props.C26
import Verif.Props.C45

/-!
# C100: a file that is cut short is not taken for a complete one

A model part is one root element with other events only before and after it.  If its bytes are cut anywhere, then reading
the rest is a syntax error, or nothing but text was cut off and the result is the same, or no element is left at all.  In
the last case the code reads an empty model without an error, so that the claim only holds in part.
-/

namespace Go3mf

/-- The events of a document whose root element has the name `n`: text before it, its content, in which nothing of this
name ends, and text after it. -/
def Spec.SingleRoot (n : Name) (evs : List (Option Event)) : Prop :=
  ∃ pre as body post, evs = pre ++ some (.start n as) :: (body ++ some (.stop n) :: post) ∧ TextOnly pre ∧ TextOnly post ∧
    some (.stop n) ∉ body

/-! ## Open elements -/

theorem openAfter_append (a b : List (Option Event)) (st : List Name) :
    openAfter st (a ++ b) = (openAfter st a).bind (openAfter · b) := by
  induction a generalizing st with
  | nil => rfl
  | cons ev a ih =>
    rcases ev with _ | ev
    · simpa [openAfter] using ih st
    · cases ev with
      | chars t => simpa [openAfter] using ih st
      | start n as => simpa [openAfter] using ih (n :: st)
      | stop n =>
        cases st with
        | nil => rfl
        | cons m st =>
          simp only [List.cons_append, openAfter]
          split
          · exact ih st
          · rfl

theorem openAfter_text {evs : List (Option Event)} (h : TextOnly evs) (st : List Name) : openAfter st evs = some st := by
  induction evs with
  | nil => rfl
  | cons ev evs ih =>
    have := ih fun e he => h e (by simp [he])
    rcases h ev (by simp) with rfl | ⟨t, rfl⟩ <;> simpa [openAfter] using this

/-- An element stays open until it is ended. -/
theorem openAfter_bottom {n : Name} {evs : List (Option Event)} (h : some (.stop n) ∉ evs) {st st' : List Name}
    (ho : openAfter (st ++ [n]) evs = some st') : ∃ st'', st' = st'' ++ [n] := by
  induction evs generalizing st with
  | nil => exact ⟨st, by simpa [openAfter] using ho.symm⟩
  | cons ev evs ih =>
    have hm : some (.stop n) ∉ evs := fun hx => h (by simp [hx])
    rcases ev with _ | ev
    · exact ih hm (by simpa [openAfter] using ho)
    · cases ev with
      | chars t => exact ih hm (by simpa [openAfter] using ho)
      | start k as => exact ih (st := k :: st) hm (by simpa [openAfter] using ho)
      | stop k =>
        cases st with
        | nil =>
          simp only [List.nil_append, openAfter] at ho
          split at ho
          · next hk => exact absurd (by simp [hk]) h
          · cases ho
        | cons m st =>
          simp only [List.cons_append, openAfter] at ho
          split at ho
          · exact ih hm ho
          · cases ho

/-! ## The decoder -/

/-- Inside of the root element: it is at the bottom of the stack, and the stack is among the open elements. -/
structure AboveRoot (n : Name) (opens : List Name) (s : DState) : Prop where
  stack : ∃ st i, s.stack = st ++ [⟨.model, n, i⟩]
  top : ∀ f, s.stack.head? = some f → s.cur = f.dec ∧ s.curName = f.name
  sub : (s.stack.map (·.name)).Sublist opens

theorem AboveRoot.step {cfg : DecCfg} {n : Name} {opens opens' : List Name} {s s' : DState} {i : Nat} {ev : Option Event}
    (h : AboveRoot n opens s) (hev : ev ≠ some (.stop n)) (ho : openAfter opens [ev] = some opens')
    (hs : s.step cfg i ev = some s') : AboveRoot n opens' s' := by
  obtain ⟨⟨st, j, h1⟩, h2, h3⟩ := h
  rcases ev with _ | ev
  · simp only [openAfter, Option.some.injEq] at ho
    simp only [DState.step, Option.some.injEq] at hs
    subst ho hs
    exact ⟨⟨st, j, h1⟩, h2, h3⟩
  · cases ev with
    | chars t =>
      simp only [openAfter, Option.some.injEq] at ho
      simp only [DState.step, Option.some.injEq] at hs
      subst ho hs
      unfold DState.onChar
      split <;> exact ⟨⟨st, j, h1⟩, h2, h3⟩
    | start k as =>
      simp only [openAfter, Option.some.injEq] at ho
      subst ho
      simp only [DState.step, DState.onStart] at hs
      split at hs
      · split at hs
        · cases hs
        · simp only [Option.some.injEq] at hs
          subst hs
          exact ⟨⟨st, j, h1⟩, h2, h3.cons _⟩
        · split at hs
          · cases hs
          · next i' d _ _ _ _ _ =>
            simp only [Option.some.injEq] at hs
            subst hs
            refine ⟨⟨⟨d, k, i'⟩ :: st, j, by simp [h1]⟩, ?_, by simpa using h3⟩
            intro f hf
            simp only [List.head?_cons, Option.some.injEq] at hf
            subst hf
            exact ⟨rfl, rfl⟩
      · simp only [Option.some.injEq] at hs
        subst hs
        exact ⟨⟨st, j, h1⟩, h2, h3.cons _⟩
    | stop k =>
      have hk : k ≠ n := fun hk => hev (by rw [hk])
      cases opens with
      | nil => simp [openAfter] at ho
      | cons m opens =>
        simp only [openAfter] at ho
        split at ho
        · next hkm =>
          subst hkm
          simp only [Option.some.injEq] at ho
          subst ho
          simp only [DState.step, DState.onEnd] at hs
          cases st with
          | nil =>
            have h4 := (h2 _ (by rw [h1]; rfl)).2
            simp only at h4
            rw [if_neg (by rw [h4]; exact Ne.symm hk)] at hs
            simp only [Option.some.injEq] at hs
            subst hs
            refine ⟨⟨[], j, h1⟩, h2, ?_⟩
            dsimp only
            rw [h1] at h3 ⊢
            cases h3 with
            | cons _ h3 => exact h3
            | cons_cons _ h3 => exact absurd rfl hk
          | cons f st =>
            have h4 := (h2 f (by rw [h1]; rfl)).2
            split at hs
            · next hc =>
              obtain ⟨g, st', hst⟩ : ∃ g st', st ++ [⟨.model, n, j⟩] = g :: st' := by
                cases st with
                | nil => exact ⟨_, _, rfl⟩
                | cons g st => exact ⟨g, _, rfl⟩
              rw [h1, List.cons_append, hst] at hs
              simp only [Option.some.injEq] at hs
              subst hs
              refine ⟨⟨st, j, hst.symm⟩, ?_, ?_⟩
              · intro f' hf'
                simp only [List.head?_cons, Option.some.injEq] at hf'
                subst hf'
                exact ⟨rfl, rfl⟩
              · rw [h1, List.cons_append, hst, List.map_cons] at h3
                cases h3 with
                | cons _ h3 => exact (List.sublist_cons_self _ _).trans h3
                | cons_cons _ h3 => exact h3
            · next hc =>
              simp only [Option.some.injEq] at hs
              subst hs
              refine ⟨⟨f :: st, j, h1⟩, h2, ?_⟩
              dsimp only
              rw [h1, List.cons_append, List.map_cons] at h3 ⊢
              generalize he : f.name = x at h3 h4 ⊢
              cases h3 with
              | cons _ h3 => exact h3
              | cons_cons _ h3 => exact absurd h4 hc
        · cases ho

/-- Text changes nothing where tokens are not kept. -/
theorem runTokens_text {cfg : DecCfg} {strict : Bool} {fin : LexErr} {s : DState} (hs : s.cur = .top ∨ s.cur = .model)
    (he : (strict && !s.errs.isEmpty) = false) {evs : List (Option Event)} (h : TextOnly evs) (i : Nat) (rest : List (Option Event)) :
    runTokens cfg strict (fun _ => false) fin i s (evs ++ rest) = runTokens cfg strict (fun _ => false) fin (i + evs.length) s rest := by
  induction evs generalizing i with
  | nil => rfl
  | cons ev evs ih =>
    have hstep : s.step cfg i ev = some s := by
      rcases h ev (by simp) with rfl | ⟨t, rfl⟩
      · rfl
      · simp only [DState.step, DState.onChar]
        rcases hs with hs | hs
        · split
          · next hm => rw [hs] at hm; cases hm
          · rw [hs]; simp only [Regs.addToken]; rw [← hs]
        · split
          · next hm => rw [hs] at hm; cases hm
          · rw [hs]; simp only [Regs.addToken]; rw [← hs]
    rw [List.cons_append, runTokens, hstep]
    simp only [he, Bool.and_false, Bool.false_eq_true, if_false]
    rw [ih (fun e hx => h e (by simp [hx])), List.length_cons]
    congr 1
    omega

/-- After the end of the root element text changes nothing. -/
theorem runTokens_root {cfg : DecCfg} {strict : Bool} {fin : LexErr} {n : Name} {x y : List (Option Event)} (hx : TextOnly x)
    (hy : TextOnly y) : ∀ (body : List (Option Event)) (i : Nat) (s : DState) (opens : List Name), AboveRoot n opens s →
    some (.stop n) ∉ body → openAfter opens body = some [n] →
    runTokens cfg strict (fun _ => false) fin i s (body ++ some (.stop n) :: x) =
      runTokens cfg strict (fun _ => false) fin i s (body ++ some (.stop n) :: y)
  | [], i, s, opens, h, _, ho => by
    simp only [openAfter, Option.some.injEq] at ho
    subst ho
    obtain ⟨⟨st, j, h1⟩, h2, h3⟩ := h
    have hst : st = [] := by
      have := h3.length_le
      rw [h1] at this
      simp only [List.length_map, List.length_append, List.length_cons, List.length_nil] at this
      exact List.length_eq_zero_iff.1 (by omega)
    subst hst
    obtain ⟨hc, hn⟩ := h2 _ (by rw [h1]; rfl)
    simp only at hc hn
    have hstep : s.step cfg i (some (.stop n)) = some { s with
        regs := stop s.regs s.cur
        stack := [] } := by
      simp only [DState.step, DState.onEnd]
      rw [if_pos hn, h1]
      rfl
    rw [List.nil_append, List.nil_append, runTokens, runTokens, hstep]
    simp only [Bool.and_false, Bool.false_eq_true, if_false]
    split
    · rfl
    · next he =>
      have he' : (strict && !s.errs.isEmpty) = false := by simpa using he
      have e1 := runTokens_text (cfg := cfg) (fin := fin) (s := { s with
        regs := stop s.regs s.cur
        stack := [] }) (.inr hc) he' hx (i + 1) []
      have e2 := runTokens_text (cfg := cfg) (fin := fin) (s := { s with
        regs := stop s.regs s.cur
        stack := [] }) (.inr hc) he' hy (i + 1) []
      rw [List.append_nil] at e1 e2
      rw [e1, e2]
      rfl
  | ev :: body, i, s, opens, h, hb, ho => by
    rw [List.cons_append, List.cons_append, runTokens, runTokens]
    cases hs : s.step cfg i ev with
    | none => rfl
    | some s' =>
      rw [show ev :: body = [ev] ++ body from rfl, openAfter_append] at ho
      cases ho1 : openAfter opens [ev] with
      | none => rw [ho1] at ho; cases ho
      | some opens' =>
        rw [ho1] at ho
        have := runTokens_root (cfg := cfg) (strict := strict) (fin := fin) hx hy body (i + 1) s' opens'
          (h.step (fun he => hb (by simp [he])) ho1 hs) (fun he => hb (by simp [he])) ho
        simp only [this]

theorem runTokens_doc {cfg : DecCfg} {strict : Bool} {fin : LexErr} {m : Model} {path : Str} {pre body x y : List (Option Event)}
    {as : List Attr} (hp : TextOnly pre) (hx : TextOnly x) (hy : TextOnly y) (hb : some (.stop modelName) ∉ body)
    (ho : openAfter [modelName] body = some [modelName]) :
    runTokens cfg strict (fun _ => false) fin 0 (.init m path) (pre ++ some (.start modelName as) :: (body ++ some (.stop modelName) :: x)) =
      runTokens cfg strict (fun _ => false) fin 0 (.init m path)
        (pre ++ some (.start modelName as) :: (body ++ some (.stop modelName) :: y)) := by
  have h0 : (strict && !(DState.init m path).errs.isEmpty) = false := by simp [DState.init]
  rw [runTokens_text (.inl rfl) h0 hp, runTokens_text (.inl rfl) h0 hp, runTokens, runTokens]
  have hc : child cfg (DState.init m path).regs .top modelName = some ((DState.init m path).regs, some (-1, .model)) := by
    simp [child, onlyChild, modelName]
  have hstep : (DState.init m path).step cfg (0 + pre.length) (some (.start modelName as)) =
      match start cfg (DState.init m path).regs .model as with
      | none => none
      | some (r', e) => some { regs := r', cur := .model, curName := modelName, stack := [⟨.model, modelName, -1⟩],
                               errs := e.map (wrapStack [⟨.model, modelName, -1⟩]) } := by
    simp only [DState.step, DState.onStart]
    rw [show (DState.init m path).cur = .top from rfl, if_pos (show Dec.top.hasChild = true from rfl), hc]
    rfl
  rw [hstep]
  cases start cfg (DState.init m path).regs .model as with
  | none => rfl
  | some p =>
    obtain ⟨r', e⟩ := p
    simp only
    split
    · rfl
    · refine if_congr Iff.rfl rfl ?_
      refine runTokens_root hx hy body _ _ [modelName] ⟨⟨[], -1, rfl⟩, ?_, ?_⟩ hb ho
      · intro f hf
        simp only [List.head?_cons, Option.some.injEq] at hf
        subst hf
        exact ⟨rfl, rfl⟩
      · exact List.Sublist.refl _

/-! ## The claim -/

theorem TextOnly.append {a b : List (Option Event)} (ha : TextOnly a) (hb : TextOnly b) : TextOnly (a ++ b) := fun e he =>
  (List.mem_append.1 he).elim (ha e) (hb e)

theorem TextOnly.left {a b : List (Option Event)} (h : TextOnly (a ++ b)) : TextOnly a := fun e he => h e (by simp [he])

theorem TextOnly.right {a b : List (Option Event)} (h : TextOnly (a ++ b)) : TextOnly b := fun e he => h e (by simp [he])

/-- The events of the rest of a document, if it is read without a syntax error. -/
theorem cut_events {n : Name} {data t : Str} (hroot : Spec.SingleRoot n (lex .eof (.new (data ++ t))).1)
    (hfull : (lex .eof (.new (data ++ t))).2 = .eof) (hcut : (lex .eof (.new data)).2 = .eof) :
    TextOnly (lex .eof (.new data)).1 ∨ ∃ pre as body x y, TextOnly pre ∧ TextOnly x ∧ TextOnly y ∧ some (.stop n) ∉ body ∧
      openAfter [n] body = some [n] ∧
      (lex .eof (.new data)).1 = pre ++ some (.start n as) :: (body ++ some (.stop n) :: x) ∧
      (lex .eof (.new (data ++ t))).1 = pre ++ some (.start n as) :: (body ++ some (.stop n) :: y) := by
  obtain ⟨pre, as, body, post, hevs, hpre, hpost, hbody⟩ := hroot
  obtain ⟨a, more, h1, h2⟩ := lex_more t (lex .eof (.new data)).1 (.new data) (Prod.ext rfl hcut)
  obtain ⟨z, hz, hzt⟩ : ∃ z, (lex .eof (.new data)).1 = a ++ z ∧ TextOnly z := by
    rcases h2 with h2 | ⟨x, h2⟩
    · exact ⟨[], by simpa using h2, by intro e he; cases he⟩
    · refine ⟨_, h2, ?_⟩
      intro e he
      simp only [List.mem_singleton] at he
      exact .inr ⟨x, he⟩
  have h1 : (lex .eof (.new (data ++ t))).1 = a ++ more := h1
  have hb1 : openAfter [] a = some [] := by
    obtain ⟨st, h3, h4⟩ := C24_balanced .eof data
    rw [h4 hcut, hz, openAfter_append] at h3
    cases ha : openAfter [] a with
    | none => rw [ha] at h3; cases h3
    | some st =>
      rw [ha] at h3
      simp only [Option.bind_some, openAfter_text hzt, Option.some.injEq] at h3
      rw [h3]
  have hb2 : openAfter [n] body = some [n] := by
    obtain ⟨st, h3, h4⟩ := C24_balanced .eof (data ++ t)
    rw [h4 hfull, hevs, openAfter_append, openAfter_text hpre, Option.bind_some, openAfter, openAfter_append] at h3
    cases ho : openAfter [n] body with
    | none => rw [ho] at h3; cases h3
    | some st' =>
      obtain ⟨st'', rfl⟩ := openAfter_bottom (st := []) hbody ho
      rw [ho, Option.bind_some] at h3
      cases st'' with
      | nil => rfl
      | cons k st'' =>
        simp only [List.cons_append, openAfter] at h3
        split at h3
        · rw [openAfter_text hpost] at h3
          simp at h3
        · cases h3
  rw [hevs] at h1
  rcases List.append_eq_append_iff.1 h1 with ⟨a', ha, hrest⟩ | ⟨c, hc, _⟩
  · cases a' with
    | nil =>
      left
      rw [hz, ha, List.append_nil]
      exact hpre.append hzt
    | cons ev a' =>
      simp only [List.cons_append, List.cons.injEq] at hrest
      obtain ⟨rfl, hrest⟩ := hrest
      rw [ha, openAfter_append, openAfter_text hpre, Option.bind_some, openAfter] at hb1
      rcases List.append_eq_append_iff.1 hrest with ⟨b', hb, hrest2⟩ | ⟨c, hc, _⟩
      · cases b' with
        | nil =>
          rw [List.append_nil] at hb
          rw [hb] at hb1
          rw [hb2] at hb1
          cases hb1
        | cons ev b' =>
          simp only [List.cons_append, List.cons.injEq] at hrest2
          obtain ⟨rfl, hrest2⟩ := hrest2
          right
          refine ⟨pre, as, body, b' ++ z, post, hpre, ?_, hpost, hbody, hb2, ?_, hevs⟩
          · rw [hrest2] at hpost
            exact hpost.left.append hzt
          · rw [hz, ha, hb]
            simp
      · obtain ⟨st, h3⟩ := openAfter_bottom (st := []) (fun hx => hbody (by rw [hc]; simp [hx])) hb1
        simp at h3
  · left
    rw [hz]
    rw [hc] at hpre
    exact hpre.left.append hzt

theorem runTokens_noCtx {cfg : DecCfg} {strict : Bool} {fin : LexErr} {s' : DState} {e : LoopEnd} :
    ∀ (evs : List (Option Event)) (i : Nat) (s : DState), runTokens cfg strict (fun _ => false) fin i s evs = some (s', e) →
    e = .token fin ∨ s'.errs ≠ []
  | [], i, s, h => by
    simp only [runTokens, Option.some.injEq, Prod.mk.injEq] at h
    exact .inl h.2.symm
  | ev :: evs, i, s, h => by
    rw [runTokens] at h
    split at h
    · cases h
    · split at h
      · next hc =>
        simp only [Option.some.injEq, Prod.mk.injEq] at h
        right
        rw [← h.1]
        intro hx
        simp [hx] at hc
      · simp only [Bool.and_false, Bool.false_eq_true, if_false] at h
        exact runTokens_noCtx evs _ _ h

/-- A syntax error or a read error is not lost. -/
theorem decodeEvents_lexErr {cfg : DecCfg} {strict : Bool} {m m' : Model} {path : Str} {evs : List (Option Event)} {fin : LexErr}
    (hf : fin ≠ .eof) : decodeEvents cfg strict (fun _ => false) m path evs fin ≠ some (m', .ok) := by
  intro h
  rw [decodeEvents] at h
  cases hr : runTokens cfg strict (fun _ => false) fin 0 (.init m path) evs with
  | none => rw [hr] at h; cases h
  | some p =>
    obtain ⟨s', e⟩ := p
    rw [hr] at h
    simp only [Option.map_some, Option.some.injEq, Prod.mk.injEq] at h
    rcases runTokens_noCtx _ _ _ hr with rfl | he
    · cases fin with
      | eof => exact hf rfl
      | «syntax» => simp [decodeResult] at h
      | io => simp [decodeResult] at h
    · obtain ⟨x, xs, hx⟩ := List.exists_cons_of_ne_nil he
      rw [hx] at h
      have h := h.2
      unfold decodeResult at h
      split at h
      · cases h
      · cases h
      · cases h
      all_goals
        cases xs with
        | nil => cases h
        | cons y ys =>
          simp only at h
          split at h <;> cases h

/-- **C100**, for model parts: if the bytes of a part with one `model` element are cut, then what is left is not read
without an error, or there is no element left, or the result is the one of the whole part.  Missing: if no element is left
there is no error (`C100_empty_false`). -/
theorem C100_cut_partial (cfg : DecCfg) (strict : Bool) (m : Model) (path data t : Str)
    (hroot : Spec.SingleRoot modelName (lex .eof (.new (data ++ t))).1) (hfull : (lex .eof (.new (data ++ t))).2 = .eof) :
    (∀ m', decodeEvents cfg strict (fun _ => false) m path (lex .eof (.new data)).1 (lex .eof (.new data)).2 ≠ some (m', .ok)) ∨
      TextOnly (lex .eof (.new data)).1 ∨
      decodeEvents cfg strict (fun _ => false) m path (lex .eof (.new data)).1 (lex .eof (.new data)).2 =
        decodeEvents cfg strict (fun _ => false) m path (lex .eof (.new (data ++ t))).1 (lex .eof (.new (data ++ t))).2 := by
  by_cases hcut : (lex .eof (.new data)).2 = .eof
  · right
    rcases cut_events hroot hfull hcut with h | ⟨pre, as, body, x, y, hp, hx, hy, hb, ho, h1, h2⟩
    · exact .inl h
    · right
      rw [decodeEvents, decodeEvents, hcut, hfull, h1, h2, runTokens_doc hp hx hy hb ho]
  · exact .inl fun m' => decodeEvents_lexErr hcut

/-- **C100**: the same for `UnmarshalModel`. -/
theorem C100_unmarshal_partial (env : Env) (mem : Nat → Str → Str) (m : Model) (data t : Str)
    (hroot : Spec.SingleRoot modelName (lex .eof (.new (data ++ t))).1) (hfull : (lex .eof (.new (data ++ t))).2 = .eof) :
    (∀ m', unmarshalModel env mem data m ≠ some (m', .ok)) ∨ TextOnly (lex .eof (.new data)).1 ∨
      unmarshalModel env mem data m = unmarshalModel env mem (data ++ t) m :=
  C100_cut_partial ⟨env, true, mem⟩ false m defaultModelPath data t hroot hfull

/-- **C100**: what the claim does not allow: a part without any element, such as one of no bytes at all or one that is cut
after the XML declaration, is read without an error, and the model is left as it was. -/
theorem C100_empty_false (env : Env) (mem : Nat → Str → Str) :
    unmarshalModel env mem [] .zero = some (.zero, .ok) ∧
    unmarshalModel env mem b!"<?xml version='1.0'?>\n" .zero = some (.zero, .ok) := by
  have h1 : lex .eof (.new []) = ([], .eof) := by decide +kernel
  have h2 : lex .eof (.new b!"<?xml version='1.0'?>\n") = ([none, some (.chars b!"\n")], .eof) := by decide +kernel
  unfold unmarshalModel
  rw [h1, h2]
  exact ⟨rfl, rfl⟩

/-- **C100**, for binary STL files: any file that is cut short is an error. -/
theorem C100_binary (ctx : Stl.Ctx) (header : Str) (hh : header.length = 80) (fs : List Spec.Facet) (hn : fs.length < 2 ^ 32)
    (cut rest : Str) (hcut : Spec.binaryFile header fs = cut ++ rest) (hrest : rest ≠ []) (e : Bool) :
    (Stl.binaryDecode ctx Stl.checkEveryFaces ⟨cut, e⟩).2 ≠ none :=
  C45_truncated ctx header hh fs hn cut rest hcut hrest e

/-- **C100**: an ASCII STL file that is cut between facets, or inside of one, is read without an error and with fewer
triangles: the line `endsolid` is not looked for, nor is the end of a facet. -/
theorem C100_ascii_false :
    let r (s : Str) := Stl.asciiDecode (fun _ => false) Stl.checkEveryFaces ⟨s, true⟩
    let f1 : Str := b!"solid a\nvertex 1 0 0\nvertex 0 1 0\nvertex 0 0 1\n"
    let f2 : Str := b!"vertex 1 0 0\nvertex 0 1 0\n"
    let f3 : Str := b!"vertex 1 1 1\nendsolid\n"
    ((r (f1 ++ f2 ++ f3)).2 = none ∧ (r (f1 ++ f2 ++ f3)).1.tris.length = 2) ∧
    ((r f1).2 = none ∧ (r f1).1.tris.length = 1) ∧ ((r (f1 ++ f2)).2 = none ∧ (r (f1 ++ f2)).1.tris.length = 1) := by
  decide +kernel

/-! ## Non-vacuity -/

/-- A document, cut inside of it and cut after it. -/
def cutDoc : Str :=
  b!"<?xml version='1.0'?><model xmlns='http://schemas.microsoft.com/3dmanufacturing/core/2015/02'><resources/><build/></model>"

set_option maxRecDepth 8000 in
theorem cutDoc_root : Spec.SingleRoot modelName (lex .eof (.new (cutDoc ++ b!"\n"))).1 ∧ (lex .eof (.new (cutDoc ++ b!"\n"))).2 = .eof ∧
    (lex .eof (.new cutDoc)).2 = .eof ∧ (lex .eof (.new (cutDoc.take 110))).2 = .syntax := by
  have h : lex .eof (.new (cutDoc ++ b!"\n")) = ([none] ++ some (.start modelName [⟨⟨[], b!"xmlns"⟩, nsCore⟩]) ::
      ([some (.start ⟨nsCore, b!"resources"⟩ []), some (.stop ⟨nsCore, b!"resources"⟩), some (.start ⟨nsCore, b!"build"⟩ []),
        some (.stop ⟨nsCore, b!"build"⟩)] ++ some (.stop modelName) :: [some (.chars b!"\n")]), .eof) := by decide +kernel
  refine ⟨⟨_, _, _, _, congrArg Prod.fst h, ?_, ?_, by decide +kernel⟩, congrArg Prod.snd h, by decide +kernel, by decide +kernel⟩
  · intro e he
    simp only [List.mem_singleton] at he
    exact .inl he
  · intro e he
    simp only [List.mem_singleton] at he
    exact .inr ⟨_, he⟩

end Go3mf
