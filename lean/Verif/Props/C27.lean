import Verif.Props.C26

/-!
# C27: strict mode is the lenient mode cut at its first error

The token stream is arbitrary, and so are its end (end of file, syntax error, read error) and the moment the context is
done.
-/

namespace Go3mf

/-- The first error of a result. -/
def DecodeResult.firstError : DecodeResult → DecodeResult
  | .list (e :: _) => .first e
  | r => r

/-- The runs in the two modes: the same run without errors, or the strict run ends with the first error. -/
theorem run_strict {cfg : DecCfg} {done : Nat → Bool} {fin : LexErr} :
    ∀ {evs : List (Option Event)} {i : Nat} {s s1 : DState} {e1 : LoopEnd}, s.errs = [] →
    runTokens cfg false done fin i s evs = some (s1, e1) →
    (s1.errs = [] ∧ e1 ≠ .strict ∧ runTokens cfg true done fin i s evs = some (s1, e1)) ∨
    ∃ s2 e0 rest rest', s1.errs = e0 :: rest ∧ s2.errs = e0 :: rest' ∧ e1 ≠ .strict ∧
      runTokens cfg true done fin i s evs = some (s2, .strict)
  | [], i, s, s1, e1, he, h => by
    simp only [runTokens, Option.some.injEq, Prod.mk.injEq] at h ⊢
    obtain ⟨rfl, rfl⟩ := h
    exact Or.inl ⟨he, by simp, rfl, rfl⟩
  | ev :: evs, i, s, s1, e1, he, h => by
    unfold runTokens at h ⊢
    cases hs : s.step cfg i ev with
    | none => rw [hs] at h; simp at h
    | some s' =>
      obtain ⟨es, h1⟩ := step_errs hs
      rw [he, List.nil_append] at h1
      rw [hs] at h
      simp only [Bool.false_and, Bool.false_eq_true, if_false, Bool.true_and] at h ⊢
      cases hes : s'.errs with
      | nil =>
        simp only [List.isEmpty_nil, Bool.not_true, Bool.false_eq_true, if_false]
        by_cases h3 : (i % 1000 == 0 && done i) = true
        · rw [if_pos h3] at h ⊢
          simp only [Option.some.injEq, Prod.mk.injEq] at h
          obtain ⟨rfl, rfl⟩ := h
          exact Or.inl ⟨hes, by simp, rfl⟩
        · rw [if_neg h3] at h ⊢
          exact run_strict hes h
      | cons e0 rest' =>
        simp only [List.isEmpty_cons, Bool.not_false, if_true]
        refine Or.inr ?_
        by_cases h3 : (i % 1000 == 0 && done i) = true
        · rw [if_pos h3] at h
          simp only [Option.some.injEq, Prod.mk.injEq] at h
          obtain ⟨rfl, rfl⟩ := h
          exact ⟨s', e0, rest', rest', hes, hes, by simp, rfl⟩
        · rw [if_neg h3] at h
          obtain ⟨es', h4⟩ := run_errs h
          rw [hes, List.cons_append] at h4
          refine ⟨s', e0, _, rest', h4, hes, ?_, rfl⟩
          rintro rfl
          -- a lenient run does not end as a strict one
          exact absurd h (lenient_end evs (i + 1) s')
where
  lenient_end {cfg : DecCfg} {done : Nat → Bool} {fin : LexErr} {s1 : DState} :
      ∀ (evs : List (Option Event)) (i : Nat) (s : DState),
      ¬ runTokens cfg false done fin i s evs = some (s1, .strict)
    | [], i, s => by simp [runTokens]
    | ev :: evs, i, s => by
      intro h
      unfold runTokens at h
      cases hs : s.step cfg i ev with
      | none => rw [hs] at h; simp at h
      | some s' =>
        rw [hs] at h
        simp only [Bool.false_and, Bool.false_eq_true, if_false] at h
        by_cases h3 : (i % 1000 == 0 && done i) = true
        · rw [if_pos h3] at h; simp at h
        · rw [if_neg h3] at h; exact lenient_end evs (i + 1) s' h

/-- **C27**: if lenient decoding returns, strict decoding returns too.  It fails exactly if lenient decoding fails, and
if neither fails the models are the same. -/
theorem C27_fails (cfg : DecCfg) (done : Nat → Bool) (m : Model) (path : Str) (evs : List (Option Event)) (fin : LexErr)
    (m1 : Model) (r1 : DecodeResult) (h : decodeEvents cfg false done m path evs fin = some (m1, r1)) :
    ∃ m2 r2, decodeEvents cfg true done m path evs fin = some (m2, r2) ∧ (r2 = .ok ↔ r1 = .ok) ∧
      (r1 = .ok → m2 = m1) := by
  unfold decodeEvents at h ⊢
  rw [Option.map_eq_some_iff] at h
  obtain ⟨⟨s1, e1⟩, h1, h2⟩ := h
  simp only [Prod.mk.injEq] at h2
  obtain ⟨rfl, rfl⟩ := h2
  rcases run_strict (s := DState.init m path) rfl h1 with ⟨he, hne, h3⟩ | ⟨s2, e0, rest, rest', h3, h4, hne, h5⟩
  · rw [h3]
    refine ⟨_, _, rfl, ?_, fun _ => rfl⟩
    simp only [he]
    cases e1 with
    | token e => cases e <;> simp [decodeResult]
    | strict => exact absurd rfl hne
    | ctx => simp [decodeResult]
  · rw [h5]
    refine ⟨_, _, rfl, ?_, ?_⟩
    · simp only [h3, h4]
      cases e1 with
      | token e => cases e <;> cases rest <;> cases rest' <;> simp [decodeResult]
      | strict => exact absurd rfl hne
      | ctx => cases rest' <;> simp [decodeResult]
    · intro hk
      simp only [h3] at hk
      cases e1 with
      | token e => cases e <;> cases rest <;> simp [decodeResult] at hk
      | strict => exact absurd rfl hne
      | ctx => simp [decodeResult] at hk

/-- **C27**: for a stream of tokens that ends with the end of the file, and a context that is never done, the strict
error is the first of the lenient errors. -/
theorem C27_first (cfg : DecCfg) (m : Model) (path : Str) (evs : List (Option Event)) (m1 : Model) (r1 : DecodeResult)
    (h : decodeEvents cfg false (fun _ => false) m path evs .eof = some (m1, r1)) :
    ∃ m2, decodeEvents cfg true (fun _ => false) m path evs .eof = some (m2, r1.firstError) := by
  unfold decodeEvents at h ⊢
  rw [Option.map_eq_some_iff] at h
  obtain ⟨⟨s1, e1⟩, h1, h2⟩ := h
  simp only [Prod.mk.injEq] at h2
  obtain ⟨rfl, rfl⟩ := h2
  have hend : ∀ {evs : List (Option Event)} {i : Nat} {s s1 : DState} {e1 : LoopEnd},
      runTokens cfg false (fun _ => false) .eof i s evs = some (s1, e1) → e1 = .token .eof := by
    intro evs
    induction evs with
    | nil => intro i s s1 e1 h; simp [runTokens] at h; exact h.2.symm
    | cons ev evs ih =>
      intro i s s1 e1 h
      unfold runTokens at h
      cases hs : s.step cfg i ev with
      | none => rw [hs] at h; simp at h
      | some s' =>
        rw [hs] at h
        simp only [Bool.false_and, Bool.false_eq_true, if_false, Bool.and_false] at h
        exact ih h
  have he1 := hend h1
  subst he1
  rcases run_strict (s := DState.init m path) rfl h1 with ⟨he, hne, h3⟩ | ⟨s2, e0, rest, rest', h3, h4, hne, h5⟩
  · rw [h3]
    exact ⟨_, by simp [he, decodeResult, DecodeResult.firstError]; rfl⟩
  · rw [h5]
    refine ⟨s2.result path, ?_⟩
    simp only [h3, h4, Option.map_some]
    cases rest <;> cases rest' <;> simp [decodeResult, DecodeResult.firstError]

/-- **C27**, the errors that strict mode does not report: if the document is not well-formed after an error, lenient
decoding reports the syntax error and strict decoding the first error. -/
theorem C27_syntax (cfg : DecCfg) (m : Model) (path : Str) (evs : List (Option Event)) (s1 : DState) (e0 : Err)
    (rest : List Err) (h : runTokens cfg false (fun _ => false) .syntax 0 (DState.init m path) evs = some (s1, .token .syntax))
    (he : s1.errs = e0 :: rest) :
    decodeEvents cfg false (fun _ => false) m path evs .syntax = some (s1.result path, .token .syntax) ∧
    ∃ m2, decodeEvents cfg true (fun _ => false) m path evs .syntax = some (m2, .first e0) := by
  unfold decodeEvents
  refine ⟨by rw [h]; rfl, ?_⟩
  rcases run_strict (s := DState.init m path) rfl h with ⟨he', _, _⟩ | ⟨s2, e0', rest1, rest', h3, h4, _, h5⟩
  · rw [he] at he'; simp at he'
  · rw [he] at h3
    simp only [List.cons.injEq] at h3
    obtain ⟨rfl, -⟩ := h3
    rw [h5]
    refine ⟨s2.result path, ?_⟩
    simp only [h4, Option.map_some]
    cases rest' <;> simp [decodeResult]

/-- The tokens of a document with two errors. -/
def twoErrors : List (Option Event) :=
  [some (.start modelName []), some (.start ⟨nsCore, b!"resources"⟩ []),
   some (.start ⟨nsCore, b!"object"⟩ [⟨⟨[], b!"id"⟩, b!"x"⟩, ⟨⟨[], b!"pid"⟩, b!"y"⟩]), some (.stop ⟨nsCore, b!"object"⟩),
   some (.stop ⟨nsCore, b!"resources"⟩), some (.stop modelName)]

/-- Non-vacuity: two errors in lenient mode, the first of them in strict mode. -/
example :
    (∃ m1, decodeEvents ⟨allExt, true, fun _ t => t⟩ false (fun _ => false) .zero [] twoErrors .eof = some (m1, .list
      [.wrapped [⟨b!"object", 0⟩, ⟨b!"resources", -1⟩, ⟨b!"model", -1⟩] (.leaf (.parseAttr b!"id" true)) [],
       .wrapped [⟨b!"object", 0⟩, ⟨b!"resources", -1⟩, ⟨b!"model", -1⟩] (.leaf (.parseAttr b!"pid" false)) []])) ∧
    ∃ m2, decodeEvents ⟨allExt, true, fun _ t => t⟩ true (fun _ => false) .zero [] twoErrors .eof = some (m2, .first
      (.wrapped [⟨b!"object", 0⟩, ⟨b!"resources", -1⟩, ⟨b!"model", -1⟩] (.leaf (.parseAttr b!"id" true)) [])) :=
  ⟨⟨_, rfl⟩, ⟨_, rfl⟩⟩

end Go3mf
