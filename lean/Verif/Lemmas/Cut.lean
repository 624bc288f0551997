import Verif.Lemmas.Xml

/-!
# The XML reader on more input

What was read from a text is read in the same way if the text goes on, except for character data at its end.
-/

namespace Go3mf

theorem readNameLoop_more {fin : LexErr} (t : Str) {s n r : Str} (h : readNameLoop fin s = .ok (n, r)) :
    readNameLoop fin (s ++ t) = .ok (n, r ++ t) := by
  induction s generalizing n r with
  | nil => simp [readNameLoop] at h
  | cons b s ih =>
    rw [readNameLoop] at h
    rw [List.cons_append, readNameLoop]
    split at h
    · next hb =>
      rw [if_pos hb]
      split at h
      · next h1 =>
        simp only [Except.ok.injEq, Prod.mk.injEq] at h
        rw [ih h1]
        simp [h.1, h.2]
      · cases h
    · next hb =>
      rw [if_neg hb]
      simp only [Except.ok.injEq, Prod.mk.injEq] at h
      simp [← h.1, ← h.2]

theorem readName_more {fin : LexErr} (t : Str) {s n r : Str} (h : readName fin s = .ok n r) : readName fin (s ++ t) = .ok n (r ++ t) := by
  cases s with
  | nil => simp [readName] at h
  | cons b s =>
    rw [readName] at h
    rw [List.cons_append, readName]
    split at h
    · next hb =>
      rw [if_pos hb]
      split at h
      · next h1 =>
        simp only [NameRes.ok.injEq] at h
        rw [readNameLoop_more t h1]
        simp [h.1, h.2]
      · cases h
    · cases h

theorem readName_missing_more {fin : LexErr} (t : Str) {s r : Str} (h : readName fin s = .missing r) :
    readName fin (s ++ t) = .missing (r ++ t) := by
  cases s with
  | nil => simp [readName] at h
  | cons b s =>
    rw [readName] at h
    rw [List.cons_append, readName]
    split at h
    · split at h <;> cases h
    · next hb =>
      rw [if_neg hb]
      simp only [NameRes.missing.injEq] at h
      simp [← h]

theorem skipSpace_more (t : Str) {s : Str} {c : Byte} {r : Str} (h : skipSpace s = c :: r) : skipSpace (s ++ t) = c :: (r ++ t) := by
  induction s with
  | nil => simp [skipSpace] at h
  | cons b s ih =>
    rw [skipSpace] at h
    rw [List.cons_append, skipSpace]
    split at h
    · next hb => rw [if_pos hb]; exact ih h
    · next hb =>
      rw [if_neg hb]
      simp only [List.cons.injEq] at h
      simp [h.1, h.2]

theorem spanDigits_more (hex : Bool) (t : Str) {s : Str} {c : Byte} {r : Str} (h : (spanDigits hex s).2 = c :: r) :
    spanDigits hex (s ++ t) = ((spanDigits hex s).1, c :: (r ++ t)) := by
  induction s with
  | nil => simp [spanDigits] at h
  | cons b s ih =>
    rw [spanDigits] at h
    rw [List.cons_append, spanDigits, spanDigits]
    split at h
    · next hb => rw [if_pos hb, if_pos hb, ih h]
    · next hb =>
      rw [if_neg hb, if_neg hb]
      simp only [List.cons.injEq] at h
      simp [h.1, h.2]

theorem refDigits_more {fin : LexErr} {hex : Bool} (t : Str) {s d r : Str} (h : refDigits fin hex s = .ok (d, r)) :
    refDigits fin hex (s ++ t) = .ok (d, r ++ t) := by
  rw [refDigits] at h
  rw [refDigits]
  cases hs : (spanDigits hex s).2 with
  | nil => rw [hs] at h; cases h
  | cons c u =>
    rw [hs] at h
    rw [spanDigits_more hex t hs]
    simp only at h ⊢
    split at h
    · next hc =>
      rw [if_pos hc]
      simp only [Except.ok.injEq, Prod.mk.injEq] at h
      simp [h.1, h.2]
    · cases h

theorem entityEnd_more {fin : LexErr} (t : Str) {n s d r : Str} (h : entityEnd fin n s = .ok (d, r)) :
    entityEnd fin n (s ++ t) = .ok (d, r ++ t) := by
  cases s with
  | nil => simp [entityEnd] at h
  | cons c s =>
    simp only [entityEnd] at h
    simp only [List.cons_append, entityEnd]
    split at h
    · next hc =>
      rw [if_pos hc]
      split at h
      · next h1 =>
        simp only [Except.ok.injEq, Prod.mk.injEq] at h
        simp [h1, h.1, h.2]
      · cases h
    · cases h

theorem entity_more {fin : LexErr} (t : Str) {s d r : Str} (h : entity fin s = .ok (d, r)) : entity fin (s ++ t) = .ok (d, r ++ t) := by
  cases s with
  | nil => simp [entity] at h
  | cons b s =>
    rw [entity.eq_def] at h
    rw [List.cons_append, entity.eq_def]
    simp only at h ⊢
    split at h
    · next hb =>
      rw [if_pos hb]
      cases s with
      | nil => cases h
      | cons c s =>
        simp only [List.cons_append] at h ⊢
        split at h
        · next hc => rw [if_pos hc]; exact refDigits_more t h
        · next hc => rw [if_neg hc]; exact refDigits_more (s := c :: s) t h
    · next hb =>
      rw [if_neg hb]
      cases hn : readName fin (b :: s) with
      | fail e => rw [hn] at h; cases h
      | missing u =>
        rw [hn] at h
        rw [show b :: (s ++ t) = (b :: s) ++ t from rfl, readName_missing_more t hn]
        exact entityEnd_more t h
      | ok n u =>
        rw [hn] at h
        rw [show b :: (s ++ t) = (b :: s) ++ t from rfl, readName_more t hn]
        exact entityEnd_more t h

theorem textGo_more {fin : LexErr} {q : Option Byte} (t : Str) {s u r : Str} {k : Nat} {b1 : Byte}
    (h : textGo fin q k b1 s = .ok (u, r)) (hr : r ≠ []) : textGo fin q k b1 (s ++ t) = .ok (u, r ++ t) := by
  induction s generalizing k b1 u with
  | nil =>
    simp only [textGo, Except.ok.injEq, Prod.mk.injEq] at h
    exact absurd h.2.symm hr
  | cons b s ih =>
    cases k with
    | succ k =>
      rw [textGo] at h
      rw [List.cons_append, textGo]
      exact ih h
    | zero =>
      have hp : ∀ d k b1, prepend d (textGo fin q k b1 s) = .ok (u, r) → prepend d (textGo fin q k b1 (s ++ t)) = .ok (u, r ++ t) := by
        intro d k b1 hx
        obtain ⟨u', h0, h1⟩ := prepend_ok hx
        rw [ih h1, h0]
        rfl
      rw [textGo] at h
      rw [List.cons_append, textGo]
      split at h
      · next h1 =>
        rw [if_pos h1]
        split at h
        · cases h
        · next h2 =>
          rw [if_neg h2]
          simp only [Except.ok.injEq, Prod.mk.injEq] at h
          simp [← h.1, ← h.2]
      · next h1 =>
        rw [if_neg h1]
        split at h
        · next h2 =>
          rw [if_pos h2]
          simp only [Except.ok.injEq, Prod.mk.injEq] at h
          simp [← h.1, ← h.2]
        · next h2 =>
          rw [if_neg h2]
          split at h
          · next h3 =>
            rw [if_pos h3]
            cases he : entity fin s with
            | error e => rw [he] at h; cases h
            | ok p =>
              obtain ⟨d, v⟩ := p
              rw [he] at h
              rw [entity_more t he]
              simp only at h ⊢
              rw [show (s ++ t).length - (v ++ t).length = s.length - v.length by simp only [List.length_append]; omega]
              exact hp _ _ _ h
          · next h3 =>
            rw [if_neg h3]
            split at h
            · next h4 => rw [if_pos h4]; exact hp _ _ _ h
            · next h4 =>
              rw [if_neg h4]
              split at h
              · next h5 => rw [if_pos h5]; exact ih h
              · next h5 => rw [if_neg h5]; exact hp _ _ _ h

theorem attrval_more {fin : LexErr} (t : Str) {s u r : Str} (h : attrval fin s = .ok (u, r)) (hr : r ≠ []) :
    attrval fin (s ++ t) = .ok (u, r ++ t) := by
  cases s with
  | nil => simp [attrval] at h
  | cons b s =>
    rw [attrval] at h
    rw [List.cons_append, attrval]
    split at h
    · next hb => rw [if_pos hb]; exact textGo_more t h hr
    · cases h

theorem lexAttrs_more {fin : LexErr} (t : Str) : ∀ (fuel fuel' : Nat), fuel ≤ fuel' → ∀ {s : Str} {as : List Attr} {e : Bool} {z : Str},
    lexAttrs fin fuel s = .ok (as, e, z) → lexAttrs fin fuel' (s ++ t) = .ok (as, e, z ++ t)
  | 0, _, _, _, _, _, _, h => by simp [lexAttrs] at h
  | fuel + 1, 0, hf, _, _, _, _, _ => absurd hf (by omega)
  | fuel + 1, fuel' + 1, hf, s, as, e, z, h => by
    rw [lexAttrs] at h
    rw [lexAttrs]
    cases hs : skipSpace s with
    | nil => rw [hs] at h; cases h
    | cons b u =>
      rw [hs] at h
      rw [skipSpace_more t hs]
      simp only at h ⊢
      split at h
      · next h1 =>
        rw [if_pos h1]
        cases u with
        | nil => cases h
        | cons c u =>
          simp only [List.cons_append] at h ⊢
          split at h
          · next h2 =>
            rw [if_pos h2]
            simp only [Except.ok.injEq, Prod.mk.injEq] at h
            simp [← h.1, ← h.2.1, ← h.2.2]
          · cases h
      · next h1 =>
        rw [if_neg h1]
        split at h
        · next h2 =>
          rw [if_pos h2]
          simp only [Except.ok.injEq, Prod.mk.injEq] at h
          simp [← h.1, ← h.2.1, ← h.2.2]
        · next h2 =>
          rw [if_neg h2]
          cases hn : readName fin (b :: u) with
          | fail e => rw [hn] at h; cases h
          | missing v => rw [hn] at h; cases h
          | ok n v =>
            rw [hn] at h
            rw [show b :: (u ++ t) = (b :: u) ++ t from rfl, readName_more t hn]
            simp only at h ⊢
            cases hv : skipSpace v with
            | nil => rw [hv] at h; cases h
            | cons c w =>
              rw [hv] at h
              rw [skipSpace_more t hv]
              simp only at h ⊢
              split at h
              · cases h
              · next h3 =>
                rw [if_neg h3]
                cases ha : attrval fin (skipSpace w) with
                | error e => rw [ha] at h; cases h
                | ok p =>
                  obtain ⟨x, y⟩ := p
                  rw [ha] at h
                  simp only at h
                  cases hl : lexAttrs fin fuel y with
                  | error e => rw [hl] at h; cases h
                  | ok p =>
                    obtain ⟨as', e', z'⟩ := p
                    rw [hl] at h
                    simp only [Except.ok.injEq, Prod.mk.injEq] at h
                    have hy : y ≠ [] := by
                      rintro rfl
                      cases fuel <;> simp [lexAttrs, skipSpace] at hl
                    obtain ⟨c', w', hw⟩ : ∃ c' w', skipSpace w = c' :: w' := by
                      cases hw : skipSpace w with
                      | nil => rw [hw] at ha; simp [attrval] at ha
                      | cons c' w' => exact ⟨c', w', rfl⟩
                    have : attrval fin (skipSpace (w ++ t)) = .ok (x, y ++ t) := by
                      rw [skipSpace_more t hw, show c' :: (w' ++ t) = (c' :: w') ++ t from rfl, ← hw]
                      exact attrval_more t ha hy
                    rw [this]
                    simp only
                    rw [lexAttrs_more t fuel fuel' (by omega) hl]
                    simp [← h.1, ← h.2.1, ← h.2.2]

theorem skipPI_more {fin : LexErr} (t : Str) {s r : Str} {b0 : Byte} (h : skipPI fin b0 s = .ok r) : skipPI fin b0 (s ++ t) = .ok (r ++ t) := by
  induction s generalizing b0 with
  | nil => simp [skipPI] at h
  | cons b s ih =>
    rw [skipPI] at h
    rw [List.cons_append, skipPI]
    split at h
    · next hb =>
      rw [if_pos hb]
      simp only [Except.ok.injEq] at h
      rw [h]
    · next hb => rw [if_neg hb]; exact ih h

/-- More input. -/
def Lexer.more (st : Lexer) (t : Str) : Lexer := { st with inp := st.inp ++ t }

theorem handleEnd_more (t : Str) {st st' : Lexer} {n : Name} {ev : Event} (h : handleEnd st n = .ok (ev, st')) :
    handleEnd (st.more t) n = .ok (ev, st'.more t) := by
  obtain ⟨inp, stk, ns, close⟩ := st
  unfold handleEnd at h
  unfold handleEnd
  unfold Lexer.more
  cases stk with
  | nil => cases h
  | cons m s =>
    cases m with
    | elem m =>
      by_cases h1 : m.loc ≠ (translate ns true n).loc ∨ m.space ≠ (translate ns true n).space
      · simp only [if_pos h1] at h
        cases h
      · simp only [if_neg h1, Except.ok.injEq, Prod.mk.injEq] at h ⊢
        obtain ⟨rfl, rfl⟩ := h
        exact ⟨rfl, rfl⟩
    | _ => cases h

theorem of_ok {x : Except LexErr (Event × Lexer)} {ev : Option Event} {st' : Lexer} (h : TokenRes.of x = .ok (ev, st')) :
    ∃ e, ev = some e ∧ x = .ok (e, st') := by
  cases x with
  | error e => cases h
  | ok p =>
    simp only [TokenRes.of, Except.ok.injEq, Prod.mk.injEq] at h
    exact ⟨p.1, h.1.symm, by rw [← h.2]⟩

/-- One token, if the input goes on. -/
theorem rawToken_more (fin : LexErr) (t : Str) {st st' : Lexer} {ev : Option Event} (h : rawToken fin st = .ok (ev, st')) :
    rawToken fin (st.more t) = .ok (ev, st'.more t) ∨ ((∃ x, ev = some (.chars x)) ∧ st'.inp = [] ∧ st'.close = none) := by
  obtain ⟨inp, stk, ns, close⟩ := st
  rw [rawToken] at h
  cases close with
  | some n =>
    left
    simp only at h
    obtain ⟨e, rfl, h1⟩ := of_ok h
    have := handleEnd_more t h1
    simp only [rawToken, Lexer.more] at this ⊢
    rw [this]
    rfl
  | none =>
    cases inp with
    | nil => cases h
    | cons b s =>
      simp only at h
      by_cases hb : b ≠ 60
      · rw [if_pos hb] at h
        cases hl : lexText fin none (b :: s) with
        | error e => rw [hl] at h; cases h
        | ok p =>
          obtain ⟨x, r⟩ := p
          rw [hl] at h
          simp only [Except.ok.injEq, Prod.mk.injEq] at h
          obtain ⟨rfl, rfl⟩ := h
          by_cases hr : r = []
          · exact .inr ⟨⟨x, rfl⟩, hr, rfl⟩
          · left
            have : lexText fin none (b :: (s ++ t)) = .ok (x, r ++ t) := textGo_more (s := b :: s) t hl hr
            simp only [rawToken, Lexer.more, List.cons_append]
            rw [if_pos hb, this]
      · left
        rw [if_neg hb] at h
        simp only [rawToken, Lexer.more, List.cons_append]
        rw [if_neg hb]
        cases s with
        | nil => cases h
        | cons c s =>
          simp only [List.cons_append] at h ⊢
          split at h
          · next hc =>
            rw [if_pos hc]
            rw [lexEnd] at h
            cases hn : readName fin s with
            | fail e => rw [hn] at h; cases h
            | missing v => rw [hn] at h; cases h
            | ok n v =>
              rw [hn] at h
              rw [lexEnd, readName_more t hn]
              simp only at h ⊢
              cases hv : skipSpace v with
              | nil => rw [hv] at h; cases h
              | cons d w =>
                rw [hv] at h
                rw [skipSpace_more t hv]
                simp only at h ⊢
                split at h
                · next hd =>
                  rw [if_pos hd]
                  obtain ⟨e, rfl, h1⟩ := of_ok h
                  have := handleEnd_more t h1
                  simp only [Lexer.more] at this
                  rw [this]
                  rfl
                · cases h
          · next hc =>
            rw [if_neg hc]
            split at h
            · next hc2 =>
              rw [if_pos hc2]
              rw [lexPI] at h
              cases hn : readName fin s with
              | fail e => rw [hn] at h; cases h
              | missing v => rw [hn] at h; cases h
              | ok n v =>
                rw [hn] at h
                rw [lexPI, readName_more t hn]
                simp only at h ⊢
                cases hv : skipPI fin 0 (skipSpace v) with
                | error e => rw [hv] at h; cases h
                | ok r =>
                  rw [hv] at h
                  simp only [Except.ok.injEq, Prod.mk.injEq] at h
                  obtain ⟨rfl, rfl⟩ := h
                  obtain ⟨c', w', hw⟩ : ∃ c' w', skipSpace v = c' :: w' := by
                    cases hw : skipSpace v with
                    | nil => rw [hw] at hv; simp [skipPI] at hv
                    | cons c' w' => exact ⟨c', w', rfl⟩
                  have : skipPI fin 0 (skipSpace (v ++ t)) = .ok (r ++ t) := by
                    rw [skipSpace_more t hw, show c' :: (w' ++ t) = (c' :: w') ++ t from rfl, ← hw]
                    exact skipPI_more t hv
                  rw [this]
            · next hc2 =>
              rw [if_neg hc2]
              rw [lexStart] at h
              cases hn : readName fin (c :: s) with
              | fail e => rw [hn] at h; cases h
              | missing v => rw [hn] at h; cases h
              | ok n v =>
                rw [hn] at h
                rw [lexStart, show c :: (s ++ t) = (c :: s) ++ t from rfl, readName_more t hn]
                simp only at h ⊢
                cases ha : lexAttrs fin (v.length + 1) v with
                | error e => rw [ha] at h; cases h
                | ok p =>
                  obtain ⟨as, e, z⟩ := p
                  rw [ha] at h
                  rw [lexAttrs_more t (v.length + 1) ((v ++ t).length + 1) (by simp) ha]
                  simp only [Except.ok.injEq, Prod.mk.injEq] at h ⊢
                  obtain ⟨rfl, rfl⟩ := h
                  exact ⟨rfl, rfl⟩

/-- A text that is read to its end: if it goes on, the same is read first, except for character data at the end. -/
theorem lex_more (t : Str) : ∀ (evs : List (Option Event)) (st : Lexer), lex .eof st = (evs, .eof) →
    ∃ a more, (lex .eof (st.more t)).1 = a ++ more ∧ (evs = a ∨ ∃ x, evs = a ++ [some (.chars x)])
  | [], st, _ => ⟨[], _, rfl, .inl rfl⟩
  | ev :: evs, st, h => by
    rw [lex_eq] at h
    cases hr : rawToken .eof st with
    | error e => rw [hr] at h; simp at h
    | ok p =>
      obtain ⟨ev', st'⟩ := p
      rw [hr] at h
      simp only [Prod.mk.injEq, List.cons.injEq] at h
      obtain ⟨⟨rfl, h1⟩, h2⟩ := h
      rcases rawToken_more .eof t hr with h3 | ⟨⟨x, rfl⟩, h3, h4⟩
      · obtain ⟨a, more, h4, h5⟩ := lex_more t evs st' (Prod.ext h1 h2)
        refine ⟨ev' :: a, more, ?_, ?_⟩
        · rw [lex_eq, h3, List.cons_append, ← h4]
        · rcases h5 with rfl | ⟨x, rfl⟩
          · exact .inl rfl
          · exact .inr ⟨x, rfl⟩
      · refine ⟨[], _, rfl, .inr ⟨x, ?_⟩⟩
        have : (lex .eof st').1 = [] := by
          rw [lex_eq, rawToken, h4, h3]
        rw [← h1, this]
        rfl

end Go3mf
