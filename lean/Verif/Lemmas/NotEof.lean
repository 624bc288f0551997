import Verif.Props.C59

/-!
# The end of the input

The reader ends with `io.EOF` only if its source did and every construct was complete.
-/

namespace Go3mf

theorem must_ne (e : LexErr) : e.must ≠ .eof := by cases e <;> decide

theorem readNameLoop_ne {fin : LexErr} : ∀ s : Str, readNameLoop fin s ≠ .error .eof
  | [] => by simp [readNameLoop, must_ne]
  | b :: s => by
    have := readNameLoop_ne (fin := fin) s
    unfold readNameLoop
    split
    · cases h : readNameLoop fin s with
      | ok p => simp
      | error e => rw [h] at this; simpa using this
    · simp

theorem readName_ne {fin : LexErr} (s : Str) : readName fin s ≠ .fail .eof := by
  cases s with
  | nil => simp [readName, must_ne]
  | cons b s =>
    have := readNameLoop_ne (fin := fin) s
    simp only [readName]
    split
    · cases h : readNameLoop fin s with
      | ok p => simp
      | error e => rw [h] at this; simpa using this
    · simp

theorem refDigits_ne {fin : LexErr} (hex : Bool) (s : Str) : refDigits fin hex s ≠ .error .eof := by
  unfold refDigits
  split
  · simp [must_ne]
  · split <;> simp

theorem entityEnd_ne {fin : LexErr} (n r : Str) : entityEnd fin n r ≠ .error .eof := by
  unfold entityEnd
  split
  · simp [must_ne]
  · split
    · split <;> simp
    · simp

theorem entity_ne {fin : LexErr} (s : Str) : entity fin s ≠ .error .eof := by
  cases s with
  | nil => simp [entity, must_ne]
  | cons b s =>
    simp only [entity]
    split
    · cases s with
      | nil => simp [must_ne]
      | cons c r =>
        simp only
        split
        · exact refDigits_ne true _
        · exact refDigits_ne false _
    · have := readName_ne (fin := fin) (b :: s)
      cases h : readName fin (b :: s) with
      | ok n r => exact entityEnd_ne _ _
      | missing r => exact entityEnd_ne _ _
      | fail e => rw [h] at this; simpa using this

theorem prepend_ne {d : Str} {x : Except LexErr (Str × Str)} (h : x ≠ .error .eof) : prepend d x ≠ .error .eof := by
  cases x with
  | ok p => simp [prepend]
  | error e => simpa [prepend] using h

theorem textGo_ne {fin : LexErr} {quote : Option Byte} : ∀ (s : Str) (k : Nat) (b1 : Byte), textGo fin quote k b1 s ≠ .error .eof
  | [], k, _ => by cases k <;> simp [textGo]
  | _ :: s, k + 1, b1 => by rw [textGo]; exact textGo_ne s k b1
  | b :: s, 0, b1 => by
    unfold textGo
    split
    · split <;> simp
    · split
      · simp
      · split
        · have := entity_ne (fin := fin) s
          cases h : entity fin s with
          | ok p => exact prepend_ne (textGo_ne s _ _)
          | error e => rw [h] at this; simpa using this
        · split
          · exact prepend_ne (textGo_ne s _ _)
          · split
            · exact textGo_ne s _ _
            · exact prepend_ne (textGo_ne s _ _)

theorem lexText_ne {fin : LexErr} {quote : Option Byte} (s : Str) : lexText fin quote s ≠ .error .eof := textGo_ne s 0 0

theorem attrval_ne {fin : LexErr} (s : Str) : attrval fin s ≠ .error .eof := by
  cases s with
  | nil => simp [attrval, must_ne]
  | cons b s =>
    simp only [attrval]
    split
    · exact lexText_ne s
    · simp

theorem lexAttrs_ne {fin : LexErr} : ∀ (f : Nat) (s : Str), lexAttrs fin f s ≠ .error .eof
  | 0, s => by simp [lexAttrs]
  | f + 1, s => by
    unfold lexAttrs
    split
    · simp [must_ne]
    · rename_i b t _
      split
      · split
        · simp [must_ne]
        · split <;> simp
      · split
        · simp
        · have h1 := readName_ne (fin := fin) (b :: t)
          cases hn : readName fin (b :: t) with
          | fail e => rw [hn] at h1; simpa using h1
          | missing r => simp
          | ok n r =>
            simp only
            split
            · simp [must_ne]
            · rename_i c u _
              split
              · simp
              · have h2 := attrval_ne (fin := fin) (skipSpace u)
                cases hv : attrval fin (skipSpace u) with
                | error e => rw [hv] at h2; simpa using h2
                | ok p =>
                  have h3 := lexAttrs_ne (fin := fin) f p.2
                  simp only
                  cases hl : lexAttrs fin f p.2 with
                  | error e => rw [hl] at h3; simpa using h3
                  | ok q => simp

theorem skipPI_ne {fin : LexErr} : ∀ (s : Str) (b : Byte), skipPI fin b s ≠ .error .eof
  | [], _ => by simp [skipPI, must_ne]
  | c :: s, b => by
    unfold skipPI
    split
    · simp
    · exact skipPI_ne s c

theorem handleEnd_ne (st : Lexer) (n : Name) : TokenRes.of (handleEnd st n) ≠ .error .eof := by
  unfold handleEnd
  split
  · simp only
    split <;> simp [TokenRes.of]
  · simp [TokenRes.of]

/-- The reader is at the end of its input. -/
theorem rawToken_eof {fin : LexErr} {st : Lexer} (h : rawToken fin st = .error .eof) : fin = .eof ∧ st.inp = [] ∧ st.stk = [] := by
  unfold rawToken at h
  split at h
  · exact absurd h (handleEnd_ne _ _)
  · split at h
    · rename_i hi
      by_cases hc : fin = .eof ∧ st.stk ≠ []
      · rw [if_pos hc] at h
        simp at h
      · rw [if_neg hc] at h
        obtain rfl : fin = .eof := by simpa using h
        exact ⟨rfl, hi, by simpa using hc⟩
    · rename_i b s hi
      exfalso
      by_cases hb : b ≠ 60
      · rw [if_pos hb] at h
        have h1 := lexText_ne (fin := fin) (quote := none) (b :: s)
        cases ht : lexText fin none (b :: s) with
        | ok p => simp [ht] at h
        | error e => rw [ht] at h1 h; simp at h; exact h1 (by rw [h])
      · rw [if_neg hb] at h
        cases s with
        | nil => simp [must_ne] at h
        | cons c t =>
          simp only at h
          by_cases h47 : c = 47
          · rw [if_pos h47] at h
            unfold lexEnd at h
            have h1 := readName_ne (fin := fin) t
            cases hn : readName fin t with
            | fail e => rw [hn] at h h1; simp at h; exact h1 (by rw [h])
            | missing r => simp [hn] at h
            | ok n r =>
              simp only [hn] at h
              split at h
              · simp [must_ne] at h
              · split at h
                · exact handleEnd_ne _ _ h
                · simp at h
          · rw [if_neg h47] at h
            by_cases h63 : c = 63
            · rw [if_pos h63] at h
              unfold lexPI at h
              have h1 := readName_ne (fin := fin) t
              cases hn : readName fin t with
              | fail e => rw [hn] at h h1; simp at h; exact h1 (by rw [h])
              | missing r => simp [hn] at h
              | ok n r =>
                simp only [hn] at h
                have h2 := skipPI_ne (fin := fin) (skipSpace r) 0
                cases hp : skipPI fin 0 (skipSpace r) with
                | ok p => simp [hp] at h
                | error e => rw [hp] at h h2; simp at h; exact h2 (by rw [h])
            · rw [if_neg h63] at h
              unfold lexStart at h
              have h1 := readName_ne (fin := fin) (c :: t)
              cases hn : readName fin (c :: t) with
              | fail e => rw [hn] at h h1; simp at h; exact h1 (by rw [h])
              | missing r => simp [hn] at h
              | ok n r =>
                simp only [hn] at h
                have h2 := lexAttrs_ne (fin := fin) (r.length + 1) r
                cases hp : lexAttrs fin (r.length + 1) r with
                | ok p => simp [hp] at h
                | error e => rw [hp] at h h2; simp at h; exact h2 (by rw [h])

theorem lexFuel_eof {fin : LexErr} : ∀ (f : Nat) (st : Lexer), (lexFuel fin f st).2 = .eof → fin = .eof
  | 0, _, h => by simp [lexFuel] at h
  | f + 1, st, h => by
    rw [lexFuel] at h
    cases hr : rawToken fin st with
    | error e =>
      simp only [hr] at h
      subst h
      exact (rawToken_eof hr).1
    | ok p =>
      simp only [hr] at h
      exact lexFuel_eof f _ h

theorem resolveAll_eof : ∀ (evs : List (Option Event)) (sc : Scopes) (e : LexErr), (resolveAll sc evs e).2 = .eof → e = .eof
  | [], sc, e, h => by
    simp only [resolveAll] at h
    split at h
    · simp at h
    · exact h
  | none :: evs, sc, e, h => resolveAll_eof evs sc e h
  | some (.chars _) :: evs, sc, e, h => resolveAll_eof evs sc e h
  | some (.start _ _) :: evs, sc, e, h => resolveAll_eof evs _ e h
  | some (.stop _) :: _, [], _, h => by simp [resolveAll] at h
  | some (.stop n) :: evs, (m, as) :: sc, e, h => by
    simp only [resolveAll] at h
    split at h
    · exact resolveAll_eof evs sc e h
    · simp at h

/-- If the tokens end with `io.EOF` then so does the source, and it is well-formed. -/
theorem lex_eof {fin : LexErr} {s : Str} (h : (lex fin (.new s)).2 = .eof) :
    fin = .eof ∧ (∃ is, Spec.MarkupOf .reader s is ∧ lex fin (.new s) = resolveAll [] (is.map MarkupItem.event) .eof) ∧
      openAfter [] (lex fin (.new s)).1 = some [] := by
  obtain rfl := lexFuel_eof _ _ h
  refine ⟨rfl, ?_, ?_⟩
  · have h1 := h
    rw [C24_resolve] at h1
    have h2 := resolveAll_eof _ _ _ h1
    obtain ⟨is, h3, h4⟩ := (C59_language s (rawTags .eof s).1).1 (Prod.ext rfl h2)
    exact ⟨is, h3, by rw [C24_resolve, h2, h4]⟩
  · obtain ⟨st, h1, h2⟩ := C24_balanced .eof s
    rw [h1, h2 h]

end Go3mf
