import Verif.Model.Xml

/-!
# Lemmas on the XML reader: consumption of the input
-/

namespace Go3mf

theorem readNameLoop_ok {fin : LexErr} : ∀ {s n r : Str}, readNameLoop fin s = .ok (n, r) →
    s = n ++ r ∧ (∀ b ∈ n, nameByte b = true) ∧ ∃ c t, r = c :: t ∧ nameByte c = false
  | [], n, r, h => by simp [readNameLoop] at h
  | b :: s, n, r, h => by
    simp only [readNameLoop] at h
    by_cases hb : nameByte b = true
    · simp only [hb, if_true] at h
      cases hl : readNameLoop fin s with
      | error e => simp [hl] at h
      | ok p =>
        obtain ⟨n', r'⟩ := p
        simp only [hl, Except.ok.injEq, Prod.mk.injEq] at h
        obtain ⟨rfl, rfl⟩ := h
        obtain ⟨h1, h2, h3⟩ := readNameLoop_ok hl
        refine ⟨by simp [h1], ?_, h3⟩
        intro x hx
        rcases List.mem_cons.1 hx with rfl | hx
        · exact hb
        · exact h2 x hx
    · simp only [hb, if_false, Bool.false_eq_true, Except.ok.injEq, Prod.mk.injEq] at h
      obtain ⟨rfl, rfl⟩ := h
      exact ⟨rfl, by simp, b, s, rfl, by simpa using hb⟩

theorem readName_ok {fin : LexErr} {s n r : Str} (h : readName fin s = .ok n r) :
    s = n ++ r ∧ n ≠ [] ∧ (∀ b ∈ n, nameByte b = true) ∧ ∃ c t, r = c :: t ∧ nameByte c = false := by
  cases s with
  | nil => simp [readName] at h
  | cons b s =>
    simp only [readName] at h
    by_cases hb : nameByte b = true
    · simp only [hb, if_true] at h
      cases hl : readNameLoop fin s with
      | error e => simp [hl] at h
      | ok p =>
        obtain ⟨n', r'⟩ := p
        simp only [hl, NameRes.ok.injEq] at h
        obtain ⟨rfl, rfl⟩ := h
        obtain ⟨h1, h2, h3⟩ := readNameLoop_ok hl
        refine ⟨by simp [h1], by simp, ?_, h3⟩
        intro x hx
        rcases List.mem_cons.1 hx with rfl | hx
        · exact hb
        · exact h2 x hx
    · simp [hb] at h

theorem readName_missing {fin : LexErr} {s r : Str} (h : readName fin s = .missing r) : r = s := by
  cases s with
  | nil => simp [readName] at h
  | cons b s =>
    simp only [readName] at h
    by_cases hb : nameByte b = true
    · simp only [hb, if_true] at h
      cases hl : readNameLoop fin s <;> simp [hl] at h
    · simpa [hb] using h.symm

/-- Reading a name followed by a byte that is not part of it. -/
theorem readNameLoop_append (fin : LexErr) {c : Byte} (hc : nameByte c = false) (t : Str) :
    ∀ {n : Str}, (∀ b ∈ n, nameByte b = true) → readNameLoop fin (n ++ c :: t) = .ok (n, c :: t)
  | [], _ => by simp [readNameLoop, hc]
  | b :: n, h => by
    simp [readNameLoop, h b (by simp), readNameLoop_append fin hc t (n := n) (fun x hx => h x (by simp [hx]))]

theorem readName_append (fin : LexErr) {c : Byte} (hc : nameByte c = false) (t : Str) {n : Str} (hn : n ≠ [])
    (h : ∀ b ∈ n, nameByte b = true) : readName fin (n ++ c :: t) = .ok n (c :: t) := by
  cases n with
  | nil => exact absurd rfl hn
  | cons b n =>
    simp [readName, h b (by simp), readNameLoop_append fin hc t (n := n) (fun x hx => h x (by simp [hx]))]

theorem skipSpace_length : ∀ s : Str, (skipSpace s).length ≤ s.length
  | [] => by simp [skipSpace]
  | b :: s => by
    simp only [skipSpace]
    split
    · have := skipSpace_length s
      simp; omega
    · simp

theorem spanDigits_append (hex : Bool) : ∀ s : Str, (spanDigits hex s).1 ++ (spanDigits hex s).2 = s
  | [] => rfl
  | b :: s => by
    simp only [spanDigits]
    split
    · simp [spanDigits_append hex s]
    · simp

theorem refDigits_length {fin : LexErr} {hex : Bool} {s d r : Str} (h : refDigits fin hex s = .ok (d, r)) :
    r.length < s.length ∧ r <:+ s := by
  unfold refDigits at h
  have happ := spanDigits_append hex s
  cases hs : (spanDigits hex s).2 with
  | nil => simp [hs] at h
  | cons c u =>
    rw [hs] at h happ
    simp only at h
    split at h
    · simp only [Except.ok.injEq, Prod.mk.injEq] at h
      obtain ⟨_, rfl⟩ := h
      refine ⟨?_, ?_⟩
      · rw [← happ]; simp; omega
      · rw [← happ]; exact ⟨(spanDigits hex s).1 ++ [c], by simp⟩
    · simp at h

theorem entityEnd_length {fin : LexErr} {n s d r : Str} (h : entityEnd fin n s = .ok (d, r)) :
    r.length < s.length ∧ r <:+ s := by
  unfold entityEnd at h
  cases s with
  | nil => simp at h
  | cons c u =>
    simp only at h
    split at h
    · cases he : entityTable n <;> simp [he] at h
      obtain ⟨_, rfl⟩ := h
      exact ⟨by simp, ⟨[c], rfl⟩⟩
    · simp at h

theorem entity_length {fin : LexErr} {s d r : Str} (h : entity fin s = .ok (d, r)) :
    r.length < s.length ∧ r <:+ s := by
  unfold entity at h
  cases s with
  | nil => simp at h
  | cons b s =>
    simp only at h
    by_cases hb : b = 35
    · rw [if_pos hb] at h
      cases s with
      | nil => simp at h
      | cons c u =>
        simp only at h
        split at h
        · obtain ⟨h1, ⟨p, h2⟩⟩ := refDigits_length h
          exact ⟨by simp; omega, ⟨b :: c :: p, by simp [h2]⟩⟩
        · obtain ⟨h1, ⟨p, h2⟩⟩ := refDigits_length h
          exact ⟨by simp at h1 ⊢; omega, ⟨b :: p, by simp [h2]⟩⟩
    · rw [if_neg hb] at h
      cases hr : readName fin (b :: s) with
      | fail e => simp [hr] at h
      | missing r' =>
        simp only [hr] at h
        rw [readName_missing hr] at h
        exact entityEnd_length h
      | ok n r' =>
        simp only [hr] at h
        obtain ⟨h1, _, _, _⟩ := readName_ok hr
        obtain ⟨h3, ⟨p, h4⟩⟩ := entityEnd_length h
        exact ⟨by rw [h1]; simp; omega, ⟨n ++ p, by rw [h1]; simp [h4]⟩⟩

theorem prepend_ok {d t r : Str} {x : Except LexErr (Str × Str)} (h : prepend d x = .ok (t, r)) :
    ∃ t', t = d ++ t' ∧ x = .ok (t', r) := by
  rcases x with e | ⟨t', r'⟩
  · simp [prepend] at h
  · simp only [prepend, Except.ok.injEq, Prod.mk.injEq] at h
    exact ⟨t', h.1.symm, by rw [h.2]⟩

theorem textGo_suffix {fin : LexErr} {q : Option Byte} : ∀ {s : Str} {k : Nat} {b1 : Byte} {t r : Str},
    textGo fin q k b1 s = .ok (t, r) → r <:+ s
  | [], k, b1, t, r, h => by cases k <;> simp [textGo] at h <;> simp [h]
  | b :: s, k + 1, b1, t, r, h => by
    simp only [textGo] at h
    exact (textGo_suffix h).trans (List.suffix_cons b s)
  | b :: s, 0, b1, t, r, h => by
    simp only [textGo] at h
    split at h
    · split at h
      · simp at h
      · simp only [Except.ok.injEq, Prod.mk.injEq] at h
        rw [← h.2]
        exact List.suffix_refl _
    · split at h
      · simp only [Except.ok.injEq, Prod.mk.injEq] at h
        rw [← h.2]
        exact List.suffix_cons b s
      · split at h
        · cases he : entity fin s with
          | error e => simp [he] at h
          | ok p =>
            simp only [he] at h
            obtain ⟨_, _, h'⟩ := prepend_ok h
            exact (textGo_suffix h').trans (List.suffix_cons b s)
        · split at h
          · obtain ⟨_, _, h'⟩ := prepend_ok h
            exact (textGo_suffix h').trans (List.suffix_cons b s)
          · split at h
            · exact (textGo_suffix h).trans (List.suffix_cons b s)
            · obtain ⟨_, _, h'⟩ := prepend_ok h
              exact (textGo_suffix h').trans (List.suffix_cons b s)

/-- Skipping the bytes of an entity. -/
theorem textGo_skip (fin : LexErr) (q : Option Byte) (b1 : Byte) : ∀ (k : Nat) (s : Str),
    textGo fin q k b1 s = textGo fin q 0 b1 (s.drop k)
  | 0, s => by simp
  | k + 1, [] => by simp [textGo]
  | k + 1, b :: s => by simp [textGo, textGo_skip fin q b1 k s]

/-- The step of `text` at an entity. -/
theorem textGo_entity (fin : LexErr) (q : Option Byte) (hq : q ≠ some 38) (b1 : Byte) {s d r : Str}
    (h : entity fin s = .ok (d, r)) :
    textGo fin q 0 b1 (38 :: s) = prepend d (textGo fin q 0 0 r) := by
  obtain ⟨_, ⟨p, hp⟩⟩ := entity_length h
  have hq' : ¬ q = some 38 := hq
  simp only [textGo, h]
  rw [if_neg (by decide), if_neg hq', if_pos trivial, textGo_skip]
  congr 2
  subst hp
  simp

theorem lexText_none_lt {fin : LexErr} {b : Byte} {s t r : Str} (hb : b ≠ 60)
    (h : lexText fin none (b :: s) = .ok (t, r)) : r.length ≤ s.length := by
  unfold lexText at h
  simp only [textGo, if_neg hb] at h
  simp only [reduceCtorEq, if_false] at h
  split at h
  · cases he : entity fin s with
    | error e => simp [he] at h
    | ok p =>
      simp only [he] at h
      obtain ⟨_, _, h'⟩ := prepend_ok h
      exact (textGo_suffix h').length_le
  · split at h
    · obtain ⟨_, _, h'⟩ := prepend_ok h
      exact (textGo_suffix h').length_le
    · split at h
      · exact (textGo_suffix h).length_le
      · obtain ⟨_, _, h'⟩ := prepend_ok h
        exact (textGo_suffix h').length_le

theorem attrval_length {fin : LexErr} {s v r : Str} (h : attrval fin s = .ok (v, r)) : r.length < s.length := by
  cases s with
  | nil => simp [attrval] at h
  | cons b s =>
    simp only [attrval] at h
    split at h
    · have := (textGo_suffix h).length_le
      simp; omega
    · simp at h

/-! ## The attributes -/

/-- One step of the loop over the attributes: the end of the tag, or an attribute and the rest. -/
inductive AttrStep where
  | done (empty : Bool) (rest : Str)
  | attr (a : Attr) (rest : Str)
  | fail (e : LexErr)

def attrStep (fin : LexErr) (s : Str) : AttrStep :=
  match skipSpace s with
  | [] => .fail fin.must
  | b :: t =>
    if b = 47 then
      match t with
      | [] => .fail fin.must
      | c :: r => if c = 62 then .done true r else .fail .syntax
    else if b = 62 then .done false t
    else match readName fin (b :: t) with
      | .fail e => .fail e
      | .missing _ => .fail .syntax
      | .ok n r =>
        match skipSpace r with
        | [] => .fail fin.must
        | c :: u =>
          if c ≠ 61 then .fail .syntax
          else match attrval fin (skipSpace u) with
            | .error e => .fail e
            | .ok (v, w) => .attr ⟨toName n, v⟩ w

theorem lexAttrs_step (fin : LexErr) (fuel : Nat) (s : Str) : lexAttrs fin (fuel + 1) s =
    match attrStep fin s with
    | .fail e => .error e
    | .done empty r => .ok ([], empty, r)
    | .attr a w =>
      match lexAttrs fin fuel w with
      | .error e => .error e
      | .ok (as, empty, z) => .ok (a :: as, empty, z) := by
  unfold attrStep
  rw [lexAttrs]
  cases skipSpace s with
  | nil => rfl
  | cons b t =>
    simp only
    by_cases h1 : b = 47
    · simp only [h1, if_true]
      cases t with
      | nil => rfl
      | cons c r =>
        simp only
        by_cases h2 : c = 62 <;> simp [h2]
    · rw [if_neg h1, if_neg h1]
      by_cases h2 : b = 62
      · simp [h2]
      · rw [if_neg h2, if_neg h2]
        cases readName fin (b :: t) with
        | fail e => rfl
        | missing r => rfl
        | ok n r =>
          simp only
          cases skipSpace r with
          | nil => rfl
          | cons c u =>
            simp only
            by_cases h3 : c ≠ 61
            · simp [h3]
            · rw [if_neg h3, if_neg h3]
              rcases attrval fin (skipSpace u) with e | ⟨v, w⟩ <;> rfl

theorem attrStep_length {fin : LexErr} {s : Str} :
    (∀ {empty r}, attrStep fin s = .done empty r → r.length < s.length) ∧
    (∀ {a w}, attrStep fin s = .attr a w → w.length < s.length) := by
  have hs := skipSpace_length s
  unfold attrStep
  cases hk : skipSpace s with
  | nil => simp
  | cons b t =>
    rw [hk] at hs
    simp only [List.length_cons] at hs
    simp only
    by_cases h1 : b = 47
    · simp only [h1, if_true]
      cases t with
      | nil => simp
      | cons c r =>
        by_cases h2 : c = 62
        · simp only [h2, if_true, AttrStep.done.injEq, reduceCtorEq, false_implies, implies_true, and_true]
          rintro _ _ ⟨_, rfl⟩
          simp at hs; omega
        · simp [h2]
    · rw [if_neg h1]
      by_cases h2 : b = 62
      · simp only [h2, if_true, AttrStep.done.injEq, reduceCtorEq, false_implies, implies_true, and_true]
        rintro _ _ ⟨_, rfl⟩
        omega
      · rw [if_neg h2]
        cases hr : readName fin (b :: t) with
        | fail e => simp
        | missing r => simp
        | ok n r =>
          simp only
          obtain ⟨h3, h4, _, _⟩ := readName_ok hr
          have hlen : r.length < t.length + 1 := by
            have := congrArg List.length h3
            have := List.length_pos_iff.2 h4
            simp at *; omega
          have hs2 := skipSpace_length r
          cases hk2 : skipSpace r with
          | nil => simp
          | cons c u =>
            rw [hk2] at hs2
            simp only [List.length_cons] at hs2
            simp only
            by_cases h5 : c ≠ 61
            · simp [h5]
            · rw [if_neg h5]
              cases ha : attrval fin (skipSpace u) with
              | error e => simp
              | ok p =>
                obtain ⟨v, w⟩ := p
                have h6 := attrval_length ha
                have h7 := skipSpace_length u
                refine ⟨fun h => by simp at h, fun h => ?_⟩
                simp only [AttrStep.attr.injEq] at h
                rw [← h.2]
                omega

theorem lexAttrs_length {fin : LexErr} : ∀ {fuel : Nat} {s : Str} {as : List Attr} {e : Bool} {r : Str},
    lexAttrs fin fuel s = .ok (as, e, r) → r.length < s.length
  | 0, _, _, _, _, h => by simp [lexAttrs] at h
  | fuel + 1, s, as, e, r, h => by
    rw [lexAttrs_step] at h
    cases hs : attrStep fin s with
    | fail e => simp [hs] at h
    | done empty r' =>
      simp only [hs, Except.ok.injEq, Prod.mk.injEq] at h
      rw [← h.2.2]
      exact attrStep_length.1 hs
    | attr a w =>
      simp only [hs] at h
      cases hl : lexAttrs fin fuel w with
      | error e => simp [hl] at h
      | ok p =>
        obtain ⟨as', e', z⟩ := p
        simp only [hl, Except.ok.injEq, Prod.mk.injEq] at h
        have h1 := attrStep_length.2 hs
        have h2 := lexAttrs_length hl
        rw [← h.2.2]
        omega

/-- The number of iterations allowed does not matter once it exceeds the length of the input. -/
theorem lexAttrs_fuel (fin : LexErr) : ∀ {f g : Nat} {s : Str}, s.length < f → s.length < g →
    lexAttrs fin f s = lexAttrs fin g s
  | 0, _, _, h, _ => by omega
  | _ + 1, 0, _, _, h => by omega
  | f + 1, g + 1, s, hf, hg => by
    rw [lexAttrs_step, lexAttrs_step]
    cases hs : attrStep fin s with
    | fail e => rfl
    | done empty r => rfl
    | attr a w =>
      have := attrStep_length.2 hs
      simp only
      rw [lexAttrs_fuel fin (f := f) (g := g) (s := w) (by omega) (by omega)]

/-! ## The tokens -/

theorem skipPI_length {fin : LexErr} : ∀ {s r : Str} {b : Byte}, skipPI fin b s = .ok r → r.length < s.length
  | [], _, _, h => by simp [skipPI] at h
  | b :: s, r, b0, h => by
    simp only [skipPI] at h
    split at h
    · simp only [Except.ok.injEq] at h
      simp [h]
    · have := skipPI_length h
      simp; omega

theorem handleEnd_ok {st st' : Lexer} {n : Name} {ev : Event} (h : handleEnd st n = .ok (ev, st')) :
    ev = .stop (translate st.ns true n) ∧ ∃ s, st.stk = .elem (translate st.ns true n) :: s ∧
      st' = { st with stk := (undo s st.ns).1, ns := (undo s st.ns).2 } := by
  unfold handleEnd at h
  cases hs : st.stk with
  | nil => simp [hs] at h
  | cons x s =>
    cases x with
    | ns l o => simp [hs] at h
    | elem m =>
      simp only [hs] at h
      split at h
      · simp at h
      · rename_i hm
        simp only [not_or, Decidable.not_not] at hm
        simp only [Except.ok.injEq, Prod.mk.injEq] at h
        refine ⟨h.1.symm, s, ?_, h.2.symm⟩
        congr 2
        cases m
        simp only at hm
        rw [Name.mk.injEq]
        exact ⟨hm.2, hm.1⟩

theorem tokenRes_of_ok {x : Except LexErr (Event × Lexer)} {ev : Option Event} {st : Lexer}
    (h : TokenRes.of x = .ok (ev, st)) : ∃ e, ev = some e ∧ x = .ok (e, st) := by
  rcases x with e | ⟨e, s⟩
  · simp [TokenRes.of] at h
  · simp only [TokenRes.of, Except.ok.injEq, Prod.mk.injEq] at h
    exact ⟨e, h.1.symm, by rw [h.2]⟩

theorem rawToken_size {fin : LexErr} {st st' : Lexer} {ev : Option Event} (h : rawToken fin st = .ok (ev, st')) :
    st'.size < st.size := by
  unfold rawToken at h
  cases hc : st.close with
  | some n =>
    simp only [hc] at h
    obtain ⟨e, _, he⟩ := tokenRes_of_ok h
    obtain ⟨_, s, _, rfl⟩ := handleEnd_ok he
    simp [Lexer.size, hc]
  | none =>
    simp only [hc] at h
    cases hi : st.inp with
    | nil => simp [hi] at h
    | cons b s =>
      simp only [hi] at h
      by_cases hb : b ≠ 60
      · rw [if_pos hb] at h
        cases ht : lexText fin none (b :: s) with
        | error e => simp [ht] at h
        | ok p =>
          obtain ⟨t, r⟩ := p
          simp only [ht, Except.ok.injEq, Prod.mk.injEq] at h
          rw [← h.2]
          have := lexText_none_lt hb ht
          simp [Lexer.size, hc, hi]; omega
      · rw [if_neg hb] at h
        cases s with
        | nil => simp at h
        | cons c t =>
          simp only at h
          by_cases h1 : c = 47
          · rw [if_pos h1] at h
            unfold lexEnd at h
            cases hr : readName fin t with
            | fail e => simp [hr] at h
            | missing r => simp [hr] at h
            | ok n r =>
              simp only [hr] at h
              have hk := skipSpace_length r
              cases hs : skipSpace r with
              | nil => simp [hs] at h
              | cons d u =>
                simp only [hs] at h
                split at h
                · obtain ⟨e, _, he⟩ := tokenRes_of_ok h
                  obtain ⟨_, s, _, rfl⟩ := handleEnd_ok he
                  obtain ⟨h3, _, _, _⟩ := readName_ok hr
                  rw [hs] at hk
                  have := congrArg List.length h3
                  simp [Lexer.size, hc, hi] at *; omega
                · simp at h
          · rw [if_neg h1] at h
            by_cases h2 : c = 63
            · rw [if_pos h2] at h
              unfold lexPI at h
              cases hr : readName fin t with
              | fail e => simp [hr] at h
              | missing r => simp [hr] at h
              | ok n r =>
                simp only [hr] at h
                cases hp : skipPI fin 0 (skipSpace r) with
                | error e => simp [hp] at h
                | ok u =>
                  simp only [hp, Except.ok.injEq, Prod.mk.injEq] at h
                  obtain ⟨h3, _, _, _⟩ := readName_ok hr
                  have := congrArg List.length h3
                  have := skipPI_length hp
                  have := skipSpace_length r
                  rw [← h.2]
                  simp [Lexer.size, hc, hi] at *; omega
            · rw [if_neg h2] at h
              unfold lexStart at h
              cases hr : readName fin (c :: t) with
              | fail e => simp [hr] at h
              | missing r => simp [hr] at h
              | ok n r =>
                simp only [hr] at h
                cases hl : lexAttrs fin (r.length + 1) r with
                | error e => simp [hl] at h
                | ok p =>
                  obtain ⟨as, e, u⟩ := p
                  simp only [hl, Except.ok.injEq, Prod.mk.injEq] at h
                  obtain ⟨h3, _, _, _⟩ := readName_ok hr
                  have := congrArg List.length h3
                  have := lexAttrs_length hl
                  rw [← h.2]
                  simp [Lexer.size, hc, hi, handleStart] at *
                  split <;> omega

theorem lexFuel_eq (fin : LexErr) : ∀ {f g : Nat} {st : Lexer}, st.size < f → st.size < g →
    lexFuel fin f st = lexFuel fin g st
  | 0, _, _, h, _ => by omega
  | _ + 1, 0, _, _, h => by omega
  | f + 1, g + 1, st, hf, hg => by
    simp only [lexFuel]
    cases hr : rawToken fin st with
    | error e => rfl
    | ok p =>
      obtain ⟨ev, st'⟩ := p
      have := rawToken_size hr
      simp only
      rw [lexFuel_eq fin (f := f) (g := g) (st := st') (by omega) (by omega)]

/-- The reader calls `RawToken` until it fails: the bound on the number of calls is never reached. -/
theorem lex_eq (fin : LexErr) (st : Lexer) : lex fin st =
    match rawToken fin st with
    | .error e => ([], e)
    | .ok (ev, st') => (ev :: (lex fin st').1, (lex fin st').2) := by
  unfold lex
  rw [lexFuel]
  cases hr : rawToken fin st with
  | error e => rfl
  | ok p =>
    obtain ⟨ev, st'⟩ := p
    have := rawToken_size hr
    simp only
    rw [lexFuel_eq fin (f := st.size) (g := st'.size + 1) (st := st') (by omega) (by omega)]

theorem lex_error {fin : LexErr} {st : Lexer} {e : LexErr} (h : rawToken fin st = .error e) :
    lex fin st = ([], e) := by rw [lex_eq, h]

theorem lex_ok {fin : LexErr} {st st' : Lexer} {ev : Option Event} (h : rawToken fin st = .ok (ev, st')) :
    lex fin st = (ev :: (lex fin st').1, (lex fin st').2) := by rw [lex_eq, h]

end Go3mf
