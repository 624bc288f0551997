import Verif.Lemmas.Xml

/-!
# C90: the XML reader does not amplify

A document cannot be made to expand: the local names, the values of attributes and the text that the reader hands to its
caller are together no longer than the document.  References stand for at most as many bytes as they take, and there are
no declared entities.

The statements count the bytes of the events with functions that are defined here.  Name spaces are not counted: the
reader hands out the same string for each element that uses a declaration.
-/

namespace Go3mf
namespace Spec

/-- The bytes of an attribute: one for the attribute itself, its local name and its value. -/
def attrBytes (a : Attr) : Nat := 1 + a.name.loc.length + a.value.length

/-- The bytes of an event, without end tags. -/
def openBytes : Event → Nat
  | .start n as => 1 + n.loc.length + (as.map attrBytes).sum
  | .stop _ => 0
  | .chars t => t.length

/-- The bytes of an event, with end tags. -/
def allBytes : Event → Nat
  | .start n as => 1 + n.loc.length + (as.map attrBytes).sum
  | .stop n => n.loc.length
  | .chars t => t.length

/-- The bytes of the result of one call. -/
def optBytes (f : Event → Nat) : Option Event → Nat
  | none => 0
  | some e => f e

end Spec

open Spec

/-! ## References and text -/

theorem encodeRune_le (n : Nat) : (encodeRune n).length ≤ 4 := by
  unfold encodeRune
  split
  · simp
  · split
    · simp
    · split
      · simp
      · split <;> simp

theorem refDigits_gain {fin : LexErr} {hex : Bool} {s d r : Str} (h : refDigits fin hex s = .ok (d, r)) :
    r.length + 2 ≤ s.length ∧ d.length ≤ 4 := by
  unfold refDigits at h
  have happ := congrArg List.length (spanDigits_append hex s)
  cases hs : (spanDigits hex s).2 with
  | nil => simp [hs] at h
  | cons c u =>
    rw [hs] at h happ
    simp only at h
    split at h
    · rename_i hc
      simp only [Except.ok.injEq, Prod.mk.injEq] at h
      obtain ⟨rfl, rfl⟩ := h
      have := List.length_pos_iff.2 hc.2.1
      refine ⟨?_, encodeRune_le _⟩
      simp only [List.length_append, List.length_cons] at happ
      omega
    · simp at h

theorem entityEnd_gain {fin : LexErr} {n s d r : Str} (h : entityEnd fin n s = .ok (d, r)) :
    d.length + r.length ≤ s.length := by
  unfold entityEnd at h
  cases s with
  | nil => simp at h
  | cons c u =>
    simp only at h
    split at h
    · cases he : entityTable n <;> simp [he] at h
      obtain ⟨rfl, rfl⟩ := h
      simp; omega
    · simp at h

theorem entity_gain {fin : LexErr} {s d r : Str} (h : entity fin s = .ok (d, r)) :
    d.length + r.length ≤ s.length + 1 := by
  unfold entity at h
  cases s with
  | nil => simp at h
  | cons b s =>
    simp only at h
    by_cases hb : b = 35
    · rw [if_pos hb] at h
      cases s with
      | nil => simp at h
      | cons c u =>
        simp only at h
        split at h
        · obtain ⟨h1, h2⟩ := refDigits_gain h
          simp; omega
        · obtain ⟨h1, h2⟩ := refDigits_gain h
          simp at h1 ⊢; omega
    · rw [if_neg hb] at h
      cases hr : readName fin (b :: s) with
      | fail e => simp [hr] at h
      | missing r' =>
        simp only [hr] at h
        rw [readName_missing hr] at h
        have := entityEnd_gain h
        omega
      | ok n r' =>
        simp only [hr] at h
        obtain ⟨h1, _, _, _⟩ := readName_ok hr
        have := entityEnd_gain h
        have := congrArg List.length h1
        simp at this ⊢
        omega

theorem textGo_gain {fin : LexErr} {q : Option Byte} : ∀ {s : Str} {k : Nat} {b1 : Byte} {t r : Str}, k ≤ s.length →
    textGo fin q k b1 s = .ok (t, r) → t.length + r.length + k ≤ s.length
  | [], k, b1, t, r, hk, h => by cases k <;> simp [textGo] at h hk <;> simp [h]
  | b :: s, k + 1, b1, t, r, hk, h => by
    simp only [textGo] at h
    have := textGo_gain (by simpa using hk) h
    simp; omega
  | b :: s, 0, b1, t, r, hk, h => by
    simp only [textGo] at h
    split at h
    · split at h
      · simp at h
      · simp only [Except.ok.injEq, Prod.mk.injEq] at h
        rw [← h.1, ← h.2]
        simp
    · split at h
      · simp only [Except.ok.injEq, Prod.mk.injEq] at h
        rw [← h.1, ← h.2]
        simp
      · split at h
        · cases he : entity fin s with
          | error e => simp [he] at h
          | ok p =>
            simp only [he] at h
            obtain ⟨t', rfl, h'⟩ := prepend_ok h
            have h1 := textGo_gain (by omega) h'
            have h2 := entity_gain (d := p.1) (r := p.2) he
            have h3 := (entity_length (d := p.1) (r := p.2) he).1
            simp; omega
        · split at h
          · obtain ⟨t', rfl, h'⟩ := prepend_ok h
            have := textGo_gain (Nat.zero_le _) h'
            simp; omega
          · split at h
            · have := textGo_gain (Nat.zero_le _) h
              simp; omega
            · obtain ⟨t', rfl, h'⟩ := prepend_ok h
              have := textGo_gain (Nat.zero_le _) h'
              simp; omega

theorem attrval_gain {fin : LexErr} {s v r : Str} (h : attrval fin s = .ok (v, r)) :
    v.length + r.length + 1 ≤ s.length := by
  cases s with
  | nil => simp [attrval] at h
  | cons b s =>
    simp only [attrval] at h
    split at h
    · have := textGo_gain (Nat.zero_le _) h
      simp; omega
    · simp at h

/-! ## Names and attributes -/

theorem splitColon_gain : ∀ {s p l : Str}, splitColon s = some (p, l) → l.length ≤ s.length
  | [], p, l, h => by simp [splitColon] at h
  | c :: s, p, l, h => by
    simp only [splitColon] at h
    split at h
    · simp only [Option.some.injEq, Prod.mk.injEq] at h
      simp [h.2]
    · rw [Option.map_eq_some_iff] at h
      obtain ⟨⟨p', l'⟩, h1, h2⟩ := h
      simp only [Prod.mk.injEq] at h2
      have := splitColon_gain h1
      rw [← h2.2]
      simp; omega

theorem toName_gain (s : Str) : (toName s).loc.length ≤ s.length := by
  unfold toName
  cases h : splitColon s with
  | none => simp
  | some p => exact splitColon_gain (p := p.1) h

theorem translate_loc (ns : StrMap) (e : Bool) (n : Name) : (translate ns e n).loc = n.loc := by
  unfold translate lookupSpace
  split
  · rfl
  · split
    · rfl
    · split
      · split <;> rfl
      · split
        · rfl
        · split <;> rfl

theorem attrStep_gain {fin : LexErr} {s : Str} {a : Attr} {w : Str} (h : attrStep fin s = .attr a w) :
    attrBytes a + w.length ≤ s.length := by
  have hs := skipSpace_length s
  unfold attrStep at h
  cases hk : skipSpace s with
  | nil => simp [hk] at h
  | cons b t =>
    rw [hk] at hs h
    simp only at h
    split at h
    · cases t with
      | nil => simp at h
      | cons c r =>
        simp only at h
        split at h <;> simp at h
    · split at h
      · simp at h
      · cases hr : readName fin (b :: t) with
        | fail e => simp [hr] at h
        | missing r => simp [hr] at h
        | ok n r =>
          simp only [hr] at h
          have h3 := congrArg List.length (readName_ok hr).1
          have hs2 := skipSpace_length r
          cases hk2 : skipSpace r with
          | nil => simp [hk2] at h
          | cons c u =>
            rw [hk2] at hs2 h
            simp only at h
            split at h
            · simp at h
            · cases ha : attrval fin (skipSpace u) with
              | error e => simp [ha] at h
              | ok p =>
                obtain ⟨v, w'⟩ := p
                simp only [ha, AttrStep.attr.injEq] at h
                obtain ⟨rfl, rfl⟩ := h
                have h6 := attrval_gain ha
                have h7 := skipSpace_length u
                have h8 := toName_gain n
                simp only [attrBytes, List.length_cons, List.length_append] at *
                omega

theorem lexAttrs_gain {fin : LexErr} : ∀ {fuel : Nat} {s : Str} {as : List Attr} {e : Bool} {r : Str},
    lexAttrs fin fuel s = .ok (as, e, r) → (as.map attrBytes).sum + r.length + 1 ≤ s.length
  | 0, _, _, _, _, h => by simp [lexAttrs] at h
  | fuel + 1, s, as, e, r, h => by
    rw [lexAttrs_step] at h
    cases hs : attrStep fin s with
    | fail e => simp [hs] at h
    | done empty r' =>
      simp only [hs, Except.ok.injEq, Prod.mk.injEq] at h
      have := attrStep_length.1 hs
      rw [← h.1, ← h.2.2]
      simp; omega
    | attr a w =>
      simp only [hs] at h
      cases hl : lexAttrs fin fuel w with
      | error e => simp [hl] at h
      | ok p =>
        obtain ⟨as', e', z⟩ := p
        simp only [hl, Except.ok.injEq, Prod.mk.injEq] at h
        have h1 := attrStep_gain hs
        have h2 := lexAttrs_gain hl
        rw [← h.1, ← h.2.2]
        simp; omega

/-! ## One call -/

/-- The length of the name that is still to be closed. -/
def closeBytes (st : Lexer) : Nat :=
  match st.close with
  | none => 0
  | some n => n.loc.length

theorem rawToken_gain {fin : LexErr} {st st' : Lexer} {ev : Option Event} (h : rawToken fin st = .ok (ev, st')) :
    optBytes openBytes ev + st'.inp.length ≤ st.inp.length ∧
    optBytes allBytes ev + (2 * st'.inp.length + closeBytes st') ≤ 2 * st.inp.length + closeBytes st := by
  unfold rawToken at h
  cases hc : st.close with
  | some n =>
    simp only [hc] at h
    obtain ⟨e, rfl, he⟩ := tokenRes_of_ok h
    obtain ⟨rfl, s, _, rfl⟩ := handleEnd_ok he
    simp [optBytes, openBytes, allBytes, closeBytes, hc, translate_loc]
    omega
  | none =>
    simp only [hc] at h
    cases hi : st.inp with
    | nil => simp [hi] at h
    | cons b s =>
      simp only [hi] at h
      by_cases hb : b ≠ 60
      · rw [if_pos hb] at h
        cases ht : lexText fin none (b :: s) with
        | error e => simp [ht] at h
        | ok p =>
          obtain ⟨t, r⟩ := p
          simp only [ht, Except.ok.injEq, Prod.mk.injEq] at h
          have := textGo_gain (Nat.zero_le _) ht
          rw [← h.1, ← h.2]
          simp [optBytes, openBytes, allBytes, closeBytes, hc] at *
          omega
      · rw [if_neg hb] at h
        cases s with
        | nil => simp at h
        | cons c t =>
          simp only at h
          by_cases h1 : c = 47
          · rw [if_pos h1] at h
            unfold lexEnd at h
            cases hr : readName fin t with
            | fail e => simp [hr] at h
            | missing r => simp [hr] at h
            | ok n r =>
              simp only [hr] at h
              have hk := skipSpace_length r
              cases hs : skipSpace r with
              | nil => simp [hs] at h
              | cons d u =>
                simp only [hs] at h
                split at h
                · obtain ⟨e, rfl, he⟩ := tokenRes_of_ok h
                  obtain ⟨rfl, s, _, rfl⟩ := handleEnd_ok he
                  have h3 := congrArg List.length (readName_ok hr).1
                  have h4 := toName_gain n
                  rw [hs] at hk
                  simp [optBytes, openBytes, allBytes, closeBytes, hc, translate_loc] at *
                  omega
                · simp at h
          · rw [if_neg h1] at h
            by_cases h2 : c = 63
            · rw [if_pos h2] at h
              unfold lexPI at h
              cases hr : readName fin t with
              | fail e => simp [hr] at h
              | missing r => simp [hr] at h
              | ok n r =>
                simp only [hr] at h
                cases hp : skipPI fin 0 (skipSpace r) with
                | error e => simp [hp] at h
                | ok u =>
                  simp only [hp, Except.ok.injEq, Prod.mk.injEq] at h
                  have h3 := congrArg List.length (readName_ok hr).1
                  have := skipPI_length hp
                  have := skipSpace_length r
                  rw [← h.1, ← h.2]
                  simp [optBytes, closeBytes, hc] at *
                  omega
            · rw [if_neg h2] at h
              unfold lexStart at h
              cases hr : readName fin (c :: t) with
              | fail e => simp [hr] at h
              | missing r => simp [hr] at h
              | ok n r =>
                simp only [hr] at h
                cases hl : lexAttrs fin (r.length + 1) r with
                | error e => simp [hl] at h
                | ok p =>
                  obtain ⟨as, e, u⟩ := p
                  simp only [hl, Except.ok.injEq, Prod.mk.injEq] at h
                  have h3 := congrArg List.length (readName_ok hr).1
                  have h4 := toName_gain n
                  have h5 := lexAttrs_gain hl
                  have h6 : ∀ ns : StrMap, ((as.map fun a => { a with name := translate ns false a.name }).map attrBytes) =
                      as.map attrBytes := by
                    intro ns
                    rw [List.map_map]
                    exact List.map_congr_left fun a _ => by simp [attrBytes, translate_loc]
                  rw [← h.1, ← h.2]
                  cases e <;>
                  simp only [handleStart, optBytes, openBytes, allBytes, closeBytes, hc, translate_loc, h6,
                    List.length_cons, List.length_append, if_true, if_false, Bool.false_eq_true] at * <;>
                  omega

/-! ## The document -/

theorem lex_gain (fin : LexErr) : ∀ (k : Nat) (st : Lexer), st.size ≤ k →
    ((lex fin st).1.map (optBytes openBytes)).sum ≤ st.inp.length ∧
    ((lex fin st).1.map (optBytes allBytes)).sum ≤ 2 * st.inp.length + closeBytes st := by
  intro k
  induction k with
  | zero =>
    intro st hk
    cases hr : rawToken fin st with
    | error e => simp [lex_error hr]
    | ok p => have := rawToken_size (ev := p.1) (st' := p.2) hr; omega
  | succ k ih =>
    intro st hk
    cases hr : rawToken fin st with
    | error e => simp [lex_error hr]
    | ok p =>
      obtain ⟨ev, st'⟩ := p
      have h1 := rawToken_size hr
      obtain ⟨h2, h3⟩ := rawToken_gain hr
      obtain ⟨h4, h5⟩ := ih st' (by omega)
      rw [lex_ok hr]
      simp only [List.map_cons, List.sum_cons]
      omega

/-- The names of elements and attributes, the values and the text of a document are together no longer than the document,
even if one byte is counted for each element and for each attribute. -/
theorem C90_open (fin : LexErr) (doc : Str) :
    ((lex fin (.new doc)).1.map (optBytes openBytes)).sum ≤ doc.length :=
  (lex_gain fin _ (.new doc) (Nat.le_refl _)).1

/-- With the names of end tags, including those that the reader adds for `<a/>`: at most twice the length. -/
theorem C90_all (fin : LexErr) (doc : Str) :
    ((lex fin (.new doc)).1.map (optBytes allBytes)).sum ≤ 2 * doc.length :=
  (lex_gain fin _ (.new doc) (Nat.le_refl _)).2

/-- A reference takes at least as many bytes as it stands for: text is never longer than the bytes it is read from. -/
theorem C90_text (fin : LexErr) (quote : Option Byte) {s t r : Str} (h : lexText fin quote s = .ok (t, r)) :
    t.length + r.length ≤ s.length :=
  textGo_gain (Nat.zero_le _) h

/-- A document with references, an attribute and an empty element: the bound is not far away. -/
example : ((lex .eof (.new b!"<abc d='&lt;&#x10FFFF;'>hello<e/></abc>")).1.map (optBytes openBytes)).sum = 18 ∧
    ((lex .eof (.new b!"<abc d='&lt;&#x10FFFF;'>hello<e/></abc>")).1.map (optBytes allBytes)).sum = 22 ∧
    (b!"<abc d='&lt;&#x10FFFF;'>hello<e/></abc>").length = 39 := by decide +kernel

/-- The bound of `C90_open` is reached by a text. -/
example : ((lex .eof (.new b!"hello")).1.map (optBytes openBytes)).sum = 5 := by decide +kernel

end Go3mf
