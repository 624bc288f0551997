import Verif.Lemmas.Xml
import Verif.Lemmas.Utf8

/-!
# C22: text and attribute escaping is safe and reversible
-/

namespace Go3mf

open Spec

/-! ## The text that the reader gets back -/

/-- The character that the reader gets back for an ASCII character. -/
def cleanASCII (c : Byte) : Str :=
  if c = 9 ∨ c = 10 ∨ c = 13 then [c] else if c < 0x20 then replacement else [c]

def cleanGo : Nat → Bool → Str → Str
  | _, _, [] => []
  | k + 1, copy, b :: s => (if copy then [b] else []) ++ cleanGo k copy s
  | 0, _, b :: s =>
    if b < 0x80 then cleanASCII b ++ cleanGo 0 false s
    else match runeLen (b :: s) with
      | 0 => replacement ++ cleanGo 0 false s
      | n + 1 =>
        if isNonChar (b :: s) then replacement ++ cleanGo n false s
        else b :: cleanGo n true s

theorem prepend_prepend (a b : Str) (x : Except LexErr (Str × Str)) :
    prepend a (prepend b x) = prepend (a ++ b) x := by
  rcases x with e | ⟨t, r⟩ <;> simp [prepend]

theorem prepend_nil (x : Except LexErr (Str × Str)) : prepend [] x = x := by
  rcases x with e | ⟨t, r⟩ <;> simp [prepend]

/-- A byte that is copied by `text`. -/
theorem textGo_plain {fin : LexErr} {q : Option Byte} {b : Byte} (b1 : Byte) (u : Str) (h1 : b ≠ 60) (h2 : q ≠ some b)
    (h3 : b ≠ 38) (h4 : b ≠ 13) (h5 : b ≠ 10) : textGo fin q 0 b1 (b :: u) = prepend [b] (textGo fin q 0 b u) := by
  simp only [textGo]
  rw [if_neg h1, if_neg h2, if_neg h3, if_neg h4, if_neg (fun h => h5 h.2)]

theorem textGo_replacement {fin : LexErr} {q : Option Byte} (hq : q = none ∨ q = some 34 ∨ q = some 39) {u : Str}
    {X : Except LexErr (Str × Str)} (hu : ∀ b1, textGo fin q 0 b1 u = X) (b1 : Byte) :
    textGo fin q 0 b1 (replacement ++ u) = prepend replacement X := by
  have hne : ∀ b : Byte, b = 0xEF ∨ b = 0xBF ∨ b = 0xBD → q ≠ some b := by
    rintro b (rfl | rfl | rfl) <;> rcases hq with rfl | rfl | rfl <;> simp
  have e : replacement ++ u = 0xEF :: 0xBF :: 0xBD :: u := rfl
  rw [e, textGo_plain _ _ (by decide) (hne _ (by simp)) (by decide) (by decide) (by decide),
    textGo_plain _ _ (by decide) (hne _ (by simp)) (by decide) (by decide) (by decide),
    textGo_plain _ _ (by decide) (hne _ (by simp)) (by decide) (by decide) (by decide), hu,
    prepend_prepend, prepend_prepend]
  rfl

theorem textGo_escapeASCII {fin : LexErr} {q : Option Byte} (hq : q = none ∨ q = some 34 ∨ q = some 39) {u : Str}
    {X : Except LexErr (Str × Str)} (hu : ∀ b1, textGo fin q 0 b1 u = X) (b1 : Byte) (c : Byte) :
    textGo fin q 0 b1 (escapeASCII c ++ u) = prepend (cleanASCII c) X := by
  have h38 : q ≠ some 38 := by rcases hq with rfl | rfl | rfl <;> simp
  have ent : ∀ (d e : Str), (∀ v, entity fin (e ++ v) = .ok (d, v)) →
      textGo fin q 0 b1 ((38 :: e) ++ u) = prepend d X := by
    intro d e h
    rw [List.cons_append, textGo_entity fin q h38 b1 (h u), hu]
  unfold escapeASCII
  by_cases h1 : c = 34
  · subst h1; exact ent [34] b!"#34;" (fun v => rfl)
  rw [if_neg h1]
  by_cases h2 : c = 39
  · subst h2; exact ent [39] b!"#39;" (fun v => rfl)
  rw [if_neg h2]
  by_cases h3 : c = 38
  · subst h3; exact ent [38] b!"amp;" (fun v => rfl)
  rw [if_neg h3]
  by_cases h4 : c = 60
  · subst h4; exact ent [60] b!"lt;" (fun v => rfl)
  rw [if_neg h4]
  by_cases h5 : c = 62
  · subst h5; exact ent [62] b!"gt;" (fun v => rfl)
  rw [if_neg h5]
  by_cases h6 : c = 9
  · subst h6; exact ent [9] b!"#x9;" (fun v => rfl)
  rw [if_neg h6]
  by_cases h7 : c = 10
  · subst h7; exact ent [10] b!"#xA;" (fun v => rfl)
  rw [if_neg h7]
  by_cases h8 : c = 13
  · subst h8; exact ent [13] b!"#xD;" (fun v => rfl)
  rw [if_neg h8]
  unfold cleanASCII
  have hc : ¬ (c = 9 ∨ c = 10 ∨ c = 13) := by simp [h6, h7, h8]
  rw [if_neg hc]
  by_cases h9 : c < 0x20
  · rw [if_pos h9]
    exact textGo_replacement hq hu b1
  · rw [if_neg h9]
    have hqc : q ≠ some c := by
      rcases hq with rfl | rfl | rfl <;> simp [Ne.symm h1, Ne.symm h2]
    rw [List.cons_append, List.nil_append, textGo_plain _ _ h4 hqc h3 h8 h7, hu]

theorem runeLen_high {b : Byte} {s : Str} {n : Nat} (hb : ¬ b < 0x80) (h : runeLen (b :: s) = n + 1) :
    ∃ c, Scalar c ∧ 0x80 ≤ c ∧ utf8 c = b :: s.take n ∧ s.length ≥ n := by
  obtain ⟨c, hc, happ, hlen⟩ := utf8_of_runeLen h
  have hlt : ¬ c < 0x80 := by
    intro hlt
    rw [utf8_ascii hlt] at happ hlen
    simp only [List.length_cons, List.length_nil] at hlen
    simp only [List.cons_append, List.nil_append, List.cons.injEq] at happ
    apply hb
    rw [← happ.1, UInt8.lt_iff_toNat_lt, toNat_ofNat_lt (by omega)]
    exact hlt
  have hl : n ≤ s.length := by
    have := congrArg List.length happ
    simp only [List.length_append, List.length_drop, List.length_cons, hlen] at this
    omega
  refine ⟨c, hc, by omega, ?_, hl⟩
  have h1 := congrArg (List.take (n + 1)) happ
  rw [← hlen, List.take_left, hlen] at h1
  simpa using h1

theorem textGo_escapeGo {fin : LexErr} {q : Option Byte} (hq : q = none ∨ q = some 34 ∨ q = some 39) {u : Str}
    {X : Except LexErr (Str × Str)} (hu : ∀ b1, textGo fin q 0 b1 u = X) :
    ∀ (s : Str) (k : Nat) (copy : Bool) (b1 : Byte), (∀ b ∈ s.take k, 0x80 ≤ b) →
      textGo fin q 0 b1 (escapeGo k copy s ++ u) = prepend (cleanGo k copy s) X
  | [], k, copy, b1, _ => by
    cases k <;> simp [escapeGo, cleanGo, hu, prepend_nil]
  | b :: s, k + 1, copy, b1, h => by
    simp only [escapeGo, cleanGo]
    have hb : 0x80 ≤ b := h b (by simp)
    have hs : ∀ b ∈ s.take k, 0x80 ≤ b := fun x hx => h x (by simp [hx])
    cases copy with
    | false => simpa using textGo_escapeGo hq hu s k false b1 hs
    | true =>
      have hne : ∀ c : Byte, c < 0x80 → b ≠ c := by
        rintro c hc rfl
        exact absurd hc (by simpa using hb)
      have hqb : q ≠ some b := by
        rcases hq with rfl | rfl | rfl
        · simp
        · simpa using fun h => hne 34 (by decide) h.symm
        · simpa using fun h => hne 39 (by decide) h.symm
      simp only [if_true, List.cons_append, List.nil_append]
      rw [textGo_plain _ _ (hne _ (by decide)) hqb (hne _ (by decide)) (hne _ (by decide)) (hne _ (by decide)),
        textGo_escapeGo hq hu s k true b hs, prepend_prepend]
      rfl
  | b :: s, 0, copy, b1, _ => by
    simp only [escapeGo, cleanGo]
    by_cases hb : b < 0x80
    · rw [if_pos hb, if_pos hb, List.append_assoc]
      rw [textGo_escapeASCII hq (X := prepend (cleanGo 0 false s) X)
        (fun b1 => textGo_escapeGo hq hu s 0 false b1 (by simp)), prepend_prepend]
    · rw [if_neg hb, if_neg hb]
      cases hr : runeLen (b :: s) with
      | zero =>
        simp only
        rw [List.append_assoc, textGo_replacement hq (X := prepend (cleanGo 0 false s) X)
          (fun b1 => textGo_escapeGo hq hu s 0 false b1 (by simp)), prepend_prepend]
      | succ n =>
        simp only
        obtain ⟨c, hc, hc', he, _⟩ := runeLen_high hb hr
        have hhigh : ∀ x ∈ s.take n, 0x80 ≤ x := fun x hx => utf8_high hc hc' x (by rw [he]; simp [hx])
        split
        · rw [List.append_assoc, textGo_replacement hq (X := prepend (cleanGo n false s) X)
            (fun b1 => textGo_escapeGo hq hu s n false b1 hhigh), prepend_prepend]
        · have hb' : 0x80 ≤ b := by simpa using hb
          have hne : ∀ c : Byte, c < 0x80 → b ≠ c := by
            rintro c hc rfl
            exact hb hc
          have hqb : q ≠ some b := by
            rcases hq with rfl | rfl | rfl
            · simp
            · simpa using fun h => hne 34 (by decide) h.symm
            · simpa using fun h => hne 39 (by decide) h.symm
          rw [List.cons_append,
            textGo_plain _ _ (hne _ (by decide)) hqb (hne _ (by decide)) (hne _ (by decide)) (hne _ (by decide)),
            textGo_escapeGo hq hu s n true b hhigh, prepend_prepend]
          rfl

/-- The text that the reader gets back for a string written with `EscapeText`. -/
def cleanText (s : Str) : Str := cleanGo 0 false s

theorem lexText_escape_none (fin : LexErr) (s r : Str) :
    lexText fin none (escape s ++ 60 :: r) = .ok (cleanText s, 60 :: r) := by
  unfold lexText escape
  rw [textGo_escapeGo (Or.inl rfl) (X := .ok ([], 60 :: r)) (fun b1 => by simp [textGo]) s 0 false 0 (by simp)]
  simp [prepend, cleanText]

theorem lexText_escape_quote (fin : LexErr) (s r : Str) :
    lexText fin (some 34) (escape s ++ 34 :: r) = .ok (cleanText s, r) := by
  unfold lexText escape
  rw [textGo_escapeGo (Or.inr (Or.inl rfl)) (X := .ok ([], r)) (fun b1 => by simp [textGo]) s 0 false 0 (by simp)]
  simp [prepend, cleanText]

/-! ## The text is the original, with U+FFFD for what XML forbids -/

theorem replacement_eq : replacement = utf8 0xFFFD := by decide

theorem cleanGo_skip_true : ∀ (n : Nat) (s : Str), cleanGo n true s = s.take n ++ cleanGo 0 false (s.drop n)
  | 0, [] => by simp [cleanGo]
  | 0, b :: s => by simp [cleanGo]
  | n + 1, [] => by simp [cleanGo]
  | n + 1, b :: s => by simp [cleanGo, cleanGo_skip_true n s]

theorem cleanGo_skip_false : ∀ (n : Nat) (s : Str), cleanGo n false s = cleanGo 0 false (s.drop n)
  | 0, s => by simp
  | n + 1, [] => by simp [cleanGo]
  | n + 1, b :: s => by simp [cleanGo, cleanGo_skip_false n s]

theorem cleanText_clean : ∀ (n : Nat) (s : Str), s.length ≤ n → Clean s (cleanText s)
  | _, [], _ => Clean.nil
  | 0, b :: s, h => by simp at h
  | m + 1, b :: s, h => by
    simp only [List.length_cons] at h
    unfold cleanText
    simp only [cleanGo]
    by_cases hb : b < 0x80
    · rw [if_pos hb]
      have ih := cleanText_clean m s (by omega)
      have hbn : b.toNat < 0x80 := hb
      have hu : utf8 b.toNat = [b] := by rw [utf8_ascii hbn]; simp
      have hs : Scalar b.toNat := Or.inl (by omega)
      unfold cleanASCII
      have hx : XmlChar b.toNat ↔ (b = 9 ∨ b = 10 ∨ b = 13) ∨ ¬ b < 0x20 := by
        simp only [← UInt8.toNat_inj, UInt8.lt_iff_toNat_lt]
        change XmlChar b.toNat ↔ (b.toNat = 9 ∨ b.toNat = 10 ∨ b.toNat = 13) ∨ ¬ b.toNat < 32
        unfold XmlChar
        omega
      split
      · have := Clean.char hs (hx.2 (Or.inl ‹_›)) ih
        rwa [hu] at this
      · split
        · have := Clean.forbidden hs (fun hh => by
            rcases hx.1 hh with h1 | h1
            · exact absurd h1 ‹_›
            · exact absurd ‹_› h1) ih
          rwa [hu, ← replacement_eq] at this
        · have := Clean.char hs (hx.2 (Or.inr ‹_›)) ih
          rwa [hu] at this
    · rw [if_neg hb]
      cases hr : runeLen (b :: s) with
      | zero =>
        have := Clean.invalid (b := b) (s := s) (no_utf8_of_runeLen hr) (cleanText_clean m s (by omega))
        rwa [← replacement_eq] at this
      | succ n =>
        simp only
        obtain ⟨c, hc, hc', he, _⟩ := runeLen_high hb hr
        have ih := cleanText_clean m (s.drop n) (by simp; omega)
        have hsplit : b :: s = utf8 c ++ s.drop n := by simp [he]
        have hnc := isNonChar_utf8 hc (s.drop n)
        rw [← hsplit] at hnc
        rw [cleanGo_skip_false, cleanGo_skip_true]
        have hx : XmlChar c ↔ ¬ (c = 0xFFFE ∨ c = 0xFFFF) := by
          unfold Scalar at hc
          unfold XmlChar
          omega
        split
        · rw [hsplit, replacement_eq]
          exact Clean.forbidden hc (fun hh => hx.1 hh (hnc.1 ‹_›)) ih
        · rename_i hno
          have := Clean.char hc (hx.2 (fun hh => hno (hnc.2 hh))) ih
          rw [he] at this
          simpa [cleanText] using this

/-- On a text of XML characters nothing changes. -/
theorem cleanText_utf8s : ∀ {cs : List Nat}, (∀ c ∈ cs, XmlChar c) → cleanText (utf8s cs) = utf8s cs
  | [], _ => rfl
  | c :: cs, h => by
    have hx := h c (by simp)
    have hc : Scalar c := by unfold XmlChar at hx; unfold Scalar; omega
    have ih := cleanText_utf8s (cs := cs) (fun x hx => h x (by simp [hx]))
    have hsp : utf8s (c :: cs) = utf8 c ++ utf8s cs := by simp [utf8s]
    rw [hsp]
    unfold cleanText at ih ⊢
    cases hu : utf8 c with
    | nil => exact absurd hu (utf8_ne_nil c)
    | cons b t =>
      have hlen := runeLen_utf8 hc (utf8s cs)
      have hnc := isNonChar_utf8 hc (utf8s cs)
      rw [hu] at hlen hnc
      simp only [List.cons_append, List.length_cons] at hlen hnc ⊢
      simp only [cleanGo]
      by_cases h1 : c < 0x80
      · rw [utf8_ascii h1] at hu
        simp only [List.cons.injEq] at hu
        obtain ⟨hb, rfl⟩ := hu
        have hbn : b.toNat = c := by rw [← hb, toNat_ofNat_lt (by omega)]
        have hb' : b < 0x80 := by rw [UInt8.lt_iff_toNat_lt, hbn]; exact h1
        rw [if_pos hb']
        have : cleanASCII b = [b] := by
          unfold cleanASCII
          split
          · rfl
          · rename_i hno
            rw [if_neg]
            intro hlt
            rw [UInt8.lt_iff_toNat_lt, hbn] at hlt
            have hlt' : c < 32 := hlt
            simp only [← UInt8.toNat_inj, hbn] at hno
            have hno' : ¬ (c = 9 ∨ c = 10 ∨ c = 13) := hno
            unfold XmlChar at hx
            omega
        rw [this]
        simpa using ih
      · have hb : ¬ b < 0x80 := by
          have := utf8_high hc (by omega) b (by rw [hu]; simp)
          simpa using this
        rw [if_neg hb, hlen]
        simp only
        rw [if_neg (by
          rw [hnc]
          unfold XmlChar at hx
          omega), cleanGo_skip_true]
        simp [ih]

/-! ## Theorems -/

/-- **C22**: the reader decodes the escaped form of any string to the string itself, with U+FFFD in place of the
characters that XML forbids and of the bytes that are not part of a character: as character data, up to the next tag. -/
theorem C22_text (fin : LexErr) (s r : Str) :
    ∃ t, Clean s t ∧ lexText fin none (escape s ++ b!"<" ++ r) = .ok (t, b!"<" ++ r) :=
  ⟨cleanText s, cleanText_clean s.length s (Nat.le_refl _), by
    have := lexText_escape_none fin s r
    simpa using this⟩

/-- **C22**: as the value of an attribute, up to the closing quotation mark. -/
theorem C22_attr (fin : LexErr) (s r : Str) :
    ∃ t, Clean s t ∧ attrval fin (b!"\"" ++ escape s ++ b!"\"" ++ r) = .ok (t, r) :=
  ⟨cleanText s, cleanText_clean s.length s (Nat.le_refl _), by
    have := lexText_escape_quote fin s r
    simpa [attrval] using this⟩

/-- **C22**: a text of characters that XML allows comes back unchanged. -/
theorem C22_exact (fin : LexErr) (cs : List Nat) (h : ∀ c ∈ cs, XmlChar c) (r : Str) :
    lexText fin none (escape (utf8s cs) ++ b!"<" ++ r) = .ok (utf8s cs, b!"<" ++ r) ∧
    attrval fin (b!"\"" ++ escape (utf8s cs) ++ b!"\"" ++ r) = .ok (utf8s cs, r) := by
  have h1 := lexText_escape_none fin (utf8s cs) r
  have h2 := lexText_escape_quote fin (utf8s cs) r
  rw [cleanText_utf8s h] at h1 h2
  exact ⟨by simpa using h1, by simpa [attrval] using h2⟩

/-- The result of `C22_text` and `C22_attr` is determined by the string. -/
theorem C22_clean_unique {s t : Str} (h : Clean s t) : t = cleanText s := by
  induction h with
  | nil => rfl
  | @char c s t hc hx _ ih =>
    subst ih
    cases hu : utf8 c with
    | nil => exact absurd hu (utf8_ne_nil c)
    | cons b u =>
      have hlen := runeLen_utf8 hc s
      have hnc := isNonChar_utf8 hc s
      rw [hu] at hlen hnc
      unfold cleanText
      simp only [List.cons_append, List.length_cons] at hlen hnc ⊢
      rw [cleanGo]
      by_cases h1 : c < 0x80
      · have h2 := cleanText_utf8s (cs := [c]) (by simpa using hx)
        have hus : utf8s [c] = [b] := by
          simp only [utf8s, List.flatMap_cons, List.flatMap_nil, List.append_nil]
          rw [utf8_ascii h1] at hu ⊢
          simp only [List.cons.injEq] at hu
          rw [hu.1]
        rw [utf8_ascii h1] at hu
        simp only [List.cons.injEq] at hu
        have hb' : b < 0x80 := by
          rw [← hu.1, UInt8.lt_iff_toNat_lt, toNat_ofNat_lt (by omega)]; exact h1
        rw [hus] at h2
        unfold cleanText at h2
        rw [cleanGo, if_pos hb', cleanGo, List.append_nil] at h2
        rw [if_pos hb', h2, ← hu.2]
        rfl
      · have hb : ¬ b < 0x80 := by
          have := utf8_high hc (by omega) b (by rw [hu]; simp)
          simpa using this
        rw [if_neg hb, hlen]
        simp only
        rw [if_neg (by
          rw [hnc]
          unfold XmlChar at hx
          omega), cleanGo_skip_true]
        simp
  | @forbidden c s t hc hx _ ih =>
    subst ih
    cases hu : utf8 c with
    | nil => exact absurd hu (utf8_ne_nil c)
    | cons b u =>
      have hlen := runeLen_utf8 hc s
      have hnc := isNonChar_utf8 hc s
      rw [hu] at hlen hnc
      unfold cleanText
      simp only [List.cons_append, List.length_cons] at hlen hnc ⊢
      rw [cleanGo]
      by_cases h1 : c < 0x80
      · rw [utf8_ascii h1] at hu
        simp only [List.cons.injEq] at hu
        have hbn : b.toNat = c := by rw [← hu.1, toNat_ofNat_lt (by omega)]
        have hb' : b < 0x80 := by rw [UInt8.lt_iff_toNat_lt, hbn]; exact h1
        have : cleanASCII b = replacement := by
          unfold cleanASCII
          rw [if_neg, if_pos]
          · rw [UInt8.lt_iff_toNat_lt, hbn]
            change c < 32
            unfold XmlChar at hx
            omega
          · simp only [← UInt8.toNat_inj, hbn]
            change ¬ (c = 9 ∨ c = 10 ∨ c = 13)
            unfold XmlChar at hx
            omega
        rw [if_pos hb', this, ← hu.2, replacement_eq]
        rfl
      · have hb : ¬ b < 0x80 := by
          have := utf8_high hc (by omega) b (by rw [hu]; simp)
          simpa using this
        rw [if_neg hb, hlen]
        simp only
        rw [if_pos (by
          rw [hnc]
          unfold Scalar at hc
          unfold XmlChar at hx
          omega), cleanGo_skip_false (u.length), List.drop_left, replacement_eq]
  | @invalid b s t hno _ ih =>
    subst ih
    unfold cleanText
    rw [cleanGo]
    have hr : runeLen (b :: s) = 0 := by
      cases hr : runeLen (b :: s) with
      | zero => rfl
      | succ n =>
        obtain ⟨c, hc, happ, _⟩ := utf8_of_runeLen hr
        exact absurd ⟨_, happ⟩ (hno c hc)
    have hb : ¬ b < 0x80 := by
      intro hlt
      rw [runeLen_cons, if_pos (show b.toNat < 128 from hlt)] at hr
      omega
    rw [if_neg hb, hr]
    simp [replacement_eq]

theorem escapeASCII_safe (c : Byte) : ∀ b ∈ escapeASCII c, b ≠ 60 ∧ b ≠ 62 ∧ b ≠ 34 ∧ b ≠ 39 ∧ b ≠ 9 ∧ b ≠ 10 ∧ b ≠ 13 := by
  unfold escapeASCII
  repeat' split
  all_goals try decide
  rename_i h1 h2 h3 h4 h5 h6 h7 h8 h9
  intro b hb
  simp only [List.mem_singleton] at hb
  subst hb
  exact ⟨h4, h5, h1, h2, h6, h7, h8⟩

theorem escapeGo_safe : ∀ (s : Str) (k : Nat) (copy : Bool), (∀ b ∈ s.take k, 0x80 ≤ b) →
    ∀ b ∈ escapeGo k copy s, b ≠ 60 ∧ b ≠ 62 ∧ b ≠ 34 ∧ b ≠ 39 ∧ b ≠ 9 ∧ b ≠ 10 ∧ b ≠ 13
  | [], k, copy, _, b, hb => by cases k <;> simp [escapeGo] at hb
  | a :: s, k + 1, copy, h, b, hb => by
    simp only [escapeGo, List.mem_append] at hb
    have ha : 0x80 ≤ a := h a (by simp)
    rcases hb with hb | hb
    · cases copy with
      | false => simp at hb
      | true =>
        simp only [if_true, List.mem_singleton] at hb
        subst hb
        refine ⟨?_, ?_, ?_, ?_, ?_, ?_, ?_⟩ <;> rintro rfl <;> exact absurd ha (by decide)
    · exact escapeGo_safe s k copy (fun x hx => h x (by simp [hx])) b hb
  | a :: s, 0, copy, _, b, hb => by
    have hrep : ∀ b ∈ replacement, b ≠ 60 ∧ b ≠ 62 ∧ b ≠ 34 ∧ b ≠ 39 ∧ b ≠ 9 ∧ b ≠ 10 ∧ b ≠ 13 := by decide
    simp only [escapeGo] at hb
    by_cases ha : a < 0x80
    · rw [if_pos ha, List.mem_append] at hb
      rcases hb with hb | hb
      · exact escapeASCII_safe a b hb
      · exact escapeGo_safe s 0 false (by simp) b hb
    · rw [if_neg ha] at hb
      cases hr : runeLen (a :: s) with
      | zero =>
        simp only [hr, List.mem_append] at hb
        rcases hb with hb | hb
        · exact hrep b hb
        · exact escapeGo_safe s 0 false (by simp) b hb
      | succ n =>
        obtain ⟨c, hc, hc', he, _⟩ := runeLen_high ha hr
        have hhigh : ∀ x ∈ s.take n, 0x80 ≤ x := fun x hx => utf8_high hc hc' x (by rw [he]; simp [hx])
        simp only [hr] at hb
        split at hb
        · rw [List.mem_append] at hb
          rcases hb with hb | hb
          · exact hrep b hb
          · exact escapeGo_safe s n false hhigh b hb
        · rw [List.mem_cons] at hb
          rcases hb with rfl | hb
          · have ha' : 0x80 ≤ b := by simpa using ha
            refine ⟨?_, ?_, ?_, ?_, ?_, ?_, ?_⟩ <;> rintro rfl <;> exact absurd ha' (by decide)
          · exact escapeGo_safe s n true hhigh b hb

/-- **C22**: the escaped form contains no `<`, `>`, quotation mark, apostrophe, tab or line end; with the theorems
above, every `&` in it starts a reference. -/
theorem C22_safe (s : Str) : ∀ b ∈ escape s, b ∉ b!"<>\"'\t\n\r" := by
  intro b hb
  obtain ⟨h1, h2, h3, h4, h5, h6, h7⟩ := escapeGo_safe s 0 false (by simp) b hb
  simp only [List.mem_cons, List.not_mem_nil, or_false, not_or]
  exact ⟨h1, h2, h3, h4, h5, h6, h7⟩

/-! ## Non-vacuity -/

example : escape b!"a<b & \"c\"\n" = b!"a&lt;b &amp; &#34;c&#34;&#xA;" := by decide
example : escape ([0xC3, 0xA9, 0xFF, 0x00, 0xED, 0xA0, 0x80] : Str) =
    ([0xC3, 0xA9] ++ replacement ++ replacement ++ replacement ++ replacement ++ replacement : Str) := by decide
example : lexText .eof none (escape b!"1 < 2\r\n" ++ b!"</a>") = .ok (b!"1 < 2\r\n", b!"</a>") := by rfl
example : ∀ c ∈ [0x31, 0x26, 0xE9, 0x1F600], XmlChar c := by decide
example : utf8s [0x31, 0x26, 0xE9, 0x1F600] = ([0x31, 0x26, 0xC3, 0xA9, 0xF0, 0x9F, 0x98, 0x80] : Str) := by decide
/-- A carriage return that is not escaped is read as a line feed. -/
example : lexText .eof none b!"a\r\nb\rc<" = .ok (b!"a\nb\nc", b!"<") := by rfl

end Go3mf
