import Verif.Lemmas.Printer
import Verif.Lemmas.Utf8
import Verif.Props.C22
import Verif.Spec.Markup
import Mathlib.Data.List.Infix
import Mathlib.Data.List.Induction

/-!
# C59: well-formed markup is read as XML 1.0 defines
-/

namespace Go3mf

open Spec

/-! ## Names and white space -/

theorem ncByte_nameByte : ∀ {b : Byte}, NcByte b → nameByte b = true ∧ b ≠ 58 := by
  intro b h
  have key : ∀ n : Fin 256, NcByte (UInt8.ofNat n.val) →
      nameByte (UInt8.ofNat n.val) = true ∧ (UInt8.ofNat n.val : Byte) ≠ 58 := by
    decide +kernel
  have := key ⟨b.toNat, b.toNat_lt⟩
  simpa using this (by simpa using h)

theorem anyByte_iff : ∀ {b : Byte}, AnyByte b ↔ nameByte b = true := by
  intro b
  have key : ∀ n : Fin 256, AnyByte (UInt8.ofNat n.val) ↔ nameByte (UInt8.ofNat n.val) = true := by
    decide +kernel
  have := key ⟨b.toNat, b.toNat_lt⟩
  simpa using this

theorem ncToken_ncName {s : Str} (h : NcToken s) : NCName s := ⟨h.1, fun b hb => ncByte_nameByte (h.2 b hb)⟩

/-- The bytes of a qualified name continue a name, and it is split as it should be. -/
theorem qname_ok {m : Mode} {s : Str} {n : Name} (h : QNameOf m s n) : s ≠ [] ∧ (∀ b ∈ s, nameByte b = true) ∧ toName s = n := by
  cases h with
  | plain h => exact ⟨h.1, fun b hb => (ncByte_nameByte (h.2 b hb)).1, toName_plain (ncToken_ncName h)⟩
  | prefixed hp hl =>
    refine ⟨by simp, fun b hb => ?_, toName_prefix (ncToken_ncName hp)⟩
    simp only [List.append_assoc, List.mem_append] at hb
    rcases hb with hb | hb | hb
    · exact (ncByte_nameByte (hp.2 b hb)).1
    · have : b = 58 := by simpa using hb
      subst this
      decide
    · exact (ncByte_nameByte (hl.2 b hb)).1
  | @lenient p l _ hp hl =>
    refine ⟨by simp, fun b hb => ?_, ?_⟩
    · simp only [List.append_assoc, List.mem_append] at hb
      rcases hb with hb | hb | hb
      · exact (ncByte_nameByte (hp b hb)).1
      · have : b = 58 := by simpa using hb
        subst this
        decide
      · exact anyByte_iff.1 (hl b hb)
    · unfold toName
      rw [show p ++ b!":" ++ l = p ++ 58 :: l by simp, splitColon_some l (fun b hb => (ncByte_nameByte (hp b hb)).2)]

theorem white_not_name {b : Byte} (h : IsWhite b) : nameByte b = false := by
  rcases h with rfl | rfl | rfl | rfl <;> decide

theorem skipSpace_append : ∀ {w : Str}, White w → ∀ s : Str, skipSpace (w ++ s) = skipSpace s
  | [], _, _ => rfl
  | b :: w, h, s => by
    have hb : IsWhite b := h b (by simp)
    have := skipSpace_append (w := w) (fun x hx => h x (by simp [hx])) s
    simp only [List.cons_append, skipSpace]
    rw [if_pos (by rcases hb with rfl | rfl | rfl | rfl <;> decide), this]

theorem skipSpace_stop {b : Byte} (h : ¬ IsWhite b) (s : Str) : skipSpace (b :: s) = b :: s := by
  simp only [skipSpace]
  rw [if_neg]
  intro hh
  apply h
  unfold IsWhite
  simp only [Bool.or_eq_true, decide_eq_true_eq] at hh
  tauto

/-- A name followed by white space and a byte that is no part of names. -/
theorem readName_white (fin : LexErr) {n w : Str} {c : Byte} {t : Str} (hn : n ≠ []) (h : ∀ b ∈ n, nameByte b = true)
    (hw : White w) (hc : nameByte c = false) : readName fin (n ++ (w ++ c :: t)) = .ok n (w ++ c :: t) := by
  cases w with
  | nil => exact readName_append fin hc t hn h
  | cons b w => exact readName_append fin (white_not_name (hw b (by simp))) (w ++ c :: t) hn h

/-! ## References -/

theorem digit_ok : ∀ {hex : Bool} {b : Byte} {d : Nat}, DigitOf (if hex then 16 else 10) b d →
    isRefDigit hex b = true ∧ refDigit b = d := by
  intro hex b d h
  have key : ∀ (hex : Bool) (d : Fin 16), d.val < (if hex then 16 else 10) →
      (∀ b, (b!"0123456789abcdef" : Str)[d.val]? = some b → isRefDigit hex b = true ∧ refDigit b = d.val) ∧
      (∀ b, (b!"0123456789ABCDEF" : Str)[d.val]? = some b → isRefDigit hex b = true ∧ refDigit b = d.val) := by
    have k2 : ∀ (hex : Bool) (d : Fin 16), d.val < (if hex then 16 else 10) →
      (∀ b ∈ (b!"0123456789abcdef" : Str)[d.val]?, isRefDigit hex b = true ∧ refDigit b = d.val) ∧
      (∀ b ∈ (b!"0123456789ABCDEF" : Str)[d.val]?, isRefDigit hex b = true ∧ refDigit b = d.val) := by
      decide +kernel
    intro hex d hd
    exact ⟨fun b hb => (k2 hex d hd).1 b hb, fun b hb => (k2 hex d hd).2 b hb⟩
  have hlt : d < 16 := by
    have := h.1
    cases hex <;> simp at this <;> omega
  have := key hex ⟨d, hlt⟩ h.1
  rcases h.2 with hb | hb
  · exact this.1 b hb
  · exact this.2 b hb

theorem numeral_ok {hex : Bool} {s : Str} {n : Nat} (h : NumeralOf (if hex then 16 else 10) s n) :
    s ≠ [] ∧ (∀ b ∈ s, isRefDigit hex b = true) ∧ refVal hex s = n := by
  induction h with
  | one hd =>
    obtain ⟨h1, h2⟩ := digit_ok hd
    exact ⟨by simp, by simpa using h1, by simp [refVal, h2]⟩
  | snoc _ hd ih =>
    obtain ⟨h1, h2⟩ := digit_ok hd
    refine ⟨by simp, ?_, ?_⟩
    · intro b hb
      simp only [List.mem_append, List.mem_singleton] at hb
      rcases hb with hb | rfl
      · exact ih.2.1 b hb
      · exact h1
    · have := ih.2.2
      unfold refVal at this ⊢
      rw [List.foldl_append, this]
      simp [h2]

theorem spanDigits_stop {hex : Bool} {c : Byte} (hc : isRefDigit hex c = false) (r : Str) :
    ∀ {s : Str}, (∀ b ∈ s, isRefDigit hex b = true) → spanDigits hex (s ++ c :: r) = (s, c :: r)
  | [], _ => by simp [spanDigits, hc]
  | b :: s, h => by
    have := spanDigits_stop hc r (s := s) (fun x hx => h x (by simp [hx]))
    simp [spanDigits, h b (by simp), this]

theorem xmlChar_scalar {c : Nat} (h : XmlChar c) : Scalar c := by
  unfold XmlChar at h
  unfold Scalar
  omega

theorem refDigits_eq (fin : LexErr) {hex : Bool} {s : Str} {c : Nat} (h : NumeralOf (if hex then 16 else 10) s c)
    (hc : c ≤ 0x10FFFF) (r : Str) : refDigits fin hex (s ++ 59 :: r) = .ok (encodeRune c, r) := by
  obtain ⟨h1, h2, h3⟩ := numeral_ok h
  have hs := spanDigits_stop (hex := hex) (c := 59) (by cases hex <;> decide) r h2
  unfold refDigits
  rw [hs]
  simp only
  rw [h3, if_pos ⟨trivial, h1, hc⟩]

theorem encodeRune_lenient {c : Nat} (hc : c ≤ 0x10FFFF) : encodeRune c = utf8 (if Scalar c then c else 0xFFFD) := by
  by_cases h : Scalar c
  · rw [if_pos h, encodeRune_eq h]
  · rw [if_neg h]
    unfold Scalar at h
    unfold encodeRune
    rw [if_neg (by omega), if_neg (by omega), if_pos (by omega)]
    decide +kernel

theorem refDigits_ok (fin : LexErr) {hex : Bool} {s : Str} {c : Nat} (h : NumeralOf (if hex then 16 else 10) s c)
    (hc : XmlChar c) (r : Str) : refDigits fin hex (s ++ 59 :: r) = .ok (utf8 c, r) := by
  rw [refDigits_eq fin h (by unfold XmlChar at hc; omega) r, encodeRune_eq (xmlChar_scalar hc)]

theorem entity_dec (fin : LexErr) {s d : Str} {c : Nat} (hn : NumeralOf 10 s c) {r : Str}
    (hd : refDigits fin false (s ++ 59 :: r) = .ok (d, r)) : entity fin (b!"#" ++ s ++ b!";" ++ r) = .ok (d, r) := by
  obtain ⟨h1, h2, _⟩ := numeral_ok (hex := false) (by simpa using hn)
  cases s with
  | nil => exact absurd rfl h1
  | cons b s =>
    have h120 : b ≠ 120 := by
      rintro rfl
      exact absurd (h2 120 (by simp)) (by decide)
    simp only [List.cons_append] at hd
    simp [entity, h120, hd]

theorem entityEnd_named (fin : LexErr) {n : Str} {b : Byte} (hn : n ≠ []) (h : ∀ b ∈ n, nameByte b = true)
    (h35 : n.head? ≠ some 35) (he : entityTable n = some b) (r : Str) :
    entity fin (n ++ 59 :: r) = .ok ([b], r) := by
  cases n with
  | nil => exact absurd rfl hn
  | cons c n =>
    have hr := readName_append fin (c := 59) (by decide) r (n := c :: n) (by simp) h
    simp only [List.cons_append] at hr ⊢
    unfold entity
    simp only
    rw [if_neg (by simpa using h35), hr]
    simp [entityEnd, he]

/-- A reference is read as the character it means. -/
theorem reference_ok (fin : LexErr) {m : Mode} {s : Str} {c : Nat} (h : ReferenceOf m s c) :
    ∃ u, s = 38 :: u ∧ ∀ r, entity fin (u ++ r) = .ok (utf8 c, r) := by
  cases h with
  | lt => exact ⟨b!"lt;", rfl, fun r => entityEnd_named fin (n := b!"lt") (by decide) (by decide) (by decide) (by decide) r⟩
  | gt => exact ⟨b!"gt;", rfl, fun r => entityEnd_named fin (n := b!"gt") (by decide) (by decide) (by decide) (by decide) r⟩
  | amp =>
    exact ⟨b!"amp;", rfl, fun r => entityEnd_named fin (n := b!"amp") (by decide) (by decide) (by decide) (by decide) r⟩
  | apos =>
    exact ⟨b!"apos;", rfl, fun r => entityEnd_named fin (n := b!"apos") (by decide) (by decide) (by decide) (by decide) r⟩
  | quot =>
    exact ⟨b!"quot;", rfl, fun r => entityEnd_named fin (n := b!"quot") (by decide) (by decide) (by decide) (by decide) r⟩
  | @dec s c hn hc =>
    exact ⟨b!"#" ++ s ++ b!";", by simp, fun r => entity_dec fin hn (refDigits_ok fin (hex := false) (by simpa using hn) hc r)⟩
  | @hex s c hn hc =>
    refine ⟨b!"#x" ++ s ++ b!";", by simp, fun r => ?_⟩
    have hd := refDigits_ok fin (hex := true) (by simpa using hn) hc r
    simp [entity, hd]
  | @lenientDec s c _ hn hc =>
    refine ⟨b!"#" ++ s ++ b!";", by simp, fun r => ?_⟩
    rw [← encodeRune_lenient hc]
    exact entity_dec fin hn (refDigits_eq fin (hex := false) (by simpa using hn) hc r)
  | @lenientHex s c _ hn hc =>
    refine ⟨b!"#x" ++ s ++ b!";", by simp, fun r => ?_⟩
    have hd := refDigits_eq fin (hex := true) (by simpa using hn) hc r
    rw [← encodeRune_lenient hc]
    simp [entity, hd]

/-! ## Texts and values -/

/-- What ends a text: the end of the input, the start of a tag, or the quote. -/
def endsText (q : Option Byte) (s r : Str) : Prop :=
  match q with
  | none => s = r ∧ (s = [] ∨ s.head? = some 60)
  | some c => s = c :: r

theorem textGo_end (fin : LexErr) {q : Option Byte} (hq : q = none ∨ q = some 34 ∨ q = some 39) (b1 : Byte) {s r : Str}
    (h : endsText q s r) : textGo fin q 0 b1 s = .ok ([], r) := by
  unfold endsText at h
  rcases hq with rfl | rfl | rfl
  · obtain ⟨rfl, rfl | h⟩ := h
    · simp [textGo]
    · cases s with
      | nil => simp at h
      | cons b s =>
        have : b = 60 := by simpa using h
        subst this
        simp [textGo]
  · simp only at h
    subst h
    simp [textGo]
  · simp only at h
    subst h
    simp [textGo]

theorem text_ok (fin : LexErr) {m : Mode} (hm : m ≠ .xml) {q : Option Byte}
    (hq : q = none ∨ q = some 34 ∨ q = some 39) {e r : Str} (he : endsText q e r) {s t : Str} (h : TextOf m q s t) :
    ∀ b1 : Byte, (b1 = 13 → (s ++ e).head? ≠ some 10) → textGo fin q 0 b1 (s ++ e) = .ok (t, r) := by
  have hq13 : q ≠ some 13 := by rcases hq with rfl | rfl | rfl <;> decide
  have hq10 : q ≠ some 10 := by rcases hq with rfl | rfl | rfl <;> decide
  have hq9 : q ≠ some 9 := by rcases hq with rfl | rfl | rfl <;> decide
  have he10 : e.head? ≠ some 10 := by
    rcases hq with rfl | rfl | rfl
    · obtain ⟨_, rfl | h⟩ := he
      · simp
      · rw [h]; decide
    · unfold endsText at he; subst he; simp
    · unfold endsText at he; subst he; simp
  induction h with
  | nil => exact fun b1 _ => textGo_end fin hq b1 he
  | @plain b s t h1 h2 h3 _ h4 h5 _ ih =>
    intro b1 _
    rw [List.cons_append, textGo_plain b1 _ h1 h3 h2 h4 h5, ih b (fun hb => absurd hb h4)]
    rfl
  | @tab s t _ _ ih =>
    intro b1 _
    rw [List.cons_append, textGo_plain b1 _ (by decide) hq9 (by decide) (by decide) (by decide),
      ih 9 (fun h => absurd h (by decide))]
    rfl
  | @lf s t _ _ ih =>
    intro b1 hb1
    have : b1 ≠ 13 := fun hb => hb1 hb rfl
    simp only [List.cons_append, textGo]
    rw [if_neg (by decide), if_neg hq10, if_neg (by decide), if_neg (by decide), if_neg (by simp [this]),
      ih 10 (fun h => absurd h (by decide))]
    rfl
  | @crlf s t _ _ ih =>
    intro b1 _
    simp only [List.cons_append, textGo]
    rw [if_neg (by decide), if_neg hq13, if_neg (by decide), if_pos trivial, if_neg (by decide), if_neg hq10,
      if_neg (by decide), if_neg (by decide), if_pos (by decide), ih 10 (fun h => absurd h (by decide))]
    rfl
  | @cr s t _ hh _ ih =>
    intro b1 _
    simp only [List.cons_append, textGo]
    rw [if_neg (by decide), if_neg hq13, if_neg (by decide), if_pos trivial, ih 13 (fun _ => ?_)]
    · rfl
    · cases s with
      | nil => exact he10
      | cons c s => exact hh
  | blankTab h => exact absurd h.2 hm
  | blankLf h => exact absurd h.2 hm
  | blankCrlf h => exact absurd h.2 hm
  | blankCr h => exact absurd h.2 hm
  | @ref u s t c hr _ ih =>
    intro b1 _
    obtain ⟨v, rfl, hv⟩ := reference_ok fin hr
    rw [List.append_assoc, List.cons_append, textGo_entity fin q (by rcases hq with rfl | rfl | rfl <;> decide) b1
      (hv (s ++ e)), ih 0 (fun h => absurd h (by decide))]
    rfl

theorem text_head {m : Mode} {q : Option Byte} {u t : Str} (h : TextOf m q u t) {b : Byte} {s : Str} (hu : u = b :: s) :
    b ≠ 60 := by
  cases h with
  | nil => simp at hu
  | plain h => rw [← (List.cons.inj hu).1]; exact h
  | ref h =>
    obtain ⟨v, rfl, _⟩ := reference_ok .eof h
    rw [← (List.cons.inj hu).1]
    decide
  | _ => rw [← (List.cons.inj hu).1]; decide

/-! ## Attributes -/

theorem attrStep_ok (fin : LexErr) {m : Mode} (hm : m ≠ .xml) {w n e e' v t : Str} {q : Byte} {name : Name}
    (hw : White w) (hn : QNameOf m n name) (he : White e) (he' : White e') (hq : q = 34 ∨ q = 39)
    (hv : TextOf m (some q) v t) (x : Str) :
    attrStep fin (w ++ (n ++ (e ++ 61 :: (e' ++ q :: (v ++ q :: x))))) = .attr ⟨name, t⟩ x := by
  obtain ⟨hne, hb, hname⟩ := qname_ok hn
  have hrd := readName_white fin (t := e' ++ q :: (v ++ q :: x)) hne hb he (c := 61) (by decide)
  have hval : attrval fin (q :: (v ++ q :: x)) = .ok (t, x) := by
    have := text_ok fin hm (q := some q) (Or.inr (by simpa using hq)) (e := q :: x) (r := x) rfl hv 0 (fun h => absurd h (by decide))
    simp only [attrval]
    rw [if_pos (by rcases hq with rfl | rfl <;> decide)]
    exact this
  have hq' : ¬ IsWhite q := by rcases hq with rfl | rfl <;> decide
  cases n with
  | nil => exact absurd rfl hne
  | cons c n =>
    have hc : nameByte c = true := hb c (by simp)
    have hcw : ¬ IsWhite c := fun h => by rw [white_not_name h] at hc; simp at hc
    have h47 : c ≠ 47 := by rintro rfl; exact absurd hc (by decide)
    have h62 : c ≠ 62 := by rintro rfl; exact absurd hc (by decide)
    unfold attrStep
    simp only [List.cons_append] at hrd ⊢
    rw [skipSpace_append hw, skipSpace_stop hcw]
    simp only
    rw [if_neg h47, if_neg h62, hrd]
    simp only
    rw [skipSpace_append he, skipSpace_stop (by decide)]
    simp only
    rw [if_neg (by simp), skipSpace_append he', skipSpace_stop hq', hval, hname]

theorem attrStep_end (fin : LexErr) {w : Str} (hw : White w) (x : Str) :
    attrStep fin (w ++ 62 :: x) = .done false x ∧ attrStep fin (w ++ 47 :: 62 :: x) = .done true x := by
  unfold attrStep
  rw [skipSpace_append hw, skipSpace_append hw, skipSpace_stop (by decide), skipSpace_stop (by decide)]
  simp

theorem attrs_ok (fin : LexErr) {m : Mode} (hm : m ≠ .xml) {tail x : Str} {empty : Bool} (ht : attrStep fin tail = .done empty x) {a : Str}
    {as : List Attr} {next : Bool} (h : AttrsOf m next a as) : ∀ fuel, (a ++ tail).length < fuel →
    lexAttrs fin fuel (a ++ tail) = .ok (as, empty, x) := by
  induction h with
  | nil =>
    intro fuel hf
    cases fuel with
    | zero => omega
    | succ fuel => rw [lexAttrs_step, List.nil_append, ht]
  | @cons _ w n e e' v t rest q name as hw _ hn he he' hq hv _ ih =>
    intro fuel hf
    cases fuel with
    | zero => omega
    | succ fuel =>
      have hs := attrStep_ok fin hm hw hn he he' hq hv (rest ++ tail)
      have heq : w ++ n ++ e ++ b!"=" ++ e' ++ [q] ++ v ++ [q] ++ rest ++ tail =
          w ++ (n ++ (e ++ 61 :: (e' ++ q :: (v ++ q :: (rest ++ tail))))) := by simp
      rw [heq] at hf ⊢
      rw [lexAttrs_step, hs]
      simp only
      rw [ih fuel (by simp at hf ⊢; omega)]

theorem attrs_head {m : Mode} {a : Str} {as : List Attr} (h : AttrsOf m false a as) : a = [] ∨ ∃ b u, a = b :: u ∧ IsWhite b := by
  cases h with
  | nil => exact Or.inl rfl
  | @cons _ w _ _ _ _ _ _ _ _ _ hw hne =>
    cases w with
    | nil => simp at hne
    | cons b w => exact Or.inr ⟨b, _, by simp; rfl, hw b (by simp)⟩

/-! ## Processing instructions -/

theorem skipPI_ok (fin : LexErr) (r : Str) : ∀ {body : Str} {b0 : Byte}, ¬ b!"?>" <:+: b0 :: body →
    skipPI fin b0 (body ++ 63 :: 62 :: r) = .ok r
  | [], b0, h => by simp [skipPI]
  | b :: body, b0, h => by
    have h1 : ¬ (b0 = 63 ∧ b = 62) := by
      rintro ⟨rfl, rfl⟩
      exact h ⟨[], body, rfl⟩
    have h2 : ¬ b!"?>" <:+: b :: body := fun hh => h (hh.trans (List.suffix_cons b0 _).isInfix)
    rw [List.cons_append, skipPI, if_neg h1]
    exact skipPI_ok fin r h2

theorem skipSpace_pi (r : Str) : ∀ body : Str, ∃ body', skipSpace (body ++ 63 :: 62 :: r) = body' ++ 63 :: 62 :: r ∧
    body' <:+ body
  | [] => ⟨[], by simp [skipSpace], List.suffix_refl _⟩
  | b :: body => by
    by_cases hb : IsWhite b
    · obtain ⟨body', h1, h2⟩ := skipSpace_pi r body
      refine ⟨body', ?_, h2.trans (List.suffix_cons b body)⟩
      rw [show b :: body ++ 63 :: 62 :: r = [b] ++ (body ++ 63 :: 62 :: r) by simp,
        skipSpace_append (by intro x hx; simp at hx; exact hx ▸ hb), h1]
    · exact ⟨b :: body, by rw [List.cons_append, skipSpace_stop hb], List.suffix_refl _⟩

theorem infix_zero_cons {body : Str} (h : ¬ b!"?>" <:+: body) : ¬ b!"?>" <:+: (0 : Byte) :: body := by
  intro hh
  rcases List.infix_cons_iff.1 hh with hp | hp
  · have := (List.cons_prefix_cons.1 hp).1
    exact absurd this (by decide)
  · exact h hp

/-! ## Documents -/

/-- What the reader reports for a part of a document. -/
def MarkupItem.event : MarkupItem → Option Event
  | .start n as => some (.start n as)
  | .stop n => some (.stop n)
  | .chars t => some (.chars t)
  | .other => none

theorem startTag_ok (fin : LexErr) {m : Mode} (hm : m ≠ .xml) {n a tail x : Str} {name : Name} {as : List Attr}
    {empty : Bool} (hn : QNameOf m n name) (ha : AttrsOf m false a as) (ht : attrStep fin tail = .done empty x)
    (htail : ∀ b u, tail = b :: u → nameByte b = false) (hne : tail ≠ []) :
    rawTok fin (60 :: (n ++ (a ++ tail))) none =
      .ok (some (.start name as), x, if empty then some name else none) := by
  obtain ⟨hn1, hn2, hn3⟩ := qname_ok hn
  have hrd : readName fin (n ++ (a ++ tail)) = .ok n (a ++ tail) := by
    rcases attrs_head ha with rfl | ⟨b, u, rfl, hb⟩
    · cases tail with
      | nil => exact absurd rfl hne
      | cons c u => exact readName_append fin (htail c u rfl) u hn1 hn2
    · exact readName_append fin (white_not_name hb) _ hn1 hn2
  have hat := attrs_ok fin hm ht ha ((a ++ tail).length + 1) (by omega)
  cases n with
  | nil => exact absurd rfl hn1
  | cons c n =>
    have hc : nameByte c = true := hn2 c (by simp)
    have h47 : c ≠ 47 := by rintro rfl; exact absurd hc (by decide)
    have h63 : c ≠ 63 := by rintro rfl; exact absurd hc (by decide)
    simp only [List.cons_append] at hrd ⊢
    simp only [rawTok]
    rw [if_neg (by simp), if_neg h47, if_neg h63, hrd]
    simp only
    rw [hat]
    simp only [hn3]

/-- The reader reads every document of its grammar to the end, as the grammar says. -/
theorem markup_ok (fin : LexErr) {m : Mode} (hm : m ≠ .xml) {s : Str} {is : List MarkupItem} (h : MarkupOf m s is) :
    rawTags fin s = (is.map MarkupItem.event, fin) := by
  rw [rawTags_eq]
  induction h with
  | nil => exact raws_nil fin
  | @chars s t rest is hs ht hr _ ih =>
    have hx : rawTok fin (s ++ rest) none = .ok (some (.chars t), rest, none) := by
      have hok := text_ok fin hm (Or.inl rfl) (e := rest) (r := rest) ⟨rfl, hr⟩ ht 0 (fun h => absurd h (by decide))
      cases s with
      | nil => exact absurd rfl hs
      | cons b s =>
        have hb : b ≠ 60 := text_head ht rfl
        simp only [List.cons_append] at hok ⊢
        simp only [rawTok]
        rw [if_pos hb]
        unfold lexText
        rw [hok]
    rw [raws_ok hx, ih]
    rfl
  | @start n a w rest name as is hn ha hw _ ih =>
    have hx := startTag_ok fin hm hn ha (attrStep_end fin hw rest).1 (by
      intro b u hu
      cases w with
      | nil => rw [← (List.cons.inj hu).1]; decide
      | cons c w => rw [← (List.cons.inj hu).1]; exact white_not_name (hw c (by simp))) (by simp)
    have heq : b!"<" ++ n ++ a ++ w ++ b!">" ++ rest = 60 :: (n ++ (a ++ (w ++ 62 :: rest))) := by simp
    rw [heq, raws_ok hx]
    simp only [Bool.false_eq_true, if_false]
    rw [ih]
    rfl
  | @empty n a w rest name as is hn ha hw _ ih =>
    have hx := startTag_ok fin hm hn ha (attrStep_end fin hw rest).2 (by
      intro b u hu
      cases w with
      | nil => rw [← (List.cons.inj hu).1]; decide
      | cons c w => rw [← (List.cons.inj hu).1]; exact white_not_name (hw c (by simp))) (by simp)
    have heq : b!"<" ++ n ++ a ++ w ++ b!"/>" ++ rest = 60 :: (n ++ (a ++ (w ++ 47 :: 62 :: rest))) := by simp
    have hx2 : rawTok fin rest (some name) = .ok (some (.stop name), rest, none) := rfl
    rw [heq, raws_ok hx]
    simp only [if_true]
    rw [raws_ok hx2, ih]
    rfl
  | @stop n w rest name is hn hw _ ih =>
    obtain ⟨hne, hb, hname⟩ := qname_ok hn
    have hrd := readName_white fin (t := rest) hne hb hw (c := 62) (by decide)
    have hx : rawTok fin (60 :: 47 :: (n ++ (w ++ 62 :: rest))) none = .ok (some (.stop name), rest, none) := by
      simp only [rawTok]
      rw [if_neg (by simp), if_pos trivial, hrd]
      simp only
      rw [skipSpace_append hw, skipSpace_stop (by decide)]
      simp [hname]
    have heq : b!"</" ++ n ++ w ++ b!">" ++ rest = 60 :: 47 :: (n ++ (w ++ 62 :: rest)) := by simp
    rw [heq, raws_ok hx, ih]
    rfl
  | @instruction n w body rest is hn hw hb hi _ ih =>
    have hx : rawTok fin (60 :: 63 :: (n ++ (w ++ (body ++ 63 :: 62 :: rest)))) none = .ok (none, rest, none) := by
      have hrd : readName fin (n ++ (w ++ (body ++ 63 :: 62 :: rest))) = .ok n (w ++ (body ++ 63 :: 62 :: rest)) := by
        cases w with
        | nil =>
          rcases hb with rfl | hb
          · exact readName_append fin (by decide) _ hn.1 (fun b hb => (ncByte_nameByte (hn.2 b hb)).1)
          · exact absurd rfl hb
        | cons c w =>
          exact readName_append fin (white_not_name (hw c (by simp))) _ hn.1 (fun b hb => (ncByte_nameByte (hn.2 b hb)).1)
      obtain ⟨body', h1, h2⟩ := skipSpace_pi rest body
      simp only [rawTok]
      rw [if_neg (by simp), if_neg (by decide), if_pos trivial, hrd]
      simp only
      rw [skipSpace_append hw, h1, skipPI_ok fin rest (infix_zero_cons fun hh => hi (hh.trans h2.isInfix))]
    have heq : b!"<?" ++ n ++ w ++ body ++ b!"?>" ++ rest = 60 :: 63 :: (n ++ (w ++ (body ++ 63 :: 62 :: rest))) := by
      simp
    rw [heq, raws_ok hx, ih]
    rfl
  | @lenientInstruction n body rest is _ hn0 hn hb hi _ ih =>
    have hx : rawTok fin (60 :: 63 :: (n ++ (body ++ 63 :: 62 :: rest))) none = .ok (none, rest, none) := by
      have hrd : readName fin (n ++ (body ++ 63 :: 62 :: rest)) = .ok n (body ++ 63 :: 62 :: rest) := by
        cases body with
        | nil => exact readName_append fin (by decide) _ hn0 (fun b hb => anyByte_iff.1 (hn b hb))
        | cons c body =>
          have := hb c (by simp)
          rw [anyByte_iff] at this
          exact readName_append fin (by simpa using this) _ hn0 (fun b hb => anyByte_iff.1 (hn b hb))
      obtain ⟨body', h1, h2⟩ := skipSpace_pi rest body
      simp only [rawTok]
      rw [if_neg (by simp), if_neg (by decide), if_pos trivial, hrd]
      simp only
      rw [h1, skipPI_ok fin rest (infix_zero_cons fun hh => hi (hh.trans h2.isInfix))]
    have heq : b!"<?" ++ n ++ body ++ b!"?>" ++ rest = 60 :: 63 :: (n ++ (body ++ 63 :: 62 :: rest)) := by simp
    rw [heq, raws_ok hx, ih]
    rfl
  | comment h => exact absurd h hm
  | cdata h => exact absurd h hm
  | doctype h => exact absurd h hm

/-! ## The converse: nothing else is accepted -/

theorem digit_conv {hex : Bool} {b : Byte} (h : isRefDigit hex b = true) :
    DigitOf (if hex then 16 else 10) b (refDigit b) := by
  have key : ∀ (hex : Bool) (n : Fin 256), isRefDigit hex (UInt8.ofNat n.val) = true →
      refDigit (UInt8.ofNat n.val) < (if hex then 16 else 10) ∧
        ((b!"0123456789abcdef" : Str)[refDigit (UInt8.ofNat n.val)]? = some (UInt8.ofNat n.val) ∨
          (b!"0123456789ABCDEF" : Str)[refDigit (UInt8.ofNat n.val)]? = some (UInt8.ofNat n.val)) := by
    decide +kernel
  have := key hex ⟨b.toNat, b.toNat_lt⟩
  simp only [UInt8.ofNat_toNat] at this
  exact this h

theorem numeral_conv {hex : Bool} : ∀ {s : Str}, s ≠ [] → (∀ b ∈ s, isRefDigit hex b = true) →
    NumeralOf (if hex then 16 else 10) s (refVal hex s) := by
  intro s
  induction s using List.reverseRecOn with
  | nil => intro h; exact absurd rfl h
  | append_singleton s b ih =>
    intro _ h
    have hb := digit_conv (h b (by simp))
    by_cases hs : s = []
    · subst hs
      have : refVal hex ([] ++ [b]) = refDigit b := by simp [refVal]
      rw [this]
      exact .one hb
    · have : refVal hex (s ++ [b]) = refVal hex s * (if hex then 16 else 10) + refDigit b := by
        simp [refVal, List.foldl_append]
      rw [this]
      exact .snoc (ih hs (fun x hx => h x (by simp [hx]))) hb

theorem spanDigits_all (hex : Bool) : ∀ s : Str, ∀ b ∈ (spanDigits hex s).1, isRefDigit hex b = true
  | [], b, h => by simp [spanDigits] at h
  | c :: s, b, h => by
    simp only [spanDigits] at h
    by_cases hc : isRefDigit hex c = true
    · rw [if_pos hc] at h
      simp only [List.mem_cons] at h
      rcases h with rfl | h
      · exact hc
      · exact spanDigits_all hex s b h
    · rw [if_neg hc] at h
      simp at h

theorem refDigits_conv {fin : LexErr} {hex : Bool} {s d r : Str} (h : refDigits fin hex s = .ok (d, r)) :
    ∃ u c, s = u ++ 59 :: r ∧ NumeralOf (if hex then 16 else 10) u c ∧ c ≤ 0x10FFFF ∧
      d = utf8 (if Scalar c then c else 0xFFFD) := by
  unfold refDigits at h
  have happ := spanDigits_append hex s
  cases hs : (spanDigits hex s).2 with
  | nil => simp [hs] at h
  | cons c t =>
    rw [hs] at h happ
    simp only at h
    split at h
    · rename_i hc
      simp only [Except.ok.injEq, Prod.mk.injEq] at h
      obtain ⟨rfl, rfl⟩ := h
      obtain ⟨rfl, h2, h3⟩ := hc
      exact ⟨_, _, happ.symm, numeral_conv h2 (spanDigits_all hex s), h3, encodeRune_lenient h3⟩
    · simp at h

theorem entityTable_conv {n : Str} {b : Byte} (h : entityTable n = some b) :
    ∃ c, ReferenceOf .reader (38 :: (n ++ [59])) c ∧ [b] = utf8 c := by
  unfold entityTable at h
  split at h
  · rename_i hn; subst hn; cases h; exact ⟨_, .lt, by decide +kernel⟩
  · split at h
    · rename_i hn; subst hn; cases h; exact ⟨_, .gt, by decide +kernel⟩
    · split at h
      · rename_i hn; subst hn; cases h; exact ⟨_, .amp, by decide +kernel⟩
      · split at h
        · rename_i hn; subst hn; cases h; exact ⟨_, .apos, by decide +kernel⟩
        · split at h
          · rename_i hn; subst hn; cases h; exact ⟨_, .quot, by decide +kernel⟩
          · simp at h

theorem entityEnd_conv {fin : LexErr} {n s d r : Str} (h : entityEnd fin n s = .ok (d, r)) :
    ∃ c, s = 59 :: r ∧ ReferenceOf .reader (38 :: (n ++ [59])) c ∧ d = utf8 c := by
  unfold entityEnd at h
  cases s with
  | nil => simp at h
  | cons x s =>
    simp only at h
    split at h
    · rename_i hx
      subst hx
      cases ht : entityTable n with
      | none => simp [ht] at h
      | some b =>
        simp only [ht, Except.ok.injEq, Prod.mk.injEq] at h
        obtain ⟨rfl, rfl⟩ := h
        obtain ⟨c, h1, h2⟩ := entityTable_conv ht
        exact ⟨c, rfl, h1, h2⟩
    · simp at h

theorem entity_conv {fin : LexErr} {s d r : Str} (h : entity fin s = .ok (d, r)) :
    ∃ u c, s = u ++ r ∧ ReferenceOf .reader (38 :: u) c ∧ d = utf8 c := by
  unfold entity at h
  cases s with
  | nil => simp at h
  | cons b s =>
    simp only at h
    by_cases hb : b = 35
    · subst hb
      rw [if_pos rfl] at h
      cases s with
      | nil => simp at h
      | cons c s =>
        simp only at h
        by_cases hc : c = 120
        · subst hc
          rw [if_pos rfl] at h
          obtain ⟨u, v, rfl, hu, hv, rfl⟩ := refDigits_conv h
          exact ⟨35 :: 120 :: (u ++ [59]), _, by simp, .lenientHex rfl (by simpa using hu) hv, rfl⟩
        · rw [if_neg hc] at h
          obtain ⟨u, v, he, hu, hv, rfl⟩ := refDigits_conv h
          rw [he]
          exact ⟨35 :: (u ++ [59]), _, by simp, .lenientDec rfl (by simpa using hu) hv, rfl⟩
    · rw [if_neg hb] at h
      cases hr : readName fin (b :: s) with
      | fail e => simp [hr] at h
      | missing r' =>
        simp only [hr] at h
        obtain ⟨c, h1, h2, h3⟩ := entityEnd_conv h
        rw [← readName_missing hr, h1]
        exact ⟨[59], c, rfl, h2, h3⟩
      | ok n r' =>
        simp only [hr] at h
        obtain ⟨h0, _⟩ := readName_ok hr
        obtain ⟨c, h1, h2, h3⟩ := entityEnd_conv h
        rw [h0, h1]
        exact ⟨n ++ [59], c, by simp, h2, h3⟩

/-- The end of a text that was read: as `endsText`, or a value that the end of the input cuts off. -/
def endedText (q : Option Byte) (s r : Str) : Prop := endsText q s r ∨ (s = [] ∧ r = [])

theorem text_conv {fin : LexErr} {q : Option Byte} (hq10 : q ≠ some 10) : ∀ (k : Nat) {s : Str}, s.length ≤ k → ∀ {b1 : Byte} {t r : Str},
    textGo fin q 0 b1 s = .ok (t, r) → ∃ u e, s = u ++ e ∧ endedText q e r ∧
      ((b1 = 13 ∧ ∃ u', u = 10 :: u' ∧ TextOf .reader q u' t) ∨
        ((b1 = 13 → s.head? ≠ some 10) ∧ TextOf .reader q u t))
  | k, [], _, b1, t, r, h => by
    simp only [textGo, Except.ok.injEq, Prod.mk.injEq] at h
    obtain ⟨rfl, rfl⟩ := h
    exact ⟨[], [], rfl, Or.inr ⟨rfl, rfl⟩, Or.inr ⟨by simp, .nil⟩⟩
  | 0, b :: s, hk, _, _, _, _ => by simp at hk
  | k + 1, b :: s, hk, b1, t, r, h => by
    have hk' : s.length ≤ k := by simpa using hk
    simp only [textGo] at h
    by_cases h60 : b = 60
    · rw [if_pos h60] at h
      subst h60
      cases q with
      | some c => simp at h
      | none =>
        simp only [Option.isSome_none, Bool.false_eq_true, if_false, Except.ok.injEq, Prod.mk.injEq] at h
        obtain ⟨rfl, rfl⟩ := h
        exact ⟨[], 60 :: s, rfl, Or.inl ⟨rfl, Or.inr rfl⟩, Or.inr ⟨by simp, .nil⟩⟩
    · rw [if_neg h60] at h
      by_cases hq : q = some b
      · rw [if_pos hq] at h
        subst hq
        simp only [Except.ok.injEq, Prod.mk.injEq] at h
        obtain ⟨rfl, rfl⟩ := h
        refine ⟨[], b :: s, rfl, Or.inl rfl, ?_⟩
        refine Or.inr ⟨fun _ hb => hq10 (by simpa using hb), .nil⟩
      · rw [if_neg hq] at h
        by_cases h38 : b = 38
        · rw [if_pos h38] at h
          subst h38
          cases he : entity fin s with
          | error e => simp [he] at h
          | ok p =>
            obtain ⟨d, r'⟩ := p
            simp only [he] at h
            obtain ⟨t', rfl, h'⟩ := prepend_ok h
            rw [textGo_skip] at h'
            obtain ⟨v, c, hs, hv, rfl⟩ := entity_conv he
            have hdrop : s.drop (s.length - r'.length) = r' := by
              subst hs
              simp
            rw [hdrop] at h'
            have hlen : r'.length ≤ k := by
              have := congrArg List.length hs
              simp at this
              omega
            obtain ⟨u, e, h1, h2, h3 | h3⟩ := text_conv hq10 k hlen h'
            · exact absurd h3.1 (by decide)
            · refine ⟨38 :: v ++ u, e, by rw [hs, h1]; simp, h2, Or.inr ⟨by simp, .ref hv h3.2⟩⟩
        · rw [if_neg h38] at h
          by_cases h13 : b = 13
          · rw [if_pos h13] at h
            subst h13
            obtain ⟨t', rfl, h'⟩ := prepend_ok h
            obtain ⟨u, e, h1, h2, h3 | h3⟩ := text_conv hq10 k hk' h'
            · obtain ⟨_, u', rfl, h4⟩ := h3
              exact ⟨13 :: 10 :: u', e, by rw [h1]; simp, h2, Or.inr ⟨by simp, .crlf (Or.inr rfl) h4⟩⟩
            · refine ⟨13 :: u, e, by rw [h1]; simp, h2, Or.inr ⟨by simp, .cr (Or.inr rfl) ?_ h3.2⟩⟩
              have := h3.1 rfl
              rw [h1] at this
              cases u with
              | nil => simp
              | cons c u => exact this
          · rw [if_neg h13] at h
            by_cases hc : b1 = 13 ∧ b = 10
            · rw [if_pos hc] at h
              obtain ⟨rfl, rfl⟩ := hc
              obtain ⟨u, e, h1, h2, h3 | h3⟩ := text_conv hq10 k hk' h
              · exact absurd h3.1 (by decide)
              · exact ⟨10 :: u, e, by rw [h1]; simp, h2, Or.inl ⟨rfl, u, rfl, h3.2⟩⟩
            · rw [if_neg hc] at h
              obtain ⟨t', rfl, h'⟩ := prepend_ok h
              have hhead : b1 = 13 → (b :: s).head? ≠ some 10 := by
                intro h1 h2
                exact hc ⟨h1, by simpa using h2⟩
              obtain ⟨u, e, h1, h2, h3 | h3⟩ := text_conv hq10 k hk' h'
              · exact absurd h3.1 h13
              · refine ⟨b :: u, e, by rw [h1]; simp, h2, Or.inr ⟨hhead, ?_⟩⟩
                by_cases h10 : b = 10
                · subst h10; exact .lf (Or.inr rfl) h3.2
                · by_cases h9 : b = 9
                  · subst h9; exact .tab (Or.inr rfl) h3.2
                  · exact .plain h60 h38 hq h9 h13 h10 h3.2

theorem skipSpace_conv : ∀ s : Str, ∃ w, White w ∧ s = w ++ skipSpace s ∧ ∀ b t, skipSpace s = b :: t → ¬ IsWhite b
  | [] => ⟨[], by simp [White], rfl, by simp [skipSpace]⟩
  | b :: s => by
    by_cases hb : IsWhite b
    · obtain ⟨w, h1, h2, h3⟩ := skipSpace_conv s
      have he : skipSpace (b :: s) = skipSpace s :=
        skipSpace_append (w := [b]) (by intro x hx; simp at hx; exact hx ▸ hb) s
      rw [he]
      refine ⟨b :: w, ?_, by rw [List.cons_append, ← h2], h3⟩
      intro x hx
      simp only [List.mem_cons] at hx
      rcases hx with rfl | hx
      · exact hb
      · exact h1 x hx
    · rw [skipSpace_stop hb]
      refine ⟨[], by simp [White], rfl, ?_⟩
      rintro c t h
      rw [← (List.cons.inj h).1]
      exact hb

theorem splitColon_conv : ∀ {s p l : Str}, splitColon s = some (p, l) → s = p ++ 58 :: l ∧ ∀ b ∈ p, b ≠ 58
  | [], _, _, h => by simp [splitColon] at h
  | c :: s, p, l, h => by
    simp only [splitColon] at h
    by_cases hc : c = 58
    · rw [if_pos hc] at h
      simp only [Option.some.injEq, Prod.mk.injEq] at h
      obtain ⟨rfl, rfl⟩ := h
      exact ⟨by simp [hc], by simp⟩
    · rw [if_neg hc] at h
      cases hs : splitColon s with
      | none => simp [hs] at h
      | some x =>
        obtain ⟨p', l'⟩ := x
        simp only [hs, Option.map_some, Option.some.injEq, Prod.mk.injEq] at h
        obtain ⟨rfl, rfl⟩ := h
        obtain ⟨h1, h2⟩ := splitColon_conv hs
        refine ⟨by rw [h1]; simp, ?_⟩
        intro b hb
        simp only [List.mem_cons] at hb
        rcases hb with rfl | hb
        · exact hc
        · exact h2 b hb

theorem splitColon_conv_none : ∀ {s : Str}, splitColon s = none → ∀ b ∈ s, b ≠ 58
  | [], _, b, h => by simp at h
  | c :: s, h, b, hb => by
    simp only [splitColon] at h
    by_cases hc : c = 58
    · simp [hc] at h
    · rw [if_neg hc] at h
      have hs : splitColon s = none := by simpa using h
      simp only [List.mem_cons] at hb
      rcases hb with rfl | hb
      · exact hc
      · exact splitColon_conv_none hs b hb

theorem ncByte_of {b : Byte} (h : nameByte b = true) (h' : b ≠ 58) : NcByte b := by
  rcases anyByte_iff.2 h with h | h
  · exact h
  · exact absurd h h'

theorem qname_conv {s : Str} (hs : s ≠ []) (h : ∀ b ∈ s, nameByte b = true) : QNameOf .reader s (toName s) := by
  unfold toName
  cases hc : splitColon s with
  | none => exact .plain ⟨hs, fun b hb => ncByte_of (h b hb) (splitColon_conv_none hc b hb)⟩
  | some x =>
    obtain ⟨p, l⟩ := x
    obtain ⟨h1, h2⟩ := splitColon_conv hc
    subst h1
    have := QNameOf.lenient (m := .reader) (p := p) (l := l) rfl (fun b hb => ncByte_of (h b (by simp [hb])) (h2 b hb))
      (fun b hb => anyByte_iff.2 (h b (by simp [hb])))
    simpa using this

theorem attrval_conv {fin : LexErr} {s v r : Str} (h : attrval fin s = .ok (v, r)) (hr : r ≠ []) :
    ∃ q u, (q = 34 ∨ q = 39) ∧ s = q :: (u ++ q :: r) ∧ TextOf .reader (some q) u v := by
  cases s with
  | nil => simp [attrval] at h
  | cons q s =>
    simp only [attrval] at h
    by_cases hq : q = 34 ∨ q = 39
    · rw [if_pos (by simpa using hq)] at h
      have hq10 : (some q : Option Byte) ≠ some 10 := by rcases hq with rfl | rfl <;> decide
      obtain ⟨u, e, h1, h2, h3 | h3⟩ := text_conv hq10 s.length (le_refl _) h
      · exact absurd h3.1 (by decide)
      · rcases h2 with h2 | h2
        · exact ⟨q, u, hq, by rw [h1, show e = q :: r from h2], h3.2⟩
        · exact absurd h2.2 hr
    · rw [if_neg (by simpa using hq)] at h
      simp at h

/-- The end of a start tag. -/
def tagEnd (empty : Bool) : Str := if empty then b!"/>" else b!">"

theorem attrStep_done_conv {fin : LexErr} {s r : Str} {empty : Bool} (h : attrStep fin s = .done empty r) :
    ∃ w, White w ∧ s = w ++ (tagEnd empty ++ r) := by
  obtain ⟨w, hw, hs, _⟩ := skipSpace_conv s
  unfold attrStep at h
  cases hk : skipSpace s with
  | nil => simp [hk] at h
  | cons b t =>
    rw [hk] at hs
    simp only [hk] at h
    by_cases h1 : b = 47
    · rw [if_pos h1] at h
      subst h1
      cases t with
      | nil => simp at h
      | cons c u =>
        simp only at h
        split at h
        · rename_i hc
          subst hc
          cases h
          exact ⟨w, hw, by rw [hs]; simp [tagEnd]⟩
        · simp at h
    · rw [if_neg h1] at h
      by_cases h2 : b = 62
      · rw [if_pos h2] at h
        subst h2
        cases h
        exact ⟨w, hw, by rw [hs]; simp [tagEnd]⟩
      · rw [if_neg h2] at h
        exfalso
        cases hr : readName fin (b :: t) with
        | fail e => simp [hr] at h
        | missing r' => simp [hr] at h
        | ok n r' =>
          simp only [hr] at h
          cases hk2 : skipSpace r' with
          | nil => simp [hk2] at h
          | cons c u =>
            simp only [hk2] at h
            split at h
            · simp at h
            · cases hv : attrval fin (skipSpace u) with
              | error e => simp [hv] at h
              | ok p => simp [hv] at h

theorem attrStep_attr_conv {fin : LexErr} {s x : Str} {a : Attr} (h : attrStep fin s = .attr a x) (hx : x ≠ []) :
    ∃ w n e e' q u, White w ∧ QNameOf .reader n a.name ∧ White e ∧ White e' ∧ (q = 34 ∨ q = 39) ∧
      TextOf .reader (some q) u a.value ∧ (∃ b n', n = b :: n' ∧ nameByte b = true) ∧
      s = w ++ n ++ e ++ b!"=" ++ e' ++ [q] ++ u ++ [q] ++ x := by
  obtain ⟨w, hw, hs, _⟩ := skipSpace_conv s
  unfold attrStep at h
  cases hk : skipSpace s with
  | nil => simp [hk] at h
  | cons b t =>
    rw [hk] at hs
    simp only [hk] at h
    by_cases h1 : b = 47
    · rw [if_pos h1] at h
      cases t with
      | nil => simp at h
      | cons c u =>
        simp only at h
        split at h <;> simp at h
    · rw [if_neg h1] at h
      by_cases h2 : b = 62
      · simp [h2] at h
      · rw [if_neg h2] at h
        cases hr : readName fin (b :: t) with
        | fail e => simp [hr] at h
        | missing r' => simp [hr] at h
        | ok n r' =>
          simp only [hr] at h
          obtain ⟨hn1, hn2, hn3, _⟩ := readName_ok hr
          obtain ⟨e, he, hre, _⟩ := skipSpace_conv r'
          cases hk2 : skipSpace r' with
          | nil => simp [hk2] at h
          | cons c u =>
            simp only [hk2] at h
            split at h
            · simp at h
            · rename_i hc
              have hc : c = 61 := by simpa using hc
              subst hc
              obtain ⟨e', he', hue, _⟩ := skipSpace_conv u
              cases hv : attrval fin (skipSpace u) with
              | error e => simp [hv] at h
              | ok p =>
                obtain ⟨v, x'⟩ := p
                simp only [hv, AttrStep.attr.injEq] at h
                obtain ⟨rfl, rfl⟩ := h
                obtain ⟨q, uu, hq, huu, ht⟩ := attrval_conv hv hx
                refine ⟨w, n, e, e', q, uu, hw, qname_conv hn2 hn3, he, he', hq, ht, ?_, ?_⟩
                · cases n with
                  | nil => exact absurd rfl hn2
                  | cons b' n' => exact ⟨b', n', rfl, hn3 b' (by simp)⟩
                · rw [hs, hn1, hre, hk2, hue, huu]
                  simp

theorem attrs_conv {fin : LexErr} : ∀ {fuel : Nat} {s x : Str} {as : List Attr} {empty next : Bool},
    lexAttrs fin fuel s = .ok (as, empty, x) → (next = false → ∀ b t, s = b :: t → nameByte b = false) →
    ∃ a w, AttrsOf .reader next a as ∧ White w ∧ s = a ++ (w ++ (tagEnd empty ++ x))
  | 0, _, _, _, _, _, h, _ => by simp [lexAttrs] at h
  | fuel + 1, s, x, as, empty, next, h, hn => by
    rw [lexAttrs_step] at h
    cases hs : attrStep fin s with
    | fail e => simp [hs] at h
    | done em r =>
      simp only [hs, Except.ok.injEq, Prod.mk.injEq] at h
      obtain ⟨rfl, rfl, rfl⟩ := h
      obtain ⟨w, h1, h2⟩ := attrStep_done_conv hs
      exact ⟨[], w, .nil, h1, h2⟩
    | attr a y =>
      simp only [hs] at h
      cases hl : lexAttrs fin fuel y with
      | error e => simp [hl] at h
      | ok p =>
        obtain ⟨as', em, z⟩ := p
        simp only [hl, Except.ok.injEq, Prod.mk.injEq] at h
        obtain ⟨rfl, rfl, rfl⟩ := h
        have hy : y ≠ [] := by
          rintro rfl
          cases fuel with
          | zero => simp [lexAttrs] at hl
          | succ f => simp [lexAttrs, skipSpace] at hl
        obtain ⟨w, n, e, e', q, u, hw, hname, he, he', hq, ht, ⟨b, n', hb, hb'⟩, heq⟩ := attrStep_attr_conv hs hy
        obtain ⟨a', w', ha', hw', hy'⟩ := attrs_conv (next := true) hl (by simp)
        refine ⟨_, w', .cons hw ?_ hname he he' hq ht ha', hw', by rw [heq, hy']; simp⟩
        cases w with
        | cons c w => exact Or.inl (by simp)
        | nil =>
          refine Or.inr ⟨rfl, ?_⟩
          cases next with
          | true => rfl
          | false =>
            have := hn rfl b _ (by rw [heq, hb]; simp; rfl)
            rw [hb'] at this
            simp at this

theorem skipPI_conv {fin : LexErr} : ∀ {s r : Str} {b0 : Byte}, skipPI fin b0 s = .ok r →
    (b0 = 63 ∧ s = 62 :: r) ∨ ∃ body, s = body ++ 63 :: 62 :: r ∧ ¬ b!"?>" <:+: b0 :: body
  | [], _, _, h => by simp [skipPI] at h
  | b :: s, r, b0, h => by
    simp only [skipPI] at h
    by_cases hb : b0 = 63 ∧ b = 62
    · rw [if_pos hb] at h
      simp only [Except.ok.injEq] at h
      exact Or.inl ⟨hb.1, by rw [hb.2, h]⟩
    · rw [if_neg hb] at h
      rcases skipPI_conv h with ⟨rfl, rfl⟩ | ⟨body, rfl, h2⟩
      · refine Or.inr ⟨[], rfl, ?_⟩
        intro hh
        have := hh.length_le
        simp at this
      · refine Or.inr ⟨b :: body, rfl, fun hh => ?_⟩
        rcases List.infix_cons_iff.1 hh with hp | hp
        · obtain ⟨h3, h4⟩ := List.cons_prefix_cons.1 hp
          obtain ⟨h5, _⟩ := List.cons_prefix_cons.1 h4
          exact hb ⟨h3.symm, h5.symm⟩
        · exact h2 hp

theorem skipPI_zero {fin : LexErr} {s r : Str} (h : skipPI fin 0 s = .ok r) :
    ∃ body, s = body ++ 63 :: 62 :: r ∧ ¬ b!"?>" <:+: body := by
  rcases skipPI_conv h with ⟨h1, _⟩ | ⟨body, h1, h2⟩
  · exact absurd h1 (by decide)
  · exact ⟨body, h1, fun hh => h2 (hh.trans (List.suffix_cons 0 body).isInfix)⟩

theorem infix_white {body : Str} (h : ¬ b!"?>" <:+: body) : ∀ {w : Str}, White w → ¬ b!"?>" <:+: w ++ body
  | [], _ => h
  | b :: w, hw => by
    intro hh
    rcases List.infix_cons_iff.1 hh with hp | hp
    · have := (List.cons_prefix_cons.1 hp).1
      have hb := hw b (by simp)
      rw [← this] at hb
      exact absurd hb (by decide)
    · exact infix_white h (w := w) (fun x hx => hw x (by simp [hx])) hp

theorem raws_error {fin e : LexErr} {inp : Str} {close : Option Name} (h : rawTok fin inp close = .error e) :
    raws fin inp close = ([], e) := by
  unfold raws
  rw [rawFuel, h]

theorem markup_conv : ∀ (k : Nat) {s : Str}, s.length ≤ k → ∀ {evs : List (Option Event)},
    raws .eof s none = (evs, .eof) → ∃ is, MarkupOf .reader s is ∧ evs = is.map MarkupItem.event
  | k, [], _, evs, h => by
    rw [raws_nil] at h
    simp only [Prod.mk.injEq, and_true] at h
    exact ⟨[], .nil, h.symm⟩
  | 0, b :: s, hk, _, _ => by simp at hk
  | k + 1, b :: s, hk, evs, h => by
    have hk' : s.length ≤ k := by simpa using hk
    have bad : ∀ {e : LexErr}, rawTok .eof (b :: s) none = .error e → e = LexErr.eof.must ∨ e = .syntax → False := by
      intro e he h2
      rw [raws_error he] at h
      simp only [Prod.mk.injEq] at h
      rw [h.2] at h2
      rcases h2 with h2 | h2 <;> simp [LexErr.must] at h2
    have step : ∀ {ev : Option Event} {r : Str}, rawTok .eof (b :: s) none = .ok (ev, r, none) → r.length ≤ k →
        ∃ is, MarkupOf .reader r is ∧ evs = ev :: is.map MarkupItem.event := by
      intro ev r hx hr
      rw [raws_ok hx] at h
      simp only [Prod.mk.injEq] at h
      obtain ⟨is, h1, h2⟩ := markup_conv k hr (evs := (raws .eof r none).1) (Prod.ext rfl h.2)
      exact ⟨is, h1, by rw [← h.1, h2]⟩
    by_cases hb : b ≠ 60
    · cases ht : lexText .eof none (b :: s) with
      | error e => exact (bad (by simp only [rawTok]; rw [if_pos hb, ht]) (textGo_error _ ht)).elim
      | ok p =>
        obtain ⟨t, r⟩ := p
        have hx : rawTok .eof (b :: s) none = .ok (some (.chars t), r, none) := by
          simp only [rawTok]
          rw [if_pos hb, ht]
        have hlen := lexText_none_lt hb ht
        obtain ⟨is, h1, h2⟩ := step hx (by omega)
        obtain ⟨u, e, h3, h4, h5 | h5⟩ := text_conv (by simp) _ (le_refl _) ht
        · exact absurd h5.1 (by decide)
        · have her : e = r ∧ (e = [] ∨ e.head? = some 60) := by
            rcases h4 with h4 | h4
            · exact h4
            · exact ⟨by rw [h4.1, h4.2], Or.inl h4.1⟩
          obtain ⟨rfl, her⟩ := her
          refine ⟨.chars t :: is, ?_, by simpa [MarkupItem.event] using h2⟩
          rw [h3]
          refine .chars ?_ h5.2 her h1
          rintro rfl
          have := congrArg List.length h3
          simp at this
          omega
    · have hb : b = 60 := by simpa using hb
      subst hb
      cases s with
      | nil => exact (bad (e := LexErr.eof.must) rfl (Or.inl rfl)).elim
      | cons c t =>
        have hk2 : t.length + 1 ≤ k := by simpa using hk'
        by_cases h47 : c = 47
        · subst h47
          cases hr : readName .eof t with
          | fail e => exact (bad (e := e) (by simp [rawTok, hr]) (Or.inl (readName_fail hr))).elim
          | missing r => exact (bad (e := .syntax) (by simp [rawTok, hr]) (Or.inr rfl)).elim
          | ok n r =>
            obtain ⟨hn1, hn2, hn3, _⟩ := readName_ok hr
            obtain ⟨w, hw, hrw, _⟩ := skipSpace_conv r
            cases hs : skipSpace r with
            | nil => exact (bad (e := LexErr.eof.must) (by simp [rawTok, hr, hs]) (Or.inl rfl)).elim
            | cons d u =>
              by_cases hd : d = 62
              · subst hd
                have hx : rawTok .eof (60 :: 47 :: t) none = .ok (some (.stop (toName n)), u, none) := by
                  simp [rawTok, hr, hs]
                rw [hs] at hrw
                have heq : 60 :: 47 :: t = b!"</" ++ n ++ w ++ b!">" ++ u := by
                  rw [hn1, hrw]
                  simp
                have hlen : u.length ≤ k := by
                  have := congrArg List.length heq
                  simp at this
                  omega
                obtain ⟨is, h1, h2⟩ := step hx hlen
                refine ⟨.stop (toName n) :: is, ?_, by simpa [MarkupItem.event] using h2⟩
                rw [heq]
                exact .stop (qname_conv hn2 hn3) hw h1
              · exact (bad (e := .syntax) (by simp [rawTok, hr, hs, hd]) (Or.inr rfl)).elim
        · by_cases h63 : c = 63
          · subst h63
            cases hr : readName .eof t with
            | fail e => exact (bad (e := e) (by simp [rawTok, hr]) (Or.inl (readName_fail hr))).elim
            | missing r => exact (bad (e := .syntax) (by simp [rawTok, hr]) (Or.inr rfl)).elim
            | ok n r =>
              obtain ⟨hn1, hn2, hn3, c, t', hc, hc'⟩ := readName_ok hr
              obtain ⟨w, hw, hrw, _⟩ := skipSpace_conv r
              cases hp : skipPI .eof 0 (skipSpace r) with
              | error e => exact (bad (e := e) (by simp [rawTok, hr, hp]) (skipPI_error _ hp)).elim
              | ok u =>
                have hx : rawTok .eof (60 :: 63 :: t) none = .ok (none, u, none) := by
                  simp [rawTok, hr, hp]
                obtain ⟨body, hb1, hb2⟩ := skipPI_zero hp
                rw [hb1] at hrw
                have heq : 60 :: 63 :: t = b!"<?" ++ n ++ (w ++ body) ++ b!"?>" ++ u := by
                  rw [hn1, hrw]
                  simp
                have hlen : u.length ≤ k := by
                  have := congrArg List.length heq
                  simp at this
                  omega
                obtain ⟨is, h1, h2⟩ := step hx hlen
                refine ⟨.other :: is, ?_, by simpa [MarkupItem.event] using h2⟩
                rw [heq]
                refine .lenientInstruction rfl hn2 (fun b hb => anyByte_iff.2 (hn3 b hb)) ?_ (infix_white hb2 hw) h1
                intro x hx
                rw [anyByte_iff]
                have hxr : (w ++ body ++ 63 :: 62 :: u) = c :: t' := by rw [← hc, hrw]; simp
                cases hwb : w ++ body with
                | nil => simp [hwb] at hx
                | cons y z =>
                  rw [hwb] at hxr hx
                  have h3 : y = c := (List.cons.inj hxr).1
                  have h4 : y = x := by simpa using hx
                  rw [← h4, h3, hc']
                  simp
          · cases hr : readName .eof (c :: t) with
            | fail e => exact (bad (e := e) (by simp [rawTok, hr, h47, h63]) (Or.inl (readName_fail hr))).elim
            | missing r => exact (bad (e := .syntax) (by simp [rawTok, hr, h47, h63]) (Or.inr rfl)).elim
            | ok n r =>
              obtain ⟨hn1, hn2, hn3, c', t', hc, hc'⟩ := readName_ok hr
              cases hl : lexAttrs .eof (r.length + 1) r with
              | error e => exact (bad (e := e) (by simp [rawTok, hr, h47, h63, hl]) (lexAttrs_error _ hl)).elim
              | ok p =>
                obtain ⟨as, empty, u⟩ := p
                have hx : rawTok .eof (60 :: c :: t) none =
                    .ok (some (.start (toName n) as), u, if empty then some (toName n) else none) := by
                  simp [rawTok, hr, h47, h63, hl]
                obtain ⟨a, w, ha, hw, hrw⟩ := attrs_conv (next := false) hl (by
                  intro _ b' t'' hbt
                  rw [hc] at hbt
                  rw [← (List.cons.inj hbt).1]
                  exact hc')
                have heq : 60 :: c :: t = b!"<" ++ n ++ a ++ w ++ tagEnd empty ++ u := by
                  rw [hn1, hrw]
                  simp
                have hlen : u.length ≤ k := by
                  have := congrArg List.length heq
                  simp at this
                  omega
                rw [heq]
                cases empty with
                | false =>
                  obtain ⟨is, h1, h2⟩ := step hx hlen
                  exact ⟨.start (toName n) as :: is, .start (qname_conv hn2 hn3) ha hw h1,
                    by simpa [MarkupItem.event] using h2⟩
                | true =>
                  rw [raws_ok hx] at h
                  simp only [if_true, Prod.mk.injEq] at h
                  have hx2 : rawTok .eof u (some (toName n)) = .ok (some (.stop (toName n)), u, none) := rfl
                  rw [raws_ok hx2] at h
                  obtain ⟨is, h1, h2⟩ := markup_conv k hlen (evs := (raws .eof u none).1) (Prod.ext rfl h.2)
                  refine ⟨.start (toName n) as :: .stop (toName n) :: is, .empty (qname_conv hn2 hn3) ha hw h1, ?_⟩
                  rw [← h.1]
                  simp [MarkupItem.event, h2]

/-- **C59: the language of the reader.**  A document is read without syntax error, up to the matching of tags, exactly
if it belongs to the grammar in the mode `reader`, and what is reported is what the grammar says. -/
theorem C59_language (s : Str) (evs : List (Option Event)) :
    rawTags .eof s = (evs, .eof) ↔ ∃ is, MarkupOf .reader s is ∧ evs = is.map MarkupItem.event := by
  constructor
  · intro h
    rw [rawTags_eq] at h
    exact markup_conv s.length (le_refl _) h
  · rintro ⟨is, h, rfl⟩
    exact markup_ok .eof (by decide) h

/-- The grammar determines how a document is read. -/
theorem C59_unambiguous {s : Str} {is is' : List MarkupItem} (h : MarkupOf .reader s is) (h' : MarkupOf .reader s is') :
    is = is' := by
  have h1 := markup_ok .eof (by decide) h
  rw [markup_ok .eof (by decide) h'] at h1
  simp only [Prod.mk.injEq, and_true] at h1
  have hinj : Function.Injective MarkupItem.event := by
    intro x y hxy
    cases x <;> cases y <;> simp [MarkupItem.event] at hxy ⊢ <;> exact hxy
  exact (List.map_injective_iff.2 hinj h1).symm

/-! ## The part on which XML 1.0 and the reader agree -/

theorem Spec.QNameOf.of_common {m : Mode} {s : Str} {n : Name} (h : QNameOf .common s n) : QNameOf m s n := by
  cases h with
  | plain h => exact .plain h
  | prefixed h h' => exact .prefixed h h'
  | lenient h => simp at h

theorem Spec.ReferenceOf.of_common {m : Mode} {s : Str} {c : Nat} (h : ReferenceOf .common s c) : ReferenceOf m s c := by
  cases h with
  | lt => exact .lt
  | gt => exact .gt
  | amp => exact .amp
  | apos => exact .apos
  | quot => exact .quot
  | dec h h' => exact .dec h h'
  | hex h h' => exact .hex h h'
  | lenientDec h => simp at h
  | lenientHex h => simp at h

theorem Spec.TextOf.of_common {m : Mode} {q : Option Byte} {s t : Str} (h : TextOf .common q s t) : TextOf m q s t := by
  have hk : Keeps .common q → Keeps m q := fun h => h.elim Or.inl (by simp)
  induction h with
  | nil => exact .nil
  | plain h1 h2 h3 h4 h5 h6 _ ih => exact .plain h1 h2 h3 h4 h5 h6 ih
  | tab h _ ih => exact .tab (hk h) ih
  | lf h _ ih => exact .lf (hk h) ih
  | crlf h _ ih => exact .crlf (hk h) ih
  | cr h h' _ ih => exact .cr (hk h) h' ih
  | blankTab h => exact absurd h.2 (by decide)
  | blankLf h => exact absurd h.2 (by decide)
  | blankCrlf h => exact absurd h.2 (by decide)
  | blankCr h => exact absurd h.2 (by decide)
  | ref h _ ih => exact .ref h.of_common ih

theorem Spec.AttrsOf.of_common {m : Mode} {next : Bool} {s : Str} {as : List Attr} (h : AttrsOf .common next s as) :
    AttrsOf m next s as := by
  induction h with
  | nil => exact .nil
  | cons hw hne hn he he' hq hv _ ih =>
    exact .cons hw (Or.inl (hne.elim id (fun h => absurd h.1 (by decide)))) hn.of_common he he' hq hv.of_common ih

theorem Spec.MarkupOf.of_common {m : Mode} {s : Str} {is : List MarkupItem} (h : MarkupOf .common s is) : MarkupOf m s is := by
  induction h with
  | nil => exact .nil
  | chars hs ht hr _ ih => exact .chars hs ht.of_common hr ih
  | start hn ha hw _ ih => exact .start hn.of_common ha.of_common hw ih
  | empty hn ha hw _ ih => exact .empty hn.of_common ha.of_common hw ih
  | stop hn hw _ ih => exact .stop hn.of_common hw ih
  | instruction h1 h2 h3 h4 _ ih => exact .instruction h1 h2 h3 h4 ih
  | lenientInstruction h => simp at h
  | comment h => simp at h
  | cdata h => simp at h
  | doctype h => simp at h

/-- **C59, partial.**  Every document of the part of XML 1.0 without comments, `CDATA` sections and document type
declaration, and without tabs and line ends in attribute values, is read to its end, as XML 1.0 defines: white space of
any kind around attributes, both quotes, the five entities, decimal and hexadecimal references, line ends. -/
theorem C59_xml_partial (fin : LexErr) {s : Str} {is : List MarkupItem} (h : MarkupOf .common s is) :
    MarkupOf .xml s is ∧ rawTags fin s = (is.map MarkupItem.event, fin) ∧
      lex fin (.new s) = resolveAll [] (is.map MarkupItem.event) fin := by
  have := markup_ok fin (by decide) h
  exact ⟨h.of_common, this, by rw [C24_resolve, this]⟩

/-! ## Non-vacuity -/

/-- A document with what the property lists. -/
def c59Doc : Str :=
  b!"<?xml version='1.0'?>\x0d\n<m:a\tb = '&lt;\"&#x4F;'\n c=\"&quot;&#65;'\" ><d />&amp;\x0dx&apos;</m:a >"

/-- How XML 1.0 reads it. -/
def c59Items : List MarkupItem :=
  [.other, .chars b!"\n", .start ⟨b!"m", b!"a"⟩ [⟨⟨[], b!"b"⟩, b!"<\"O"⟩, ⟨⟨[], b!"c"⟩, b!"\"A'"⟩],
    .start ⟨[], b!"d"⟩ [], .stop ⟨[], b!"d"⟩, .chars b!"&\nx'", .stop ⟨b!"m", b!"a"⟩]

theorem digitOf_of {base : Nat} {b : Byte} {d : Nat} (h : d < base)
    (h' : (b!"0123456789abcdef" : Str)[d]? = some b ∨ (b!"0123456789ABCDEF" : Str)[d]? = some b) : DigitOf base b d :=
  ⟨h, h'⟩

theorem c59Doc_markup : MarkupOf .common c59Doc c59Items := by
  have hm : QNameOf .common b!"m:a" ⟨b!"m", b!"a"⟩ :=
    .prefixed (p := b!"m") (l := b!"a") (by decide +kernel) (by decide +kernel)
  have h1 : MarkupOf .common b!"</m:a >" [.stop ⟨b!"m", b!"a"⟩] :=
    .stop (n := b!"m:a") (w := b!" ") (rest := []) hm (by decide +kernel) .nil
  have ht : TextOf .common none b!"&amp;\x0dx&apos;" b!"&\nx'" :=
    .ref (r := b!"&amp;") (c := 0x26) .amp
      (.cr (Or.inl rfl) (by decide)
        (.plain (by decide) (by decide) (by decide) (by decide) (by decide) (by decide)
          (.ref (r := b!"&apos;") (c := 0x27) (s := []) .apos .nil)))
  have h2 : MarkupOf .common b!"&amp;\x0dx&apos;</m:a >" [.chars b!"&\nx'", .stop ⟨b!"m", b!"a"⟩] :=
    .chars (by decide) ht (Or.inr rfl) h1
  have h3 := MarkupOf.empty (m := .common) (n := b!"d") (a := []) (w := b!" ") (.plain (by decide +kernel)) .nil
    (by decide +kernel) h2
  have hv2 : TextOf .common (some 0x22) b!"&quot;&#65;'" b!"\"A'" :=
    .ref (r := b!"&quot;") (c := 0x22) .quot
      (.ref (r := b!"&#65;") (c := 65)
        (.dec (s := b!"65") (.snoc (s := b!"6") (n := 6) (d := 5) (.one (digitOf_of (by decide) (by decide)))
          (digitOf_of (by decide) (by decide))) (by decide))
        (.plain (by decide) (by decide) (by decide) (by decide) (by decide) (by decide) .nil))
  have hv1 : TextOf .common (some 0x27) b!"&lt;\"&#x4F;" b!"<\"O" :=
    .ref (r := b!"&lt;") (c := 0x3C) .lt
      (.plain (by decide) (by decide) (by decide) (by decide) (by decide) (by decide)
        (.ref (r := b!"&#x4F;") (c := 0x4F) (s := [])
          (.hex (s := b!"4F") (.snoc (s := b!"4") (n := 4) (d := 15) (.one (digitOf_of (by decide) (by decide)))
            (digitOf_of (by decide) (by decide))) (by decide)) .nil))
  have ha2 := AttrsOf.cons (m := .common) (next := true) (w := b!"\n ") (n := b!"c") (e := []) (e' := []) (q := 0x22)
    (by decide +kernel) (Or.inl (by decide)) (.plain (by decide +kernel)) (by decide +kernel) (by decide +kernel)
    (by decide) hv2 .nil
  have ha1 := AttrsOf.cons (m := .common) (next := false) (w := b!"\t") (n := b!"b") (e := b!" ") (e' := b!" ")
    (q := 0x27) (by decide +kernel) (Or.inl (by decide)) (.plain (by decide +kernel)) (by decide +kernel)
    (by decide +kernel) (by decide) hv1 ha2
  have h4 := MarkupOf.start (w := b!" ") hm ha1 (by decide +kernel) h3
  have h5 := MarkupOf.chars (s := b!"\x0d\n") (t := b!"\n") (by decide) (.crlf (Or.inl rfl) .nil) (Or.inr rfl) h4
  have h6 := MarkupOf.instruction (n := b!"xml") (w := b!" ") (body := b!"version='1.0'") (by decide +kernel)
    (by decide +kernel) (by decide) (by decide +kernel) h5
  exact h6

example : lex .eof (.new c59Doc) = resolveAll [] (c59Items.map MarkupItem.event) .eof :=
  (C59_xml_partial .eof c59Doc_markup).2.2

/-- The document is in the language of the reader, and others are not: an undeclared entity, a value without quotes. -/
example : (∃ evs, rawTags .eof c59Doc = (evs, .eof)) ∧ (∀ is, ¬ MarkupOf .reader b!"<a>&nbsp;</a>" is) ∧
    (∀ is, ¬ MarkupOf .reader b!"<a b=1></a>" is) := by
  refine ⟨⟨_, (C59_xml_partial .eof c59Doc_markup).2.1⟩, fun is h => ?_, fun is h => ?_⟩
  · have := congrArg Prod.snd (markup_ok .eof (by decide) h)
    simp only at this
    revert this
    decide +kernel
  · have := congrArg Prod.snd (markup_ok .eof (by decide) h)
    simp only at this
    revert this
    decide +kernel

/-! ## Where the reader differs from XML 1.0 -/

/-- Comments, `CDATA` sections and the document type declaration are rejected as syntax errors: the documents
`<a><!--x--></a>`, `<a><![CDATA[x]]></a>` and `<!DOCTYPE a><a></a>` are well formed, but the reader fails. -/
theorem C59_sections_false :
    (MarkupOf .xml b!"<a><!--x--></a>" [.start ⟨[], b!"a"⟩ [], .other, .stop ⟨[], b!"a"⟩] ∧
      (lex .eof (.new b!"<a><!--x--></a>")).2 = .syntax) ∧
    (MarkupOf .xml b!"<a><![CDATA[x]]></a>" [.start ⟨[], b!"a"⟩ [], .chars b!"x", .stop ⟨[], b!"a"⟩] ∧
      (lex .eof (.new b!"<a><![CDATA[x]]></a>")).2 = .syntax) ∧
    (MarkupOf .xml b!"<!DOCTYPE a><a></a>" [.other, .start ⟨[], b!"a"⟩ [], .stop ⟨[], b!"a"⟩] ∧
      (lex .eof (.new b!"<!DOCTYPE a><a></a>")).2 = .syntax) := by
  have hn : QNameOf .xml b!"a" ⟨[], b!"a"⟩ := .plain (by decide +kernel)
  have h1 : MarkupOf .xml b!"</a>" [.stop ⟨[], b!"a"⟩] :=
    .stop (n := b!"a") (w := []) (rest := []) hn (by decide +kernel) .nil
  have start : ∀ {rest : Str} {is : List MarkupItem}, MarkupOf .xml rest is →
      MarkupOf .xml (b!"<a>" ++ rest) (.start ⟨[], b!"a"⟩ [] :: is) :=
    fun h => .start (n := b!"a") (a := []) (w := []) hn .nil (by decide +kernel) h
  refine ⟨⟨start (MarkupOf.comment (body := b!"x") rfl (by decide +kernel) h1), by decide +kernel⟩,
    ⟨start (MarkupOf.cdata (body := b!"x") rfl (by decide +kernel) (by decide) h1), by decide +kernel⟩,
    ⟨MarkupOf.doctype (n := b!"a") (w := []) rfl (by decide +kernel) (by decide +kernel) (start h1), by decide +kernel⟩⟩

/-- Line ends in attribute values are not read as blanks. -/
theorem C59_values_false :
    MarkupOf .xml b!"<a b='x\ny'/>" [.start ⟨[], b!"a"⟩ [⟨⟨[], b!"b"⟩, b!"x y"⟩], .stop ⟨[], b!"a"⟩] ∧
      lex .eof (.new b!"<a b='x\ny'/>") =
        ([some (.start ⟨[], b!"a"⟩ [⟨⟨[], b!"b"⟩, b!"x\ny"⟩]), some (.stop ⟨[], b!"a"⟩)], .eof) := by
  refine ⟨?_, by decide +kernel⟩
  have hv : TextOf .xml (some 0x27) b!"x\ny" b!"x y" :=
    .plain (by decide) (by decide) (by decide) (by decide) (by decide) (by decide)
      (.blankLf ⟨by decide, rfl⟩ (.plain (by decide) (by decide) (by decide) (by decide) (by decide) (by decide) .nil))
  have ha := AttrsOf.cons (m := .xml) (next := false) (w := b!" ") (n := b!"b") (e := []) (e' := []) (q := 0x27)
    (by decide +kernel) (Or.inl (by decide)) (.plain (by decide +kernel)) (by decide +kernel)
    (by decide +kernel) (by decide) hv .nil
  exact MarkupOf.empty (n := b!"a") (w := []) (.plain (by decide +kernel)) ha (by decide +kernel) .nil

/-- What XML 1.0 forbids and the reader accepts: attributes without white space between them, the same attribute twice,
names with empty parts, references to characters outside XML, anything after the target of an instruction. -/
example : (lex .eof (.new b!"<a b='1'c='2'/>")).2 = .eof ∧ (lex .eof (.new b!"<a b='1' b='2'/>")).2 = .eof ∧
    (lex .eof (.new b!"<:a 1=''/>")).2 = .eof ∧ (lex .eof (.new b!"<a>&#0;&#xD800;</a>")).2 = .eof ∧
    (lex .eof (.new b!"<?x=y?><a/>")).2 = .eof := by
  decide +kernel

end Go3mf
