import Verif.Lemmas.Buffer
import Verif.Lemmas.NotEof
import Verif.Props.C59
import Verif.Spec.Pieces

/-!
# The pieces that the reader writes to its buffer
-/

namespace Go3mf

open Spec

variable {grow : Nat → Nat}

/-! ## The array -/

theorem writeBytes_append (p q : Str) : writeBytes (p ++ q) = writeBytes p ++ writeBytes q := by simp [writeBytes]

theorem writeBytes_cons (c : Byte) (p : Str) : writeBytes (c :: p) = .write [c] :: writeBytes p := rfl

theorem nameBuf_append (p q : Str) : nameBuf (p ++ q) = nameBuf p ++ writeBytes q := by simp [nameBuf, writeBytes_append]

/-- Bytes that fit. -/
theorem Buf.writeBytes_fit : ∀ (p : Str) (b : Buf), b.len + p.length ≤ b.arr.length →
    b.run grow (writeBytes p) =
      ⟨b.old, b.arr.take b.len ++ p ++ b.arr.drop (b.len + p.length), b.len + p.length⟩
  | [], b, h => by simp [writeBytes, Buf.run]
  | c :: p, b, h => by
    simp only [List.length_cons] at h
    have h1 : b.step grow (.write [c]) = ⟨b.old, b.arr.take b.len ++ [c] ++ b.arr.drop (b.len + 1), b.len + 1⟩ := by
      simp only [Buf.step, List.length_singleton]
      rw [if_pos (by omega)]
    have hl : (b.arr.take b.len ++ [c]).length = b.len + 1 := by
      rw [List.length_append, List.length_take, List.length_singleton]; omega
    have ih := Buf.writeBytes_fit p ⟨b.old, b.arr.take b.len ++ [c] ++ b.arr.drop (b.len + 1), b.len + 1⟩ (by
      simp only [List.length_append, List.length_take, List.length_singleton, List.length_drop]; omega)
    rw [writeBytes_cons, Buf.run_cons, h1, ih]
    simp only [Buf.mk.injEq, true_and]
    refine ⟨?_, by simp only [List.length_cons]; omega⟩
    rw [List.take_left' hl, List.drop_append, hl, List.drop_drop, List.length_cons,
      List.drop_of_length_le (by omega : (List.take b.len b.arr ++ [c]).length ≤ _)]
    simp only [List.append_assoc, List.singleton_append, List.nil_append, List.cons_append]
    congr 4
    omega

theorem Buf.step_fit (p : Str) (b : Buf) (h : b.len + p.length ≤ b.arr.length) :
    b.step grow (.write p) = b.run grow (writeBytes p) := by
  rw [Buf.writeBytes_fit p b h, Buf.step, if_pos h]

/-- One byte. -/
theorem Buf.byte_step {b : Buf} (h : b.Ok) (c : Byte) : (b.step grow (.write [c])).len = b.len + 1 ∧
    ((b.len < b.arr.length ∧ b.step grow (.write [c]) =
        ⟨b.old, b.arr.take b.len ++ [c] ++ b.arr.drop (b.len + 1), b.len + 1⟩) ∨
      (b.len = b.arr.length ∧ b.arr = [] ∧ (b.step grow (.write [c])).old = b.old ∧
        (b.step grow (.write [c])).arr.length = 64) ∨
      (b.len = b.arr.length ∧ b.arr ≠ [] ∧ (b.step grow (.write [c])).old = b.old ++ [b.arr] ∧
        (b.step grow (.write [c])).arr.length = b.arr.length + 1 + grow (b.arr.length + 1))) := by
  unfold Buf.Ok at h
  simp only [Buf.step, List.length_singleton]
  by_cases h1 : b.len + 1 ≤ b.arr.length
  · rw [if_pos h1]
    exact ⟨rfl, Or.inl ⟨by omega, rfl⟩⟩
  · rw [if_neg h1]
    have h3 : b.len = b.arr.length := by omega
    by_cases h2 : b.arr = []
    · rw [if_pos h2]
      refine ⟨?_, Or.inr (Or.inl ⟨h3, h2, rfl, ?_⟩)⟩
      · rw [h3, h2]; rfl
      · simp only [List.length_append, List.length_singleton, List.length_replicate]
    · rw [if_neg h2]
      refine ⟨rfl, Or.inr (Or.inr ⟨h3, h2, rfl, ?_⟩)⟩
      simp only [List.length_append, List.length_take, List.length_singleton, List.length_replicate, h3, Nat.min_self]

theorem Buf.run_len : ∀ {p : Str} {b : Buf}, b.Ok → (b.run grow (writeBytes p)).len = b.len + p.length := by
  intro p
  induction p with
  | nil => intro b _; simp [writeBytes, Buf.run]
  | cons c p ih =>
    intro b h
    rw [writeBytes_cons, Buf.run_cons, ih (Buf.step_ok h _), (Buf.byte_step h c).1, List.length_cons]
    omega

theorem capacityFor_le {cap n : Nat} (h : n ≤ cap) : capacityFor grow cap n = cap := by
  rw [capacityFor, if_pos h]

theorem capacityFor_gt {cap n : Nat} (h : ¬ n ≤ cap) :
    capacityFor grow cap n = capacityFor grow (if cap = 0 then 64 else cap + 1 + grow (cap + 1)) n := by
  rw [capacityFor, if_neg h]

theorem Buf.run_cap : ∀ {p : Str} {b : Buf}, b.Ok →
    (b.run grow (writeBytes p)).arr.length = capacityFor grow b.arr.length (b.len + p.length) := by
  intro p
  induction p with
  | nil =>
    intro b h
    unfold Buf.Ok at h
    rw [capacityFor_le (by simpa using h)]
    simp [writeBytes, Buf.run]
  | cons c p ih =>
    intro b h
    have hs := Buf.byte_step (grow := grow) h c
    rw [writeBytes_cons, Buf.run_cons, ih (Buf.step_ok h _), hs.1, List.length_cons,
      show b.len + 1 + p.length = b.len + (p.length + 1) by omega]
    rcases hs.2 with ⟨h1, h2⟩ | ⟨h1, h2, _, h3⟩ | ⟨h1, h2, _, h3⟩
    · rw [h2]
      congr 1
      simp only [List.length_append, List.length_take, List.length_singleton, List.length_drop]
      omega
    · rw [h3, capacityFor_gt (cap := b.arr.length) (by omega), if_pos (by simp [h2])]
    · rw [h3, capacityFor_gt (cap := b.arr.length) (by omega),
        if_neg (by simpa [List.length_eq_zero_iff] using h2)]

/-- The arrays that have been left stay as they are. -/
theorem Buf.old_prefix : ∀ (ops : List BufOp) (b : Buf), b.old <+: (b.run grow ops).old := by
  intro ops
  induction ops with
  | nil => intro b; exact List.prefix_refl _
  | cons op ops ih =>
    intro b
    refine List.IsPrefix.trans ?_ (ih _)
    cases op with
    | reset => exact List.prefix_refl _
    | drop k => exact List.prefix_refl _
    | write bs =>
      simp only [Buf.step]
      split
      · exact List.prefix_refl _
      · split
        · exact List.prefix_refl _
        · exact List.prefix_append _ _

theorem Buf.read_old {b b' : Buf} (h : b.old <+: b'.old) {k : Nat} (hk : k < b.old.length) (l : Nat) :
    b'.read (k, l) = b.read (k, l) := by
  obtain ⟨x, hx⟩ := h
  simp only [Buf.read, List.getD_eq_getElem?_getD]
  rw [← hx, List.append_assoc, List.getElem?_append_left hk, List.getElem?_append_left hk]

theorem Buf.read_now (b : Buf) (l : Nat) : b.read (b.old.length, l) = b.arr.take l := by
  simp [Buf.read]

/-- What has been left is what has been written up to the end of the array. -/
theorem Buf.writeBytes_over : ∀ {p : Str} {b : Buf}, b.Ok → b.arr ≠ [] → b.arr.length < b.len + p.length →
    (b.old ++ [(b.arr.take b.len ++ p).take b.arr.length]) <+: (b.run grow (writeBytes p)).old := by
  intro p
  induction p with
  | nil => intro b h _ h2; unfold Buf.Ok at h; simp at h2; omega
  | cons c p ih =>
    intro b h hne h2
    have hs := Buf.byte_step (grow := grow) h c
    rw [writeBytes_cons, Buf.run_cons]
    rcases hs.2 with ⟨h1, he⟩ | ⟨_, h3, _⟩ | ⟨h1, _, h3, _⟩
    · have hl : (b.arr.take b.len ++ [c]).length = b.len + 1 := by
        rw [List.length_append, List.length_take, List.length_singleton]; omega
      have hal : (b.arr.take b.len ++ [c] ++ b.arr.drop (b.len + 1)).length = b.arr.length := by
        simp only [List.length_append, List.length_take, List.length_singleton, List.length_drop]; omega
      have := ih (Buf.step_ok (grow := grow) h (.write [c])) (by rw [he]; simp) (by
        rw [he]; simp only [hal, List.length_cons] at h2 ⊢; omega)
      rw [he] at this ⊢
      simp only [hal, List.take_left' hl] at this
      simpa using this
    · exact absurd h3 hne
    · have hp := Buf.old_prefix (grow := grow) (writeBytes p) (b.step grow (.write [c]))
      rw [h3] at hp
      rwa [h1, List.take_length, List.take_left]

/-- A name is written. -/
theorem Buf.name_cap {b : Buf} (p : Str) : (b.run grow (nameBuf p)).arr.length = capacityFor grow b.arr.length p.length := by
  rw [nameBuf, Buf.run_cons, Buf.run_cap (by simp [Buf.Ok, Buf.step])]
  simp [Buf.step]

theorem Buf.name_fit {b : Buf} {p : Str} (h : p.length ≤ b.arr.length) :
    b.run grow (nameBuf p) = ⟨b.old, p ++ b.arr.drop p.length, p.length⟩ := by
  rw [nameBuf, Buf.run_cons, Buf.writeBytes_fit p _ (by simpa [Buf.step] using h)]
  simp [Buf.step]

theorem overwrite_taken (a p : Str) {l : Nat} (h : l ≤ a.length) : overwrite (a.take l) p = (p ++ a.drop p.length).take l := by
  have hl : (a.take l).length = l := by rw [List.length_take]; omega
  rw [overwrite, hl, List.drop_take]
  by_cases hp : l ≤ p.length
  · rw [List.take_append_of_le_length hp, List.take_append_of_le_length hp]
  · rw [List.take_append, List.take_append, List.take_take, Nat.min_self]

/-- The bytes of the current array after more pieces. -/
theorem Buf.kept : ∀ (ps : List Str) (b : Buf) (l : Nat), l ≤ b.arr.length → b.arr ≠ [] →
    (b.run grow (ps.flatMap nameBuf)).read (b.old.length, l) = keptAfter b.arr.length (b.arr.take l) ps := by
  intro ps
  induction ps with
  | nil => intro b l _ _; simp [Buf.run, keptAfter, Buf.read_now]
  | cons p ps ih =>
    intro b l hl hne
    rw [List.flatMap_cons, Buf.run_append, keptAfter]
    by_cases hp : p.length ≤ b.arr.length
    · rw [if_pos hp, Buf.name_fit hp]
      have hal : (p ++ b.arr.drop p.length).length = b.arr.length := by simp; omega
      have := ih ⟨b.old, p ++ b.arr.drop p.length, p.length⟩ l (by simp only [hal]; exact hl) (by
        intro h
        simp only at h
        rw [h] at hal
        exact hne (List.length_eq_zero_iff.1 hal.symm))
      rw [this]
      simp only [hal]
      rw [overwrite_taken _ _ hl]
    · rw [if_neg hp, overwrite_taken _ _ hl]
      have h1 := Buf.writeBytes_over (grow := grow) (p := p) (b := { b with len := 0 }) (by simp [Buf.Ok]) hne (by simpa using hp)
      simp only [List.take_zero, List.nil_append] at h1
      have h2 : (b.old ++ [p.take b.arr.length]) <+: (b.run grow (nameBuf p)).old := by
        rw [nameBuf, Buf.run_cons]; exact h1
      have h3 := h2.trans (Buf.old_prefix (grow := grow) (ps.flatMap nameBuf) _)
      have h4 := Buf.read_old (b := ⟨b.old ++ [p.take b.arr.length], [], 0⟩) h3 (k := b.old.length) (by simp) l
      rw [h4]
      simp only [Buf.read]
      rw [List.getD_eq_getElem?_getD, List.append_assoc, List.getElem?_append_right (Nat.le_refl _)]
      simp only [Nat.sub_self, List.cons_append, List.getElem?_cons_zero, Option.getD_some, List.take_take]
      rw [Nat.min_eq_left hl, List.take_append_of_le_length (by omega)]

theorem Buf.pieces_cap : ∀ (ps : List Str) (b : Buf),
    (b.run grow (ps.flatMap nameBuf)).arr.length = capacityAfter grow b.arr.length ps := by
  intro ps
  induction ps with
  | nil => intro b; rfl
  | cons p ps ih => intro b; rw [List.flatMap_cons, Buf.run_append, ih, Buf.name_cap]; rfl

/-! ## Texts -/

theorem textBuf_skip (fin : LexErr) (q : Option Byte) (b1 : Byte) (x : Str) : ∀ v : Str,
    textBuf fin q v.length b1 (v ++ x) = textBuf fin q 0 b1 x
  | [] => rfl
  | c :: v => by rw [List.cons_append, List.length_cons, textBuf]; exact textBuf_skip fin q b1 x v

theorem textBuf_end (fin : LexErr) {q : Option Byte} (hq : q = none ∨ q = some 34 ∨ q = some 39) (b1 : Byte) {s r : Str}
    (h : endsText q s r) : textBuf fin q 0 b1 s = [] := by
  unfold endsText at h
  rcases hq with rfl | rfl | rfl
  · obtain ⟨rfl, rfl | h⟩ := h
    · simp [textBuf]
    · cases s with
      | nil => simp at h
      | cons b s =>
        have : b = 60 := by simpa using h
        subst this
        simp [textBuf]
  · simp only at h
    subst h
    simp [textBuf]
  · simp only at h
    subst h
    simp [textBuf]

theorem textBuf_plain {fin : LexErr} {q : Option Byte} (b1 : Byte) {b : Byte} (s : Str) (h60 : b ≠ 60) (hq : q ≠ some b)
    (h38 : b ≠ 38) (h13 : b ≠ 13) (h10 : ¬ (b1 = 13 ∧ b = 10)) :
    textBuf fin q 0 b1 (b :: s) = .write [b] :: textBuf fin q 0 b s := by
  rw [textBuf, if_neg h60, if_neg hq, if_neg h38, if_neg h13, if_neg h10]

theorem utf8_length (c : Nat) : (utf8 c).length ≤ 4 := by
  unfold utf8 utf8Nat
  repeat' split
  all_goals simp

theorem reference_length {m : Mode} {r : Str} {c : Nat} (h : ReferenceOf m r c) : 4 ≤ r.length := by
  have hn : ∀ {base : Nat} {s : Str} {n : Nat}, NumeralOf base s n → 1 ≤ s.length := by
    intro base s n h
    cases h <;> simp
  cases h with
  | dec h => have := hn h; simp; omega
  | hex h => simp
  | lenientDec _ h => have := hn h; simp; omega
  | lenientHex _ h => simp
  | _ => decide

/-- An entity is replaced as if the text were written again. -/
theorem Buf.replace {b : Buf} {acc r d : Str} (hd : d.length ≤ r.length) :
    (b.run grow (nameBuf acc)).run grow (writeBytes r ++ [.drop r.length, .write d]) =
      (b.run grow (nameBuf (acc ++ r))).run grow (nameBuf (acc ++ d)) := by
  have e : (b.run grow (nameBuf acc)).run grow (writeBytes r) = b.run grow (nameBuf (acc ++ r)) := by
    rw [nameBuf_append, Buf.run_append]
  rw [Buf.run_append, e]
  have hok : (b.run grow (nameBuf (acc ++ r))).Ok := by
    rw [nameBuf, Buf.run_cons]; exact Buf.run_ok (by simp [Buf.Ok, Buf.step])
  have hlen : (b.run grow (nameBuf (acc ++ r))).len = acc.length + r.length := by
    rw [nameBuf, Buf.run_cons, Buf.run_len (by simp [Buf.Ok, Buf.step])]
    simp [Buf.step]
  have hby : (b.run grow (nameBuf (acc ++ r))).bytes = acc ++ r := by
    rw [nameBuf, Buf.run_cons, Buf.writeBytes_bytes (by simp [Buf.Ok, Buf.step])]
    simp [Buf.step, Buf.bytes]
  revert hok hlen hby
  generalize b.run grow (nameBuf (acc ++ r)) = b1
  intro hok hlen hby
  unfold Buf.Ok at hok
  have hacc : b1.arr.take acc.length = acc := by
    have := congrArg (List.take acc.length) hby
    rw [Buf.bytes, hlen, List.take_take, Nat.min_eq_left (by omega), List.take_left] at this
    exact this
  rw [Buf.name_fit (by rw [List.length_append]; omega), Buf.run_cons, Buf.run_cons]
  have h1 : b1.step grow (.drop r.length) = ⟨b1.old, b1.arr, acc.length⟩ := by
    simp only [Buf.step, hlen, Nat.add_sub_cancel]
  rw [h1, Buf.run, List.foldl_nil, Buf.step, if_pos (by simp only; omega)]
  simp only [hacc, List.length_append]

/-- What the loop of `text` does to the buffer. -/
theorem textPieces_buf (fin : LexErr) {q : Option Byte} (hq : q = none ∨ q = some 34 ∨ q = some 39) {e r : Str}
    (he : endsText q e r) {acc s : Str} {ps : List Str} (h : TextPieces q acc s ps) : ∀ (b : Buf) (b1 : Byte),
    (b1 = 13 → (s ++ e).head? ≠ some 10) →
    (b.run grow (nameBuf acc)).run grow (textBuf fin q 0 b1 (s ++ e)) = b.run grow (ps.flatMap nameBuf) := by
  have hq13 : q ≠ some 13 := by rcases hq with rfl | rfl | rfl <;> decide
  have hq10 : q ≠ some 10 := by rcases hq with rfl | rfl | rfl <;> decide
  have he10 : e.head? ≠ some 10 := by
    rcases hq with rfl | rfl | rfl
    · obtain ⟨_, rfl | h⟩ := he
      · simp
      · rw [h]; decide
    · unfold endsText at he; subst he; simp
    · unfold endsText at he; subst he; simp
  have hone : ∀ (acc : Str) (x : Byte) (b : Buf),
      (b.run grow (nameBuf acc)).step grow (.write [x]) = b.run grow (nameBuf (acc ++ [x])) := by
    intro acc x b
    rw [nameBuf_append, Buf.run_append]
    rfl
  induction h with
  | nil =>
    intro b b1 _
    rw [List.nil_append, textBuf_end fin hq b1 he]
    simp [Buf.run]
  | @plain acc s x ps h1 h2 h3 h4 h5 _ ih =>
    intro b b1 _
    rw [List.cons_append, textBuf_plain b1 _ h1 h3 h2 h4 (fun h => h5 h.2), Buf.run_cons, hone, ih b x (fun hb => absurd hb h4)]
  | @lf acc s ps _ ih =>
    intro b b1 hb1
    have : b1 ≠ 13 := fun hb => hb1 hb rfl
    rw [List.cons_append, textBuf_plain b1 _ (by decide) hq10 (by decide) (by decide) (fun h => this h.1), Buf.run_cons, hone,
      ih b 10 (fun h => absurd h (by decide))]
  | @crlf acc s ps _ ih =>
    intro b b1 _
    simp only [List.cons_append, textBuf]
    rw [if_neg (by decide), if_neg hq13, if_neg (by decide), if_pos trivial, if_neg (by decide), if_neg hq10,
      if_neg (by decide), if_neg (by decide), if_pos (by decide), Buf.run_cons, hone, ih b 10 (fun h => absurd h (by decide))]
  | @cr acc s ps hh _ ih =>
    intro b b1 _
    simp only [List.cons_append, textBuf]
    rw [if_neg (by decide), if_neg hq13, if_neg (by decide), if_pos trivial, Buf.run_cons, hone, ih b 13 (fun _ => ?_)]
    cases s with
    | nil => exact he10
    | cons c s => exact hh
  | @ref acc r s c ps hr _ ih =>
    intro b b1 _
    have hlen := reference_length hr
    have hu := utf8_length c
    obtain ⟨v, rfl, hv⟩ := reference_ok fin hr
    have hq38 : q ≠ some 38 := by rcases hq with rfl | rfl | rfl <;> decide
    rw [List.append_assoc, List.cons_append, textBuf, if_neg (by decide), if_neg hq38, if_pos rfl, hv (s ++ e)]
    simp only
    have hl : (v ++ (s ++ e)).length - (s ++ e).length = v.length := by
      rw [List.length_append, Nat.add_sub_cancel]
    rw [hl, List.take_left, textBuf_skip, Buf.run_append]
    have := Buf.replace (grow := grow) (b := b) (acc := acc) (r := 38 :: v) (d := utf8 c) (by omega)
    rw [show (38 :: v).length = 1 + v.length by simp; omega] at this
    rw [this, ih _ 0 (fun h => absurd h (by decide)), List.flatMap_cons, Buf.run_append]

theorem textPieces_text {q : Option Byte} {acc s : Str} {ps : List Str} (h : TextPieces q acc s ps) :
    ∃ t, TextOf .reader q s t ∧ ps.getLast? = some (acc ++ t) := by
  induction h with
  | nil => exact ⟨[], .nil, by simp⟩
  | @plain acc s b ps h1 h2 h3 h4 h5 _ ih =>
    obtain ⟨t, ht, hl⟩ := ih
    by_cases h9 : b = 9
    · subst h9; exact ⟨_, .tab (Or.inr rfl) ht, by simpa using hl⟩
    · exact ⟨_, .plain h1 h2 h3 h9 h4 h5 ht, by simpa using hl⟩
  | lf _ ih => obtain ⟨t, ht, hl⟩ := ih; exact ⟨_, .lf (Or.inr rfl) ht, by simpa using hl⟩
  | crlf _ ih => obtain ⟨t, ht, hl⟩ := ih; exact ⟨_, .crlf (Or.inr rfl) ht, by simpa using hl⟩
  | cr hh _ ih => obtain ⟨t, ht, hl⟩ := ih; exact ⟨_, .cr (Or.inr rfl) hh ht, by simpa using hl⟩
  | @ref acc r s c ps hr _ ih =>
    obtain ⟨t, ht, hl⟩ := ih
    refine ⟨_, .ref hr ht, ?_⟩
    rw [List.getLast?_cons, hl]
    simp

/-- Every text has its pieces. -/
theorem text_pieces {q : Option Byte} {s t : Str} (hq : q = none ∨ q = some 34 ∨ q = some 39) (h : TextOf .reader q s t) :
    ∀ acc, ∃ ps, TextPieces q acc s ps := by
  have hq9 : q ≠ some 9 := by rcases hq with rfl | rfl | rfl <;> decide
  induction h with
  | nil => exact fun acc => ⟨_, .nil⟩
  | plain h1 h2 h3 _ h4 h5 _ ih => exact fun acc => (ih _).imp fun _ h => .plain h1 h2 h3 h4 h5 h
  | tab _ _ ih =>
    exact fun acc => (ih _).imp fun _ h => .plain (by decide) (by decide) hq9 (by decide) (by decide) h
  | lf _ _ ih => exact fun acc => (ih _).imp fun _ h => .lf h
  | crlf _ _ ih => exact fun acc => (ih _).imp fun _ h => .crlf h
  | cr _ hh _ ih => exact fun acc => (ih _).imp fun _ h => .cr hh h
  | blankTab h => exact absurd h.2 (by decide)
  | blankLf h => exact absurd h.2 (by decide)
  | blankCrlf h => exact absurd h.2 (by decide)
  | blankCr h => exact absurd h.2 (by decide)
  | ref hr _ ih => exact fun acc => let ⟨ps, h⟩ := ih _; ⟨_, .ref hr h⟩

/-! ## Tags -/

theorem attrPieces_attrs {next : Bool} {a : Str} {ps : List Str} (h : AttrPieces next a ps) :
    ∃ as, AttrsOf .reader next a as := by
  induction h with
  | nil => exact ⟨_, .nil⟩
  | @cons next w n e e' v rest q name vs ps hw hn hq he he' hc hv _ ih =>
    obtain ⟨as, ih⟩ := ih
    obtain ⟨t, ht, _⟩ := textPieces_text hv
    exact ⟨_, .cons hw (hn.imp id fun h => ⟨rfl, h⟩) hq he he' hc ht ih⟩

theorem attrs_pieces {next : Bool} {a : Str} {as : List Attr} (h : AttrsOf .reader next a as) : ∃ ps, AttrPieces next a ps := by
  induction h with
  | nil => exact ⟨_, .nil⟩
  | @cons next w n e e' v t rest q name as hw hn hq he he' hc hv _ ih =>
    obtain ⟨ps, ih⟩ := ih
    obtain ⟨vs, hvs⟩ := text_pieces (Or.inr (by simpa using hc)) hv []
    exact ⟨_, .cons hw (hn.imp id fun h => h.2) hq he he' hc hvs ih⟩

/-- Every document of the reader has its pieces. -/
theorem markup_pieces {s : Str} {is : List MarkupItem} (h : MarkupOf .reader s is) : ∃ ps, PiecesOf s ps := by
  have hsplit : ∀ body : Str, ∃ w body', body = w ++ body' ∧ White w ∧ ∀ b ∈ body'.head?, ¬ IsWhite b := by
    intro body
    induction body with
    | nil => exact ⟨[], [], rfl, by intro b hb; simp at hb, by simp⟩
    | cons c body ih =>
      by_cases hc : IsWhite c
      · obtain ⟨w, body', h1, h2, h3⟩ := ih
        refine ⟨c :: w, body', by rw [h1]; rfl, ?_, h3⟩
        intro b hb
        rcases List.mem_cons.1 hb with rfl | hb
        · exact hc
        · exact h2 b hb
      · exact ⟨[], c :: body, rfl, by intro b hb; simp at hb, by simpa using hc⟩
  induction h with
  | nil => exact ⟨_, .nil⟩
  | chars hs ht hr _ ih =>
    obtain ⟨ps, ih⟩ := ih
    obtain ⟨ts, hts⟩ := text_pieces (Or.inl rfl) ht []
    exact ⟨_, .chars hs hts hr ih⟩
  | start hn ha hw _ ih =>
    obtain ⟨ps, ih⟩ := ih
    obtain ⟨as, has⟩ := attrs_pieces ha
    exact ⟨_, .start hn has hw ih⟩
  | empty hn ha hw _ ih =>
    obtain ⟨ps, ih⟩ := ih
    obtain ⟨as, has⟩ := attrs_pieces ha
    exact ⟨_, .empty hn has hw ih⟩
  | stop hn hw _ ih =>
    obtain ⟨ps, ih⟩ := ih
    exact ⟨_, .stop hn hw ih⟩
  | @instruction n w body rest is hn hw hb hi _ ih =>
    obtain ⟨ps, ih⟩ := ih
    obtain ⟨w', body', rfl, h2, h3⟩ := hsplit body
    have := PiecesOf.instruction (n := n) (w := w ++ w') (body := body') hn.1 (fun b hb => Or.inl (hn.2 b hb))
      (by intro b hb; rcases List.mem_append.1 hb with hb | hb; exacts [hw b hb, h2 b hb]) h3 (by
        rcases hb with hb | hb
        · rw [(List.append_eq_nil_iff.1 hb).2]; right; simp
        · left; simp [hb]) (fun hh => hi (hh.trans (List.suffix_append w' body').isInfix)) ih
    exact ⟨_, by simpa using this⟩
  | @lenientInstruction n body rest is _ hn0 hn hb hi _ ih =>
    obtain ⟨ps, ih⟩ := ih
    obtain ⟨w', body', rfl, h2, h3⟩ := hsplit body
    have := PiecesOf.instruction (n := n) (w := w') (body := body') hn0 hn h2 h3 (by
        cases w' with
        | nil => right; simpa using hb
        | cons => left; simp) (fun hh => hi (hh.trans (List.suffix_append w' body').isInfix)) ih
    exact ⟨_, by simpa using this⟩
  | comment h => exact absurd h (by decide)
  | cdata h => exact absurd h (by decide)
  | doctype h => exact absurd h (by decide)

/-- What the loop over the attributes does to the buffer. -/
theorem attrPieces_buf (fin : LexErr) {tail : Str} {c : Byte} {u : Str} (ht : skipSpace tail = c :: u) (hc : c = 47 ∨ c = 62)
    {next : Bool} {a : Str} {ps : List Str} (h : AttrPieces next a ps) : ∀ (fuel : Nat) (b : Buf), (a ++ tail).length < fuel →
    b.run grow (lexAttrsBuf fin fuel (a ++ tail)) = b.run grow (ps.flatMap nameBuf) := by
  induction h with
  | nil =>
    intro fuel b hf
    cases fuel with
    | zero => omega
    | succ fuel =>
      rw [List.nil_append, lexAttrsBuf, ht]
      simp only
      rw [if_pos (by rcases hc with rfl | rfl <;> decide)]
      rfl
  | @cons next w n e e' v rest q name vs ps hw hn hqn he he' hq hv _ ih =>
    intro fuel b hf
    cases fuel with
    | zero => omega
    | succ fuel =>
      obtain ⟨hne, hb, hname⟩ := qname_ok hqn
      have hx := text_ok fin (m := .reader) (by decide) (q := some q) (Or.inr (by simpa using hq)) (e := q :: (rest ++ tail))
        (r := rest ++ tail) rfl (textPieces_text hv).choose_spec.1 0 (fun h => absurd h (by decide))
      have hval : attrval fin (q :: (v ++ q :: (rest ++ tail))) = .ok ((textPieces_text hv).choose, rest ++ tail) := by
        simp only [attrval]
        rw [if_pos (by rcases hq with rfl | rfl <;> decide)]
        exact hx
      have hbuf : ∀ b : Buf, b.run grow (attrvalBuf fin (q :: (v ++ q :: (rest ++ tail)))) = b.run grow (vs.flatMap nameBuf) := by
        intro b
        simp only [attrvalBuf]
        rw [if_pos (by rcases hq with rfl | rfl <;> decide), lexTextBuf]
        exact textPieces_buf fin (q := some q) (Or.inr (by simpa using hq)) (e := q :: (rest ++ tail)) (r := rest ++ tail) rfl hv b 0
          (fun h => absurd h (by decide))
      have hrd := readName_white fin (t := e' ++ q :: (v ++ q :: (rest ++ tail))) hne hb he (c := 61) (by decide)
      have hq' : ¬ IsWhite q := by rcases hq with rfl | rfl <;> decide
      have heq : w ++ n ++ e ++ b!"=" ++ e' ++ [q] ++ v ++ [q] ++ rest ++ tail =
          w ++ (n ++ (e ++ 61 :: (e' ++ q :: (v ++ q :: (rest ++ tail))))) := by simp
      rw [heq] at hf ⊢
      have hlt : (rest ++ tail).length < fuel := by simp at hf ⊢; omega
      cases n with
      | nil => exact absurd rfl hne
      | cons x n =>
        have hxn : nameByte x = true := hb x (by simp)
        have hcw : ¬ IsWhite x := fun h => by rw [white_not_name h] at hxn; simp at hxn
        have h47 : x ≠ 47 := by rintro rfl; exact absurd hxn (by decide)
        have h62 : x ≠ 62 := by rintro rfl; exact absurd hxn (by decide)
        unfold lexAttrsBuf
        simp only [List.cons_append] at hrd ⊢
        rw [skipSpace_append hw, skipSpace_stop hcw]
        simp only
        rw [if_neg (by simp [h47, h62]), hrd]
        simp only
        rw [skipSpace_append he, skipSpace_stop (by decide)]
        simp only
        rw [if_neg (by simp), skipSpace_append he', skipSpace_stop hq', hval]
        simp only
        rw [Buf.run_append, Buf.run_append, hbuf, ih fuel _ hlt, List.flatMap_cons, List.flatMap_append, Buf.run_append,
          Buf.run_append]

theorem attrPieces_head {a : Str} {ps : List Str} (h : AttrPieces false a ps) : a = [] ∨ ∃ b u, a = b :: u ∧ IsWhite b :=
  attrs_head (attrPieces_attrs h).choose_spec

theorem skipPIBuf_ok (r : Str) : ∀ {body : Str} {b0 : Byte}, ¬ b!"?>" <:+: b0 :: body →
    skipPIBuf b0 (body ++ 63 :: 62 :: r) = writeBytes (body ++ b!"?>")
  | [], b0, h => by simp [skipPIBuf, writeBytes]
  | b :: body, b0, h => by
    have h1 : ¬ (b0 = 63 ∧ b = 62) := by
      rintro ⟨rfl, rfl⟩
      exact h ⟨[], body, rfl⟩
    have h2 : ¬ b!"?>" <:+: b :: body := fun hh => h (hh.trans (List.suffix_cons b0 _).isInfix)
    rw [List.cons_append, skipPIBuf, if_neg h1, skipPIBuf_ok r h2]
    rfl

/-! ## Documents -/

/-- A successful call of `RawToken` consumes what is there. -/
theorem rawToken_of_tok {fin : LexErr} {st st' : Lexer} {ev ev' : Option Event} {inp : Str} {close : Option Name}
    (h : rawTok fin st.inp st.close = .ok (ev, inp, close)) (h' : rawToken fin st = .ok (ev', st')) :
    st'.inp = inp ∧ st'.close = close ∧ ∀ t, ev' = some (.chars t) → ev = some (.chars t) := by
  have hEnd : ∀ (st : Lexer) (n : Name), TokenRes.of (handleEnd st n) = .ok (ev', st') →
      st'.inp = st.inp ∧ st'.close = st.close ∧ ∀ t, ev' ≠ some (.chars t) := by
    intro st n hx
    unfold handleEnd at hx
    simp only at hx
    split at hx
    · split at hx
      · simp [TokenRes.of] at hx
      · simp only [TokenRes.of, Except.ok.injEq, Prod.mk.injEq] at hx
        obtain ⟨rfl, rfl⟩ := hx
        exact ⟨rfl, rfl, by simp⟩
    · simp [TokenRes.of] at hx
  unfold rawTok at h
  unfold rawToken at h'
  cases hc : st.close with
  | some n =>
    simp only [hc, Except.ok.injEq, Prod.mk.injEq] at h h'
    obtain ⟨h1, h2, h3⟩ := hEnd _ _ h'
    exact ⟨by rw [h1]; exact h.2.1, by rw [h2]; exact h.2.2, fun t ht => absurd ht (h3 t)⟩
  | none =>
    simp only [hc] at h h'
    cases hi : st.inp with
    | nil => simp [hi] at h
    | cons b s =>
      simp only [hi] at h h'
      by_cases h60 : b ≠ 60
      · rw [if_pos h60] at h h'
        cases hx : lexText fin none (b :: s) with
        | error e => simp [hx] at h
        | ok p =>
          simp only [hx, Except.ok.injEq, Prod.mk.injEq] at h h'
          obtain ⟨rfl, rfl⟩ := h'
          exact ⟨h.2.1, by rw [← h.2.2], fun t ht => by rw [← h.1]; exact ht⟩
      · rw [if_neg h60] at h h'
        cases s with
        | nil => simp at h
        | cons c t =>
          simp only at h h'
          by_cases h47 : c = 47
          · rw [if_pos h47] at h h'
            unfold lexEnd at h'
            cases hr : readName fin t with
            | fail e => simp [hr] at h
            | missing u => simp [hr] at h
            | ok n r =>
              simp only [hr] at h h'
              cases hk : skipSpace r with
              | nil => simp [hk] at h
              | cons d u =>
                simp only [hk] at h h'
                by_cases h62 : d = 62
                · rw [if_pos h62] at h h'
                  simp only [Except.ok.injEq, Prod.mk.injEq] at h
                  obtain ⟨h1, h2, h3⟩ := hEnd _ _ h'
                  exact ⟨by rw [h1]; exact h.2.1, by rw [h2, ← h.2.2]; exact hc, fun t ht => absurd ht (h3 t)⟩
                · simp [h62] at h
          rw [if_neg h47] at h h'
          by_cases h63 : c = 63
          · rw [if_pos h63] at h h'
            unfold lexPI at h'
            cases hr : readName fin t with
            | fail e => simp [hr] at h
            | missing u => simp [hr] at h
            | ok n r =>
              simp only [hr] at h h'
              cases hk : skipPI fin 0 (skipSpace r) with
              | error e => simp [hk] at h
              | ok u =>
                simp only [hk, Except.ok.injEq, Prod.mk.injEq] at h h'
                obtain ⟨rfl, rfl⟩ := h'
                exact ⟨h.2.1, by rw [← h.2.2]; exact hc, by simp⟩
          · rw [if_neg h63] at h h'
            unfold lexStart at h'
            cases hr : readName fin (c :: t) with
            | fail e => simp [hr] at h
            | missing u => simp [hr] at h
            | ok n r =>
              simp only [hr] at h h'
              cases hk : lexAttrs fin (r.length + 1) r with
              | error e => simp [hk] at h
              | ok p =>
                simp only [hk, Except.ok.injEq, Prod.mk.injEq] at h h'
                obtain ⟨rfl, rfl⟩ := h'
                exact ⟨h.2.1, h.2.2, by simp [handleStart]⟩

/-- What is written from here on, if the input is read to its end. -/
def PieceRuns (grow : Nat → Nat) (inp : Str) (close : Option Name) (ps : List (List Str)) : Prop :=
  ∀ (fuel : Nat) (st : Lexer) (b : Buf), st.inp = inp → st.close = close → (lexFuel .eof fuel st).2 = .eof →
    (lexSlices .eof grow fuel st b).1 = b.run grow (ps.flatten.flatMap nameBuf) ∧
    ∀ i t, (lexFuel .eof fuel st).1[i]? = some (some (.chars t)) →
      (∃ p, ps[i]? = some p ∧ p.getLast? = some t) ∧
      (lexSlices .eof grow fuel st b).2[i]? = some (b.run grow ((ps.take (i + 1)).flatten.flatMap nameBuf)).slice

theorem PieceRuns.nil : PieceRuns grow [] none [] := by
  intro fuel st b hi hc hx
  cases fuel with
  | zero => simp [lexFuel] at hx
  | succ fuel =>
    have hr : ∃ e, rawToken .eof st = .error e := by
      unfold rawToken
      rw [hc, hi]
      exact ⟨_, rfl⟩
    obtain ⟨e, hr⟩ := hr
    rw [lexFuel, lexSlices, hr]
    exact ⟨rfl, by simp⟩

theorem PieceRuns.step {inp inp' : Str} {close close' : Option Name} {ev : Option Event} {p : List Str} {ps : List (List Str)}
    (hx : rawTok .eof inp close = .ok (ev, inp', close'))
    (hb : ∀ (st : Lexer) (b : Buf), st.inp = inp → st.close = close →
      b.run grow (tokenBuf .eof st) = b.run grow (p.flatMap nameBuf))
    (hl : ∀ t, ev = some (.chars t) → p.getLast? = some t) (h : PieceRuns grow inp' close' ps) : PieceRuns grow inp close (p :: ps) := by
  intro fuel st b hi hc hend
  cases fuel with
  | zero => simp [lexFuel] at hend
  | succ fuel =>
    rw [lexFuel] at hend ⊢
    rw [lexSlices]
    cases hr : rawToken .eof st with
    | error e =>
      rw [hr] at hend
      simp only at hend
      subst hend
      have h1 := (rawToken_eof hr).2.1
      exfalso
      rw [hi] at h1
      rw [h1] at hx
      cases close with
      | none => simp [rawTok] at hx
      | some n =>
        unfold rawToken at hr
        rw [hc] at hr
        exact handleEnd_ne _ _ hr
    | ok q =>
      obtain ⟨ev', st'⟩ := q
      rw [hr] at hend
      simp only at hend ⊢
      obtain ⟨h1, h2, h3⟩ := rawToken_of_tok (by rw [hi, hc]; exact hx) hr
      obtain ⟨h4, h5⟩ := h fuel st' (b.run grow (tokenBuf .eof st)) h1 h2 hend
      rw [hb st b hi hc] at h4 h5 ⊢
      refine ⟨by rw [h4, List.flatten_cons, List.flatMap_append, Buf.run_append], fun i t hit => ?_⟩
      cases i with
      | zero =>
        simp only [List.getElem?_cons_zero, Option.some.injEq] at hit ⊢
        exact ⟨⟨p, rfl, hl t (h3 t hit)⟩, by simp⟩
      | succ i =>
        simp only [List.getElem?_cons_succ] at hit ⊢
        obtain ⟨h6, h7⟩ := h5 i t hit
        refine ⟨h6, ?_⟩
        rw [h7, List.take_succ_cons, List.flatten_cons, List.flatMap_append, Buf.run_append]

theorem startTag_runs {n a tail x : Str} {name : Name} {as : List Str} {ps : List (List Str)} {empty : Bool}
    (hn : QNameOf .reader n name) (ha : AttrPieces false a as) (ht : attrStep .eof tail = .done empty x)
    (htail : ∀ b u, tail = b :: u → nameByte b = false) {c : Byte} {u : Str} (hs : skipSpace tail = c :: u)
    (hc : c = 47 ∨ c = 62) (h : PieceRuns grow x (if empty then some name else none) ps) :
    PieceRuns grow (60 :: (n ++ (a ++ tail))) none ((n :: as) :: ps) := by
  have hne : tail ≠ [] := by rintro rfl; simp [skipSpace] at hs
  obtain ⟨as', has'⟩ := attrPieces_attrs ha
  refine PieceRuns.step (startTag_ok .eof (m := .reader) (by decide) hn has' ht htail hne) ?_ (by simp) h
  intro st b hi hcl
  obtain ⟨hn1, hn2, hn3⟩ := qname_ok hn
  have hrd : readName .eof (n ++ (a ++ tail)) = .ok n (a ++ tail) := by
    rcases attrPieces_head ha with rfl | ⟨b, u, rfl, hb⟩
    · cases tail with
      | nil => exact absurd rfl hne
      | cons c u => exact readName_append .eof (htail c u rfl) u hn1 hn2
    · exact readName_append .eof (white_not_name hb) _ hn1 hn2
  unfold tokenBuf
  rw [hcl, hi]
  cases n with
  | nil => exact absurd rfl hn1
  | cons d n =>
    have hd : nameByte d = true := hn2 d (by simp)
    have h47 : d ≠ 47 := by rintro rfl; exact absurd hd (by decide)
    have h63 : d ≠ 63 := by rintro rfl; exact absurd hd (by decide)
    simp only [List.cons_append] at hrd ⊢
    rw [if_neg (by simp), if_neg h47, if_neg h63, hrd]
    simp only
    rw [Buf.run_append, attrPieces_buf .eof hs hc ha _ _ (by omega), List.flatMap_cons, Buf.run_append]

theorem pieces_runs {s : Str} {ps : List (List Str)} (h : PiecesOf s ps) : PieceRuns grow s none ps := by
  have htail : ∀ {w : Str} {c : Byte} {x : Str}, White w → nameByte c = false → ∀ b u, w ++ c :: x = b :: u → nameByte b = false := by
    intro w c x hw hc b u hu
    cases w with
    | nil => rw [← (List.cons.inj hu).1]; exact hc
    | cons d w => rw [← (List.cons.inj hu).1]; exact white_not_name (hw d (by simp))
  induction h with
  | nil => exact PieceRuns.nil
  | @chars s rest ts ps hs ht hr _ ih =>
    obtain ⟨t, htx, hlast⟩ := textPieces_text ht
    have hok := text_ok .eof (m := .reader) (by decide) (Or.inl rfl) (e := rest) (r := rest) ⟨rfl, hr⟩ htx 0
      (fun h => absurd h (by decide))
    cases s with
    | nil => exact absurd rfl hs
    | cons c s =>
      have hc : c ≠ 60 := text_head htx rfl
      simp only [List.cons_append] at hok ⊢
      refine PieceRuns.step (ev := some (.chars t)) (inp' := rest) (close' := none) ?_ ?_ ?_ ih
      · simp only [rawTok]
        rw [if_pos hc]
        unfold lexText
        rw [hok]
      · intro st b hi hcl
        unfold tokenBuf
        rw [hcl, hi]
        simp only
        rw [if_pos hc, lexTextBuf]
        exact textPieces_buf .eof (Or.inl rfl) (e := rest) (r := rest) ⟨rfl, hr⟩ ht b 0 (fun h => absurd h (by decide))
      · intro t' ht'
        simp only [Option.some.injEq, Event.chars.injEq] at ht'
        rw [← ht', hlast]
        rfl
  | @start n a w rest name as ps hn ha hw _ ih =>
    have heq : b!"<" ++ n ++ a ++ w ++ b!">" ++ rest = 60 :: (n ++ (a ++ (w ++ 62 :: rest))) := by simp
    rw [heq]
    exact startTag_runs hn ha (attrStep_end .eof hw rest).1 (htail hw (by decide))
      (by rw [skipSpace_append hw, skipSpace_stop (by decide)]) (Or.inr rfl) ih
  | @empty n a w rest name as ps hn ha hw _ ih =>
    have heq : b!"<" ++ n ++ a ++ w ++ b!"/>" ++ rest = 60 :: (n ++ (a ++ (w ++ 47 :: 62 :: rest))) := by simp
    rw [heq]
    refine startTag_runs hn ha (attrStep_end .eof hw rest).2 (htail hw (by decide))
      (by rw [skipSpace_append hw, skipSpace_stop (by decide)]) (Or.inl rfl) ?_
    refine PieceRuns.step (ev := some (.stop name)) (inp' := rest) (close' := none) rfl ?_ (by simp) ih
    intro st b hi hcl
    unfold tokenBuf
    rw [if_pos rfl] at hcl
    rw [hcl]
    rfl
  | @stop n w rest name ps hn hw _ ih =>
    obtain ⟨hne, hb, hname⟩ := qname_ok hn
    have hrd := readName_white .eof (t := rest) hne hb hw (c := 62) (by decide)
    have heq : b!"</" ++ n ++ w ++ b!">" ++ rest = 60 :: 47 :: (n ++ (w ++ 62 :: rest)) := by simp
    rw [heq]
    refine PieceRuns.step (ev := some (.stop name)) (inp' := rest) (close' := none) ?_ ?_ (by simp) ih
    · simp only [rawTok]
      rw [if_neg (by simp), if_pos trivial, hrd]
      simp only
      rw [skipSpace_append hw, skipSpace_stop (by decide)]
      simp [hname]
    · intro st b hi hcl
      unfold tokenBuf
      rw [hcl, hi]
      simp only
      rw [if_neg (by simp), if_pos trivial, hrd]
      simp
  | @instruction n w body rest ps hn0 hn hw hbw hbn hi _ ih =>
    have heq : b!"<?" ++ n ++ w ++ body ++ b!"?>" ++ rest = 60 :: 63 :: (n ++ (w ++ (body ++ 63 :: 62 :: rest))) := by simp
    have hrd : readName .eof (n ++ (w ++ (body ++ 63 :: 62 :: rest))) = .ok n (w ++ (body ++ 63 :: 62 :: rest)) := by
      have hnb : ∀ b ∈ n, nameByte b = true := fun b hb => anyByte_iff.1 (hn b hb)
      cases w with
      | cons c w => exact readName_append .eof (white_not_name (hw c (by simp))) _ hn0 hnb
      | nil =>
        cases body with
        | nil => exact readName_append .eof (by decide) _ hn0 hnb
        | cons c body =>
          rcases hbn with h | h
          · exact absurd rfl h
          · have := h c (by simp)
            rw [anyByte_iff] at this
            exact readName_append .eof (by simpa using this) _ hn0 hnb
    have hsk : skipSpace (w ++ (body ++ 63 :: 62 :: rest)) = body ++ 63 :: 62 :: rest := by
      rw [skipSpace_append hw]
      cases body with
      | nil => exact skipSpace_stop (b := 63) (by decide) _
      | cons c body => exact skipSpace_stop (hbw c (by simp)) _
    rw [heq]
    refine PieceRuns.step (ev := none) (inp' := rest) (close' := none) ?_ ?_ (by simp) ih
    · simp only [rawTok]
      rw [if_neg (by simp), if_neg (by decide), if_pos trivial, hrd]
      simp only
      rw [hsk, skipPI_ok .eof rest (infix_zero_cons hi)]
    · intro st b hst hcl
      unfold tokenBuf
      rw [hcl, hst]
      simp only
      rw [if_neg (by simp), if_neg (by decide), if_pos trivial, hrd]
      simp only
      rw [hsk, skipPIBuf_ok rest (infix_zero_cons hi)]
      simp [nameBuf_append, writeBytes_append]

end Go3mf
