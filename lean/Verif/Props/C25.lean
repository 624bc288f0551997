import Verif.Model.Bufio
import Verif.Lemmas.Xml

/-!
# C25: parsing does not depend on how the reader delivers bytes
-/

namespace Go3mf

/-- The reader does not deliver 100 empty chunks in a row, after which `fill` gives up with `io.ErrNoProgress`. -/
def Progresses (s : Source) : Prop := ¬ List.replicate 100 ([] : Str) <:+: s.chunks

/-- Only the error is left. -/
def Source.exhausted (s : Source) : Prop := s.chunks = [] ∧ s.last = none

theorem exhausted_content {s : Source} (h : s.exhausted) : s.content = [] := by
  simp [Source.content, h.1, h.2]

/-- The bytes not yet returned. -/
def BufReader.pending (b : BufReader) : Str := (b.buf.take b.w).drop b.r ++ b.rd.content

structure BufInv (size : Nat) (fin : LexErr) (b : BufReader) : Prop where
  len : b.buf.length = size
  pos : 0 < size
  rw : b.r ≤ b.w
  ws : b.w ≤ size
  fin_eq : b.rd.fin = fin
  next : b.next = none
  err : ∀ e, b.err = some e → e = fin ∧ b.rd.exhausted
  progress : Progresses b.rd

theorem overwrite_length {buf c : Str} {i : Nat} (h : i + c.length ≤ buf.length) :
    (overwrite buf i c).length = buf.length := by
  simp [overwrite]; omega

theorem overwrite_take {buf c : Str} {i : Nat} (h : i ≤ buf.length) :
    (overwrite buf i c).take (i + c.length) = buf.take i ++ c := by
  unfold overwrite
  have : i + c.length = (buf.take i ++ c).length := by simp; omega
  rw [this, List.take_left]

theorem read_content (s : Source) (m : Nat) : (s.read m).1 ++ (s.read m).2.2.content = s.content := by
  unfold Source.read Source.content
  rcases s with ⟨_ | ⟨c, cs⟩, last, fin⟩
  · cases last with
    | none => simp
    | some c =>
      simp only
      split <;> simp
  · simp only
    split
    · simp
    · simp only [List.flatten_cons, List.append_assoc]
      rw [← List.append_assoc, List.take_append_drop]

theorem read_length (s : Source) (m : Nat) : (s.read m).1.length ≤ m := by
  unfold Source.read
  rcases s with ⟨_ | ⟨c, cs⟩, last, fin⟩
  · cases last with
    | none => simp
    | some c =>
      simp only
      split
      · simpa
      · simp; omega
  · simp only
    split
    · simpa
    · simp; omega

theorem read_fin (s : Source) (m : Nat) : (s.read m).2.2.fin = s.fin := by
  unfold Source.read
  rcases s with ⟨_ | ⟨c, cs⟩, last, fin⟩
  · cases last with
    | none => simp
    | some c =>
      simp only
      split <;> rfl
  · simp only
    split <;> rfl

theorem read_err {s : Source} {m : Nat} {e : LexErr} (h : (s.read m).2.1 = some e) :
    e = s.fin ∧ (s.read m).2.2.exhausted := by
  unfold Source.read at h ⊢
  rcases s with ⟨_ | ⟨c, cs⟩, last, fin⟩
  · cases last with
    | none => simp at h; simp [Source.exhausted, h]
    | some c =>
      simp only at h ⊢
      split at h
      · simp at h; simp [Source.exhausted, h, ‹c.length ≤ m›]
      · simp at h
  · simp only at h ⊢
    split at h <;> simp at h

theorem read_progress {s : Source} {m : Nat} (h : Progresses s) : Progresses (s.read m).2.2 := by
  unfold Progresses Source.read at *
  rcases s with ⟨_ | ⟨c, cs⟩, last, fin⟩
  · cases last with
    | none => simpa using h
    | some c =>
      simp only
      split <;> simpa using h
  · simp only at h ⊢
    split
    · exact fun hh => h (hh.trans (List.suffix_cons c cs).isInfix)
    · rename_i hm
      intro hh
      apply h
      rw [List.infix_cons_iff] at hh ⊢
      rcases hh with hh | hh
      · exfalso
        have := List.IsPrefix.getElem hh (i := 0) (by simp)
        simp only [List.getElem_replicate, List.getElem_cons_zero] at this
        have := congrArg List.length this
        simp at this
        omega
      · exact Or.inr hh

/-- A read without bytes and without error is the delivery of an empty chunk. -/
theorem read_empty {s : Source} {m : Nat} (hm : 0 < m) (h : (s.read m).1.length = 0) (he : (s.read m).2.1 = none) :
    ∃ cs, s.chunks = [] :: cs ∧ (s.read m).2.2.chunks = cs := by
  unfold Source.read at *
  rcases s with ⟨_ | ⟨c, cs⟩, last, fin⟩
  · cases last with
    | none => simp at he
    | some c =>
      simp only at h he
      split at h
      · simp [‹c.length ≤ m›] at he
      · rename_i hc
        rw [List.length_take] at h
        omega
  · simp only at h he ⊢
    split at h
    · have : c = [] := List.eq_nil_of_length_eq_zero h
      exact ⟨cs, by rw [this], by simp [this]⟩
    · rename_i hc
      rw [List.length_take] at h
      omega

theorem fillLoop_spec {size : Nat} {fin : LexErr} : ∀ (i : Nat) {b : BufReader}, b.w = 0 → b.r = 0 → b.err = none →
    BufInv size fin b → ¬ List.replicate i ([] : Str) <+: b.rd.chunks →
    BufInv size fin (b.fillLoop i) ∧ (b.fillLoop i).pending = b.rd.content ∧ (b.fillLoop i).r = 0 ∧
      ((b.fillLoop i).w = 0 → (b.fillLoop i).err ≠ none)
  | 0, b, _, _, _, _, h => absurd ⟨b.rd.chunks, by simp⟩ h
  | i + 1, b, hw, hr, he, hb, hp => by
    have hlen := read_length b.rd (b.buf.length - b.w)
    have hcont := read_content b.rd (b.buf.length - b.w)
    have hfin := read_fin b.rd (b.buf.length - b.w)
    have hprog := read_progress (m := b.buf.length - b.w) hb.progress
    have herr := fun e => read_err (s := b.rd) (m := b.buf.length - b.w) (e := e)
    have hempty := read_empty (s := b.rd) (m := b.buf.length - b.w)
    have hsize := hb.len
    have hpos := hb.pos
    simp only [BufReader.fillLoop]
    generalize b.rd.read (b.buf.length - b.w) = p at *
    obtain ⟨c, e, rd'⟩ := p
    simp only at *
    have hol : (overwrite b.buf b.w c).length = size := by rw [overwrite_length (by omega), hsize]
    have hpend : (List.take (b.w + c.length) (overwrite b.buf b.w c)).drop b.r ++ rd'.content = b.rd.content := by
      rw [overwrite_take (by omega), hw, hr]
      simpa using hcont
    cases e with
    | some e =>
      simp only
      refine ⟨⟨hol, hpos, ?_, ?_, ?_, hb.next, ?_, hprog⟩, hpend, hr, by simp⟩
      · simp only; omega
      · simp only; omega
      · simp only [hfin, hb.fin_eq]
      · intro e' he'
        simp only [Option.some.injEq] at he'
        obtain ⟨h1, h2⟩ := herr _ rfl
        exact ⟨by rw [← he', h1, hb.fin_eq], h2⟩
    | none =>
      simp only
      by_cases hc : c.length > 0
      · rw [if_pos hc]
        refine ⟨⟨hol, hpos, ?_, ?_, ?_, hb.next, ?_, hprog⟩, hpend, hr, ?_⟩
        · simp only; omega
        · simp only; omega
        · simp only [hfin, hb.fin_eq]
        · intro e' he'
          simp [he] at he'
        · simp only; omega
      · rw [if_neg hc]
        have hc0 : c = [] := List.eq_nil_of_length_eq_zero (by omega)
        subst hc0
        obtain ⟨cs, h1, h2⟩ := hempty (by omega) rfl rfl
        have ih := fillLoop_spec (size := size) (fin := fin) i
          (b := { b with buf := overwrite b.buf b.w [], rd := rd', w := b.w + ([] : Str).length }) (by simpa using hw) hr he
          ⟨hol, hpos, by simpa using hb.rw, by simpa using hb.ws, by simp only [hfin, hb.fin_eq], hb.next,
            by intro e' he'; simp [he] at he', hprog⟩
          (by
            intro hh
            apply hp
            rw [h1, List.replicate_succ]
            rw [h2] at hh
            simpa using hh)
        obtain ⟨i1, i2, i3, i4⟩ := ih
        refine ⟨i1, ?_, i3, i4⟩
        rw [i2]
        simpa using hcont

theorem readByte_spec {size : Nat} {fin : LexErr} {b : BufReader} (hb : BufInv size fin b) :
    BufInv size fin b.readByte.2 ∧
    match b.pending with
    | [] => b.readByte.1 = .error fin ∧ b.readByte.2.pending = []
    | c :: p => b.readByte.1 = .ok c ∧ b.readByte.2.pending = p := by
  -- The state after a possible `fill`.
  obtain ⟨b', hb', hpend, herr, hstep⟩ : ∃ b', BufInv size fin b' ∧ b'.pending = b.pending ∧
      (b'.r = b'.w → b'.err ≠ none) ∧
      b.readByte = if b'.r = b'.w then (.error (b'.err.getD .io), { b' with err := none })
        else (.ok (b'.buf.getD b'.r 0), { b' with r := b'.r + 1 }) := by
    unfold BufReader.readByte
    rw [hb.next]
    simp only
    by_cases h : b.r = b.w ∧ b.err = none
    · rw [if_pos h]
      have key : ∀ b0 : BufReader, b0.w = 0 → b0.r = 0 → b0.err = none → BufInv size fin b0 →
          b0.rd = b.rd → BufInv size fin (b0.fillLoop 100) ∧ (b0.fillLoop 100).pending = b.pending ∧
          ((b0.fillLoop 100).r = (b0.fillLoop 100).w → (b0.fillLoop 100).err ≠ none) := by
        intro b0 h1 h2 h3 h4 h5
        obtain ⟨i1, i2, i3, i4⟩ := fillLoop_spec 100 h1 h2 h3 h4
          (fun hh => h4.progress hh.isInfix)
        refine ⟨i1, ?_, fun hh => i4 (by omega)⟩
        rw [i2, h5]
        unfold BufReader.pending
        rw [List.drop_eq_nil_of_le (by simp [h.1]; omega)]
        rfl
      refine ⟨b.fill, ?_⟩
      unfold BufReader.fill
      by_cases hr : b.r > 0
      · rw [if_pos hr]
        have hnil : (b.buf.take b.w).drop b.r = [] := List.drop_eq_nil_of_le (by simp [h.1]; omega)
        obtain ⟨i1, i2, i3⟩ := key
          { b with buf := overwrite b.buf 0 ((b.buf.take b.w).drop b.r), w := b.w - b.r, r := 0 }
          (by simp only; omega) rfl h.2
          ⟨by simp only [hnil]; rw [overwrite_length (by simp), hb.len], hb.pos, by simp, by simp only; have := hb.ws; omega,
            hb.fin_eq, hb.next, by intro e he; simp [h.2] at he, hb.progress⟩ rfl
        exact ⟨i1, i2, i3, rfl⟩
      · rw [if_neg hr]
        obtain ⟨i1, i2, i3⟩ := key b (by omega) (by omega) h.2 hb rfl
        exact ⟨i1, i2, i3, rfl⟩
    · rw [if_neg h]
      exact ⟨b, hb, rfl, fun hr he => h ⟨hr, he⟩, rfl⟩
  rw [hstep, ← hpend]
  have hrw := hb'.rw
  have hws := hb'.ws
  have hlen := hb'.len
  by_cases hr : b'.r = b'.w
  · rw [if_pos hr]
    cases he : b'.err with
    | none => exact absurd he (herr hr)
    | some e =>
      obtain ⟨h1, h2⟩ := hb'.err e he
      have hp : b'.pending = [] := by
        unfold BufReader.pending
        rw [exhausted_content h2, List.drop_eq_nil_of_le (by simp [hr]; omega)]
        rfl
      rw [hp]
      refine ⟨⟨hlen, hb'.pos, hrw, hws, hb'.fin_eq, hb'.next, by intro e' he'; simp at he', hb'.progress⟩, ?_, ?_⟩
      · simp [h1]
      · exact hp
  · rw [if_neg hr]
    have hlt : b'.r < (b'.buf.take b'.w).length := by simp; omega
    have hp : b'.pending = (b'.buf.getD b'.r 0) :: ((b'.buf.take b'.w).drop (b'.r + 1) ++ b'.rd.content) := by
      unfold BufReader.pending
      rw [List.drop_eq_getElem_cons hlt]
      simp only [List.getElem_take, List.cons_append, List.cons.injEq, and_true]
      rw [List.getD_eq_getElem?_getD, List.getElem?_eq_getElem (by omega)]
      rfl
    rw [hp]
    exact ⟨⟨hlen, hb'.pos, by simp only; omega, hws, hb'.fin_eq, hb'.next, hb'.err, hb'.progress⟩, rfl, rfl⟩

theorem reads_spec {size : Nat} {fin : LexErr} : ∀ (k : Nat) {b : BufReader}, BufInv size fin b →
    b.reads k = (b.pending.map Except.ok ++ List.replicate k (Except.error fin)).take k
  | 0, b, _ => by simp [BufReader.reads]
  | k + 1, b, hb => by
    obtain ⟨h1, h2⟩ := readByte_spec hb
    have ih := reads_spec k h1
    simp only [BufReader.reads]
    cases hp : b.pending with
    | nil =>
      rw [hp] at h2
      rw [h2.1, ih, h2.2]
      simp [List.replicate_succ]
    | cons c p =>
      rw [hp] at h2
      rw [h2.1, ih, h2.2]
      simp only [List.map_cons, List.cons_append, List.take_succ_cons, List.cons.injEq, true_and]
      rw [List.take_append, List.take_append, List.take_replicate, List.take_replicate]
      congr 2
      omega

theorem bytesOf_ok (e : LexErr) (rs : List (Except LexErr Byte)) : ∀ s : Str,
    bytesOf (s.map .ok ++ .error e :: rs) = (s, e)
  | [] => rfl
  | c :: s => by simp [bytesOf, bytesOf_ok e rs s]

theorem new_inv {size : Nat} (hs : 0 < size) {rd : Source} (h : Progresses rd) :
    BufInv size rd.fin (.new size rd) :=
  ⟨by simp [BufReader.new], hs, by simp [BufReader.new], by simp [BufReader.new], rfl, rfl,
    by intro e he; simp [BufReader.new] at he, h⟩

/-- **C25**: successive calls of `ReadByte` return the bytes of the source in order, then its error for ever, however
the bytes are split into chunks, for every size of the buffer.  Partial: the source must not deliver 100 empty chunks in
a row (`C25_empty_false`). -/
theorem C25_bytes_partial {size : Nat} (hs : 0 < size) (rd : Source) (h : Progresses rd) (k : Nat) :
    (BufReader.new size rd).reads k = (rd.content.map Except.ok ++ List.replicate k (Except.error rd.fin)).take k := by
  rw [reads_spec k (new_inv hs h)]
  simp [BufReader.pending, BufReader.new]

/-- **C25**: the tokens and the error depend only on the bytes of the source and its error, not on the chunks. -/
theorem C25_chunks_partial {size : Nat} (hs : 0 < size) (rd : Source) (h : Progresses rd) :
    lexSource size rd = lex rd.fin (.new rd.content) := by
  unfold lexSource
  rw [C25_bytes_partial hs rd h, List.take_append]
  simp only [List.length_map, List.take_replicate]
  rw [List.take_of_length_le (by simp)]
  have : min (rd.content.length + 1 - rd.content.length) (rd.content.length + 1) = 1 := by omega
  rw [this, List.replicate_one, bytesOf_ok]

/-- **C25**: two ways to deliver the same bytes give the same tokens, attribute values and errors. -/
theorem C25_same_partial {size size' : Nat} (hs : 0 < size) (hs' : 0 < size') (rd rd' : Source) (h : Progresses rd)
    (h' : Progresses rd') (hc : rd.content = rd'.content) (hf : rd.fin = rd'.fin) :
    lexSource size rd = lexSource size' rd' := by
  rw [C25_chunks_partial hs rd h, C25_chunks_partial hs' rd' h', hc, hf]

/-- **C25**: `ungetc` gives back the byte to the next `ReadByte` and nothing else changes. -/
theorem C25_unget {b : BufReader} (h : b.next = none) (c : Byte) : (b.unget c).readByte = (.ok c, b) := by
  cases b
  simp only at h
  simp [BufReader.unget, BufReader.readByte, h]

/-- **C25**, where it fails: 100 empty reads in a row are an error, even if bytes would follow. -/
theorem C25_empty_false :
    lexSource 4096 ⟨[b!"<a/>"], none, .eof⟩ =
      ([some (.start ⟨[], b!"a"⟩ []), some (.stop ⟨[], b!"a"⟩)], .eof) ∧
    lexSource 4096 ⟨List.replicate 100 [] ++ [b!"<a/>"], none, .eof⟩ = ([], .io) := by
  decide +kernel

/-! ## Non-vacuity -/

example : Progresses ⟨[b!"<a ", [], [], b!"b=\"1", b!"\"/>"], some b!"\n", .eof⟩ := by
  unfold Progresses
  intro h
  have := h.length_le
  simp at this
example : lexSource 3 ⟨[b!"<a ", [], [], b!"b=\"1", b!"\"/>"], some b!"\n", .eof⟩ =
    ([some (.start ⟨[], b!"a"⟩ [⟨⟨[], b!"b"⟩, b!"1"⟩]), some (.stop ⟨[], b!"a"⟩), some (.chars b!"\n")], .eof) := by
  decide +kernel
example : lexSource 1 ⟨[b!"<a><"], none, .io⟩ = ([some (.start ⟨[], b!"a"⟩ [])], .io) := by decide +kernel

end Go3mf
