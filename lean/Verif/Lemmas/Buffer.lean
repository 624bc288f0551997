import Verif.Model.Buffer

/-!
# The buffer of the reader holds what has been read
-/

namespace Go3mf

variable {grow : Nat → Nat}

/-- The bytes of the buffer are in its array. -/
def Buf.Ok (b : Buf) : Prop := b.len ≤ b.arr.length

theorem Buf.run_append (b : Buf) (ops ops' : List BufOp) : b.run grow (ops ++ ops') = (b.run grow ops).run grow ops' :=
  List.foldl_append

theorem Buf.run_cons (b : Buf) (op : BufOp) (ops : List BufOp) : b.run grow (op :: ops) = (b.step grow op).run grow ops := rfl

theorem Buf.step_ok {b : Buf} (h : b.Ok) (op : BufOp) : (b.step grow op).Ok := by
  unfold Buf.Ok at h ⊢
  cases op with
  | reset => simp [Buf.step]
  | drop k => simp only [Buf.step]; omega
  | write bs =>
    simp only [Buf.step]
    split
    · simp only [List.length_append, List.length_take, List.length_drop]; omega
    · split
      · simp
      · simp only [List.length_append, List.length_take, List.length_replicate]; omega

theorem Buf.run_ok {ops : List BufOp} : ∀ {b : Buf}, b.Ok → (b.run grow ops).Ok := by
  induction ops with
  | nil => exact fun h => h
  | cons op ops ih => exact fun h => ih (Buf.step_ok h op)

theorem Buf.write_bytes {b : Buf} (h : b.Ok) (bs : Str) : (b.step grow (.write bs)).bytes = b.bytes ++ bs := by
  unfold Buf.Ok at h
  have e : ∀ (x : Str) (y : Str), ((b.arr.take b.len ++ x) ++ y).take (b.len + x.length) = b.arr.take b.len ++ x := by
    intro x y
    refine List.take_left' ?_
    rw [List.length_append, List.length_take]
    omega
  simp only [Buf.step, Buf.bytes]
  split
  · exact e _ _
  · split
    · next h1 h2 => rw [h2]; simp
    · exact e _ _

theorem Buf.writeBytes_bytes : ∀ {s : Str} {b : Buf}, b.Ok → (b.run grow (writeBytes s)).bytes = b.bytes ++ s := by
  intro s
  induction s with
  | nil => intro b h; simp [writeBytes, Buf.run]
  | cons c s ih =>
    intro b h
    rw [writeBytes, List.map_cons, Buf.run_cons]
    have := ih (Buf.step_ok (grow := grow) h (.write [c]))
    rw [writeBytes] at this
    rw [this, Buf.write_bytes h]
    simp

theorem Buf.bytes_length {b : Buf} (h : b.Ok) : b.bytes.length = b.len := by
  unfold Buf.Ok at h
  simp [Buf.bytes, h]

/-- What has been written goes away again. -/
theorem Buf.drop_bytes {b : Buf} (h : b.Ok) {x y : Str} (hb : b.bytes = x ++ y) : (b.step grow (.drop y.length)).bytes = x := by
  have hl := Buf.bytes_length h
  rw [hb, List.length_append] at hl
  have : (b.step grow (.drop y.length)).bytes = b.bytes.take (b.len - y.length) := by
    simp only [Buf.step, Buf.bytes, List.take_take]
    congr 1
    omega
  rw [this, hb, ← hl, Nat.add_sub_cancel]
  simp

theorem prepend_inv {d t r : Str} {x : Except LexErr (Str × Str)} (h : prepend d x = .ok (t, r)) :
    ∃ t', x = .ok (t', r) ∧ t = d ++ t' := by
  cases x with
  | error e => simp [prepend] at h
  | ok p =>
    simp only [prepend, Except.ok.injEq, Prod.mk.injEq] at h
    exact ⟨p.1, by rw [← h.2], h.1.symm⟩

theorem entity_rest_le {fin : LexErr} {s d r : Str} (h : entity fin s = .ok (d, r)) : r.length ≤ s.length := by
  have hspan : ∀ hex (u : Str), ((spanDigits hex u).2).length ≤ u.length := by
    intro hex u
    induction u with
    | nil => simp [spanDigits]
    | cons c u ih =>
      rw [spanDigits]
      split
      · simp only [List.length_cons]; omega
      · simp
  have href : ∀ hex u d r, refDigits fin hex u = .ok (d, r) → r.length ≤ u.length := by
    intro hex u d r h
    unfold refDigits at h
    have := hspan hex u
    cases hs : (spanDigits hex u).2 with
    | nil => rw [hs] at h; simp at h
    | cons c v =>
      rw [hs] at h this
      simp only at h
      split at h
      · simp only [Except.ok.injEq, Prod.mk.injEq] at h
        rw [← h.2]
        simp only [List.length_cons] at this
        omega
      · simp at h
  have hloop : ∀ (u n r : Str), readNameLoop fin u = .ok (n, r) → r.length ≤ u.length := by
    intro u
    induction u with
    | nil => intro n r h; simp [readNameLoop] at h
    | cons c u ih =>
      intro n r h
      rw [readNameLoop] at h
      split at h
      · cases hr : readNameLoop fin u with
        | error e => rw [hr] at h; simp at h
        | ok p =>
          rw [hr] at h
          simp only [Except.ok.injEq, Prod.mk.injEq] at h
          have := ih p.1 p.2 hr
          rw [← h.2]
          simp only [List.length_cons]
          omega
      · simp only [Except.ok.injEq, Prod.mk.injEq] at h
        rw [← h.2]
        exact Nat.le_refl _
  have hend : ∀ n u d r, entityEnd fin n u = .ok (d, r) → r.length ≤ u.length := by
    intro n u d r h
    cases u with
    | nil => simp [entityEnd] at h
    | cons c u =>
      simp only [entityEnd] at h
      split at h
      · split at h
        · simp only [Except.ok.injEq, Prod.mk.injEq] at h
          rw [← h.2]; simp
        · simp at h
      · simp at h
  cases s with
  | nil => simp [entity] at h
  | cons b s =>
    simp only [entity] at h
    split at h
    · cases s with
      | nil => simp at h
      | cons c u =>
        simp only at h
        split at h
        · have := href _ _ _ _ h; simp only [List.length_cons]; omega
        · have := href _ _ _ _ h; simp only [List.length_cons] at this ⊢; omega
    · cases hn : readName fin (b :: s) with
      | fail e => rw [hn] at h; simp at h
      | missing u =>
        rw [hn] at h
        have h1 := hend _ _ _ _ h
        simp only [readName] at hn
        split at hn
        · split at hn <;> simp at hn
        · simp only [NameRes.missing.injEq] at hn; rw [← hn] at h1; exact h1
      | ok n u =>
        rw [hn] at h
        have h1 := hend _ _ _ _ h
        simp only [readName] at hn
        split at hn
        · cases hr : readNameLoop fin s with
          | error e => rw [hr] at hn; simp at hn
          | ok p =>
            rw [hr] at hn
            simp only [NameRes.ok.injEq] at hn
            have := hloop _ p.1 p.2 hr
            rw [hn.2] at this
            simp only [List.length_cons]
            omega
        · simp at hn

/-- The loop of `text` appends the text to the buffer. -/
theorem textBuf_bytes {fin : LexErr} {quote : Option Byte} : ∀ (s : Str) (k : Nat) (b1 : Byte) (b : Buf) (t r : Str), b.Ok →
    textGo fin quote k b1 s = .ok (t, r) → (b.run grow (textBuf fin quote k b1 s)).bytes = b.bytes ++ t := by
  intro s
  induction s with
  | nil =>
    intro k b1 b t r h ht
    rw [textGo] at ht
    simp only [Except.ok.injEq, Prod.mk.injEq] at ht
    rw [textBuf, ← ht.1]
    simp [Buf.run]
  | cons c s ih =>
    intro k b1 b t r h ht
    cases k with
    | succ k => rw [textGo] at ht; rw [textBuf]; exact ih k b1 b t r h ht
    | zero =>
      rw [textGo] at ht
      rw [textBuf]
      have hnil : ∀ {r'}, (Except.ok ([], r') : Except LexErr (Str × Str)) = .ok (t, r) →
          (b.run grow []).bytes = b.bytes ++ t := by
        intro r' hx
        simp only [Except.ok.injEq, Prod.mk.injEq] at hx
        rw [← hx.1]
        simp [Buf.run]
      have hone : ∀ (c : Byte) (k : Nat) (b1 : Byte), prepend [c] (textGo fin quote k b1 s) = .ok (t, r) →
          (b.run grow (.write [c] :: textBuf fin quote k b1 s)).bytes = b.bytes ++ t := by
        intro c k b1 hx
        obtain ⟨t', h1, rfl⟩ := prepend_inv hx
        rw [Buf.run_cons, ih _ _ _ _ _ (Buf.step_ok h _) h1, Buf.write_bytes h, List.append_assoc]
      by_cases h60 : c = 60
      · rw [if_pos h60] at ht ⊢
        cases hq : quote.isSome with
        | true => rw [hq] at ht; simp at ht
        | false => rw [hq] at ht; exact hnil ht
      rw [if_neg h60] at ht ⊢
      by_cases hq : quote = some c
      · rw [if_pos hq] at ht ⊢; exact hnil ht
      rw [if_neg hq] at ht ⊢
      by_cases h38 : c = 38
      · rw [if_pos h38] at ht ⊢
        cases he : entity fin s with
        | error e => rw [he] at ht; simp at ht
        | ok p =>
          obtain ⟨d, u⟩ := p
          rw [he] at ht
          obtain ⟨t', h1, rfl⟩ := prepend_inv ht
          simp only
          have hlen := entity_rest_le he
          rw [Buf.run_append, Buf.run_append]
          have ok1 := Buf.run_ok (grow := grow) (ops := writeBytes (c :: s.take (s.length - u.length))) h
          have hw := Buf.writeBytes_bytes (grow := grow) (s := c :: s.take (s.length - u.length)) h
          have hd := Buf.drop_bytes (grow := grow) ok1 hw
          have e1 : (c :: s.take (s.length - u.length)).length = 1 + (s.length - u.length) := by
            simp only [List.length_cons, List.length_take]; omega
          rw [e1] at hd
          rw [ih _ _ _ _ _ (Buf.run_ok ok1) h1, Buf.run_cons, Buf.run_cons, Buf.run, List.foldl_nil,
            Buf.write_bytes (Buf.step_ok ok1 _), hd, List.append_assoc]
      rw [if_neg h38] at ht ⊢
      by_cases h13 : c = 13
      · rw [if_pos h13] at ht ⊢; exact hone _ _ _ ht
      rw [if_neg h13] at ht ⊢
      by_cases hcr : b1 = 13 ∧ c = 10
      · rw [if_pos hcr] at ht ⊢; exact ih _ _ _ _ _ h ht
      rw [if_neg hcr] at ht ⊢
      exact hone _ _ _ ht

/-- After `text` the buffer holds the text. -/
theorem lexTextBuf_bytes {fin : LexErr} {quote : Option Byte} {s t r : Str} {b : Buf} (h : b.Ok)
    (ht : lexText fin quote s = .ok (t, r)) : (b.run grow (lexTextBuf fin quote s)).bytes = t := by
  rw [lexTextBuf, Buf.run_cons, textBuf_bytes s 0 0 _ t r (Buf.step_ok h _) ht]
  simp [Buf.step, Buf.bytes]

/-- After a token that is a text the buffer holds the text, and the slice reads as the text. -/
theorem tokenBuf_text {fin : LexErr} {st st' : Lexer} {t : Str} {b : Buf} (h : b.Ok)
    (ht : rawToken fin st = .ok (some (.chars t), st')) :
    (b.run grow (tokenBuf fin st)).read (b.run grow (tokenBuf fin st)).slice = t := by
  have hread : ∀ b : Buf, b.read b.slice = b.bytes := by
    intro b
    simp [Buf.read, Buf.slice, Buf.bytes]
  rw [hread]
  unfold rawToken at ht
  unfold tokenBuf
  have hEnd : ∀ (st : Lexer) (n : Name), TokenRes.of (handleEnd st n) ≠ .ok (some (.chars t), st') := by
    intro st n hx
    unfold handleEnd at hx
    simp only at hx
    split at hx
    · split at hx <;> simp [TokenRes.of] at hx
    · simp [TokenRes.of] at hx
  cases hc : st.close with
  | some n => rw [hc] at ht; exact absurd ht (hEnd _ _)
  | none =>
    rw [hc] at ht
    cases hi : st.inp with
    | nil => rw [hi] at ht; simp at ht
    | cons c s =>
      rw [hi] at ht
      simp only at ht ⊢
      by_cases h60 : c ≠ 60
      · rw [if_pos h60] at ht ⊢
        cases hx : lexText fin none (c :: s) with
        | error e => rw [hx] at ht; simp at ht
        | ok p =>
          rw [hx] at ht
          simp only [Except.ok.injEq, Prod.mk.injEq, Option.some.injEq, Event.chars.injEq] at ht
          rw [← ht.1]
          exact lexTextBuf_bytes h hx
      · rw [if_neg h60] at ht
        exfalso
        cases s with
        | nil => simp at ht
        | cons d u =>
          simp only at ht
          split at ht
          · unfold lexEnd at ht
            split at ht
            · simp at ht
            · simp at ht
            · split at ht
              · simp at ht
              · split at ht
                · exact hEnd _ _ ht
                · simp at ht
          · split at ht
            · unfold lexPI at ht
              split at ht
              · simp at ht
              · simp at ht
              · split at ht <;> simp at ht
            · unfold lexStart at ht
              split at ht
              · simp at ht
              · simp at ht
              · split at ht
                · simp at ht
                · simp [handleStart] at ht

end Go3mf
