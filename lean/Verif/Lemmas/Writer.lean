import Verif.Model.Writer

/-! # The `bufio.Writer` and the calls of the printer -/

namespace Go3mf

/-- No call of `Write` returned an error. -/
def Sink.Clean (s : Sink) (hist : List Str) : Prop := ∀ h p t, hist = h ++ p :: t → (s.write h p).2 = true

theorem Sink.clean_nil (s : Sink) : s.Clean [] := by intro h p t e; simp at e

theorem Sink.clean_snoc {s : Sink} {hist : List Str} {p : Str} :
    s.Clean (hist ++ [p]) ↔ s.Clean hist ∧ (s.write hist p).2 = true := by
  constructor
  · intro h
    refine ⟨fun h' q t e => h h' q (t ++ [p]) (by simp [e]), h hist p [] rfl⟩
  · rintro ⟨h1, h2⟩ h' q t e
    rcases List.eq_nil_or_concat t with rfl | ⟨t', x, rfl⟩
    · obtain ⟨rfl, e2⟩ := List.append_inj' e rfl
      simp at e2; subst e2; exact h2
    · have e' : hist ++ [p] = (h' ++ q :: t') ++ [x] := by simpa using e
      obtain ⟨e1, _⟩ := List.append_inj' e' rfl
      exact h1 h' q t' e1

/-- What a `bufio.Writer` that was given `total` has done: if it has not failed, then the bytes have been written or are
in the buffer, and there was no error; if it has failed, then there was an error, and what was written is the beginning. -/
structure BufW.Inv (s : Sink) (b : BufW) (total : Str) : Prop where
  good : b.failed = false → b.raw.out ++ b.buf = total ∧ b.buf.length ≤ bufSize ∧ s.Clean b.raw.hist
  bad : b.failed = true → b.raw.out <+: total ∧ ¬ s.Clean b.raw.hist

theorem RawW.call_out_prefix {s : Sink} {w : RawW} {p total : Str} (h : w.out ++ p <+: total) : (w.call s p).out <+: total :=
  ((List.prefix_append_right_inj _).2 (List.take_prefix _ _)).trans h

theorem BufW.Inv.more {s : Sink} {b : BufW} {total : Str} (h : b.Inv s total) (hf : b.failed = true) (p : Str) :
    b.Inv s (total ++ p) :=
  ⟨by simp [hf], fun _ => ⟨(h.bad hf).1.trans (List.prefix_append _ _), (h.bad hf).2⟩⟩

theorem BufW.Inv.flush {s : Sink} (hs : s.Honest) {b : BufW} {total : Str} (h : b.Inv s total) : (b.flush s).Inv s total := by
  unfold BufW.flush
  by_cases hf : b.failed = true
  · rw [if_pos hf]; exact h
  rw [if_neg hf]
  by_cases hb : b.buf = []
  · rw [if_pos hb]; exact h
  rw [if_neg hb]
  have hf' : b.failed = false := by simpa using hf
  obtain ⟨e, hl, hc⟩ := h.good hf'
  have hh := hs b.raw.hist b.buf
  by_cases hr : (s.write b.raw.hist b.buf).2 = true ∧ b.buf.length ≤ (s.write b.raw.hist b.buf).1
  · simp only [if_pos hr]
    refine ⟨fun _ => ⟨?_, by simp, Sink.clean_snoc.2 ⟨hc, hr.1⟩⟩, by simp⟩
    simp only [RawW.call, List.take_of_length_le hr.2, List.append_nil]
    exact e
  · simp only [if_neg hr]
    refine ⟨by simp, fun _ => ⟨RawW.call_out_prefix (by rw [e]; exact List.prefix_refl _), fun hcl => hr ?_⟩⟩
    have := (Sink.clean_snoc.1 hcl).2
    exact ⟨this, Nat.le_of_eq (hh.2 this).symm⟩

theorem BufW.flush_buf {s : Sink} {b : BufW} (h : (b.flush s).failed = false) : (b.flush s).buf = [] := by
  unfold BufW.flush at h ⊢
  by_cases hf : b.failed = true
  · rw [if_pos hf] at h; simp [hf] at h
  rw [if_neg hf] at h ⊢
  by_cases hb : b.buf = []
  · rw [if_pos hb]; exact hb
  rw [if_neg hb] at h ⊢
  simp only at h ⊢
  split
  · rfl
  · rename_i hr; rw [if_neg hr] at h; simp at h

theorem bufSize_pos : 0 < bufSize := by decide

theorem BufW.Inv.put {s : Sink} (hs : s.Honest) (direct : Bool) : ∀ (k : Nat) (b : BufW) (p total : Str),
    b.Inv s total → p.length + (if b.buf.length = bufSize then 1 else 0) < k → (b.put s direct k p).Inv s (total ++ p)
  | 0, _, _, _, _, hk => by simp at hk
  | k + 1, b, p, total, h, hk => by
    unfold BufW.put
    by_cases hf : b.failed = true
    · rw [if_pos hf]; exact h.more hf p
    rw [if_neg hf]
    have hf' : b.failed = false := by simpa using hf
    obtain ⟨e, hl, hc⟩ := h.good hf'
    by_cases ha : b.available < p.length
    · rw [if_pos ha]
      by_cases hd : direct = true ∧ b.buf = []
      · rw [if_pos hd]
        simp only
        have hh := hs b.raw.hist p
        have e' : b.raw.out = total := by simpa [hd.2] using e
        have hp : 0 < p.length := by omega
        by_cases hr : (s.write b.raw.hist p).2 = true
        · have hn := hh.2 hr
          have hinv : BufW.Inv s ⟨b.raw.call s p, [], !(s.write b.raw.hist p).2⟩ (total ++ p) := by
            refine ⟨fun _ => ⟨?_, by simp, Sink.clean_snoc.2 ⟨hc, hr⟩⟩, by simp [hr]⟩
            simp [RawW.call, hn, e']
          have := BufW.Inv.put hs direct k _ (p.drop (s.write b.raw.hist p).1) _ hinv (by
            rw [hn]; simp [show (0 : Nat) ≠ bufSize from by decide]; omega)
          rw [hn] at this ⊢
          simpa using this
        · have hinv : BufW.Inv s ⟨b.raw.call s p, [], !(s.write b.raw.hist p).2⟩ (total ++ p.take (s.write b.raw.hist p).1) := by
            refine ⟨by simp [hr], fun _ => ⟨?_, fun hcl => hr (Sink.clean_snoc.1 hcl).2⟩⟩
            simp [RawW.call, e']
          have hfail : (⟨b.raw.call s p, [], !(s.write b.raw.hist p).2⟩ : BufW).failed = true := by simp [hr]
          obtain ⟨j, rfl⟩ : ∃ j, k = j + 1 := ⟨k - 1, by omega⟩
          unfold BufW.put
          rw [if_pos hfail]
          have := hinv.more hfail (p.drop (s.write b.raw.hist p).1)
          rwa [List.append_assoc, List.take_append_drop] at this
      · rw [if_neg hd]
        have hinv : (({ b with buf := b.buf ++ p.take b.available } : BufW).flush s).Inv s (total ++ p.take b.available) := by
          refine BufW.Inv.flush hs ⟨fun _ => ⟨?_, ?_, hc⟩, by simp [hf']⟩
          · simp [← e]
          · simp only [List.length_append, List.length_take, BufW.available]; omega
        have hk' : (p.drop b.available).length +
            (if (({ b with buf := b.buf ++ p.take b.available } : BufW).flush s).buf.length = bufSize then 1 else 0) < k ∨
            (({ b with buf := b.buf ++ p.take b.available } : BufW).flush s).failed = true := by
          cases hfl : (({ b with buf := b.buf ++ p.take b.available } : BufW).flush s).failed
          · left
            rw [BufW.flush_buf hfl]
            have := bufSize_pos
            simp only [List.length_drop, List.length_nil, show (0 : Nat) ≠ bufSize from by decide, if_false]
            simp only [BufW.available] at ha ⊢
            split at hk <;> omega
          · right; rfl
        rcases hk' with hk' | hk'
        · have := BufW.Inv.put hs direct k _ (p.drop b.available) _ hinv hk'
          rwa [List.append_assoc, List.take_append_drop] at this
        · obtain ⟨j, rfl⟩ : ∃ j, k = j + 1 := ⟨k - 1, by omega⟩
          unfold BufW.put
          rw [if_pos hk']
          have := hinv.more hk' (p.drop b.available)
          rwa [List.append_assoc, List.take_append_drop] at this
    · rw [if_neg ha]
      refine ⟨fun _ => ⟨by simp [← e], ?_, hc⟩, by simp [hf']⟩
      simp only [BufW.available] at ha
      simp only [List.length_append]; omega

theorem BufW.Inv.putByte {s : Sink} (hs : s.Honest) {b : BufW} {total : Str} (h : b.Inv s total) (c : Byte) :
    (b.putByte s c).Inv s (total ++ [c]) := by
  unfold BufW.putByte
  by_cases hf : b.failed = true
  · rw [if_pos hf]; exact h.more hf _
  rw [if_neg hf]
  have hf' : b.failed = false := by simpa using hf
  simp only
  have hinv : (if b.available = 0 then b.flush s else b).Inv s total := by
    split
    · exact h.flush hs
    · exact h
  have hroom : (if b.available = 0 then b.flush s else b).failed = false →
      (if b.available = 0 then b.flush s else b).buf.length < bufSize := by
    split
    · intro hfl; rw [BufW.flush_buf hfl]; exact bufSize_pos
    · rename_i ha; intro _; simp only [BufW.available] at ha; omega
  generalize (if b.available = 0 then b.flush s else b) = b' at hinv hroom
  by_cases hg : b'.failed = true
  · rw [if_pos hg]; exact hinv.more hg _
  · rw [if_neg hg]
    have hg' : b'.failed = false := by simpa using hg
    obtain ⟨e, hl, hc⟩ := hinv.good hg'
    have := hroom hg'
    refine ⟨fun _ => ⟨by simp [← e], ?_, hc⟩, by simp [hg']⟩
    simp only [List.length_append, List.length_singleton]; omega

theorem BufW.Inv.call {s : Sink} (hs : s.Honest) {b : BufW} {total : Str} (h : b.Inv s total) (c : BCall) :
    (b.call s c).Inv s (total ++ c.data) := by
  cases c with
  | byte c => exact h.putByte hs c
  | str p => exact h.put hs false _ _ _ _ (by split <;> omega)
  | bytes p => exact h.put hs true _ _ _ _ (by split <;> omega)

theorem BufW.Inv.calls {s : Sink} (hs : s.Honest) : ∀ (cs : List BCall) {b : BufW} {total : Str}, b.Inv s total →
    (cs.foldl (BufW.call s) b).Inv s (total ++ cs.flatMap BCall.data)
  | [], _, _, h => by simpa using h
  | c :: cs, _, _, h => by
    have := BufW.Inv.calls hs cs (h.call hs c)
    simpa [List.append_assoc] using this

/-! ## The calls of the printer -/

theorem escapeChunks_flatten : ∀ (s : Str) (k : Nat) (copy : Bool) (last : Str),
    (escapeChunks k copy last s).flatten = last ++ escapeGo k copy s
  | [], k, copy, last => by cases k <;> simp [escapeChunks, escapeGo]
  | b :: s, k + 1, copy, last => by
    rw [escapeChunks, escapeGo, escapeChunks_flatten s]
    cases copy <;> simp
  | b :: s, 0, copy, last => by
    rw [escapeChunks, escapeGo]
    split
    · split
      · rename_i h; rw [escapeChunks_flatten s, h]; simp
      · simp [escapeChunks_flatten s]
    · split
      · rename_i h; rw [h]; simp [escapeChunks_flatten s]
      · rename_i h; rw [h]
        split
        · rename_i h'; simp [escapeChunks_flatten s, h']
        · rename_i h'; simp [escapeChunks_flatten s, h']

theorem escapeCalls_data (s : Str) : (escapeCalls s).flatMap BCall.data = escape s := by
  have := escapeChunks_flatten s 0 false []
  simp only [List.nil_append] at this
  rw [escape, ← this, escapeCalls, List.flatMap_map]
  show List.flatMap (fun a => a) _ = _
  simp [List.flatMap_id']

theorem nameCalls_data (m : PrefixMap) (n : Name) : (nameCalls m n).flatMap BCall.data = printName m n := by
  unfold nameCalls printName
  split <;> simp [BCall.data]

theorem attrsCalls_data (skip : Bool) : ∀ (as : List Attr) (m : PrefixMap),
    (attrsCalls skip m as).1.flatMap BCall.data = (printAttrs skip m as).1 ∧
      (attrsCalls skip m as).2 = (printAttrs skip m as).2
  | [], m => by simp [attrsCalls, printAttrs]
  | a :: as, m => by
    unfold attrsCalls printAttrs
    by_cases h : a.name.loc = []
    · rw [if_pos h, if_pos h]; exact attrsCalls_data skip as m
    rw [if_neg h, if_neg h]
    have ih := attrsCalls_data skip as (if a.name.space ≠ [] then createAttrPrefix m a else ([], m)).2
    refine ⟨?_, ih.2⟩
    simp only [List.flatMap_append, ih.1]
    congr 1
    by_cases hs : a.name.space = [] <;> cases skip <;> simp [hs, BCall.data, escapeCalls_data]

theorem opCalls_data (m : PrefixMap) (op : Op) :
    (opCalls m op).1.flatMap BCall.data = (printOp m op).1 ∧ (opCalls m op).2 = (printOp m op).2 := by
  cases op with
  | start n as auto skip =>
    have h := attrsCalls_data skip as m
    refine ⟨?_, h.2⟩
    simp only [opCalls, startCalls, printOp, printStart, List.flatMap_append, nameCalls_data, h.1]
    cases auto <;> simp [BCall.data]
  | stop n =>
    refine ⟨?_, rfl⟩
    simp only [opCalls, endCalls, printOp, printEnd, List.flatMap_append, nameCalls_data]
    simp [BCall.data]
  | chars s => exact ⟨escapeCalls_data s, rfl⟩

theorem runSteps_spec {s : Sink} (hs : s.Honest) : ∀ (t : List Step) (m : PrefixMap) (b : BufW) (total : Str), b.Inv s total →
    ((runSteps s m b t).1 = true →
      (runSteps s m b t).2.Inv s (total ++ printOps m (t.filterMap Step.op?))) ∧
    ((runSteps s m b t).1 = false → (runSteps s m b t).2.failed = true ∧
      (runSteps s m b t).2.Inv s (total ++ printOps m (t.filterMap Step.op?)))
  | [], m, b, total, h => by
    simp only [runSteps, List.filterMap_nil, printOps, List.append_nil]
    exact ⟨fun _ => h, by simp⟩
  | .op o :: t, m, b, total, h => by
    have hd := opCalls_data m o
    have := runSteps_spec hs t (opCalls m o).2 _ _ (h.calls hs (opCalls m o).1)
    rw [hd.1, hd.2] at this
    simpa only [runSteps, List.filterMap_cons, Step.op?, printOps, hd.2, List.append_assoc] using this
  | .flush :: t, m, b, total, h => by
    unfold runSteps
    have hfl := h.flush hs
    by_cases hf : (b.flush s).failed = true
    · rw [if_pos hf]
      exact ⟨by simp, fun _ => ⟨hf, hfl.more hf _⟩⟩
    · rw [if_neg hf]
      have := runSteps_spec hs t m _ _ hfl
      simpa only [List.filterMap_cons, Step.op?] using this

theorem runSteps_append (s : Sink) : ∀ (t u : List Step) (m : PrefixMap) (b : BufW),
    ∃ m', runSteps s m b (t ++ u) =
      if (runSteps s m b t).1 then runSteps s m' (runSteps s m b t).2 u else runSteps s m b t
  | [], u, m, b => ⟨m, by simp [runSteps]⟩
  | .op o :: t, u, m, b => runSteps_append s t u _ _
  | .flush :: t, u, m, b => by
    simp only [List.cons_append, runSteps]
    by_cases hf : (b.flush s).failed = true
    · exact ⟨m, by simp [hf]⟩
    · simp only [if_neg hf]; exact runSteps_append s t u m _

/-- Steps that end with `Flush` and succeed have written everything; otherwise there was an error. -/
theorem runSteps_flush {s : Sink} (hs : s.Honest) (t : List Step) (m : PrefixMap) (b : BufW) (total : Str) (h : b.Inv s total) :
    ((runSteps s m b (t ++ [.flush])).1 = true →
      (runSteps s m b (t ++ [.flush])).2.raw.out = total ++ printOps m (t.filterMap Step.op?) ∧
      s.Clean (runSteps s m b (t ++ [.flush])).2.raw.hist) ∧
    ((runSteps s m b (t ++ [.flush])).1 = false →
      (runSteps s m b (t ++ [.flush])).2.raw.out <+: total ++ printOps m (t.filterMap Step.op?) ∧
      ¬ s.Clean (runSteps s m b (t ++ [.flush])).2.raw.hist) := by
  obtain ⟨m', e⟩ := runSteps_append s t [.flush] m b
  rw [e]
  have hsp := runSteps_spec hs t m b total h
  cases hr : (runSteps s m b t).1
  · simp only [Bool.false_eq_true, if_false]
    obtain ⟨hf, hi⟩ := hsp.2 hr
    exact ⟨by simp [hr], fun _ => hi.bad hf⟩
  · simp only [if_true]
    have hi := (hsp.1 hr).flush hs
    simp only [runSteps]
    by_cases hf : ((runSteps s m b t).2.flush s).failed = true
    · rw [if_pos hf]
      exact ⟨by simp, fun _ => hi.bad hf⟩
    · rw [if_neg hf]
      have hf' : ((runSteps s m b t).2.flush s).failed = false := by simpa using hf
      obtain ⟨e1, _, e3⟩ := hi.good hf'
      rw [BufW.flush_buf hf', List.append_nil] at e1
      exact ⟨fun _ => ⟨e1, e3⟩, by simp⟩

end Go3mf
