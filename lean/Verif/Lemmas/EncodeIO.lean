import Verif.Model.EncodeIO
import Verif.Lemmas.Writer

/-! # `Encode` with writers that can fail -/

namespace Go3mf

theorem filterMap_op_map (ops : List Op) : (ops.map Step.op).filterMap Step.op? = ops := by
  induction ops with
  | nil => rfl
  | cons o t ih => simp [Step.op?, ih]

theorem filterMap_op_flatMap {α : Type} (f : α → List Op) (l : List α) :
    (l.flatMap fun a => (f a).map Step.op ++ [Step.flush]).filterMap Step.op? = l.flatMap f := by
  induction l with
  | nil => rfl
  | cons a t ih =>
    rw [List.flatMap_cons, List.flatMap_cons, List.filterMap_append, List.filterMap_append, filterMap_op_map, ih]
    simp [Step.op?]

theorem Resources.steps_ops (prec : Int) (rs : Resources) : (rs.steps prec).filterMap Step.op? = rs.ops prec := by
  simp only [Resources.steps, Resources.ops, List.filterMap_cons, Step.op?, List.filterMap_append, filterMap_op_flatMap,
    List.filterMap_nil]
  simp

/-- The calls of `EncodeToken` of `writeModel`, but for the last `Flush`. -/
theorem Model.steps_eq (prec : Int) (m : Model) :
    ∃ t, m.steps prec = t ++ [.flush] ∧ t.filterMap Step.op? = m.ops prec := by
  refine ⟨.op (opStart (coreName b!"model") (m.rootAttrs true)) ::
    ((encodeMetadata m.metadata).map .op ++ (m.resources.steps prec ++ (m.build.ops.map .op ++
      ((encodeAny prec m.any).map .op ++ [.op (.stop (coreName b!"model"))])))), by simp [Model.steps], ?_⟩
  simp only [Model.ops, Model.bodyOps, List.filterMap_cons, Step.op?, List.filterMap_append, filterMap_op_map,
    Resources.steps_ops, List.filterMap_nil]
  simp

theorem ChildModel.steps_eq (prec : Int) (m : Model) (c : ChildModel) :
    ∃ t, c.steps prec m = t ++ [.flush] ∧ t.filterMap Step.op? = c.ops prec m := by
  refine ⟨.op (opStart (coreName b!"model") (m.rootAttrs false)) ::
    (c.resources.steps prec ++ ([.op (opStart (coreName b!"build") []), .op (.stop (coreName b!"build"))] ++
      ((encodeAny prec c.any).map .op ++ [.op (.stop (coreName b!"model"))]))), by simp [ChildModel.steps], ?_⟩
  simp only [ChildModel.ops, List.filterMap_cons, Step.op?, List.filterMap_append, filterMap_op_map,
    Resources.steps_ops, List.filterMap_nil]
  simp

theorem RawW.call_clean {s : Sink} (hs : s.Honest) {w : RawW} {p : Str} (h : (s.write w.hist p).2 = true) :
    (w.call s p).out = w.out ++ p := by
  have := (hs w.hist p).2 h
  simp [RawW.call, this]

theorem modelPart_spec {s : Sink} (hs : s.Honest) (t : List Step) :
    ((s.write [] xmlHeader).2 = true →
      let r := runSteps s (fun _ => []) (BufW.new (RawW.new.call s xmlHeader)) (t ++ [.flush])
      (r.1 = true → r.2.raw.out = xmlHeader ++ printOps (fun _ => []) (t.filterMap Step.op?) ∧ s.Clean r.2.raw.hist) ∧
      (r.1 = false → r.2.raw.out <+: xmlHeader ++ printOps (fun _ => []) (t.filterMap Step.op?) ∧
        ¬ s.Clean r.2.raw.hist)) := by
  intro hw
  apply runSteps_flush hs
  refine ⟨fun _ => ⟨?_, by simp [BufW.new], ?_⟩, by simp [BufW.new]⟩
  · simp only [BufW.new, List.append_nil]
    rw [RawW.call_clean hs hw]; rfl
  · exact Sink.clean_snoc.2 ⟨Sink.clean_nil s, hw⟩

theorem copyLoop_spec {s : Sink} (hs : s.Honest) (eof : Bool) : ∀ (cs : List Str) (w : RawW), s.Clean w.hist →
    ((copyLoop s eof w cs).1 = true → (copyLoop s eof w cs).2.1.out = w.out ++ cs.flatten ∧
      s.Clean (copyLoop s eof w cs).2.1.hist ∧ eof = true ∧ (copyLoop s eof w cs).2.2 = []) ∧
    ((copyLoop s eof w cs).1 = false → (copyLoop s eof w cs).2.1.out <+: w.out ++ cs.flatten ∧
      (¬ s.Clean (copyLoop s eof w cs).2.1.hist ∨ eof = false))
  | [], w, hc => by
    rw [List.flatten_nil, List.append_nil]
    exact ⟨fun h => ⟨rfl, hc, h, rfl⟩, fun h => ⟨List.prefix_refl _, .inr h⟩⟩
  | c :: cs, w, hc => by
    unfold copyLoop
    by_cases h0 : c = []
    · rw [if_pos h0]
      have := copyLoop_spec hs eof cs w hc
      simpa [h0] using this
    rw [if_neg h0]
    by_cases hr : (s.write w.hist c).2 = true ∧ (s.write w.hist c).1 = c.length
    · simp only [if_pos hr]
      have := copyLoop_spec hs eof cs (w.call s c) (Sink.clean_snoc.2 ⟨hc, hr.1⟩)
      rw [RawW.call_clean hs hr.1] at this
      simpa only [List.flatten_cons, List.append_assoc] using this
    · simp only [if_neg hr]
      refine ⟨by simp, fun _ => ⟨?_, .inl fun hcl => hr ?_⟩⟩
      · refine RawW.call_out_prefix ?_
        rw [List.flatten_cons, ← List.append_assoc]
        exact List.prefix_append _ _
      · have := (Sink.clean_snoc.1 hcl).2
        exact ⟨this, (hs _ _).2 this⟩

/-! ## Parts -/

/-- The name, the content type and the content of a part. -/
def OutPart.triple (p : OutPart) : Str × Str × Str := (p.name, p.contentType, p.data)

/-- A part was written completely. -/
def Wrote (o : Out) (ps : List IOPart) (name ct data : Str) (rels : List Relationship) (ps' : List IOPart) : Prop :=
  o.creates ps name ct = true ∧ ∃ p, ps' = ps ++ [p] ∧
    p.part = ⟨o.opc.norm name, ct, data, rels.foldl opcAddRel []⟩ ∧ (o.sink ps.length).Clean p.hist

/-- A part was not written, or not completely, because of an error of its writer or for the given reason. -/
def Broke (o : Out) (ps : List IOPart) (name ct data : Str) (why : Prop) (ps' : List IOPart) : Prop :=
  (o.creates ps name ct = false ∧ ps' = ps) ∨ ∃ p, ps' = ps ++ [p] ∧
    p.part.name = o.opc.norm name ∧ p.part.contentType = ct ∧ p.part.data <+: data ∧
    (¬ (o.sink ps.length).Clean p.hist ∨ why)

theorem modelIO_spec (o : Out) (ho : ∀ i, (o.sink i).Honest) (name : Str) (t : List Step) (rels : List Relationship)
    (ps : List IOPart) :
    let data := xmlHeader ++ printOps (fun _ => []) (t.filterMap Step.op?)
    let r := modelIO o name (t ++ [.flush]) rels ps
    (r.1 = true → Wrote o ps name contentTypeModel data rels r.2) ∧
      (r.1 = false → Broke o ps name contentTypeModel data False r.2) := by
  simp only [modelIO]
  by_cases hc : o.creates ps name contentTypeModel = true
  · rw [if_pos hc]
    have hsp := modelPart_spec (ho ps.length) t
    by_cases hw : ((o.sink ps.length).write [] xmlHeader).2 = true
    · rw [if_pos hw]
      have hsp := hsp hw
      simp only at hsp
      generalize hr : runSteps (o.sink ps.length) (fun _ => [])
        (BufW.new (RawW.new.call (o.sink ps.length) xmlHeader)) (t ++ [.flush]) = r at hsp ⊢
      cases hok : r.1
      · rw [if_neg (by simp)]
        obtain ⟨h1, h2⟩ := hsp.2 hok
        exact ⟨by simp, fun _ => .inr ⟨_, rfl, rfl, rfl, h1, .inl h2⟩⟩
      · rw [if_pos rfl]
        obtain ⟨h1, h2⟩ := hsp.1 hok
        refine ⟨fun _ => ⟨hc, _, rfl, ?_, h2⟩, by simp⟩
        simp only [Out.part, h1]
    · rw [if_neg hw]
      refine ⟨by simp, fun _ => .inr ⟨_, rfl, rfl, rfl, ?_, .inl ?_⟩⟩
      · refine List.IsPrefix.trans (RawW.call_out_prefix (total := xmlHeader) ?_) (List.prefix_append _ _)
        exact List.prefix_refl _
      · intro hcl
        exact hw (hcl [] xmlHeader [] rfl)
  · rw [if_neg hc]
    exact ⟨by simp, fun _ => .inl ⟨by simpa using hc, rfl⟩⟩

/-- No writer of a part returned an error. -/
def AllClean (o : Out) (ps : List IOPart) : Prop := ∀ i p, ps[i]? = some p → (o.sink i).Clean p.hist

theorem AllClean.snoc {o : Out} {ps : List IOPart} (h : AllClean o ps) {p : IOPart} (hp : (o.sink ps.length).Clean p.hist) :
    AllClean o (ps ++ [p]) := by
  intro i q hi
  rw [List.getElem?_append] at hi
  split at hi
  · exact h i q hi
  · rename_i hlt
    have : i - ps.length = 0 := by
      rcases Nat.eq_zero_or_pos (i - ps.length) with h0 | h0
      · exact h0
      · rw [List.getElem?_eq_none (by simp only [List.length_singleton]; exact h0)] at hi; simp at hi
    rw [this] at hi
    simp at hi
    subst hi
    rwa [show i = ps.length by omega]

theorem AllClean.last {o : Out} {ps : List IOPart} {p : IOPart} (h : AllClean o (ps ++ [p])) :
    (o.sink ps.length).Clean p.hist := h ps.length p (by simp)

theorem Wrote.pure {o : Out} {ps ps' : List IOPart} {name ct data : Str} {rels : List Relationship}
    (h : Wrote o ps name ct data rels ps') :
    createPart o.opc name ct data rels (ps.map (·.part)) = some (ps'.map (·.part)) := by
  obtain ⟨hc, p, rfl, hp, _⟩ := h
  rw [Out.creates, Bool.and_eq_true] at hc
  rw [createPart, if_pos (by simpa [Function.comp_def] using hc.1)]
  simp [hp]

theorem Wrote.clean {o : Out} {ps ps' : List IOPart} {name ct data : Str} {rels : List Relationship}
    (h : Wrote o ps name ct data rels ps') (hp : AllClean o ps) : AllClean o ps' := by
  obtain ⟨_, p, rfl, _, hc⟩ := h
  exact hp.snoc hc

theorem Wrote.triples {o : Out} {ps ps' : List IOPart} {name ct data : Str} {rels : List Relationship}
    (h : Wrote o ps name ct data rels ps') :
    ps'.map (·.part.triple) = ps.map (·.part.triple) ++ [(o.opc.norm name, ct, data)] := by
  obtain ⟨_, p, rfl, hp, _⟩ := h
  simp [hp, OutPart.triple]

theorem Wrote.created {o : Out} {ps ps' : List IOPart} {name ct data : Str} {rels : List Relationship}
    (h : Wrote o ps name ct data rels ps') : o.create ps.length = true ∧ ps'.length = ps.length + 1 := by
  obtain ⟨hc, p, rfl, _, _⟩ := h
  rw [Out.creates, Bool.and_eq_true] at hc
  exact ⟨hc.2, by simp⟩

/-- The parts are the first ones of those that are to be written, the last one of them perhaps without its end. -/
def Follows (ps full : List (Str × Str × Str)) : Prop :=
  ps <+: full ∨ ∃ qs n c d d', ps = qs ++ [(n, c, d')] ∧ qs ++ [(n, c, d)] <+: full ∧ d' <+: d

theorem Follows.mono {ps full : List (Str × Str × Str)} (h : Follows ps full) (more : List (Str × Str × Str)) :
    Follows ps (full ++ more) := by
  rcases h with h | ⟨qs, n, c, d, d', h1, h2, h3⟩
  · exact .inl (h.trans (List.prefix_append _ _))
  · exact .inr ⟨qs, n, c, d, d', h1, h2.trans (List.prefix_append _ _), h3⟩

theorem Broke.follows {o : Out} {ps ps' : List IOPart} {name ct data : Str} {why : Prop}
    (h : Broke o ps name ct data why ps') :
    Follows (ps'.map (·.part.triple)) (ps.map (·.part.triple) ++ [(o.opc.norm name, ct, data)]) := by
  rcases h with ⟨_, rfl⟩ | ⟨p, rfl, h1, h2, h3, _⟩
  · exact .inl (List.prefix_append _ _)
  · refine .inr ⟨ps.map (·.part.triple), o.opc.norm name, ct, data, p.part.data, ?_, List.prefix_refl _, h3⟩
    simp [OutPart.triple, h1, h2]

/-- The reasons for which a part is not written. -/
theorem Broke.cause {o : Out} {ps ps' : List IOPart} {name ct data : Str} {rels : List Relationship} {why : Prop}
    (h : Broke o ps name ct data why ps') :
    createPart o.opc name ct data rels (ps.map (·.part)) = none ∨ o.create ps'.length = false ∨ ¬ AllClean o ps' ∨ why := by
  rcases h with ⟨hc, rfl⟩ | ⟨p, rfl, _, _, _, h4⟩
  · rw [Out.creates, Bool.and_eq_false_iff] at hc
    rcases hc with hc | hc
    · left
      rw [createPart, if_neg (by simpa [Function.comp_def] using hc)]
    · exact .inr (.inl hc)
  · rcases h4 with h4 | h4
    · exact .inr (.inr (.inl fun hcl => h4 hcl.last))
    · exact .inr (.inr (.inr h4))

/-! ## The attachments -/

/-- The attachments with the contents of the streams. -/
def loaded (as : List (Attachment × Stream)) : List Attachment := as.map fun x => { x.1 with stream := x.2.bytes }

/-- The parts of attachments. -/
def attachTriples (o : Out) (as : List Attachment) : List (Str × Str × Str) :=
  as.map fun a => (o.opc.norm a.path, a.contentType, a.stream)

/-- The parts of child models. -/
def childTriples (o : Out) (prec : Int) (m : Model) (cs : List (Str × ChildModel)) : List (Str × Str × Str) :=
  cs.map fun c => (o.opc.norm (o.opc.resolve m.pathOrDefault c.1), contentTypeModel, c.2.partBytes prec m)

theorem attachIO_step (o : Out) (ho : ∀ i, (o.sink i).Honest) (a : Attachment) (s : Stream) (ps : List IOPart)
    (hc : o.creates ps a.path a.contentType = true) :
    let r := copyLoop (o.sink ps.length) s.eof RawW.new s.chunks
    (r.1 = true → Wrote o ps a.path a.contentType s.bytes [] (ps ++ [o.part a.path a.contentType r.2.1 []]) ∧
      s.eof = true ∧ r.2.2 = []) ∧
    (r.1 = false → Broke o ps a.path a.contentType s.bytes (s.eof = false) (ps ++ [o.part a.path a.contentType r.2.1 []])) := by
  have h := copyLoop_spec (ho ps.length) s.eof s.chunks RawW.new (Sink.clean_nil _)
  refine ⟨fun hr => ?_, fun hr => ?_⟩
  · obtain ⟨h1, h2, h3, h4⟩ := h.1 hr
    refine ⟨⟨hc, _, rfl, ?_, h2⟩, h3, h4⟩
    simp only [Out.part, h1]
    rfl
  · obtain ⟨h1, h2⟩ := h.2 hr
    exact .inr ⟨_, rfl, rfl, rfl, h1, h2⟩

theorem attachIO_ok (o : Out) (ho : ∀ i, (o.sink i).Honest) : ∀ (as : List (Attachment × Stream)) (ps : List IOPart),
    AllClean o ps → (attachIO o as ps).1 = true →
    writeAttachments o.opc (loaded as) (ps.map (·.part)) = some ((attachIO o as ps).2.1.map (·.part)) ∧
      AllClean o (attachIO o as ps).2.1 ∧ (∀ x ∈ as, x.2.eof = true) ∧
      (attachIO o as ps).2.2 = as.map (fun x => ⟨[], x.2.eof⟩) ∧
      (attachIO o as ps).2.1.map (·.part.triple) = ps.map (·.part.triple) ++ attachTriples o (loaded as) ∧
      (attachIO o as ps).2.1.length = ps.length + as.length ∧
      (∀ i, ps.length ≤ i → i < ps.length + as.length → o.create i = true)
  | [], ps, hp, _ => by
    simp only [attachIO, loaded, List.map_nil, writeAttachments, attachTriples, List.append_nil, List.length_nil, Nat.add_zero]
    exact ⟨trivial, hp, by simp, trivial, trivial, trivial, fun i h1 h2 => absurd h1 (by omega)⟩
  | (a, s) :: as, ps, hp, hok => by
    simp only [attachIO] at hok ⊢
    by_cases hc : o.creates ps a.path a.contentType = true
    · rw [if_pos hc] at hok ⊢
      obtain ⟨st, -⟩ := attachIO_step o ho a s ps hc
      generalize hr : copyLoop (o.sink ps.length) s.eof RawW.new s.chunks = r at hok st ⊢
      cases h1 : r.1
      · rw [h1] at hok; simp at hok
      rw [h1] at hok
      rw [if_pos rfl] at hok ⊢
      obtain ⟨hw, he, hd⟩ := st h1
      obtain ⟨i1, i2, i3, i4, i5, i6, i7⟩ := attachIO_ok o ho as _ (hw.clean hp) hok
      have hcr := hw.created
      refine ⟨?_, i2, ?_, ?_, ?_, ?_, ?_⟩
      · simp only [loaded, List.map_cons, writeAttachments]
        rw [hw.pure]
        exact i1
      · rintro x (_ | ⟨_, hx⟩)
        · exact he
        · exact i3 x hx
      · simp only [List.map_cons, i4, hd]
      · rw [i5, hw.triples]
        simp [attachTriples, loaded]
      · rw [i6, hcr.2]; simp only [List.length_cons]; omega
      · intro i h2 h3
        simp only [List.length_cons] at h3
        rcases Nat.eq_or_lt_of_le h2 with rfl | h4
        · exact hcr.1
        · exact i7 i (by rw [hcr.2]; omega) (by rw [hcr.2]; omega)
    · rw [if_neg hc] at hok; simp at hok

theorem attachIO_bad (o : Out) (ho : ∀ i, (o.sink i).Honest) : ∀ (as : List (Attachment × Stream)) (ps : List IOPart),
    (attachIO o as ps).1 = false →
    (writeAttachments o.opc (loaded as) (ps.map (·.part)) = none ∨ o.create (attachIO o as ps).2.1.length = false ∨
      ¬ AllClean o (attachIO o as ps).2.1 ∨ ∃ x ∈ as, x.2.eof = false) ∧
      Follows ((attachIO o as ps).2.1.map (·.part.triple)) (ps.map (·.part.triple) ++ attachTriples o (loaded as))
  | [], ps, hok => by simp [attachIO] at hok
  | (a, s) :: as, ps, hok => by
    simp only [attachIO] at hok ⊢
    by_cases hc : o.creates ps a.path a.contentType = true
    · rw [if_pos hc] at hok ⊢
      have st := attachIO_step o ho a s ps hc
      generalize hr : copyLoop (o.sink ps.length) s.eof RawW.new s.chunks = r at hok st ⊢
      cases h1 : r.1
      · simp only [Bool.false_eq_true, if_false]
        have hb := st.2 h1
        refine ⟨?_, ?_⟩
        · rcases hb.cause (rels := []) with h | h | h | h
          · left
            simp only [loaded, List.map_cons, writeAttachments]
            rw [h]; rfl
          · exact .inr (.inl h)
          · exact .inr (.inr (.inl h))
          · exact .inr (.inr (.inr ⟨_, List.mem_cons_self, h⟩))
        · have := hb.follows.mono (attachTriples o (loaded as))
          simpa [attachTriples, loaded] using this
      · rw [h1] at hok
        rw [if_pos rfl] at hok ⊢
        obtain ⟨hw, -, -⟩ := st.1 h1
        obtain ⟨i1, i2⟩ := attachIO_bad o ho as _ hok
        refine ⟨?_, ?_⟩
        · rcases i1 with h | h | h | ⟨x, hx, h⟩
          · left
            simp only [loaded, List.map_cons, writeAttachments]
            rw [hw.pure]
            exact h
          · exact .inr (.inl h)
          · exact .inr (.inr (.inl h))
          · exact .inr (.inr (.inr ⟨x, List.mem_cons_of_mem _ hx, h⟩))
        · rw [hw.triples] at i2
          simpa [attachTriples, loaded] using i2
    · rw [if_neg hc]
      have hb : Broke o ps a.path a.contentType s.bytes False ps := .inl ⟨by simpa using hc, rfl⟩
      refine ⟨?_, ?_⟩
      · rcases hb.cause (rels := []) with h | h | h | h
        · left
          simp only [loaded, List.map_cons, writeAttachments]
          rw [h]; rfl
        · exact .inr (.inl h)
        · exact .inr (.inr (.inl h))
        · exact h.elim
      · have := hb.follows.mono (attachTriples o (loaded as))
        simpa [attachTriples, loaded] using this

/-! ## The child models -/

theorem childsIO_step (o : Out) (ho : ∀ i, (o.sink i).Honest) (prec : Int) (m : Model) (c : Str × ChildModel) (ps : List IOPart) :
    let r := modelIO o (o.opc.resolve m.pathOrDefault c.1) (c.2.steps prec m) c.2.partRels ps
    (r.1 = true → Wrote o ps (o.opc.resolve m.pathOrDefault c.1) contentTypeModel (c.2.partBytes prec m) c.2.partRels r.2) ∧
    (r.1 = false → Broke o ps (o.opc.resolve m.pathOrDefault c.1) contentTypeModel (c.2.partBytes prec m) False r.2) := by
  obtain ⟨t, e1, e2⟩ := ChildModel.steps_eq prec m c.2
  have := modelIO_spec o ho (o.opc.resolve m.pathOrDefault c.1) t c.2.partRels ps
  rw [← e1, e2] at this
  exact this

theorem childsIO_ok (o : Out) (ho : ∀ i, (o.sink i).Honest) (prec : Int) (m : Model) : ∀ (cs : List (Str × ChildModel))
    (ps : List IOPart), AllClean o ps → (childsIO o prec m cs ps).1 = true →
    writeChilds o.opc prec m cs (ps.map (·.part)) = some ((childsIO o prec m cs ps).2.map (·.part)) ∧
      AllClean o (childsIO o prec m cs ps).2 ∧
      (childsIO o prec m cs ps).2.map (·.part.triple) = ps.map (·.part.triple) ++ childTriples o prec m cs ∧
      (∀ i, ps.length ≤ i → i < (childsIO o prec m cs ps).2.length → o.create i = true)
  | [], ps, hp, _ => by
    simp only [childsIO, writeChilds, childTriples, List.map_nil, List.append_nil]
    exact ⟨trivial, hp, trivial, fun i h1 h2 => absurd h1 (by omega)⟩
  | c :: cs, ps, hp, hok => by
    have st := childsIO_step o ho prec m c ps
    simp only [childsIO] at hok ⊢
    generalize modelIO o (o.opc.resolve m.pathOrDefault c.1) (c.2.steps prec m) c.2.partRels ps = r at st hok ⊢
    cases h1 : r.1
    · rw [h1] at hok; simp [h1] at hok
    rw [h1] at hok
    rw [if_pos rfl] at hok ⊢
    have hw := st.1 h1
    obtain ⟨i1, i2, i3, i4⟩ := childsIO_ok o ho prec m cs r.2 (hw.clean hp) hok
    refine ⟨?_, i2, ?_, ?_⟩
    · rw [writeChilds, hw.pure]; exact i1
    · rw [i3, hw.triples]; simp [childTriples]
    · intro i h2 h3
      rcases Nat.eq_or_lt_of_le h2 with rfl | h4
      · exact hw.created.1
      · exact i4 i (by rw [hw.created.2]; omega) h3

theorem childsIO_bad (o : Out) (ho : ∀ i, (o.sink i).Honest) (prec : Int) (m : Model) : ∀ (cs : List (Str × ChildModel))
    (ps : List IOPart), (childsIO o prec m cs ps).1 = false →
    (writeChilds o.opc prec m cs (ps.map (·.part)) = none ∨ o.create (childsIO o prec m cs ps).2.length = false ∨
      ¬ AllClean o (childsIO o prec m cs ps).2) ∧
      Follows ((childsIO o prec m cs ps).2.map (·.part.triple)) (ps.map (·.part.triple) ++ childTriples o prec m cs)
  | [], ps, hok => by simp [childsIO] at hok
  | c :: cs, ps, hok => by
    have st := childsIO_step o ho prec m c ps
    simp only [childsIO] at hok ⊢
    generalize modelIO o (o.opc.resolve m.pathOrDefault c.1) (c.2.steps prec m) c.2.partRels ps = r at st hok ⊢
    cases h1 : r.1
    · simp only [Bool.false_eq_true, if_false]
      have hb := st.2 h1
      refine ⟨?_, ?_⟩
      · rcases hb.cause (rels := c.2.partRels) with h | h | h | h
        · left; rw [writeChilds, h]; rfl
        · exact .inr (.inl h)
        · exact .inr (.inr h)
        · exact h.elim
      · have := hb.follows.mono (childTriples o prec m cs)
        simpa [childTriples] using this
    · rw [h1] at hok
      rw [if_pos rfl] at hok ⊢
      have hw := st.1 h1
      obtain ⟨i1, i2⟩ := childsIO_bad o ho prec m cs r.2 hok
      refine ⟨?_, ?_⟩
      · rcases i1 with h | h | h
        · left; rw [writeChilds, hw.pure]; exact h
        · exact .inr (.inl h)
        · exact .inr (.inr h)
      · rw [hw.triples] at i2
        simpa [childTriples] using i2

end Go3mf
