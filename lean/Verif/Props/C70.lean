import Verif.Lemmas.EncodeIO

/-!
# C70: `Encode` writes everything or returns an error

The printer ignores the results of its writes and relies on the `bufio.Writer` to keep the first error until it is flushed.
Here every call of the printer, the buffer of 4096 bytes, the calls of `Flush`, the copying of the attachments and the
writers of the parts are modelled, and each writer may fail at any call, after any number of bytes.
-/

namespace Go3mf

/-- The parts that are to be written. -/
def intended (o : Out) (prec : Int) (m : Model) (order2 : List (Str × ChildModel)) : List (Str × Str × Str) :=
  (m.attachments.map fun a => (o.opc.norm a.path, a.contentType, a.stream)) ++
    (o.opc.norm m.pathOrDefault, contentTypeModel, m.partBytes prec) ::
      order2.map fun c => (o.opc.norm (o.opc.resolve m.pathOrDefault c.1), contentTypeModel, c.2.partBytes prec m)

theorem loaded_zip : ∀ (as : List Attachment) (ss : List Stream), ss.map Stream.bytes = as.map (·.stream) →
    loaded (as.zip ss) = as
  | [], [], _ => rfl
  | [], _ :: _, h => by simp at h
  | _ :: _, [], h => by simp at h
  | a :: as, s :: ss, h => by
    simp only [List.map_cons, List.cons.injEq] at h
    have ih := loaded_zip as ss h.2
    simp only [loaded] at ih
    simp only [loaded, List.zip_cons_cons, List.map_cons, ih, h.1]

theorem zip_eof : ∀ (as : List Attachment) (ss : List Stream), ss.map Stream.bytes = as.map (·.stream) →
    (as.zip ss).map (·.2) = ss
  | [], [], _ => rfl
  | [], _ :: _, h => by simp at h
  | _ :: _, [], h => by simp at h
  | a :: as, s :: ss, h => by
    simp only [List.map_cons, List.cons.injEq] at h
    simp [zip_eof as ss h.2]

theorem rootIO_step (o : Out) (ho : ∀ i, (o.sink i).Honest) (prec : Int) (m : Model) (rels : List Relationship) (ps : List IOPart) :
    let r := modelIO o m.pathOrDefault (m.steps prec) rels ps
    (r.1 = true → Wrote o ps m.pathOrDefault contentTypeModel (m.partBytes prec) rels r.2) ∧
    (r.1 = false → Broke o ps m.pathOrDefault contentTypeModel (m.partBytes prec) False r.2) := by
  obtain ⟨t, e1, e2⟩ := Model.steps_eq prec m
  have := modelIO_spec o ho m.pathOrDefault t rels ps
  rw [← e1, e2] at this
  exact this

variable (o : Out) (prec : Int) (m : Model) (ss : List Stream) (order1 : List Str) (order2 : List (Str × ChildModel))

/-- If `Encode` returns no error, then the package is complete: it is the one of the pure model, in which nothing fails.
Moreover no writer has returned an error, every part could be created, every attachment was read to its end, and `Close`
returned no error. -/
theorem C70_complete (ho : ∀ i, (o.sink i).Honest) (hs : ss.map Stream.bytes = m.attachments.map (·.stream))
    (hok : (encodeIO o prec m ss order1 order2).ok = true) :
    encodePkg o.opc prec m order1 order2 =
        some ⟨(encodeIO o prec m ss order1 order2).rels, (encodeIO o prec m ss order1 order2).parts.map (·.part)⟩ ∧
      (∀ i p, (encodeIO o prec m ss order1 order2).parts[i]? = some p → (o.sink i).Clean p.hist) ∧
      (∀ i < (encodeIO o prec m ss order1 order2).parts.length, o.create i = true) ∧
      (∀ s ∈ ss, s.eof = true) ∧ o.close = true := by
  have ha := attachIO_ok o ho (m.attachments.zip ss) [] (by intro i p h; simp at h)
  rw [loaded_zip _ _ hs] at ha
  simp only [encodeIO] at hok ⊢
  cases h1 : (attachIO o (m.attachments.zip ss) []).1
  · rw [h1] at hok; simp at hok
  rw [h1] at hok
  rw [if_pos rfl] at hok ⊢
  obtain ⟨a1, a2, a3, -, -, a6, a7⟩ := ha h1
  have st := rootIO_step o ho prec m (m.rootPartRels order1) (attachIO o (m.attachments.zip ss) []).2.1
  simp only at st
  generalize hr : modelIO o m.pathOrDefault (m.steps prec) (m.rootPartRels order1)
    (attachIO o (m.attachments.zip ss) []).2.1 = r at st hok ⊢
  cases h2 : r.1
  · rw [h2] at hok; simp at hok
  rw [h2] at hok
  rw [if_pos rfl] at hok ⊢
  have hw := st.1 h2
  simp only [Bool.and_eq_true] at hok
  obtain ⟨c1, c2, -, c4⟩ := childsIO_ok o ho prec m order2 r.2 (hw.clean a2) hok.1
  refine ⟨?_, c2, ?_, ?_, hok.2⟩
  · rw [encodePkg, show ([] : List OutPart) = ([] : List IOPart).map (·.part) from rfl, a1]
    simp only [Option.bind_some]
    rw [hw.pure]
    simp only [Option.bind_some]
    rw [c1]; rfl
  · intro i hi
    rcases Nat.lt_or_ge i r.2.length with h3 | h3
    · rw [hw.created.2] at h3
      rcases Nat.lt_or_ge i (attachIO o (m.attachments.zip ss) []).2.1.length with h4 | h4
      · exact a7 i (Nat.zero_le _) (by rw [a6] at h4; exact h4)
      · have : i = (attachIO o (m.attachments.zip ss) []).2.1.length := by omega
        rw [this]; exact hw.created.1
    · exact c4 i h3 hi
  · intro s hsm
    have := zip_eof _ _ hs
    rw [← this] at hsm
    obtain ⟨x, hx, rfl⟩ := List.mem_map.1 hsm
    exact a3 x hx

/-- If `Encode` returns an error, then there is a cause: the library refuses a part, a part cannot be created, a writer
returned an error, an attachment could not be read, or `Close` returned an error. -/
theorem C70_cause (ho : ∀ i, (o.sink i).Honest) (hs : ss.map Stream.bytes = m.attachments.map (·.stream))
    (hok : (encodeIO o prec m ss order1 order2).ok = false) :
    encodePkg o.opc prec m order1 order2 = none ∨
      o.create (encodeIO o prec m ss order1 order2).parts.length = false ∨
      (∃ i p, (encodeIO o prec m ss order1 order2).parts[i]? = some p ∧ ¬ (o.sink i).Clean p.hist) ∨
      (∃ s ∈ ss, s.eof = false) ∨ o.close = false := by
  have key : ∀ ps : List IOPart, ¬ AllClean o ps → ∃ i p, ps[i]? = some p ∧ ¬ (o.sink i).Clean p.hist := by
    intro ps h
    by_contra hn
    exact h fun i p hi => by
      by_contra hc
      exact hn ⟨i, p, hi, hc⟩
  have ha := attachIO_ok o ho (m.attachments.zip ss) [] (by intro i p h; simp at h)
  have hb := attachIO_bad o ho (m.attachments.zip ss) []
  rw [loaded_zip _ _ hs] at ha hb
  simp only [encodeIO] at hok ⊢
  cases h1 : (attachIO o (m.attachments.zip ss) []).1
  · rw [if_neg (by simp)]
    obtain ⟨h, -⟩ := hb h1
    rcases h with h | h | h | ⟨x, hx, h⟩
    · left
      rw [encodePkg, show ([] : List OutPart) = ([] : List IOPart).map (·.part) from rfl, h]; rfl
    · exact .inr (.inl h)
    · exact .inr (.inr (.inl (key _ h)))
    · refine .inr (.inr (.inr (.inl ⟨x.2, ?_, h⟩)))
      have := zip_eof _ _ hs
      rw [← this]
      exact List.mem_map.2 ⟨x, hx, rfl⟩
  rw [h1] at hok
  rw [if_pos rfl] at hok ⊢
  obtain ⟨a1, a2, -, -, -, -, -⟩ := ha h1
  have st := rootIO_step o ho prec m (m.rootPartRels order1) (attachIO o (m.attachments.zip ss) []).2.1
  simp only at st
  generalize hr : modelIO o m.pathOrDefault (m.steps prec) (m.rootPartRels order1)
    (attachIO o (m.attachments.zip ss) []).2.1 = r at st hok ⊢
  have hpure : ∀ x, createPart o.opc m.pathOrDefault contentTypeModel (m.partBytes prec) (m.rootPartRels order1)
      ((attachIO o (m.attachments.zip ss) []).2.1.map (·.part)) = x →
      encodePkg o.opc prec m order1 order2 = x.bind fun ps =>
        (writeChilds o.opc prec m order2 ps).map fun ps => ⟨m.pkgRels.foldl opcAddRel [], ps⟩ := by
    intro x hx
    rw [encodePkg, show ([] : List OutPart) = ([] : List IOPart).map (·.part) from rfl, a1]
    simp only [Option.bind_some]
    rw [hx]
  cases h2 : r.1
  · rw [if_neg (by simp)]
    rcases (st.2 h2).cause (rels := m.rootPartRels order1) with h | h | h | h
    · left; rw [hpure _ h]; rfl
    · exact .inr (.inl h)
    · exact .inr (.inr (.inl (key _ h)))
    · exact h.elim
  rw [h2] at hok
  rw [if_pos rfl] at hok ⊢
  have hw := st.1 h2
  simp only [Bool.and_eq_false_iff] at hok
  rcases hok with hok | hok
  · obtain ⟨h, -⟩ := childsIO_bad o ho prec m order2 r.2 hok
    rcases h with h | h | h
    · left; rw [hpure _ hw.pure]; simp only [Option.bind_some]; rw [h]; rfl
    · exact .inr (.inl h)
    · exact .inr (.inr (.inl (key _ h)))
  · exact .inr (.inr (.inr (.inr hok)))

/-- Whatever fails, what has been written is the beginning of what is to be written: the parts are the first ones, in order,
and all of them but the last are complete; of the last one there is a beginning. -/
theorem C70_beginning (ho : ∀ i, (o.sink i).Honest) (hs : ss.map Stream.bytes = m.attachments.map (·.stream)) :
    Follows ((encodeIO o prec m ss order1 order2).parts.map fun p => (p.part.name, p.part.contentType, p.part.data))
      (intended o prec m order2) := by
  have ha := attachIO_ok o ho (m.attachments.zip ss) [] (by intro i p h; simp at h)
  have hb := attachIO_bad o ho (m.attachments.zip ss) []
  rw [loaded_zip _ _ hs] at ha hb
  show Follows ((encodeIO o prec m ss order1 order2).parts.map (·.part.triple)) (attachTriples o m.attachments ++
    (o.opc.norm m.pathOrDefault, contentTypeModel, m.partBytes prec) :: childTriples o prec m order2)
  simp only [encodeIO]
  cases h1 : (attachIO o (m.attachments.zip ss) []).1
  · rw [if_neg (by simp)]
    obtain ⟨-, h⟩ := hb h1
    exact h.mono _
  rw [if_pos rfl]
  obtain ⟨-, a2, -, -, a5, -, -⟩ := ha h1
  have st := rootIO_step o ho prec m (m.rootPartRels order1) (attachIO o (m.attachments.zip ss) []).2.1
  simp only at st
  generalize hr : modelIO o m.pathOrDefault (m.steps prec) (m.rootPartRels order1)
    (attachIO o (m.attachments.zip ss) []).2.1 = r at st ⊢
  cases h2 : r.1
  · rw [if_neg (by simp)]
    have := (st.2 h2).follows.mono (childTriples o prec m order2)
    rw [a5] at this
    simpa using this
  rw [if_pos rfl]
  have hw := st.1 h2
  cases h3 : (childsIO o prec m order2 r.2).1
  · obtain ⟨-, h⟩ := childsIO_bad o ho prec m order2 r.2 h3
    rw [hw.triples, a5] at h
    simpa using h
  · obtain ⟨-, -, h, -⟩ := childsIO_ok o ho prec m order2 r.2 (hw.clean a2) h3
    left
    show (childsIO o prec m order2 r.2).2.map (·.part.triple) <+: _
    rw [h, hw.triples, a5]
    simp

/-- If nothing fails, then `Encode` writes the package, unless the library refuses a part. -/
theorem C70_success (ho : ∀ i h p, (o.sink i).write h p = (p.length, true)) (hc : ∀ i, o.create i = true)
    (hcl : o.close = true) (hs : ss.map Stream.bytes = m.attachments.map (·.stream)) (he : ∀ s ∈ ss, s.eof = true) :
    (encodeIO o prec m ss order1 order2).ok = (encodePkg o.opc prec m order1 order2).isSome := by
  have hon : ∀ i, (o.sink i).Honest := fun i h p => by simp [ho i h p]
  cases hok : (encodeIO o prec m ss order1 order2).ok
  · rcases C70_cause o prec m ss order1 order2 hon hs hok with h | h | ⟨i, p, _, h⟩ | ⟨s, hm, h⟩ | h
    · rw [h]; rfl
    · rw [hc] at h; simp at h
    · exact absurd (fun h' q t _ => by rw [ho]) h
    · rw [he s hm] at h; simp at h
    · rw [hcl] at h; simp at h
  · rw [(C70_complete o prec m ss order1 order2 hon hs hok).1]; rfl

/-- `MarshalModel` returns no error, and what it returns is what the calls of `EncodeToken` are to print. -/
theorem C70_marshal : marshalModelIO m = some (marshalModel m) := by
  have hon : bufferSink.Honest := fun h p => ⟨Nat.le_refl _, fun _ => rfl⟩
  obtain ⟨t, e1, e2⟩ := Model.steps_eq 4 m
  have hi : (BufW.new RawW.new).Inv bufferSink [] :=
    ⟨fun _ => ⟨rfl, Nat.zero_le _, Sink.clean_nil _⟩, by simp [BufW.new]⟩
  have h := runSteps_flush hon t (fun _ => []) _ _ hi
  rw [← e1, e2] at h
  simp only [marshalModelIO]
  cases hr : (runSteps bufferSink (fun _ => []) (BufW.new RawW.new) (m.steps 4)).1
  · exact absurd (fun _ _ _ _ => rfl) (h.2 hr).2
  · rw [if_pos rfl, (h.1 hr).1]; rfl

/-! ## Examples -/

/-- A library that accepts everything. -/
def c70Opc : Opc := ⟨id, fun _ p => p, fun _ _ _ => true⟩

/-- A writer with room for `n` bytes. -/
def c70Disk (n : Nat) : Sink :=
  ⟨fun h p => let room := n - h.flatten.length; if p.length ≤ room then (p.length, true) else (room, false)⟩

theorem c70Disk_honest (n : Nat) : (c70Disk n).Honest := by
  intro h p
  simp only [c70Disk]
  split
  · simp
  · exact ⟨by simp only; omega, by simp⟩

/-- A model with an attachment and a child model. -/
def c70Model : Model :=
  { Model.zero with
    attachments := [⟨b!"pixels", b!"/a.png", b!"image/png"⟩]
    childs := [(b!"/c.model", ChildModel.zero)] }

/-- Its stream, read in two steps. -/
def c70Streams : List Stream := [⟨[b!"pix", b!"els"], true⟩]

example : c70Streams.map Stream.bytes = c70Model.attachments.map (·.stream) := by decide

/-- There is room for everything: no error. -/
example : (encodeIO ⟨c70Opc, fun _ => c70Disk 1000, fun _ => true, true⟩ 4 c70Model c70Streams [b!"/c.model"]
    c70Model.childs).ok = true := by decide +kernel

/-- There is no room for the last bytes of the root model, which are written by the last `Flush`: an error. -/
example : (encodeIO ⟨c70Opc, fun _ => c70Disk 100, fun _ => true, true⟩ 4 c70Model c70Streams [b!"/c.model"]
    c70Model.childs).ok = false := by decide +kernel

/-- The disk is full in the attachment: an error, and the attachment is cut. -/
example : (encodeIO ⟨c70Opc, fun _ => c70Disk 4, fun _ => true, true⟩ 4 c70Model c70Streams [b!"/c.model"]
    c70Model.childs).parts = [⟨⟨b!"/a.png", b!"image/png", b!"pixe", []⟩, [b!"pix", b!"els"]⟩] := by decide +kernel

end Go3mf
