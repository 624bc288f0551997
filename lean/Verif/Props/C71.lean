import Verif.Props.C70

/-!
# C71: a model can be saved again

`Encode` reads the streams of the attachments, and does not put them back.  The model that was saved is therefore not the
model it was: its attachments are empty.
-/

namespace Go3mf

/-- FALSE: saving a model twice, with two encoders to which everything can be written, gives the same package twice. -/
theorem C71_again_false : ¬ ∀ (o : Out) (prec : Int) (m : Model) (ss : List Stream) (order1 : List Str)
    (order2 : List (Str × ChildModel)), (∀ i h p, (o.sink i).write h p = (p.length, true)) →
    ss.map Stream.bytes = m.attachments.map (·.stream) →
    (encodeIO o prec m ss order1 order2).ok = true →
    (encodeIO o prec m (encodeIO o prec m ss order1 order2).streams order1 order2).parts.map (·.part) =
      (encodeIO o prec m ss order1 order2).parts.map (·.part) := by
  intro h
  have := h ⟨c70Opc, fun _ => bufferSink, fun _ => true, true⟩ 4 c70Model c70Streams [b!"/c.model"] c70Model.childs
    (fun _ _ _ => rfl) (by decide) (by decide +kernel)
  exact absurd this (by decide +kernel)

theorem childsIO_attachments (o : Out) (prec : Int) (m : Model) (as : List Attachment) : ∀ (cs : List (Str × ChildModel))
    (ps : List IOPart), childsIO o prec { m with attachments := as } cs ps = childsIO o prec m cs ps
  | [], _ => rfl
  | c :: cs, ps => by
    simp only [childsIO, childsIO_attachments o prec m as cs]
    rfl

variable (o : Out) (prec : Int) (m : Model) (ss : List Stream) (order1 : List Str) (order2 : List (Str × ChildModel))

/-- After `Encode` every stream has been used up. -/
theorem C71_drained (ho : ∀ i, (o.sink i).Honest) (hs : ss.map Stream.bytes = m.attachments.map (·.stream))
    (hok : (encodeIO o prec m ss order1 order2).ok = true) :
    (encodeIO o prec m ss order1 order2).streams = ss.map fun _ => ⟨[], true⟩ := by
  have heof := (C70_complete o prec m ss order1 order2 ho hs hok).2.2.2.1
  have ha := attachIO_ok o ho (m.attachments.zip ss) [] (by intro i p h; simp at h)
  simp only [encodeIO] at hok ⊢
  cases h1 : (attachIO o (m.attachments.zip ss) []).1
  · rw [h1] at hok; simp at hok
  obtain ⟨-, -, -, a4, -, -, -⟩ := ha h1
  rw [if_pos rfl]
  have : (attachIO o (m.attachments.zip ss) []).2.2 = ss.map fun _ => ⟨[], true⟩ := by
    rw [a4]
    have hz := zip_eof _ _ hs
    calc (m.attachments.zip ss).map (fun x => (⟨[], x.2.eof⟩ : Stream))
        = ((m.attachments.zip ss).map (·.2)).map (fun s => (⟨[], s.eof⟩ : Stream)) := by simp [Function.comp_def]
      _ = ss.map fun s => (⟨[], s.eof⟩ : Stream) := by rw [hz]
      _ = ss.map fun _ => (⟨[], true⟩ : Stream) := List.map_congr_left fun s hs => by rw [heof s hs]
  split <;> exact this

/-- The second time, `Encode` writes the package of the model without the contents of its attachments: every other part, and
everything else about the attachments, is what it was the first time. -/
theorem C71_again_partial (o' : Out) (ho : ∀ i, (o.sink i).Honest) (ho' : ∀ i, (o'.sink i).Honest)
    (hs : ss.map Stream.bytes = m.attachments.map (·.stream)) (hok : (encodeIO o prec m ss order1 order2).ok = true)
    (hok' : (encodeIO o' prec m (encodeIO o prec m ss order1 order2).streams order1 order2).ok = true) :
    encodePkg o'.opc prec { m with attachments := m.attachments.map fun a => { a with stream := [] } } order1 order2 =
      some ⟨(encodeIO o' prec m (encodeIO o prec m ss order1 order2).streams order1 order2).rels,
        (encodeIO o' prec m (encodeIO o prec m ss order1 order2).streams order1 order2).parts.map (·.part)⟩ := by
  rw [C71_drained o prec m ss order1 order2 ho hs hok] at hok' ⊢
  have hl : ss.length = m.attachments.length := by simpa using congrArg List.length hs
  have key : ∀ (as : List Attachment) (ss : List Stream) (ps : List IOPart), ss.length = as.length →
      attachIO o' (as.zip (ss.map fun _ => (⟨[], true⟩ : Stream))) ps =
        attachIO o' ((as.map fun a => { a with stream := [] }).zip (ss.map fun _ => (⟨[], true⟩ : Stream))) ps := by
    intro as
    induction as with
    | nil => intro ss ps _; simp
    | cons a as ih =>
      intro ss ps h
      cases ss with
      | nil => simp at h
      | cons s ss =>
        have hm : ∀ (as : List Attachment) (ss : List Stream), ss.length = as.length →
            (as.zip (ss.map fun _ => (⟨[], true⟩ : Stream))).map (·.2) =
              ((as.map fun a => { a with stream := [] }).zip (ss.map fun _ => (⟨[], true⟩ : Stream))).map (·.2) := by
          intro as ss h
          rw [List.map_snd_zip (by simp [h]), List.map_snd_zip (by simp [h])]
        simp only [List.map_cons, List.zip_cons_cons, attachIO]
        rw [ih ss _ (by simpa using h), hm as ss (by simpa using h)]
  have e : encodeIO o' prec m (ss.map fun _ => (⟨[], true⟩ : Stream)) order1 order2 =
      encodeIO o' prec { m with attachments := m.attachments.map fun a => { a with stream := [] } }
        (ss.map fun _ => (⟨[], true⟩ : Stream)) order1 order2 := by
    simp only [encodeIO, key m.attachments ss [] hl, childsIO_attachments]
    rfl
  rw [e] at hok' ⊢
  refine (C70_complete o' prec _ _ order1 order2 ho' ?_ hok').1
  simp only [List.map_map, Function.comp_def, Stream.bytes, List.flatten_nil]
  apply List.ext_getElem
  · simp [hl]
  · intros; simp

/-- A model without attachments, or with attachments whose streams have been put back, can be saved again: the second package
is that of the first time. -/
theorem C71_rewound_partial (ho : ∀ i, (o.sink i).Honest) (hs : ss.map Stream.bytes = m.attachments.map (·.stream))
    (ss' : List Stream) (hs' : ss'.map Stream.bytes = m.attachments.map (·.stream))
    (hok : (encodeIO o prec m ss order1 order2).ok = true) (hok' : (encodeIO o prec m ss' order1 order2).ok = true) :
    (encodeIO o prec m ss' order1 order2).parts.map (·.part) = (encodeIO o prec m ss order1 order2).parts.map (·.part) ∧
      (encodeIO o prec m ss' order1 order2).rels = (encodeIO o prec m ss order1 order2).rels := by
  have h := (C70_complete o prec m ss order1 order2 ho hs hok).1
  have h' := (C70_complete o prec m ss' order1 order2 ho hs' hok').1
  rw [h] at h'
  simp only [Option.some.injEq, OutPkg.mk.injEq] at h'
  exact ⟨h'.2.symm, h'.1.symm⟩

/-- The example of C70 meets the hypotheses of `C71_again_partial`. -/
example :
    let o : Out := ⟨c70Opc, fun _ => c70Disk 1000, fun _ => true, true⟩
    let r := encodeIO o 4 c70Model c70Streams [b!"/c.model"] c70Model.childs
    let r' := encodeIO o 4 c70Model r.streams [b!"/c.model"] c70Model.childs
    r.ok = true ∧ r'.ok = true ∧ r.parts.head?.map (·.part.data) = some b!"pixels" ∧
      r'.parts.head?.map (·.part.data) = some [] := by decide +kernel

end Go3mf
