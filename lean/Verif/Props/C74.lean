import Verif.Lemmas.NotEof
import Verif.Props.C49
import Verif.Props.C51
import Verif.Props.C62

/-!
# C74: a successful decode has read everything

A decode that returns no error has opened every part of a model, has read it to the end of its source without an error, and found
it well-formed, whatever the schedule and whenever the context is cancelled.
-/

namespace Go3mf

open Spec

namespace Spec

/-- The part was read to its end and is well-formed: its source ends without an error, its bytes are markup, the reader ends with
`io.EOF` after one event for each tag, and the tags balance. -/
def ReadThrough (f : InFile) : Prop :=
  ∃ data is, f.content = some (data, .eof) ∧ MarkupOf .reader data is ∧ (lex .eof (.new data)).2 = .eof ∧
    (lex .eof (.new data)).1.length = is.length ∧ openAfter [] (lex .eof (.new data)).1 = some []

end Spec

/-- Without an error there is an event for each tag. -/
theorem resolveAll_length : ∀ (evs : List (Option Event)) (sc : Scopes), (resolveAll sc evs .eof).2 = .eof →
    (resolveAll sc evs .eof).1.length = evs.length
  | [], sc, _ => by simp [resolveAll]
  | none :: evs, sc, h => by
    simp only [resolveAll] at h ⊢
    simp [resolveAll_length evs sc h]
  | some (.chars t) :: evs, sc, h => by
    simp only [resolveAll] at h ⊢
    simp [resolveAll_length evs sc h]
  | some (.start n as) :: evs, sc, h => by
    simp only [resolveAll] at h ⊢
    simp [resolveAll_length evs _ h]
  | some (.stop n) :: evs, [], h => by
    simp [resolveAll] at h
  | some (.stop n) :: evs, (m, as) :: sc, h => by
    simp only [resolveAll] at h ⊢
    split at h
    · next h1 => rw [if_pos h1]; simp [resolveAll_length evs sc h]
    · cases h

theorem readThrough_of {f : InFile} {p : Str × LexErr} (hc : f.content = some p) (h : (partTokens p).2 = .eof) : ReadThrough f := by
  obtain ⟨h1, ⟨is, h2, h4⟩, h3⟩ := lex_eof (fin := p.2) (s := p.1) h
  obtain ⟨data, fin⟩ := p
  simp only at h1
  subst h1
  refine ⟨data, is, hc, h2, h, ?_, h3⟩
  have h : (lex .eof (.new data)).2 = .eof := h
  simp only at h4
  rw [h4] at h ⊢
  rw [resolveAll_length _ _ h, List.length_map]

theorem decodeResult_ok {strict : Bool} {errs : List Err} {le : LoopEnd} (h : decodeResult strict errs le = .ok) :
    (le = .token .eof ∨ le = .strict) ∧ errs = [] := by
  unfold decodeResult at h
  have : ∀ errs : List Err, (match errs with
      | [] => DecodeResult.ok
      | [e] => .first e
      | e :: es => if strict then .first e else .list (e :: es)) = .ok → errs = [] := by
    intro errs h
    split at h
    · rfl
    · simp at h
    · split at h <;> simp at h
  split at h
  · simp at h
  · simp at h
  · simp at h
  · exact ⟨Or.inl rfl, this _ h⟩
  · exact ⟨Or.inr rfl, this _ h⟩

/-- What holds of a goroutine at any time. -/
def Phase.Through (f : InFile) (sh : Shared) : Phase → Prop
  | .decoded _ .ok => ReadThrough f
  | .stored _ => sh.errs.isSome = true
  | .finished _ => ReadThrough f ∨ sh.errs.isSome = true
  | _ => True

theorem Phase.Through.mono {f : InFile} {sh sh' : Shared} {p : Phase} (h : p.Through f sh) (he : sh.errs.isSome = true → sh'.errs.isSome = true) :
    p.Through f sh' := by
  cases p with
  | stored s => exact he h
  | finished s => exact h.imp_right he
  | decoded s r => cases r <;> exact h
  | _ => trivial

theorem Phase.Through.step {c : PkgCfg} {m : Model} {g : Nat} {f : InFile} {sh sh' : Shared} {p p' : Phase}
    (h : p.Through f sh) (hs : p.step c m g f sh = some (sh', p')) :
    p'.Through f sh' ∧ (sh.errs.isSome = true → sh'.errs.isSome = true) := by
  cases p with
  | ready =>
    simp only [Phase.step] at hs
    split at hs <;> (simp only [Option.some.injEq, Prod.mk.injEq] at hs; obtain ⟨rfl, rfl⟩ := hs; exact ⟨trivial, id⟩)
  | running i s evs =>
    cases evs with
    | nil =>
      simp only [Phase.step] at hs
      split at hs
      · simp at hs
      · rename_i p hc
        simp only [Option.some.injEq, Prod.mk.injEq] at hs
        obtain ⟨rfl, rfl⟩ := hs
        refine ⟨?_, id⟩
        cases hr : decodeResult c.strict s.errs (.token (partTokens p).2) with
        | ok =>
          refine readThrough_of hc ?_
          rcases (decodeResult_ok hr).1 with h1 | h1
          · simpa using h1
          · simp at h1
        | _ => trivial
    | cons ev evs =>
      simp only [Phase.step] at hs
      split at hs
      · simp only [Option.some.injEq, Prod.mk.injEq] at hs; obtain ⟨rfl, rfl⟩ := hs; exact ⟨trivial, id⟩
      · split at hs <;> (simp only [Option.some.injEq, Prod.mk.injEq] at hs; obtain ⟨rfl, rfl⟩ := hs; exact ⟨trivial, id⟩)
  | appending i s evs any =>
    simp only [Phase.step, Option.some.injEq, Prod.mk.injEq] at hs
    obtain ⟨rfl, rfl⟩ := hs
    exact ⟨trivial, id⟩
  | polling i s evs =>
    simp only [Phase.step] at hs
    by_cases h1 : (c.strict && !s.errs.isEmpty) = true
    · rw [if_pos h1] at hs
      simp only [Option.some.injEq, Prod.mk.injEq] at hs
      obtain ⟨rfl, rfl⟩ := hs
      refine ⟨?_, id⟩
      cases hr : decodeResult c.strict s.errs .strict with
      | ok =>
        have := (decodeResult_ok hr).2
        simp [this] at h1
      | _ => trivial
    · rw [if_neg h1] at hs
      split at hs <;> (simp only [Option.some.injEq, Prod.mk.injEq] at hs; obtain ⟨rfl, rfl⟩ := hs; exact ⟨trivial, id⟩)
  | decoded s r =>
    simp only [Phase.step] at hs
    split at hs
    · simp only [Option.some.injEq, Prod.mk.injEq] at hs; obtain ⟨rfl, rfl⟩ := hs; exact ⟨trivial, id⟩
    · cases r with
      | ok =>
        simp only [Option.some.injEq, Prod.mk.injEq] at hs
        obtain ⟨rfl, rfl⟩ := hs
        exact ⟨Or.inl h, id⟩
      | _ => simp only [Option.some.injEq, Prod.mk.injEq] at hs; obtain ⟨rfl, rfl⟩ := hs; exact ⟨trivial, id⟩
  | failed s e =>
    simp only [Phase.step, Option.some.injEq, Prod.mk.injEq] at hs
    obtain ⟨rfl, rfl⟩ := hs
    exact ⟨rfl, fun _ => rfl⟩
  | stored s =>
    simp only [Phase.step, Option.some.injEq, Prod.mk.injEq] at hs
    obtain ⟨rfl, rfl⟩ := hs
    exact ⟨Or.inr h, id⟩
  | finished s => simp [Phase.step] at hs
  | panicked => simp [Phase.step] at hs

/-- What holds of all the goroutines. -/
def AllThrough (fs : List InFile) (st : ChildrenState) : Prop :=
  st.ps.length = fs.length ∧ ∀ (g : Nat) (f : InFile) (p : Phase), fs[g]? = some f → st.ps[g]? = some p → p.Through f st.sh

theorem AllThrough.reach {c : PkgCfg} {m : Model} {fs : List InFile} {b : Bool} {st : ChildrenState}
    (h : Relation.ReflTransGen (ChildrenStepC c m fs) (.init fs b) st) : AllThrough fs st := by
  induction h with
  | refl =>
    refine ⟨by simp [ChildrenState.init], fun g f p hf hp => ?_⟩
    simp only [ChildrenState.init, List.getElem?_map, hf, Option.map_some, Option.some.injEq] at hp
    subst hp
    trivial
  | @tail st _ _ hs ih =>
    cases hs with
    | cancel => exact ⟨ih.1, fun g f p hf hp => (ih.2 g f p hf hp).mono id⟩
    | step hs =>
      cases hs with
      | @step g f p p' sh' hf hp hst =>
        obtain ⟨h1, h2⟩ := (ih.2 g f p hf hp).step hst
        refine ⟨by simpa using ih.1, fun g' f' q hf' hq => ?_⟩
        by_cases hg : g' = g
        · subst hg
          obtain rfl := Option.some.inj (hf'.symm.trans hf)
          have hlt : g' < st.ps.length := by
            by_contra hlt
            rw [List.getElem?_eq_none (by omega)] at hp
            simp at hp
          simp only [List.getElem?_set_self hlt, Option.some.injEq] at hq
          subst hq
          exact h1
        · simp only [List.getElem?_set_ne (Ne.symm hg)] at hq
          exact (ih.2 g' f' q hf' hq).mono h2

theorem children_through {c : PkgCfg} {m m' : Model} {fs : List InFile} {b b' : Bool} (h : ChildrenOutcomeC c m fs b m' none b') :
    ∀ f ∈ fs, ReadThrough f := by
  obtain ⟨st, h1, h2, h3, -⟩ := h
  obtain ⟨hl, hi⟩ := AllThrough.reach h1
  intro f hf
  obtain ⟨g, hg, rfl⟩ := List.mem_iff_getElem.1 hf
  have hg' : g < st.ps.length := by omega
  have h4 := hi g fs[g] st.ps[g] (List.getElem?_eq_getElem hg) (List.getElem?_eq_getElem hg')
  obtain ⟨s, hs⟩ := h2 g st.ps[g] (List.getElem?_eq_getElem hg')
  rw [hs] at h4
  rcases h4 with h4 | h4
  · exact h4
  · rw [h3] at h4
    simp at h4

theorem runTokens_end {cfg : DecCfg} {strict : Bool} {done : Nat → Bool} {fin : LexErr} :
    ∀ {evs : List (Option Event)} {i : Nat} {s s' : DState} {le : LoopEnd}, runTokens cfg strict done fin i s evs = some (s', le) →
      le = .token fin ∨ (le = .strict ∧ s'.errs ≠ []) ∨ le = .ctx
  | [], i, s, s', le, h => by
    simp only [runTokens, Option.some.injEq, Prod.mk.injEq] at h
    exact Or.inl h.2.symm
  | ev :: evs, i, s, s', le, h => by
    simp only [runTokens] at h
    split at h
    · simp at h
    · rename_i s1 _
      by_cases h1 : (strict && !s1.errs.isEmpty) = true
      · rw [if_pos h1] at h
        simp only [Option.some.injEq, Prod.mk.injEq] at h
        obtain ⟨rfl, rfl⟩ := h
        refine Or.inr (Or.inl ⟨rfl, fun he => ?_⟩)
        simp [he] at h1
      · rw [if_neg h1] at h
        split at h
        · simp only [Option.some.injEq, Prod.mk.injEq] at h
          exact Or.inr (Or.inr h.2.symm)
        · exact runTokens_end h

theorem root_through {c : PkgCfg} {done : Nat → Bool} {m m' : Model} {f : InFile} (h : processRoot c done m f = some (m', .root .ok)) :
    ReadThrough f := by
  unfold processRoot at h
  cases hc : f.content with
  | none => simp [hc] at h
  | some p =>
    simp only [hc, decodeEvents, Option.map_map, Option.map_eq_some_iff, Function.comp, Prod.mk.injEq, PkgResult.root.injEq] at h
    obtain ⟨⟨s, le⟩, h1, -, h2⟩ := h
    obtain ⟨h3, h4⟩ := decodeResult_ok h2
    refine readThrough_of hc ?_
    rcases runTokens_end h1 with rfl | ⟨rfl, h5⟩ | rfl
    · simpa using h3
    · exact absurd h4 h5
    · simp at h3

/-- **C74.**  A decode without error has read the root part and all the child parts to their ends, and they are well-formed. -/
theorem C74_parts (c : PkgCfg) (o : Opc) (pk : InPkg) (m m' : Model) (b : Bool) (done : Nat → Bool)
    (h : Decodes c o pk m b done m' (.root .ok)) :
    ∃ m1 root fs, processOPC c.env o pk m = some (m1, root, fs) ∧ ∀ f ∈ root :: fs, ReadThrough f := by
  cases h with
  | @root m1 m2 _ root fs b' _ h1 h2 h3 h4 =>
    exact ⟨m1, root, fs, h1, List.forall_mem_cons.2 ⟨root_through h4, children_through h2⟩⟩

theorem steps_cancel {c : PkgCfg} {m : Model} {fs : List InFile} {st st' : ChildrenState}
    (h : Relation.ReflTransGen (ChildrenStep c m fs) st st') : Relation.ReflTransGen (ChildrenStepC c m fs) st st' := by
  induction h with
  | refl => exact .refl
  | tail _ hs ih => exact ih.tail (.step hs)

/-- **C74**, for a context that is never done. -/
theorem C74_background (c : PkgCfg) (o : Opc) (pk : InPkg) (m m' : Model) (h : DecodesBg c o pk m m' (.root .ok)) :
    ∃ m1 root fs, processOPC c.env o pk m = some (m1, root, fs) ∧ ∀ f ∈ root :: fs, ReadThrough f := by
  cases h with
  | @root m1 m2 _ root fs _ h1 h2 h4 =>
    obtain ⟨st, h5, h6, h7, h8⟩ := h2
    have h9 : ChildrenOutcomeC c m1 fs false m2 none st.sh.done :=
      ⟨st, steps_cancel h5, h6, h7, h8, fun _ => rfl⟩
    exact ⟨m1, root, fs, h1, List.forall_mem_cons.2 ⟨root_through h4, children_through h9⟩⟩

/-! ## What is not reported -/

/-- The result and the identifiers of the objects of a package without child parts. -/
def c74Run (pk : InPkg) : Option (Bool × List UInt32 × List Str × List Str) :=
  match processOPC allExt c49Opc pk .zero with
  | some (m, root, []) => match processRoot c48Cfg (fun _ => false) m root with
    | some (m', .root r) => some (r.isOk, m'.resources.objects.map (·.id), m'.attachments.map (·.path), m'.relationships.map (·.path))
    | _ => none
  | _ => none

theorem decodes_of_c74 {pk : InPkg} {x : List UInt32 × List Str × List Str} (h : c74Run pk = some (true, x)) :
    ∃ m', DecodesBg c48Cfg c49Opc pk .zero m' (.root .ok) ∧ m'.resources.objects.map (·.id) = x.1 ∧ m'.attachments.map (·.path) = x.2.1 ∧
      m'.relationships.map (·.path) = x.2.2 := by
  unfold c74Run at h
  cases h1 : processOPC allExt c49Opc pk .zero with
  | none => simp [h1] at h
  | some q =>
    obtain ⟨m, root, fs⟩ := q
    cases fs with
    | cons f fs => simp [h1] at h
    | nil =>
      simp only [h1] at h
      cases h2 : processRoot c48Cfg (fun _ => false) m root with
      | none => simp [h2] at h
      | some w =>
        obtain ⟨m', r'⟩ := w
        cases r' with
        | root r1 =>
          simp only [h2, Option.some.injEq, Prod.mk.injEq] at h
          obtain ⟨ho, rfl⟩ := h
          have : r1 = .ok := by cases r1 <;> first | rfl | cases ho
          subst this
          exact ⟨m', .root h1 ⟨.init [] false, .refl, by intro g p h; simp [ChildrenState.init] at h, rfl, by
            simp [ChildrenState.model, ChildrenState.init, ChildrenState.anyElems, setChilds]⟩ h2, rfl, rfl, rfl⟩
        | _ => simp [h2] at h

/-- A package with one part and an attachment that cannot be read to its end. -/
def c74Pkg (data : Str) : InPkg :=
  ⟨[⟨b!"/3D/3dmodel.model", relModel, []⟩],
    [⟨b!"/3D/3dmodel.model", contentTypeModel, [⟨b!"/t.png", relTexture, b!"1"⟩], some (data, .eof)⟩,
      ⟨b!"/t.png", b!"image/png", [], some (b!"abc", .io)⟩]⟩

/-- A model with one object. -/
def c74Model : Str :=
  b!"<model xmlns=\"http://schemas.microsoft.com/3dmanufacturing/core/2015/02\"><resources><object id=\"7\"/></resources></model>"

/-- **C74 fails for attachments.**  An attachment that cannot be read is left out without an error; its relationship is kept. -/
theorem C74_attachment_false : ∃ m', DecodesBg c48Cfg c49Opc (c74Pkg c74Model) .zero m' (.root .ok) ∧
    m'.resources.objects.map (·.id) = [7] ∧ m'.attachments = [] ∧ m'.relationships.map (·.path) = [b!"/t.png"] := by
  obtain ⟨m', h1, h2, h3, h4⟩ := decodes_of_c74 (pk := c74Pkg c74Model) (x := ([7], [], [b!"/t.png"])) (by decide +kernel)
  exact ⟨m', h1, h2, by simpa using h3, h4⟩

/-- **C74 fails for parts without a model.**  An empty part, and a document of another kind, are read as a model without objects. -/
theorem C74_empty_false : ∀ data ∈ ([b!"", b!"<html><body/></html>"] : List Str),
    ∃ m', DecodesBg c48Cfg c49Opc (c74Pkg data) .zero m' (.root .ok) ∧ m'.resources.objects = [] := by
  intro data hd
  have : c74Run (c74Pkg data) = some (true, [], [], [b!"/t.png"]) := by
    rcases List.mem_cons.1 hd with rfl | hd
    · decide +kernel
    · obtain rfl := List.mem_singleton.1 hd
      decide +kernel
  obtain ⟨m', h1, h2, -⟩ := decodes_of_c74 this
  exact ⟨m', h1, by simpa using h2⟩

/-- **C74 fails for documents with other roots.**  Two models one after the other, and a model in another element, are read as one
model. -/
theorem C74_root_false :
    (∃ m', DecodesBg c48Cfg c49Opc (c74Pkg (c74Model ++ c74Model)) .zero m' (.root .ok) ∧ m'.resources.objects.map (·.id) = [7, 7]) ∧
    ∃ m', DecodesBg c48Cfg c49Opc (c74Pkg (b!"<html>" ++ c74Model ++ b!"</html>")) .zero m' (.root .ok) ∧
      m'.resources.objects.map (·.id) = [7] := by
  constructor
  · obtain ⟨m', h1, h2, -⟩ := decodes_of_c74 (pk := c74Pkg (c74Model ++ c74Model)) (x := ([7, 7], [], [b!"/t.png"])) (by decide +kernel)
    exact ⟨m', h1, h2⟩
  · obtain ⟨m', h1, h2, -⟩ := decodes_of_c74 (pk := c74Pkg (b!"<html>" ++ c74Model ++ b!"</html>")) (x := ([7], [], [b!"/t.png"]))
      (by decide +kernel)
    exact ⟨m', h1, h2⟩

end Go3mf
