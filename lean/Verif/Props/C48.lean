import Verif.Model.Children
import Verif.Lemmas.Private
import Verif.Props.C26

/-!
# C48: child models are decoded independently of scheduling
-/

namespace Go3mf

/-- What decoding a child part gives if nothing else runs: the state of the decoder and how its loop ends; `none` is a
panic or a part that cannot be opened. -/
def alone (c : PkgCfg) (m : Model) (f : InFile) : Option (DState × LoopEnd) :=
  f.content.bind fun p =>
    runTokens (c.child f.name) c.strict (fun _ => false) (partTokens p).2 0 (DState.init m f.name) (partTokens p).1

/-- A child part decodes: `decodeModelFile`, run on its own, succeeds with the model `m'`. -/
def Spec.DecodesAlone (c : PkgCfg) (m : Model) (f : InFile) (m' : Model) : Prop :=
  ∃ data fin, f.content = some (data, fin) ∧
    decodeEvents ⟨c.env, false, c.mem f.name⟩ c.strict (fun _ => false) m f.name (lex fin (.new data)).1
      (lex fin (.new data)).2 = some (m', .ok)

theorem decodesAlone_iff {c : PkgCfg} {m : Model} {f : InFile} {m' : Model} : Spec.DecodesAlone c m f m' ↔
    ∃ s le, alone c m f = some (s, le) ∧ decodeResult c.strict s.errs le = .ok ∧ s.result f.name = m' := by
  unfold Spec.DecodesAlone alone
  constructor
  · rintro ⟨data, fin, h1, h2⟩
    simp only [decodeEvents, Option.map_eq_some_iff, Prod.mk.injEq] at h2
    obtain ⟨⟨s, le⟩, h3, h4, h5⟩ := h2
    exact ⟨s, le, by rw [h1]; exact h3, h5, h4⟩
  · rintro ⟨s, le, h1, h2, h3⟩
    cases hc : f.content with
    | none => simp [hc] at h1
    | some p =>
      refine ⟨p.1, p.2, rfl, ?_⟩
      rw [hc] at h1
      simp only [decodeEvents, Option.map_eq_some_iff, Prod.mk.injEq]
      exact ⟨(s, le), h1, h3, h2⟩

/-- The part decodes. -/
def OkPart (c : PkgCfg) (m : Model) (f : InFile) : Prop :=
  ∃ s le, alone c m f = some (s, le) ∧ decodeResult c.strict s.errs le = .ok

/-- What is left to do when a token has been read. -/
def afterToken (c : PkgCfg) (f : InFile) (fin : LexErr) (i : Nat) (s : DState) (evs : List (Option Event)) :
    Option (DState × LoopEnd) :=
  if c.strict && !s.errs.isEmpty then some (s, .strict)
  else runTokens (c.child f.name) c.strict (fun _ => false) fin (i + 1) s evs

/-- What is known of a goroutine. -/
def PhaseInv (c : PkgCfg) (m : Model) (f : InFile) (sh : Shared) : Phase → Prop
  | .ready => True
  | .running i s evs => ∃ p, f.content = some p ∧
      alone c m f = runTokens (c.child f.name) c.strict (fun _ => false) (partTokens p).2 i s evs
  | .appending i s evs _ => ∃ p, f.content = some p ∧ alone c m f = afterToken c f (partTokens p).2 i s evs
  | .polling i s evs => ∃ p, f.content = some p ∧ alone c m f = afterToken c f (partTokens p).2 i s evs
  | .decoded s r => sh.done = true ∨ ∃ le, alone c m f = some (s, le) ∧ r = decodeResult c.strict s.errs le
  | .failed _ _ => sh.done = true ∨ ¬ OkPart c m f
  | .stored _ => sh.errs.isSome
  | .finished s => sh.errs.isSome ∨ ∃ s' le, s = some s' ∧ alone c m f = some (s', le) ∧
      decodeResult c.strict s'.errs le = .ok
  | .panicked => ¬ OkPart c m f

/-- What is known of the shared variables. -/
structure SharedInv (c : PkgCfg) (m : Model) (fs : List InFile) (sh : Shared) : Prop where
  done : sh.done = true → sh.errs.isSome
  errs : sh.errs.isSome → ∃ f ∈ fs, ¬ OkPart c m f

theorem PhaseInv.mono {c : PkgCfg} {m : Model} {f : InFile} {sh sh' : Shared} (h1 : sh.done = true → sh'.done = true)
    (h2 : sh.errs.isSome → sh'.errs.isSome) {p : Phase} (h : PhaseInv c m f sh p) : PhaseInv c m f sh' p := by
  cases p with
  | decoded s r => exact h.imp h1 id
  | failed s e => exact h.imp h1 id
  | stored s => exact h2 h
  | finished s => exact h.imp h2 id
  | _ => exact h

/-- The shared variables only grow. -/
theorem Phase.step_mono {c : PkgCfg} {m : Model} {g : Nat} {f : InFile} {sh sh' : Shared} {p p' : Phase}
    (e : p.step c m g f sh = some (sh', p')) :
    (sh.done = true → sh'.done = true) ∧ (sh.errs.isSome → sh'.errs.isSome) := by
  cases p with
  | ready => simp only [Phase.step] at e; split at e <;> (injection e with e; injection e with e1 e2; subst e1; exact ⟨id, id⟩)
  | running i s evs =>
    cases evs with
    | nil =>
      simp only [Phase.step] at e
      split at e
      · cases e
      · injection e with e; injection e with e1 e2; subst e1; exact ⟨id, id⟩
    | cons ev evs =>
      simp only [Phase.step] at e
      split at e
      · injection e with e; injection e with e1 e2; subst e1; exact ⟨id, id⟩
      · split at e <;> (injection e with e; injection e with e1 e2; subst e1; exact ⟨id, id⟩)
  | appending i s evs l => injection e with e; injection e with e1 e2; subst e1; exact ⟨id, id⟩
  | polling i s evs =>
    simp only [Phase.step] at e
    split at e
    · injection e with e; injection e with e1 e2; subst e1; exact ⟨id, id⟩
    · split at e <;> (injection e with e; injection e with e1 e2; subst e1; exact ⟨id, id⟩)
  | decoded s r =>
    simp only [Phase.step] at e
    split at e
    · injection e with e; injection e with e1 e2; subst e1; exact ⟨id, id⟩
    · split at e <;> (injection e with e; injection e with e1 e2; subst e1; exact ⟨id, id⟩)
  | failed s x => injection e with e; injection e with e1 e2; subst e1; exact ⟨id, fun _ => rfl⟩
  | stored s => injection e with e; injection e with e1 e2; subst e1; exact ⟨fun _ => rfl, id⟩
  | finished s => cases e
  | panicked => cases e

theorem Phase.step_inv {c : PkgCfg} {m : Model} {g : Nat} {f : InFile} {fs : List InFile} (hf : f ∈ fs) {sh sh' : Shared}
    {p p' : Phase} (hs : SharedInv c m fs sh) (hp : PhaseInv c m f sh p) (e : p.step c m g f sh = some (sh', p')) :
    SharedInv c m fs sh' ∧ PhaseInv c m f sh' p' := by
  cases p with
  | ready =>
    simp only [Phase.step] at e
    cases hc : f.content with
    | none =>
      simp only [hc, Option.some.injEq, Prod.mk.injEq] at e
      obtain ⟨rfl, rfl⟩ := e
      refine ⟨hs, .inr ?_⟩
      rintro ⟨s, le, h, -⟩
      simp [alone, hc] at h
    | some q =>
      simp only [hc, Option.some.injEq, Prod.mk.injEq] at e
      obtain ⟨rfl, rfl⟩ := e
      exact ⟨hs, q, hc, by simp only [alone, hc, Option.bind_some]⟩
  | running i s evs =>
    obtain ⟨q, hq, ha⟩ := hp
    cases evs with
    | nil =>
      simp only [Phase.step, hq, Option.some.injEq, Prod.mk.injEq] at e
      obtain ⟨rfl, rfl⟩ := e
      exact ⟨hs, .inr ⟨_, ha, rfl⟩⟩
    | cons ev evs =>
      simp only [Phase.step] at e
      simp only [runTokens] at ha
      cases hst : s.step (c.child f.name) i ev with
      | none =>
        simp only [hst, Option.some.injEq, Prod.mk.injEq] at e
        obtain ⟨rfl, rfl⟩ := e
        refine ⟨hs, ?_⟩
        rintro ⟨s1, le, h, -⟩
        rw [ha] at h; simp [hst] at h
      | some s1 =>
        have ha' : alone c m f = afterToken c f (partTokens q).2 i s1 evs := by
          rw [ha]; simp only [hst, afterToken, Bool.and_false, Bool.false_eq_true, if_false]
        simp only [hst] at e
        by_cases hl : s.regs.model.any.length < s1.regs.model.any.length
        · rw [if_pos hl] at e
          simp only [Option.some.injEq, Prod.mk.injEq] at e
          obtain ⟨rfl, rfl⟩ := e
          exact ⟨hs, q, hq, ha'⟩
        · rw [if_neg hl] at e
          simp only [Option.some.injEq, Prod.mk.injEq] at e
          obtain ⟨rfl, rfl⟩ := e
          exact ⟨hs, q, hq, ha'⟩
  | appending i s evs l =>
    simp only [Phase.step, Option.some.injEq, Prod.mk.injEq] at e
    obtain ⟨rfl, rfl⟩ := e
    exact ⟨⟨hs.done, hs.errs⟩, hp⟩
  | polling i s evs =>
    obtain ⟨q, hq, ha⟩ := hp
    simp only [Phase.step] at e
    simp only [afterToken] at ha
    by_cases c1 : (c.strict && !s.errs.isEmpty) = true
    · rw [if_pos c1] at e ha
      simp only [Option.some.injEq, Prod.mk.injEq] at e
      obtain ⟨rfl, rfl⟩ := e
      exact ⟨hs, .inr ⟨_, ha, rfl⟩⟩
    · rw [if_neg c1] at e ha
      by_cases c2 : (i % 1000 == 0 && sh.done) = true
      · rw [if_pos c2] at e
        simp only [Option.some.injEq, Prod.mk.injEq] at e
        obtain ⟨rfl, rfl⟩ := e
        exact ⟨hs, .inl (by simp_all)⟩
      · rw [if_neg c2] at e
        simp only [Option.some.injEq, Prod.mk.injEq] at e
        obtain ⟨rfl, rfl⟩ := e
        exact ⟨hs, q, hq, ha⟩
  | decoded s r =>
    simp only [Phase.step] at e
    by_cases hd : sh.done = true
    · rw [if_pos hd] at e
      simp only [Option.some.injEq, Prod.mk.injEq] at e
      obtain ⟨rfl, rfl⟩ := e
      exact ⟨hs, .inl hd⟩
    · rw [if_neg hd] at e
      rcases hp with hp | ⟨le, ha, hr⟩
      · exact absurd hp hd
      · have key : r ≠ .ok → ¬ OkPart c m f := by
          rintro hne ⟨s1, le1, h1, h2⟩
          rw [ha, Option.some.injEq, Prod.mk.injEq] at h1
          rw [← h1.1, ← h1.2] at h2
          exact hne (hr.trans h2)
        cases r with
        | ok =>
          simp only [Option.some.injEq, Prod.mk.injEq] at e
          obtain ⟨rfl, rfl⟩ := e
          exact ⟨hs, .inr ⟨s, le, rfl, ha, hr.symm⟩⟩
        | _ =>
          simp only [Option.some.injEq, Prod.mk.injEq] at e
          obtain ⟨rfl, rfl⟩ := e
          exact ⟨hs, .inr (key (by simp))⟩
  | failed s x =>
    simp only [Phase.step, Option.some.injEq, Prod.mk.injEq] at e
    obtain ⟨rfl, rfl⟩ := e
    refine ⟨⟨fun _ => rfl, fun _ => ?_⟩, rfl⟩
    rcases hp with hp | hp
    · exact hs.errs (hs.done hp)
    · exact ⟨f, hf, hp⟩
  | stored s =>
    simp only [Phase.step, Option.some.injEq, Prod.mk.injEq] at e
    obtain ⟨rfl, rfl⟩ := e
    exact ⟨⟨fun _ => hp, hs.errs⟩, .inl hp⟩
  | finished s => cases e
  | panicked => cases e

/-- What is known of a state. -/
structure ChildrenInv (c : PkgCfg) (m : Model) (fs : List InFile) (st : ChildrenState) : Prop where
  len : st.ps.length = fs.length
  shared : SharedInv c m fs st.sh
  phase : ∀ (g : Nat) (f : InFile) (p : Phase), fs[g]? = some f → st.ps[g]? = some p → PhaseInv c m f st.sh p

theorem ChildrenInv.init (c : PkgCfg) (m : Model) (fs : List InFile) : ChildrenInv c m fs (.init fs false) where
  len := by simp [ChildrenState.init]
  shared := ⟨by simp [ChildrenState.init], by simp [ChildrenState.init]⟩
  phase g f p h1 h2 := by
    simp only [ChildrenState.init, List.getElem?_map, h1, Option.map_some, Option.some.injEq] at h2
    subst h2; trivial

theorem ChildrenInv.step {c : PkgCfg} {m : Model} {fs : List InFile} {st st' : ChildrenState} (h : ChildrenInv c m fs st)
    (e : ChildrenStep c m fs st st') : ChildrenInv c m fs st' := by
  cases e with
  | @step g f p p' sh' h1 h2 h3 =>
    have hm := Phase.step_mono h3
    have hi := Phase.step_inv (List.mem_of_getElem? h1) h.shared (h.phase g f p h1 h2) h3
    refine ⟨by simp [h.len], hi.1, ?_⟩
    intro g' f' q hf' hq
    by_cases hg : g = g'
    · subst hg
      rw [h1] at hf'; injection hf' with hf'; subst hf'
      rw [List.getElem?_set_self (by rw [List.getElem?_eq_some_iff] at h2; exact h2.1)] at hq
      injection hq with hq; subst hq
      exact hi.2
    · rw [List.getElem?_set_ne hg] at hq
      exact (h.phase g' f' q hf' hq).mono hm.1 hm.2

theorem ChildrenInv.reach {c : PkgCfg} {m : Model} {fs : List InFile} {st : ChildrenState}
    (h : Relation.ReflTransGen (ChildrenStep c m fs) (.init fs false) st) : ChildrenInv c m fs st := by
  induction h with
  | refl => exact .init c m fs
  | tail _ e ih => exact ih.step e

theorem ChildrenInv.noErr {c : PkgCfg} {m : Model} {fs : List InFile} {st : ChildrenState} (h : ChildrenInv c m fs st)
    (hf : st.Finished) : st.sh.errs = none ↔ ∀ f ∈ fs, OkPart c m f := by
  constructor
  · intro he f hm
    obtain ⟨g, hg⟩ := List.mem_iff_getElem?.mp hm
    have hl : g < st.ps.length := by rw [h.len]; exact (List.getElem?_eq_some_iff.mp hg).1
    obtain ⟨s, hs⟩ := hf g _ (List.getElem?_eq_getElem hl)
    have := h.phase g f _ hg (List.getElem?_eq_getElem hl)
    rw [hs] at this
    rcases this with h1 | ⟨s', le, -, h2, h3⟩
    · rw [he] at h1; cases h1
    · exact ⟨s', le, h2, h3⟩
  · intro ha
    cases he : st.sh.errs with
    | none => rfl
    | some x =>
      obtain ⟨f, hf1, hf2⟩ := h.shared.errs (by rw [he]; rfl)
      exact absurd (ha f hf1) hf2

/-- **C48**: for every interleaving of the goroutines, decoding the child parts succeeds exactly when every part, decoded
on its own, decodes. -/
theorem C48_success (c : PkgCfg) (m : Model) (fs : List InFile) (m' : Model) (e : Option ChildErr)
    (h : ChildrenOutcome c m fs m' e) : e = none ↔ ∀ f ∈ fs, ∃ mf, Spec.DecodesAlone c m f mf := by
  obtain ⟨st, h1, h2, rfl, -⟩ := h
  rw [(ChildrenInv.reach h1).noErr h2]
  refine forall_congr' fun f => forall_congr' fun _ => ?_
  constructor
  · rintro ⟨s, le, h1, h2⟩; exact ⟨_, decodesAlone_iff.mpr ⟨s, le, h1, h2, rfl⟩⟩
  · rintro ⟨mf, h⟩
    obtain ⟨s, le, h1, h2, -⟩ := decodesAlone_iff.mp h
    exact ⟨s, le, h1, h2⟩

/-! ## The resources -/

/-- The path of a child model: it has an entry in the map and is not the path of the root model. -/
def Spec.ChildPath (m : Model) (path : Str) : Prop :=
  path ≠ [] ∧ path ≠ m.path ∧ ¬ (m.path = [] ∧ path = b!"/3D/3dmodel.model") ∧ (lookupChild m.childs path).isSome

theorem lookup_setResources {path : Str} {rs : Resources} (q : Str) : ∀ (cs : List (Str × ChildModel)),
    lookupChild (cs.map fun c => if c.1 = path then (c.1, { c.2 with resources := rs }) else c) q =
      (lookupChild cs q).map fun c => if q = path then { c with resources := rs } else c
  | [] => rfl
  | c :: cs => by
    have ih := lookup_setResources (path := path) (rs := rs) q cs
    simp only [List.map_cons, lookupChild]
    by_cases h1 : c.1 = path <;> by_cases h2 : c.1 = q <;> simp_all

theorem childPath_root {m : Model} {path : Str} (h : Spec.ChildPath m path) :
    ¬ (path = [] ∨ path = m.path ∨ (m.path = [] ∧ path = defaultModelPath)) := by
  rintro (h' | h' | h')
  · exact h.1 h'
  · exact h.2.1 h'
  · exact h.2.2.1 h'

theorem find_setResources {m : Model} {path q : Str} {rs : Resources} (h : Spec.ChildPath m path) (hq : Spec.ChildPath m q) :
    (m.setResources path rs).findResources q = if q = path then some rs else m.findResources q := by
  have hr := childPath_root h
  have hq' := childPath_root hq
  unfold Model.setResources
  rw [if_neg hr]
  unfold Model.findResources
  simp only [if_neg hq', lookup_setResources]
  obtain ⟨c, hc⟩ := Option.isSome_iff_exists.mp hq.2.2.2
  by_cases e : q = path
  · subst e; simp [hc]
  · simp [hc, e]

theorem childPath_setResources {m : Model} {path q : Str} {rs : Resources} (h : Spec.ChildPath m path)
    (hq : Spec.ChildPath m q) : Spec.ChildPath (m.setResources path rs) q := by
  have hr := childPath_root h
  unfold Model.setResources
  rw [if_neg hr]
  refine ⟨hq.1, hq.2.1, hq.2.2.1, ?_⟩
  simp only [lookup_setResources, Option.isSome_map]
  exact hq.2.2.2

theorem find_setChilds : ∀ (l : List (InFile × Phase)) (m : Model), (∀ x ∈ l, Spec.ChildPath m x.1.name) → ∀ q, Spec.ChildPath m q →
    q ∉ l.map (fun x => x.1.name) → (setChilds m l).findResources q = m.findResources q
  | [], m, _, q, _, _ => rfl
  | (f, p) :: l, m, h, q, hq, hn => by
    have hf := h _ List.mem_cons_self
    simp only [List.map_cons, List.mem_cons, not_or] at hn
    simp only [setChilds]
    cases p.state.bind (·.regs.res) with
    | none => exact find_setChilds l m (fun x hx => h x (List.mem_cons_of_mem _ hx)) q hq hn.2
    | some rs =>
      simp only
      rw [find_setChilds l _ (fun x hx => childPath_setResources hf (h x (List.mem_cons_of_mem _ hx))) q
        (childPath_setResources hf hq) hn.2, find_setResources hf hq, if_neg hn.1]

theorem find_setChilds_mem : ∀ (l : List (InFile × Phase)) (m : Model), (∀ x ∈ l, Spec.ChildPath m x.1.name) →
    (l.map fun x => x.1.name).Nodup → ∀ x ∈ l, (setChilds m l).findResources x.1.name =
      match x.2.state.bind (·.regs.res) with
      | some rs => some rs
      | none => m.findResources x.1.name
  | [], m, _, _, x, hx => by simp at hx
  | (f, p) :: l, m, h, hn, x, hx => by
    have hf := h _ List.mem_cons_self
    have hl : ∀ x ∈ l, Spec.ChildPath m x.1.name := fun x hx => h x (List.mem_cons_of_mem _ hx)
    simp only [List.map_cons, List.nodup_cons] at hn
    simp only [setChilds]
    rcases List.mem_cons.mp hx with rfl | hx
    · simp only
      cases p.state.bind (·.regs.res) with
      | none => exact find_setChilds l m hl _ hf hn.1
      | some rs =>
        simp only
        rw [find_setChilds l _ (fun x hx => childPath_setResources hf (hl x hx)) _ (childPath_setResources hf hf) hn.1,
          find_setResources hf hf, if_pos rfl]
    · have hne : x.1.name ≠ f.name := by
        intro e; apply hn.1; rw [← e]; exact List.mem_map_of_mem hx
      cases p.state.bind (·.regs.res) with
      | none => exact find_setChilds_mem l m hl hn.2 x hx
      | some rs =>
        simp only
        rw [find_setChilds_mem l _ (fun x hx => childPath_setResources hf (hl x hx)) hn.2 x hx,
          find_setResources hf (hl x hx), if_neg hne]

/-- Everything but the resources of child models and `Any`. -/
def Spec.SameRoot (m m' : Model) : Prop :=
  { m' with childs := m.childs, any := m.any } = m ∧ m'.childs.map (·.1) = m.childs.map (·.1) ∧
    m'.childs.map (fun c => (c.2.relationships, c.2.any)) = m.childs.map (fun c => (c.2.relationships, c.2.any))

theorem sameRoot_refl (m : Model) : Spec.SameRoot m m := ⟨rfl, rfl, rfl⟩

theorem sameRoot_set {m m' : Model} {path : Str} {rs : Resources} (h : Spec.SameRoot m m') (hp : Spec.ChildPath m' path) :
    Spec.SameRoot m (m'.setResources path rs) := by
  have hr := childPath_root hp
  unfold Model.setResources
  rw [if_neg hr]
  refine ⟨h.1, ?_, ?_⟩
  · rw [← h.2.1, List.map_map]
    apply List.map_congr_left
    intro c _
    simp only [Function.comp_apply]
    split <;> rfl
  · rw [← h.2.2, List.map_map]
    apply List.map_congr_left
    intro c _
    simp only [Function.comp_apply]
    split <;> rfl

theorem sameRoot_setChilds {m : Model} : ∀ (l : List (InFile × Phase)) (m' : Model), Spec.SameRoot m m' →
    (∀ x ∈ l, Spec.ChildPath m' x.1.name) → Spec.SameRoot m (setChilds m' l)
  | [], m', h, _ => h
  | (f, p) :: l, m', h, hp => by
    have hf := hp _ List.mem_cons_self
    have hl : ∀ x ∈ l, Spec.ChildPath m' x.1.name := fun x hx => hp x (List.mem_cons_of_mem _ hx)
    simp only [setChilds]
    cases p.state.bind (·.regs.res) with
    | none => exact sameRoot_setChilds l m' h hl
    | some rs => exact sameRoot_setChilds l _ (sameRoot_set h hf) fun x hx => childPath_setResources hf (hl x hx)

theorem alone_find {c : PkgCfg} {m : Model} {f : InFile} {s : DState} {le : LoopEnd} (h : alone c m f = some (s, le))
    (hp : Spec.ChildPath m f.name) : (s.result f.name).findResources f.name =
      match s.regs.res with
      | some rs => some rs
      | none => m.findResources f.name := by
  unfold alone at h
  cases hc : f.content with
  | none => simp [hc] at h
  | some q =>
    rw [hc] at h
    have hpr := (Private.run (cfg := c.child f.name) rfl (Private.init m f.name) h).model
    obtain ⟨a, ha⟩ := hpr
    have hp' : Spec.ChildPath s.regs.model f.name := by rw [ha]; exact hp
    unfold DState.result
    cases s.regs.res with
    | none => simp only [ha]; rfl
    | some rs => simp only; rw [find_setResources hp' hp', if_pos rfl]

/-- **C48**: if decoding the child parts succeeds, then for every interleaving the resources of each child are those that
decoding its part on its own gives, and nothing else of the model is changed but `Any`.  The parts have different names, which
are paths of child models. -/
theorem C48_resources_partial (c : PkgCfg) (m : Model) (fs : List InFile) (m' : Model) (h : ChildrenOutcome c m fs m' none)
    (hn : (fs.map (·.name)).Nodup) (hp : ∀ f ∈ fs, Spec.ChildPath m f.name) :
    (∀ f ∈ fs, ∀ mf, Spec.DecodesAlone c m f mf → m'.findResources f.name = mf.findResources f.name) ∧
    (∀ q, Spec.ChildPath m q → q ∉ fs.map (·.name) → m'.findResources q = m.findResources q) ∧ Spec.SameRoot m m' := by
  obtain ⟨st, h1, h2, h3, rfl⟩ := h
  have hi := ChildrenInv.reach h1
  have hz : (fs.zip st.ps).map (fun x => x.1.name) = fs.map (·.name) := by
    have h0 : (fs.zip st.ps).map Prod.fst = fs := List.map_fst_zip (by rw [hi.len])
    rw [← congrArg (List.map InFile.name) h0, List.map_map]
    rfl
  have hz1 : ∀ x ∈ fs.zip st.ps, Spec.ChildPath m x.1.name := fun x hx => hp _ (List.of_mem_zip hx).1
  refine ⟨?_, ?_, ?_⟩
  · intro f hf mf hmf
    obtain ⟨s, le, ha, -, rfl⟩ := decodesAlone_iff.mp hmf
    obtain ⟨g, hg⟩ := List.mem_iff_getElem?.mp hf
    have hl : g < st.ps.length := by rw [hi.len]; exact (List.getElem?_eq_some_iff.mp hg).1
    obtain ⟨s0, hs0⟩ := h2 g _ (List.getElem?_eq_getElem hl)
    have hph := hi.phase g f _ hg (List.getElem?_eq_getElem hl)
    rw [hs0] at hph
    rcases hph with hph | ⟨s1, le1, rfl, ha1, -⟩
    · rw [h3] at hph; cases hph
    · rw [ha, Option.some.injEq, Prod.mk.injEq] at ha1
      obtain ⟨rfl, rfl⟩ := ha1
      have hx : (f, Phase.finished (some s)) ∈ fs.zip st.ps := by
        apply List.mem_iff_getElem?.mpr
        refine ⟨g, ?_⟩
        rw [List.getElem?_zip_eq_some]
        exact ⟨hg, by rw [List.getElem?_eq_getElem hl, hs0]⟩
      have := find_setChilds_mem (fs.zip st.ps) m hz1 (by rw [hz]; exact hn) _ hx
      rw [alone_find ha (hp f hf)]
      exact this
  · intro q hq hqn
    exact find_setChilds (fs.zip st.ps) m hz1 q hq (by rw [hz]; exact hqn)
  · have := sameRoot_setChilds (fs.zip st.ps) m (sameRoot_refl m) hz1
    exact ⟨this.1, this.2⟩

/-- **C48**: decoding a child part, whatever it contains, changes nothing of the model but `Any` and the resources that
belong to its path. -/
theorem C48_private (env : Env) (mem : Nat → Str → Str) (strict : Bool) (done : Nat → Bool) (m : Model) (path : Str)
    (evs : List (Option Event)) (fin : LexErr) (m' : Model) (r : DecodeResult)
    (h : decodeEvents ⟨env, false, mem⟩ strict done m path evs fin = some (m', r)) (hp : Spec.ChildPath m path) :
    Spec.SameRoot m m' ∧ ∀ q, Spec.ChildPath m q → q ≠ path → m'.findResources q = m.findResources q := by
  simp only [decodeEvents, Option.map_eq_some_iff, Prod.mk.injEq] at h
  obtain ⟨⟨s, le⟩, h1, h2, -⟩ := h
  obtain ⟨a, ha⟩ := (Private.run (cfg := ⟨env, false, mem⟩) rfl (Private.init m path) h1).model
  have hp' : Spec.ChildPath { m with any := a } path := hp
  simp only [DState.result] at h2
  cases hr : s.regs.res with
  | none =>
    simp only [hr, ha] at h2
    subst h2
    exact ⟨⟨rfl, rfl, rfl⟩, fun _ _ _ => rfl⟩
  | some rs =>
    simp only [hr, ha] at h2
    subst h2
    refine ⟨sameRoot_set (m := m) ⟨rfl, rfl, rfl⟩ hp', fun q hq hne => ?_⟩
    rw [find_setResources hp' (q := q) hq, if_neg hne]; rfl

/-! ## The goroutines end -/

/-- The number of steps that are left at most. -/
def Phase.weight (f : InFile) : Phase → Nat
  | .ready => match f.content with
    | none => 5
    | some p => 4 * (partTokens p).1.length + 9
  | .running _ _ evs => 4 * evs.length + 6
  | .appending _ _ evs _ => 4 * evs.length + 8
  | .polling _ _ evs => 4 * evs.length + 7
  | .decoded _ _ => 4
  | .failed _ _ => 3
  | .stored _ => 2
  | .finished _ => 1
  | .panicked => 0

theorem Phase.step_weight {c : PkgCfg} {m : Model} {g : Nat} {f : InFile} {sh sh' : Shared} {p p' : Phase}
    (e : p.step c m g f sh = some (sh', p')) : p'.weight f < p.weight f := by
  cases p with
  | ready =>
    cases hc : f.content with
    | none =>
      simp only [Phase.step, hc, Option.some.injEq, Prod.mk.injEq] at e
      obtain ⟨rfl, rfl⟩ := e
      simp [Phase.weight, hc]
    | some q =>
      simp only [Phase.step, hc, Option.some.injEq, Prod.mk.injEq] at e
      obtain ⟨rfl, rfl⟩ := e
      simp [Phase.weight, hc]
  | running i s evs =>
    cases evs with
    | nil =>
      simp only [Phase.step] at e
      split at e
      · cases e
      · simp only [Option.some.injEq, Prod.mk.injEq] at e
        obtain ⟨rfl, rfl⟩ := e
        simp [Phase.weight]
    | cons ev evs =>
      simp only [Phase.step] at e
      split at e
      · simp only [Option.some.injEq, Prod.mk.injEq] at e
        obtain ⟨rfl, rfl⟩ := e
        simp [Phase.weight]
      · split at e <;>
        · simp only [Option.some.injEq, Prod.mk.injEq] at e
          obtain ⟨rfl, rfl⟩ := e
          simp only [Phase.weight, List.length_cons]; omega
  | appending i s evs l =>
    simp only [Phase.step, Option.some.injEq, Prod.mk.injEq] at e
    obtain ⟨rfl, rfl⟩ := e
    simp [Phase.weight]
  | polling i s evs =>
    simp only [Phase.step] at e
    split at e
    · simp only [Option.some.injEq, Prod.mk.injEq] at e
      obtain ⟨rfl, rfl⟩ := e
      simp only [Phase.weight]; omega
    · split at e <;>
      · simp only [Option.some.injEq, Prod.mk.injEq] at e
        obtain ⟨rfl, rfl⟩ := e
        simp only [Phase.weight]; omega
  | decoded s r =>
    simp only [Phase.step] at e
    split at e
    · simp only [Option.some.injEq, Prod.mk.injEq] at e
      obtain ⟨rfl, rfl⟩ := e
      simp [Phase.weight]
    · split at e <;>
      · simp only [Option.some.injEq, Prod.mk.injEq] at e
        obtain ⟨rfl, rfl⟩ := e
        simp [Phase.weight]
  | failed s x =>
    simp only [Phase.step, Option.some.injEq, Prod.mk.injEq] at e
    obtain ⟨rfl, rfl⟩ := e
    simp [Phase.weight]
  | stored s =>
    simp only [Phase.step, Option.some.injEq, Prod.mk.injEq] at e
    obtain ⟨rfl, rfl⟩ := e
    simp [Phase.weight]
  | finished s => cases e
  | panicked => cases e

/-- The number of steps that are left at most. -/
def stepsLeft : List InFile → List Phase → Nat
  | f :: fs, p :: ps => p.weight f + stepsLeft fs ps
  | _, _ => 0

theorem stepsLeft_set {f : InFile} {p p' : Phase} (hw : p'.weight f < p.weight f) : ∀ {fs : List InFile} {ps : List Phase} {g : Nat},
    fs[g]? = some f → ps[g]? = some p → stepsLeft fs (ps.set g p') < stepsLeft fs ps
  | [], _, _, h, _ => by simp at h
  | _ :: _, [], _, _, h => by simp at h
  | f0 :: fs, p0 :: ps, 0, h1, h2 => by
    simp only [List.getElem?_cons_zero, Option.some.injEq] at h1 h2
    subst h1 h2
    simp only [List.set_cons_zero, stepsLeft]; omega
  | f0 :: fs, p0 :: ps, g + 1, h1, h2 => by
    simp only [List.getElem?_cons_succ] at h1 h2
    simp only [List.set_cons_succ, stepsLeft]
    have := stepsLeft_set hw h1 h2
    omega

/-- **C48**: the goroutines end: there is no infinite run, and a run can only stop when all the goroutines have finished, so
that `wg.Wait()` returns, or when one of them has panicked because its part, decoded on its own, does not decode. -/
theorem C48_ends (c : PkgCfg) (m : Model) (fs : List InFile) :
    (¬ ∃ run : Nat → ChildrenState, ∀ n, ChildrenStep c m fs (run n) (run (n + 1))) ∧
    ∀ st, Relation.ReflTransGen (ChildrenStep c m fs) (.init fs false) st → (∀ st', ¬ ChildrenStep c m fs st st') →
      st.Finished ∨ ∃ f ∈ fs, ¬ ∃ mf, Spec.DecodesAlone c m f mf := by
  constructor
  · rintro ⟨run, h⟩
    have h1 : ∀ n, stepsLeft fs (run (n + 1)).ps < stepsLeft fs (run n).ps := by
      intro n
      have hn := h n
      generalize run (n + 1) = st' at hn ⊢
      generalize run n = st at hn ⊢
      cases hn with
      | step h1 h2 h3 => exact stepsLeft_set (Phase.step_weight h3) h1 h2
    have h2 : ∀ n, stepsLeft fs (run n).ps + n ≤ stepsLeft fs (run 0).ps := by
      intro n
      induction n with
      | zero => simp
      | succ n ih => have := h1 n; omega
    have := h2 (stepsLeft fs (run 0).ps + 1)
    omega
  · intro st hst hno
    have hi := ChildrenInv.reach hst
    by_cases hp : ∃ g : Nat, st.ps[g]? = some .panicked
    · right
      obtain ⟨g, hg⟩ := hp
      have hl : g < fs.length := by rw [← hi.len]; exact (List.getElem?_eq_some_iff.mp hg).1
      refine ⟨fs[g], List.getElem_mem hl, ?_⟩
      rintro ⟨mf, hmf⟩
      obtain ⟨s, le, h1, h2, -⟩ := decodesAlone_iff.mp hmf
      exact hi.phase g _ _ (List.getElem?_eq_getElem hl) hg ⟨s, le, h1, h2⟩
    · left
      intro g p hg
      have hl : g < fs.length := by rw [← hi.len]; exact (List.getElem?_eq_some_iff.mp hg).1
      have hf := List.getElem?_eq_getElem hl
      have hph := hi.phase g _ _ hf hg
      cases he : p.step c m g fs[g] st.sh with
      | some q => exact absurd (.step (p' := q.2) (sh' := q.1) hf hg he) (hno _)
      | none =>
        cases p with
        | finished s => exact ⟨s, rfl⟩
        | panicked => exact absurd ⟨g, hg⟩ hp
        | ready => simp only [Phase.step] at he; split at he <;> cases he
        | running i s evs =>
          obtain ⟨q, hq, -⟩ := hph
          cases evs with
          | nil => simp [Phase.step, hq] at he
          | cons ev evs =>
            simp only [Phase.step] at he
            split at he
            · cases he
            · split at he <;> cases he
        | appending i s evs l => cases he
        | polling i s evs =>
          simp only [Phase.step] at he
          split at he
          · cases he
          · split at he <;> cases he
        | decoded s r =>
          simp only [Phase.step] at he
          split at he
          · cases he
          · split at he <;> cases he
        | failed s x => cases he
        | stored s => cases he

/-! ## Examples -/

/-- Run the goroutines in the given order. -/
def runSchedule (c : PkgCfg) (m : Model) (fs : List InFile) : List Nat → ChildrenState → Option ChildrenState
  | [], st => some st
  | g :: gs, st =>
    match fs[g]?, st.ps[g]? with
    | some f, some p => match p.step c m g f st.sh with
      | some (sh, p') => runSchedule c m fs gs ⟨sh, st.ps.set g p'⟩
      | none => none
    | _, _ => none

theorem runSchedule_reach {c : PkgCfg} {m : Model} {fs : List InFile} : ∀ {gs : List Nat} {st st' : ChildrenState},
    runSchedule c m fs gs st = some st' → Relation.ReflTransGen (ChildrenStep c m fs) st st'
  | [], st, st', h => by injection h with h; subst h; exact .refl
  | g :: gs, st, st', h => by
    simp only [runSchedule] at h
    cases hf : fs[g]? with
    | none => simp [hf] at h
    | some f =>
      cases hp : st.ps[g]? with
      | none => simp [hf, hp] at h
      | some p =>
        cases he : p.step c m g f st.sh with
        | none => simp [hf, hp, he] at h
        | some q =>
          simp only [hf, hp, he] at h
          exact .head (.step hf hp he) (runSchedule_reach h)

/-- Has every goroutine finished? -/
def Phase.isFinished : Phase → Bool
  | .finished _ => true
  | _ => false

/-- Has every goroutine finished? -/
def ChildrenState.allFinished (st : ChildrenState) : Bool := st.ps.all Phase.isFinished

theorem allFinished_iff {st : ChildrenState} (h : st.allFinished = true) : st.Finished := by
  intro g p hg
  have := List.all_eq_true.mp h p (List.mem_of_getElem? hg)
  cases p <;> first | exact ⟨_, rfl⟩ | cases this

/-- The configuration of the examples. -/
def c48Cfg : PkgCfg := ⟨allExt, true, fun _ _ t => t⟩

/-- Child parts of the examples: one object, the object with the given first attribute. -/
def c48Part (name attr : Str) : InFile :=
  ⟨name, contentTypeModel, [], some (b!"<model xmlns=\"http://schemas.microsoft.com/3dmanufacturing/core/2015/02\"><resources><object " ++
    attr ++ b!"/></resources></model>", .eof)⟩

/-- The model of the examples. -/
def c48Model : Model := { Model.zero with childs := [(b!"/a.model", .zero), (b!"/b.model", .zero)] }

/-- Two parts that decode. -/
def c48Good : List InFile := [c48Part b!"/a.model" b!"id=\"1\"", c48Part b!"/b.model" b!"id=\"2\""]

/-- The outcome of a schedule: is it complete, is there an error, and the identifiers of the objects of the children. -/
def c48Run (fs : List InFile) (gs : List Nat) : Option (Bool × Bool × List (List UInt32)) :=
  (runSchedule c48Cfg c48Model fs gs (.init fs false)).map fun st =>
    (st.allFinished, st.sh.errs.isSome, (st.model c48Model fs).childs.map fun x => x.2.resources.objects.map (·.id))

theorem c48Good_run : c48Run c48Good (List.replicate 15 [0, 1]).flatten = some (true, false, [[1], [2]]) := by decide +kernel

/-- The goroutines take turns, or run one after the other; the outcome is the same. -/
example : c48Run c48Good (List.replicate 15 1 ++ List.replicate 15 0) = some (true, false, [[1], [2]]) := by decide +kernel

theorem outcome_of_run {fs : List InFile} {gs : List Nat} {b : Bool} {ids : List (List UInt32)}
    (h : c48Run fs gs = some (true, b, ids)) :
    ∃ m' e, ChildrenOutcome c48Cfg c48Model fs m' e ∧ e.isSome = b ∧
      (m'.childs.map fun x => x.2.resources.objects.map (·.id)) = ids := by
  simp only [c48Run, Option.map_eq_some_iff, Prod.mk.injEq] at h
  obtain ⟨st, h1, h2, h3, h4⟩ := h
  exact ⟨st.model c48Model fs, st.sh.errs, ⟨st, runSchedule_reach h1, allFinished_iff h2, rfl, rfl⟩, h3, h4⟩

/-- The hypotheses of `C48_resources_partial` hold. -/
example : ∃ m', ChildrenOutcome c48Cfg c48Model c48Good m' none ∧ (c48Good.map (·.name)).Nodup ∧
    ∀ f ∈ c48Good, Spec.ChildPath c48Model f.name := by
  obtain ⟨m', e, h, he, -⟩ := outcome_of_run c48Good_run
  have he' : e = none := by cases e <;> simp_all
  subst he'
  refine ⟨m', h, by decide, ?_⟩
  intro f hf
  simp only [c48Good, List.mem_cons, List.not_mem_nil, or_false] at hf
  rcases hf with rfl | rfl <;> exact ⟨by decide, by decide, by decide, by decide⟩

/-- One part with an object whose identifier is not a number. -/
def c48Bad : List InFile := [c48Part b!"/a.model" b!"id=\"x\"", c48Part b!"/b.model" b!"id=\"2\""]

/-- Is the error that of a context that is done? -/
def ChildErr.isCtx : ChildErr → Bool
  | .decode .ctx => true
  | _ => false

theorem c48Bad_run : (runSchedule c48Cfg c48Model c48Bad (List.replicate 10 0 ++ List.replicate 6 1) (.init c48Bad false)).any
    (fun st => st.allFinished && st.sh.errs.any ChildErr.isCtx) = true := by decide +kernel

/-- **C48**: nobody has cancelled the context of the caller, but the error returned is `context.Canceled`: a goroutine that
is cancelled because another one failed overwrites the error of the latter. -/
theorem C48_error_false : ∃ c m fs m' e, ChildrenOutcome c m fs m' (some e) ∧ e.isCtx = true := by
  cases h : runSchedule c48Cfg c48Model c48Bad (List.replicate 10 0 ++ List.replicate 6 1) (.init c48Bad false) with
  | none => have := c48Bad_run; rw [h] at this; cases this
  | some st =>
    have h1 := c48Bad_run
    simp only [h, Option.any_some, Bool.and_eq_true] at h1
    cases he : st.sh.errs with
    | none => rw [he] at h1; exact absurd h1.2 (by simp)
    | some e =>
      rw [he] at h1
      exact ⟨c48Cfg, c48Model, c48Bad, _, e, ⟨st, runSchedule_reach h, allFinished_iff h1.1, he, rfl⟩, h1.2⟩

/-- A part with an unknown element in the root element. -/
def c48Any (name : Str) : InFile :=
  ⟨name, contentTypeModel, [], some (b!"<model xmlns=\"http://schemas.microsoft.com/3dmanufacturing/core/2015/02\"><x xmlns=\"u\"/></model>", .eof)⟩

/-- The number of elements of `Model.Any` if the run is complete and there is no error. -/
def c48AnyRun (gs : List Nat) : Option Nat :=
  (runSchedule c48Cfg c48Model [c48Any b!"/a.model", c48Any b!"/b.model"] gs
    (.init [c48Any b!"/a.model", c48Any b!"/b.model"] false)).bind fun st =>
      if st.allFinished && st.sh.errs.isNone then
        some (st.model c48Model [c48Any b!"/a.model", c48Any b!"/b.model"]).any.length
      else none

/-- **C48** is false of `Model.Any`: the elements of two child parts are appended without synchronisation, one of them is lost
in some interleavings. -/
theorem C48_any_false : c48AnyRun (List.replicate 12 0 ++ List.replicate 12 1) = some 2 ∧
    c48AnyRun (List.replicate 12 [0, 1]).flatten = some 1 := by decide +kernel

/-- Decode the same child part twice, the second time into the model that the first time gives; the identifiers of the objects. -/
def c48Twice : Option (List UInt32) :=
  (decodeEvents ⟨allExt, false, fun _ t => t⟩ true (fun _ => false) c48Model b!"/a.model"
    (partTokens ((c48Part b!"/a.model" b!"id=\"1\"").content.getD ([], .eof))).1 .eof).bind fun p =>
  (decodeEvents ⟨allExt, false, fun _ t => t⟩ true (fun _ => false) p.1 b!"/a.model"
    (partTokens ((c48Part b!"/a.model" b!"id=\"1\"").content.getD ([], .eof))).1 .eof).bind fun q =>
  (q.1.findResources b!"/a.model").map fun rs => rs.objects.map (·.id)

/-- **C48** is false if two relationships of the root part have the same target: the part is decoded by two goroutines into the
same resources.  Even if they run one after the other its objects are there twice. -/
theorem C48_twice_false : c48Twice = some [1, 1] := by decide +kernel

end Go3mf
