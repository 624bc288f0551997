import Verif.Lemmas.Adds
import Verif.Lemmas.RtPkg
import Verif.Props.C74

/-!
# C75: decoding into a model that is not empty

`Decode` and `UnmarshalModel` take a model from the caller, which need not be empty.  Whatever is read, and however the
reading ends, nothing that was in the model is removed: all lists grow at their ends.  But what is added is not always what
the file says: the rest of the old model changes the meaning of the new part.
-/

namespace Go3mf
open Spec

/-! ## What it means to add to a model -/

/-- Objects and assets are added at the end. -/
structure Spec.Extended (rs rs' : Resources) : Prop where
  objects : rs.objects <+: rs'.objects
  assets : rs.assets <+: rs'.assets

/-- A part is added to a model. -/
structure Spec.PartAdded (m m' : Model) : Prop where
  path : m'.path = m.path
  attachments : m'.attachments = m.attachments
  rootRelationships : m'.rootRelationships = m.rootRelationships
  relationships : m'.relationships = m.relationships
  metadata : m.metadata <+: m'.metadata
  items : m.build.items <+: m'.build.items
  any : m.any <+: m'.any
  /-- The extensions that were declared; they can become required. -/
  extensions : m.extensions.map Extension.decl <+: m'.extensions.map Extension.decl
  resources : Extended m.resources m'.resources
  childs : List.Forall₂ (fun c c' => c'.1 = c.1 ∧ Extended c.2.resources c'.2.resources ∧ c'.2.relationships = c.2.relationships ∧
    c'.2.any = c.2.any) m.childs m'.childs

/-- A package is added to a model. -/
structure Spec.PkgAdded (m m' : Model) : Prop where
  attachments : m.attachments <+: m'.attachments
  rootRelationships : m.rootRelationships <+: m'.rootRelationships
  relationships : m.relationships <+: m'.relationships
  metadata : m.metadata <+: m'.metadata
  items : m.build.items <+: m'.build.items
  any : m.any <+: m'.any
  extensions : m.extensions.map Extension.decl <+: m'.extensions.map Extension.decl
  resources : Extended m.resources m'.resources

/-! ## One part -/

theorem Spec.Extended.refl (rs : Resources) : Extended rs rs := ⟨List.prefix_rfl, List.prefix_rfl⟩

theorem Spec.Extended.trans {a b c : Resources} (h : Extended a b) (h' : Extended b c) : Extended a c :=
  ⟨h.1.trans h'.1, h.2.trans h'.2⟩

theorem ResAdds.extended {rs rs' : Resources} (h : ResAdds rs.assets.length rs rs') : Extended rs rs' := by
  refine ⟨h.objects, ?_⟩
  have h1 := List.take_prefix rs.assets.length rs'.assets
  rwa [h.assets, List.take_length] at h1

theorem prefix_of_take {α : Type} {l l' : List α} (h : l'.take l.length = l.take l.length) : l <+: l' := by
  rw [List.take_length] at h
  have := List.take_prefix l.length l'
  rwa [h] at this

/-- The number of assets in the part before it is read. -/
def assetsBefore (m : Model) (path : Str) : Nat := ((m.findResources path).map fun rs => rs.assets.length).getD 0

theorem res_extended {m : Model} {path : Str} {s : DState}
    (h : Grown m.any.length (assetsBefore m path) (DState.init m path).regs s) {rs' : Resources} (hr : s.regs.res = some rs') :
    ∃ rs, m.findResources path = some rs ∧ Extended rs rs' := by
  have h1 := h.adds.res
  rw [hr] at h1
  simp only [DState.init] at h1
  unfold assetsBefore at h1
  match hq : m.findResources path with
  | none => rw [hq] at h1; exact h1.elim
  | some rs => rw [hq] at h1; exact ⟨rs, rfl, ResAdds.extended h1⟩

theorem run_grown {cfg : DecCfg} {m : Model} {path : Str} {strict : Bool} {done : Nat → Bool} {fin : LexErr}
    {evs : List (Option Event)} {s : DState} {le : LoopEnd}
    (h : runTokens cfg strict done fin 0 (DState.init m path) evs = some (s, le)) :
    Grown m.any.length (assetsBefore m path) (DState.init m path).regs s := by
  refine Grown.run (Nat.le_refl _) ?_ (Grown.init m path) h
  intro rs hr
  simp only [DState.init] at hr
  simp [assetsBefore, hr]

theorem forall₂_childs {path : Str} {rs' : Resources} : ∀ {cs : List (Str × ChildModel)}, (cs.map (·.1)).Nodup →
    (∀ c, lookupChild cs path = some c → Extended c.resources rs') →
    List.Forall₂ (fun c c' : Str × ChildModel => c'.1 = c.1 ∧ Extended c.2.resources c'.2.resources ∧
      c'.2.relationships = c.2.relationships ∧ c'.2.any = c.2.any) cs
      (cs.map fun c => if c.1 = path then (c.1, { c.2 with resources := rs' }) else c)
  | [], _, _ => .nil
  | c :: cs, hn, h => by
    simp only [List.map_cons, List.nodup_cons] at hn ⊢
    by_cases hc : c.1 = path
    · refine .cons ?_ ?_
      · rw [if_pos hc]
        exact ⟨rfl, h c.2 (by simp [lookupChild, hc]), rfl, rfl⟩
      · have : ∀ x ∈ cs, x.1 ≠ path := fun x hx e => hn.1 (List.mem_map.mpr ⟨x, hx, by rw [e, hc]⟩)
        have e : (cs.map fun c => if c.1 = path then (c.1, { c.2 with resources := rs' }) else c) = cs := by
          conv => rhs; rw [← List.map_id cs]
          exact List.map_congr_left fun x hx => if_neg (this x hx)
        rw [e]
        exact List.forall₂_same.mpr fun x _ => ⟨rfl, .refl _, rfl, rfl⟩
    · refine .cons ?_ (forall₂_childs hn.2 fun c' hc' => h c' ?_)
      · rw [if_neg hc]; exact ⟨rfl, .refl _, rfl, rfl⟩
      · simpa [lookupChild, hc] using hc'

theorem result_added {m : Model} (hw : m.WF) {path : Str} {s : DState}
    (h : Grown m.any.length (assetsBefore m path) (DState.init m path).regs s) : PartAdded m (s.result path) := by
  have hm := h.adds.model
  have he : ∀ rs', s.regs.res = some rs' → ∃ rs, m.findResources path = some rs ∧ Extended rs rs' := fun rs' => res_extended h
  simp only [DState.init] at hm
  have same : List.Forall₂ (fun c c' : Str × ChildModel => c'.1 = c.1 ∧ Extended c.2.resources c'.2.resources ∧
      c'.2.relationships = c.2.relationships ∧ c'.2.any = c.2.any) m.childs s.regs.model.childs := by
    rw [hm.childs]; exact List.forall₂_same.mpr fun x _ => ⟨rfl, .refl _, rfl, rfl⟩
  unfold DState.result
  split
  · rename_i rs' hr
    obtain ⟨rs, h1, h2⟩ := he rs' hr
    unfold Model.setResources
    rw [Model.findResources] at h1
    split
    · rename_i hp
      rw [hm.path] at hp
      rw [if_pos hp] at h1
      injection h1 with h1; subst h1
      exact ⟨hm.path, hm.attachments, hm.rootRelationships, hm.relationships, hm.metadata, hm.items, prefix_of_take hm.any,
        hm.extensions, h2, same⟩
    · rename_i hp
      rw [hm.path] at hp
      rw [if_neg hp] at h1
      refine ⟨hm.path, hm.attachments, hm.rootRelationships, hm.relationships, hm.metadata, hm.items, prefix_of_take hm.any,
        hm.extensions, by rw [hm.resources]; exact .refl _, ?_⟩
      rw [hm.childs]
      refine forall₂_childs hw ?_
      intro c hc
      rw [hc] at h1
      injection h1 with h1; subst h1; exact h2
  · exact ⟨hm.path, hm.attachments, hm.rootRelationships, hm.relationships, hm.metadata, hm.items, prefix_of_take hm.any,
      hm.extensions, by rw [hm.resources]; exact .refl _, same⟩

/-- **C75**: reading a part, whatever its tokens and however the reading ends, adds to the model. -/
theorem C75_part (cfg : DecCfg) (strict : Bool) (done : Nat → Bool) (m m' : Model) (hw : m.WF) (path : Str)
    (evs : List (Option Event)) (fin : LexErr) (r : DecodeResult)
    (h : decodeEvents cfg strict done m path evs fin = some (m', r)) : PartAdded m m' := by
  unfold decodeEvents at h
  simp only [Option.map_eq_some_iff] at h
  obtain ⟨⟨s, le⟩, h1, h2⟩ := h
  rw [Prod.mk.injEq] at h2
  rw [← h2.1]
  exact result_added hw (run_grown h1)

/-! ## Packages -/

theorem Spec.PkgAdded.refl (m : Model) : PkgAdded m m :=
  ⟨List.prefix_rfl, List.prefix_rfl, List.prefix_rfl, List.prefix_rfl, List.prefix_rfl, List.prefix_rfl, List.prefix_rfl, .refl _⟩

theorem Spec.PkgAdded.trans {a b c : Model} (h : PkgAdded a b) (h' : PkgAdded b c) : PkgAdded a c :=
  ⟨h.1.trans h'.1, h.2.trans h'.2, h.3.trans h'.3, h.4.trans h'.4, h.5.trans h'.5, h.6.trans h'.6, h.7.trans h'.7, h.8.trans h'.8⟩

theorem addAttachment_prefix (env : Env) (as : List Attachment) (f : InFile) : as <+: addAttachment env as f := by
  unfold addAttachment
  split
  · exact List.prefix_rfl
  · split
    · exact List.prefix_append _ _
    · exact List.prefix_rfl

theorem extractRoot_added (env : Env) (o : Opc) (pk : InPkg) (root : InFile) (s : OpcState) (rel : Relationship) :
    PkgAdded s.model (extractRoot env o pk root s rel).model := by
  unfold extractRoot
  split
  · exact .refl _
  · split
    · exact ⟨List.prefix_rfl, List.prefix_rfl, List.prefix_rfl, List.prefix_rfl, List.prefix_rfl, List.prefix_rfl, List.prefix_rfl, .refl _⟩
    · exact ⟨addAttachment_prefix _ _ _, List.prefix_rfl, List.prefix_append _ _, List.prefix_rfl, List.prefix_rfl, List.prefix_rfl,
        List.prefix_rfl, .refl _⟩

theorem extractChild_added (env : Env) (o : Opc) (pk : InPkg) (file : InFile) (m : Model) (rel : Relationship) :
    PkgAdded m (extractChild env o pk file m rel) := by
  unfold extractChild
  repeat' split
  all_goals first
    | exact .refl _
    | exact ⟨addAttachment_prefix _ _ _, List.prefix_rfl, List.prefix_rfl, List.prefix_rfl, List.prefix_rfl, List.prefix_rfl,
        List.prefix_rfl, .refl _⟩

theorem foldl_added {α σ : Type} (f : σ → α → σ) (g : σ → Model) (h : ∀ s a, PkgAdded (g s) (g (f s a))) :
    ∀ (l : List α) (s : σ), PkgAdded (g s) (g (l.foldl f s))
  | [], s => .refl _
  | a :: l, s => (h s a).trans (foldl_added f g h l (f s a))

theorem processRel_added {env : Env} {o : Opc} {pk : InPkg} {s s' : OpcState} {r : Relationship}
    (h : processRel env o pk s r = some s') : PkgAdded s.model s'.model := by
  unfold processRel at h
  split at h
  · split at h
    · cases h
    · injection h with h; subst h; exact .refl _
  · split at h
    · rename_i f _ _
      injection h with h; subst h
      have h1 := foldl_added (extractRoot env o pk f) OpcState.model (extractRoot_added env o pk f) f.rels
        { s with model := { s.model with path := f.name }, root := some f }
      have h0 : PkgAdded s.model { s.model with path := f.name } :=
        ⟨List.prefix_rfl, List.prefix_rfl, List.prefix_rfl, List.prefix_rfl, List.prefix_rfl, List.prefix_rfl, List.prefix_rfl, .refl _⟩
      refine (h0.trans h1).trans ?_
      exact foldl_added (fun m c => c.rels.foldl (extractChild env o pk c) m) id
        (fun m c => foldl_added (extractChild env o pk c) id (extractChild_added env o pk c) c.rels m) _ _
    · injection h with h; subst h
      exact ⟨addAttachment_prefix _ _ _, List.prefix_append _ _, List.prefix_rfl, List.prefix_rfl, List.prefix_rfl, List.prefix_rfl,
        List.prefix_rfl, .refl _⟩

theorem processRels_added {env : Env} {o : Opc} {pk : InPkg} : ∀ {rs : List Relationship} {s s' : OpcState},
    processRels env o pk s rs = some s' → PkgAdded s.model s'.model
  | [], s, s', h => by injection h with h; subst h; exact .refl _
  | r :: rs, s, s', h => by
    simp only [processRels, Option.bind_eq_some_iff] at h
    obtain ⟨s1, h1, h2⟩ := h
    exact (processRel_added h1).trans (processRels_added h2)

theorem processOPC_added {env : Env} {o : Opc} {pk : InPkg} {m m' : Model} {root : InFile} {fs : List InFile}
    (h : processOPC env o pk m = some (m', root, fs)) : PkgAdded m m' := by
  unfold processOPC at h
  split at h
  · cases h
  · rename_i s hs
    split at h
    · cases h
    · simp only [Option.some.injEq, Prod.mk.injEq] at h
      rw [← h.1]
      exact processRels_added hs

/-- The state of the decoder in a phase. -/
def Phase.inner : Phase → Option DState
  | .ready => none
  | .running _ s _ => some s
  | .appending _ s _ _ => some s
  | .polling _ s _ => some s
  | .decoded s _ => some s
  | .failed s _ => s
  | .stored s => s
  | .finished s => s
  | .panicked => none

/-- The state grew out of the model. -/
def PhaseGrown (m : Model) (f : InFile) (p : Phase) : Prop :=
  ∀ s, p.inner = some s → Grown m.any.length (assetsBefore m f.name) (DState.init m f.name).regs s

theorem PhaseGrown.step {c : PkgCfg} {m : Model} {g : Nat} {f : InFile} {sh sh' : Shared} {p p' : Phase}
    (h : PhaseGrown m f p) (e : p.step c m g f sh = some (sh', p')) : PhaseGrown m f p' := by
  intro s' hs'
  cases p with
  | ready =>
    simp only [Phase.step] at e
    split at e <;> simp only [Option.some.injEq, Prod.mk.injEq] at e <;> obtain ⟨-, rfl⟩ := e
    · cases hs'
    · injection hs' with hs'; subst hs'; exact Grown.init m f.name
  | running i s evs =>
    have hs := h s rfl
    cases evs with
    | nil =>
      simp only [Phase.step] at e
      split at e
      · cases e
      · simp only [Option.some.injEq, Prod.mk.injEq] at e
        obtain ⟨-, rfl⟩ := e
        injection hs' with hs'; subst hs'; exact hs
    | cons ev evs =>
      simp only [Phase.step] at e
      split at e
      · simp only [Option.some.injEq, Prod.mk.injEq] at e
        obtain ⟨-, rfl⟩ := e; cases hs'
      · rename_i s1 h1
        have hb : ∀ rs, (DState.init m f.name).regs.res = some rs → assetsBefore m f.name ≤ rs.assets.length := by
          intro rs hr
          simp only [DState.init] at hr
          simp [assetsBefore, hr]
        have hg := hs.step (Nat.le_refl _) hb h1
        split at e <;> simp only [Option.some.injEq, Prod.mk.injEq] at e <;> obtain ⟨-, rfl⟩ := e <;>
          (injection hs' with hs'; subst hs'; exact hg)
  | appending i s evs any =>
    simp only [Phase.step, Option.some.injEq, Prod.mk.injEq] at e
    obtain ⟨-, rfl⟩ := e
    injection hs' with hs'; subst hs'; exact h _ rfl
  | polling i s evs =>
    simp only [Phase.step] at e
    repeat' split at e
    all_goals
      simp only [Option.some.injEq, Prod.mk.injEq] at e
      obtain ⟨-, rfl⟩ := e
      injection hs' with hs'; subst hs'; exact h _ rfl
  | decoded s r =>
    simp only [Phase.step] at e
    repeat' split at e
    all_goals
      simp only [Option.some.injEq, Prod.mk.injEq] at e
      obtain ⟨-, rfl⟩ := e
      injection hs' with hs'; subst hs'; exact h _ rfl
  | failed s r =>
    simp only [Phase.step, Option.some.injEq, Prod.mk.injEq] at e
    obtain ⟨-, rfl⟩ := e
    exact h _ hs'
  | stored s =>
    simp only [Phase.step, Option.some.injEq, Prod.mk.injEq] at e
    obtain ⟨-, rfl⟩ := e
    exact h _ hs'
  | finished s => cases e
  | panicked => cases e

theorem phases_grown {c : PkgCfg} {m : Model} {fs : List InFile} {b : Bool} {st : ChildrenState}
    (h : Relation.ReflTransGen (ChildrenStepC c m fs) (.init fs b) st) :
    ∀ (g : Nat) (f : InFile) (p : Phase), fs[g]? = some f → st.ps[g]? = some p → PhaseGrown m f p := by
  induction h with
  | refl =>
    intro g f p _ hp s hs
    simp only [ChildrenState.init, List.getElem?_map, Option.map_eq_some_iff] at hp
    obtain ⟨_, _, rfl⟩ := hp
    cases hs
  | tail _ hstep ih =>
    cases hstep with
    | cancel => exact ih
    | step hstep =>
      cases hstep with
      | @step g0 f0 p0 p0' sh' hf0 hp0 e0 =>
        intro g f p hf hp
        by_cases hg : g0 = g
        · subst hg
          have hlt := (List.getElem?_eq_some_iff.mp hp0).1
          obtain rfl : p0' = p := by simpa [hlt] using hp
          rw [hf0] at hf; injection hf with hf; subst hf
          exact (ih _ _ _ hf0 hp0).step e0
        · rw [List.getElem?_set_ne hg] at hp
          exact ih g f p hf hp

theorem setResources_root {m : Model} {path : Str} {rs' : Resources} {base : Resources} (hb : Extended base m.resources)
    (h : path = [] ∨ path = m.path ∨ (m.path = [] ∧ path = defaultModelPath) → Extended base rs') :
    Extended base (m.setResources path rs').resources := by
  unfold Model.setResources
  split
  · rename_i hp; exact h hp
  · exact hb

theorem setChilds_added {m0 : Model} : ∀ {l : List (InFile × Phase)} {m : Model}, m.path = m0.path → Extended m0.resources m.resources →
    m.attachments = m0.attachments → m.rootRelationships = m0.rootRelationships → m.relationships = m0.relationships →
    m.metadata = m0.metadata → m.build = m0.build → m.extensions = m0.extensions →
    (∀ x ∈ l, PhaseGrown m0 x.1 x.2) →
    (setChilds m l).path = m0.path ∧ Extended m0.resources (setChilds m l).resources ∧
    (setChilds m l).attachments = m0.attachments ∧ (setChilds m l).rootRelationships = m0.rootRelationships ∧
    (setChilds m l).relationships = m0.relationships ∧ (setChilds m l).metadata = m0.metadata ∧
    (setChilds m l).build = m0.build ∧ (setChilds m l).extensions = m0.extensions
  | [], m, h1, h2, h3, h4, h5, h6, h7, h8, _ => ⟨h1, h2, h3, h4, h5, h6, h7, h8⟩
  | (f, p) :: l, m, h1, h2, h3, h4, h5, h6, h7, h8, h9 => by
    unfold setChilds
    split
    · rename_i rs' hr
      rw [Option.bind_eq_some_iff] at hr
      obtain ⟨s, hs, hr⟩ := hr
      have hg : PhaseGrown m0 f p := h9 (f, p) (by simp)
      have hs' : p.inner = some s := by cases p <;> first | exact hs | cases hs
      obtain ⟨rs, ha, hb⟩ := res_extended (hg s hs') hr
      have hroot := setResources_root (path := f.name) (rs' := rs') h2 (fun hp => by
        rw [h1] at hp
        rw [Model.findResources, if_pos hp] at ha
        injection ha with ha; subst ha; exact hb)
      have heq : (m.setResources f.name rs').path = m.path ∧ (m.setResources f.name rs').attachments = m.attachments ∧
          (m.setResources f.name rs').rootRelationships = m.rootRelationships ∧
          (m.setResources f.name rs').relationships = m.relationships ∧ (m.setResources f.name rs').metadata = m.metadata ∧
          (m.setResources f.name rs').build = m.build ∧ (m.setResources f.name rs').extensions = m.extensions := by
        unfold Model.setResources
        split <;> exact ⟨rfl, rfl, rfl, rfl, rfl, rfl, rfl⟩
      obtain ⟨e1, e2, e3, e4, e5, e6, e7⟩ := heq
      exact setChilds_added (e1.trans h1) hroot (e2.trans h3) (e3.trans h4) (e4.trans h5) (e5.trans h6) (e6.trans h7) (e7.trans h8)
        fun x hx => h9 x (by simp [hx])
    · exact setChilds_added h1 h2 h3 h4 h5 h6 h7 h8 fun x hx => h9 x (by simp [hx])

theorem children_added {c : PkgCfg} {m m' : Model} {fs : List InFile} {b b' : Bool} {e : Option ChildErr}
    (h : ChildrenOutcomeC c m fs b m' e b') : PkgAdded m m' := by
  obtain ⟨st, h1, -, -, rfl, -⟩ := h
  have hp := phases_grown h1
  have hz : ∀ x ∈ fs.zip st.ps, PhaseGrown m x.1 x.2 := by
    intro x hx
    obtain ⟨i, hi⟩ := List.mem_iff_getElem?.mp hx
    rw [List.getElem?_zip_eq_some] at hi
    exact hp i x.1 x.2 hi.1 hi.2
  obtain ⟨-, q2, q3, q4, q5, q6, q7, q8⟩ := setChilds_added (m0 := m) (m := m) rfl (.refl _) rfl rfl rfl rfl rfl rfl hz
  simp only [ChildrenState.model]
  exact ⟨q3 ▸ List.prefix_rfl, q4 ▸ List.prefix_rfl, q5 ▸ List.prefix_rfl, q6 ▸ List.prefix_rfl, q7 ▸ List.prefix_rfl,
    List.prefix_append _ _, q8 ▸ List.prefix_rfl, q2⟩

theorem root_added {c : PkgCfg} {done : Nat → Bool} {m m' : Model} {f : InFile} {r : PkgResult}
    (h : processRoot c done m f = some (m', r)) : PkgAdded m m' := by
  unfold processRoot at h
  split at h
  · simp only [Option.some.injEq, Prod.mk.injEq] at h
    rw [← h.1]; exact .refl _
  · simp only [Option.map_eq_some_iff, Prod.mk.injEq] at h
    obtain ⟨⟨m1, r1⟩, h1, h2, -⟩ := h
    simp only at h2; subst h2
    unfold decodeEvents at h1
    simp only [Option.map_eq_some_iff] at h1
    obtain ⟨⟨s, le⟩, h1, h2⟩ := h1
    rw [Prod.mk.injEq] at h2
    have hg := run_grown h1
    have hm := hg.adds.model
    simp only [DState.init] at hm
    rw [← h2.1]
    unfold DState.result
    have base : PkgAdded m s.regs.model := ⟨hm.attachments ▸ List.prefix_rfl, hm.rootRelationships ▸ List.prefix_rfl,
      hm.relationships ▸ List.prefix_rfl, hm.metadata, hm.items, prefix_of_take hm.any, hm.extensions, hm.resources ▸ .refl _⟩
    split
    · rename_i rs' hr
      have hroot := setResources_root (path := f.name) (rs' := rs') base.resources (fun hp => by
        rw [hm.path] at hp
        obtain ⟨rs, ha, hb⟩ := res_extended hg hr
        rw [Model.findResources, if_pos hp] at ha
        injection ha with ha; subst ha; exact hb)
      have heq : (s.regs.model.setResources f.name rs').attachments = s.regs.model.attachments ∧
          (s.regs.model.setResources f.name rs').rootRelationships = s.regs.model.rootRelationships ∧
          (s.regs.model.setResources f.name rs').relationships = s.regs.model.relationships ∧
          (s.regs.model.setResources f.name rs').metadata = s.regs.model.metadata ∧
          (s.regs.model.setResources f.name rs').build = s.regs.model.build ∧
          (s.regs.model.setResources f.name rs').any = s.regs.model.any ∧
          (s.regs.model.setResources f.name rs').extensions = s.regs.model.extensions := by
        unfold Model.setResources
        split <;> exact ⟨rfl, rfl, rfl, rfl, rfl, rfl, rfl⟩
      obtain ⟨e1, e2, e3, e4, e5, e6, e7⟩ := heq
      exact ⟨e1 ▸ base.1, e2 ▸ base.2, e3 ▸ base.3, e4 ▸ base.4, e5 ▸ base.5, e6 ▸ base.6, e7 ▸ base.7, hroot⟩
    · exact base

/-- **C75**: the same for a whole package, for every interleaving of the goroutines, every time at which the context is
cancelled and every result. -/
theorem C75_package (c : PkgCfg) (o : Opc) (pk : InPkg) (m m' : Model) (b : Bool) (done : Nat → Bool) (r : PkgResult)
    (h : Decodes c o pk m b done m' r) : PkgAdded m m' := by
  cases h with
  | opc _ => exact .refl _
  | child h1 h2 => exact (processOPC_added h1).trans (children_added h2)
  | root h1 h2 _ h3 => exact ((processOPC_added h1).trans (children_added h2)).trans (root_added h3)

/-! ## What the old content does to the new part -/

/-- Read a document into a model. -/
def readInto (m : Model) (as : List Attr) (c : List Node) : Option (Model × DecodeResult) :=
  decodeEvents ⟨allExt, true, fun _ t => t⟩ false (fun _ => false) m defaultModelPath (treeEvents (wholeDoc [] as c [])) .eof

/-- An object with the given identifier. -/
def c75Object (i : Str) : List Node := [.elem (core b!"resources") [] [.elem (core b!"object") [⟨⟨[], b!"id"⟩, i⟩] []]]

/-- A model with an object, in inches, with an extension. -/
def c75Old : Model :=
  { Model.zero with
    units := .inch
    extensions := [⟨b!"u", b!"p", false⟩]
    resources := ⟨[], [{ Object.zero with id := 7 }], []⟩
    attachments := [⟨b!"old", b!"/t.png", b!"image/png"⟩]
    childs := [(b!"/c.model", ⟨⟨[], [{ Object.zero with id := 9 }], []⟩, [], []⟩)] }

/-- A document is added to the model. -/
example : c75Old.WF ∧ (readInto c75Old [] (c75Object b!"8")).map (fun p => p.1.resources.objects.map Object.id) = some [7, 8] ∧
    (readInto c75Old [] (c75Object b!"8")).map (fun p => p.2.errors.length) = some 0 := by decide +kernel

/-- **C75**: what is added is not what the document means.  A document without a unit is in millimetres, but the unit of the
old model stays (decoder.go:62-66). -/
theorem C75_units_false : (readInto .zero [] []).map (fun p => p.1.units) = some .millimeter ∧
    (readInto c75Old [] []).map (fun p => p.1.units) = some .inch := by decide +kernel

/-- **C75**: the extension that the document requires is not marked as required, but an extension of the old model that has
the same prefix (decoder.go:76-84). -/
theorem C75_required_false :
    let as : List Attr := [⟨⟨b!"xmlns", b!"p"⟩, b!"v"⟩, ⟨⟨[], b!"requiredextensions"⟩, b!"p"⟩]
    (readInto .zero as []).map (fun p => p.1.extensions) = some [⟨b!"v", b!"p", true⟩] ∧
    (readInto c75Old as []).map (fun p => p.1.extensions) = some [⟨b!"u", b!"p", true⟩, ⟨b!"v", b!"p", false⟩] := by
  decide +kernel

/-- The levels of the errors. -/
def c75Paths (p : Model × DecodeResult) : List (List Level) := p.2.errors.map fun
  | .wrapped ls _ _ => ls
  | _ => []

/-- **C75**: the errors have the indices of the elements in the model, not in the document. -/
theorem C75_index_false :
    (readInto .zero [] (c75Object b!"x")).map c75Paths = some [[⟨b!"object", 0⟩, ⟨b!"resources", -1⟩, ⟨b!"model", -1⟩]] ∧
    (readInto c75Old [] (c75Object b!"x")).map c75Paths = some [[⟨b!"object", 1⟩, ⟨b!"resources", -1⟩, ⟨b!"model", -1⟩]] := by
  decide +kernel

/-- **C75**: a file of the package that is called like an attachment of the old model, up to case, is not read: the old one
stays (read.go:293-297). -/
theorem C75_attachment_false :
    let pk : InPkg := ⟨[⟨b!"/3D/3dmodel.model", relModel, []⟩, ⟨b!"/t.png", relThumbnail, []⟩],
      [⟨b!"/3D/3dmodel.model", contentTypeModel, [], some (c74Model, .eof)⟩, ⟨b!"/t.png", b!"image/png", [], some (b!"new", .eof)⟩]⟩
    (processOPC allExt c49Opc pk .zero).map (fun p => p.1.attachments.map (·.stream)) = some [b!"new"] ∧
    (processOPC allExt c49Opc pk c75Old).map (fun p => p.1.attachments.map (·.stream)) = some [b!"old"] := by
  decide +kernel

/-- **C75**: a child part that is called like a child part of the old model replaces it: its objects are lost (read.go:277). -/
theorem C75_child_false :
    let pk : InPkg := ⟨[⟨b!"/3D/3dmodel.model", relModel, []⟩],
      [⟨b!"/3D/3dmodel.model", contentTypeModel, [⟨b!"/c.model", relModel, []⟩], some (c74Model, .eof)⟩,
       ⟨b!"/c.model", contentTypeModel, [], some (b!"", .eof)⟩]⟩
    c75Old.childs.map (fun c => c.2.resources.objects.length) = [1] ∧
    (processOPC allExt c49Opc pk c75Old).map (fun p => p.1.childs.map fun c => c.2.resources.objects.length) = some [0] := by
  decide +kernel

end Go3mf
