import Verif.Model.Package
import Verif.Props.C26

/-!
# C51: package reading collects attachments once
-/

namespace Go3mf

/-! ## What a package refers to -/

/-- The first file of the package with the name that the target of the relationship resolves to. -/
def Spec.relTarget (o : Opc) (pk : InPkg) (source : Str) (r : Relationship) : Option InFile :=
  pk.files.find? fun f => decide (f.name = o.resolve source r.path)

/-- A root part: the target of a relationship of the package. -/
def Spec.IsRootPart (o : Opc) (pk : InPkg) (f : InFile) : Prop :=
  ∃ r ∈ pk.rels, r.type = relModel ∧ Spec.relTarget o pk b!"/" r = some f

/-- A child part: the target of a relationship of a root part. -/
def Spec.IsChildPart (o : Opc) (pk : InPkg) (f : InFile) : Prop :=
  ∃ root, Spec.IsRootPart o pk root ∧ ∃ r ∈ root.rels, r.type = relModel ∧ Spec.relTarget o pk root.name r = some f

/-- A file to which the package, a root part or a child part has a relationship that is not that of a model. -/
def Spec.Referenced (o : Opc) (pk : InPkg) (f : InFile) : Prop :=
  (∃ r ∈ pk.rels, r.type ≠ relModel ∧ Spec.relTarget o pk b!"/" r = some f) ∨
  ∃ p, (Spec.IsRootPart o pk p ∨ Spec.IsChildPart o pk p) ∧ ∃ r ∈ p.rels, r.type ≠ relModel ∧ Spec.relTarget o pk p.name r = some f

theorem target_eq (o : Opc) (pk : InPkg) (source : Str) (r : Relationship) :
    Spec.relTarget o pk source r = pk.find o source r.path := rfl

/-! ## Attachments -/

/-- No two attachments have the same path up to case. -/
def Spec.OnceEach (env : Env) (as : List Attachment) : Prop := (as.map fun a => env.fold a.path).Nodup

/-- There is an attachment with the name of the file up to case. -/
def Spec.Covered (env : Env) (as : List Attachment) (f : InFile) : Prop := ∃ a ∈ as, env.fold a.path = env.fold f.name

/-- The attachment is the copy of a file. -/
def Spec.CopyOf (a : Attachment) (f : InFile) : Prop :=
  a.path = f.name ∧ a.contentType = f.contentType ∧ f.content = some (a.stream, .eof)

theorem copy_some {f : InFile} {b : Str} : f.copy = some b ↔ f.content = some (b, .eof) := by
  unfold InFile.copy
  split
  · next h => rw [h]; simp
  · next h =>
    simp only [reduceCtorEq, false_iff]
    exact h b

/-- What `addAttachment` does. -/
theorem addAttachment_spec {env : Env} {as : List Attachment} {f : InFile} :
    (Spec.OnceEach env as → Spec.OnceEach env (addAttachment env as f)) ∧ (∀ a ∈ as, a ∈ addAttachment env as f) ∧
    (∀ a ∈ addAttachment env as f, a ∈ as ∨ Spec.CopyOf a f) ∧
    (f.copy.isSome → Spec.Covered env (addAttachment env as f) f) := by
  unfold addAttachment
  by_cases h : (as.any fun a => env.equalFold a.path f.name) = true
  · rw [if_pos h]
    simp only [List.any_eq_true, Env.equalFold, beq_iff_eq] at h
    exact ⟨id, fun _ h => h, fun _ h => .inl h, fun _ => h⟩
  · rw [if_neg h]
    cases hc : f.copy with
    | none => exact ⟨id, fun _ h => h, fun _ h => .inl h, by simp⟩
    | some b =>
      refine ⟨?_, fun a ha => by simp [ha], ?_, fun _ => ⟨_, List.mem_append_right _ List.mem_cons_self, rfl⟩⟩
      · intro hd
        unfold Spec.OnceEach
        rw [List.map_append, List.nodup_append]
        refine ⟨hd, by simp, ?_⟩
        intro x hx y hy e
        simp only [List.map_cons, List.map_nil, List.mem_singleton] at hy
        subst hy; subst e
        obtain ⟨a, ha, ha'⟩ := List.mem_map.mp hx
        apply h
        simp only [List.any_eq_true, Env.equalFold, beq_iff_eq]
        exact ⟨a, ha, ha'⟩
      · intro a ha
        rcases List.mem_append.mp ha with ha | ha
        · exact .inl ha
        · simp only [List.mem_singleton] at ha
          subst ha
          exact .inr ⟨rfl, rfl, copy_some.mp hc⟩

theorem Spec.Covered.mono {env : Env} {as as' : List Attachment} {f : InFile} (h : Spec.Covered env as f)
    (hs : ∀ a ∈ as, a ∈ as') : Spec.Covered env as' f := by
  obtain ⟨a, ha, e⟩ := h
  exact ⟨a, hs a ha, e⟩

/-- How reading changes the model: attachments are added, copies of files that satisfy `P`; the entries of child models stay. -/
structure Grows (env : Env) (P : InFile → Prop) (m m' : Model) : Prop where
  distinct : Spec.OnceEach env m.attachments → Spec.OnceEach env m'.attachments
  mono : ∀ a ∈ m.attachments, a ∈ m'.attachments
  source : ∀ a ∈ m'.attachments, a ∈ m.attachments ∨ ∃ f, P f ∧ Spec.CopyOf a f
  childs : ∀ n, (lookupChild m.childs n).isSome → (lookupChild m'.childs n).isSome

theorem Grows.refl {env : Env} {P : InFile → Prop} (m : Model) : Grows env P m m :=
  ⟨id, fun _ h => h, fun _ h => .inl h, fun _ h => h⟩

theorem Grows.trans {env : Env} {P : InFile → Prop} {m m' m'' : Model} (h : Grows env P m m') (h' : Grows env P m' m'') :
    Grows env P m m'' :=
  ⟨fun x => h'.distinct (h.distinct x), fun a ha => h'.mono a (h.mono a ha), fun a ha => by
    rcases h'.source a ha with h1 | h1
    · exact h.source a h1
    · exact .inr h1, fun n hn => h'.childs n (h.childs n hn)⟩

theorem Grows.add {env : Env} {P : InFile → Prop} {m m' : Model} {f : InFile} (hf : P f)
    (ha : m'.attachments = addAttachment env m.attachments f)
    (hc : ∀ n, (lookupChild m.childs n).isSome → (lookupChild m'.childs n).isSome) : Grows env P m m' := by
  obtain ⟨h1, h2, h3, -⟩ := addAttachment_spec (env := env) (as := m.attachments) (f := f)
  refine ⟨by rw [ha]; exact h1, by rw [ha]; exact h2, ?_, hc⟩
  rw [ha]
  intro a haa
  rcases h3 a haa with h | h
  · exact .inl h
  · exact .inr ⟨f, hf, h⟩

theorem covered_add {env : Env} {m m' : Model} {f : InFile} (hf : f.copy.isSome)
    (ha : m'.attachments = addAttachment env m.attachments f) : Spec.Covered env m'.attachments f := by
  rw [ha]; exact addAttachment_spec.2.2.2 hf

theorem lookup_resetChild (name n : Str) : ∀ (cs : List (Str × ChildModel)),
    lookupChild (resetChild name cs) n = if n = name then some .zero else lookupChild cs n
  | [] => by
    simp only [resetChild, lookupChild]
    by_cases h : n = name
    · simp [h]
    · have h3 : ¬ name = n := fun e => h e.symm
      simp [h, h3]
  | c :: cs => by
    have ih := lookup_resetChild name n cs
    simp only [resetChild]
    by_cases h1 : c.1 = name
    · rw [if_pos h1]
      simp only [lookupChild]
      by_cases h : n = name
      · simp [h]
      · have h2 : ¬ c.1 = n := by rw [h1]; exact fun e => h e.symm
        have h3 : ¬ name = n := fun e => h e.symm
        simp [h, h2, h3]
    · rw [if_neg h1]
      simp only [lookupChild]
      by_cases h2 : c.1 = n
      · have : ¬ n = name := by rw [← h2]; exact h1
        simp [h2, this]
      · rw [if_neg h2, if_neg h2]; exact ih

theorem lookup_addChildRel (name n : Str) (rel : Relationship) : ∀ (cs : List (Str × ChildModel)),
    lookupChild (addChildRel name rel cs) n =
      (lookupChild cs n).map fun c => if n = name then { c with relationships := c.relationships ++ [rel] } else c
  | [] => rfl
  | c :: cs => by
    have ih := lookup_addChildRel name n rel cs
    simp only [addChildRel]
    by_cases h1 : c.1 = name
    · rw [if_pos h1]
      simp only [lookupChild]
      by_cases h2 : c.1 = n
      · have : n = name := by rw [← h2]; exact h1
        simp [h2, this]
      · have : ¬ n = name := by intro e; exact h2 (h1.trans e.symm)
        simp [h2, this]
    · rw [if_neg h1]
      simp only [lookupChild]
      by_cases h2 : c.1 = n
      · have : ¬ n = name := by intro e; exact h1 (h2.trans e)
        simp [h2, this]
      · rw [if_neg h2, if_neg h2]; exact ih

/-- What the entries of the child parts must satisfy. -/
def HasEntries (s : OpcState) : Prop := ∀ c ∈ s.childs, (lookupChild s.model.childs c.name).isSome

theorem extractRoot_step {env : Env} {o : Opc} {pk : InPkg} {root : InFile} {s : OpcState} {rel : Relationship}
    {P : InFile → Prop} (hP : ∀ f, rel.type ≠ relModel → Spec.relTarget o pk root.name rel = some f → P f) (hs : HasEntries s) :
    Grows env P s.model (extractRoot env o pk root s rel).model ∧ HasEntries (extractRoot env o pk root s rel) ∧
    (∀ c ∈ s.childs, c ∈ (extractRoot env o pk root s rel).childs) ∧
    (∀ c ∈ (extractRoot env o pk root s rel).childs, c ∈ s.childs ∨
      (rel.type = relModel ∧ Spec.relTarget o pk root.name rel = some c)) ∧
    (∀ f, Spec.relTarget o pk root.name rel = some f →
      (rel.type = relModel → f ∈ (extractRoot env o pk root s rel).childs) ∧
      (rel.type ≠ relModel → f.copy.isSome → Spec.Covered env (extractRoot env o pk root s rel).model.attachments f)) ∧
    (extractRoot env o pk root s rel).root = s.root := by
  unfold extractRoot
  simp only [← target_eq]
  cases hf : Spec.relTarget o pk root.name rel with
  | none => exact ⟨.refl _, hs, fun _ h => h, fun _ h => .inl h, by simp, rfl⟩
  | some f =>
    by_cases ht : rel.type = relModel
    · simp only [if_pos ht]
      have hl : ∀ n, (lookupChild s.model.childs n).isSome → (lookupChild (resetChild f.name s.model.childs) n).isSome := by
        intro n hn
        rw [lookup_resetChild]
        by_cases e : n = f.name
        · simp [e]
        · simp [e, hn]
      refine ⟨⟨id, fun _ h => h, fun _ h => .inl h, hl⟩, ?_, fun c hc => by simp [hc], ?_, ?_, trivial⟩
      · intro c hc
        rcases List.mem_append.mp hc with hc | hc
        · exact hl _ (hs c hc)
        · simp only [List.mem_singleton] at hc
          subst hc
          simp only [lookup_resetChild, if_true, Option.isSome_some]
      · intro c hc
        rcases List.mem_append.mp hc with hc | hc
        · exact .inl hc
        · simp only [List.mem_singleton] at hc
          subst hc
          exact .inr ⟨ht, rfl⟩
      · rintro f' ⟨⟩
        exact ⟨fun _ => by simp, fun h => absurd ht h⟩
    · simp only [if_neg ht]
      refine ⟨.add (hP f ht hf) rfl fun _ h => h, hs, fun _ h => h, fun _ h => .inl h, ?_, trivial⟩
      rintro f' ⟨⟩
      exact ⟨fun h => absurd h ht, fun _ hc => addAttachment_spec.2.2.2 hc⟩

theorem extractRoot_fold {env : Env} {o : Opc} {pk : InPkg} {root : InFile} {P : InFile → Prop} :
    ∀ {rels : List Relationship} {s : OpcState},
    (∀ rel ∈ rels, ∀ f, rel.type ≠ relModel → Spec.relTarget o pk root.name rel = some f → P f) → HasEntries s →
    Grows env P s.model (rels.foldl (extractRoot env o pk root) s).model ∧ HasEntries (rels.foldl (extractRoot env o pk root) s) ∧
    (∀ c ∈ s.childs, c ∈ (rels.foldl (extractRoot env o pk root) s).childs) ∧
    (∀ c ∈ (rels.foldl (extractRoot env o pk root) s).childs, c ∈ s.childs ∨
      ∃ rel ∈ rels, rel.type = relModel ∧ Spec.relTarget o pk root.name rel = some c) ∧
    (∀ rel ∈ rels, ∀ f, Spec.relTarget o pk root.name rel = some f →
      (rel.type = relModel → f ∈ (rels.foldl (extractRoot env o pk root) s).childs) ∧
      (rel.type ≠ relModel → f.copy.isSome →
        Spec.Covered env (rels.foldl (extractRoot env o pk root) s).model.attachments f)) ∧
    (rels.foldl (extractRoot env o pk root) s).root = s.root
  | [], s, _, hs => ⟨.refl _, hs, fun _ h => h, fun _ h => .inl h, by simp, rfl⟩
  | rel :: rels, s, hP, hs => by
    obtain ⟨g1, e1, m1, s1, c1, r1⟩ := extractRoot_step (env := env) (o := o) (pk := pk) (root := root) (s := s) (rel := rel)
      (P := P) (hP rel List.mem_cons_self) hs
    obtain ⟨g2, e2, m2, s2, c2, r2⟩ := extractRoot_fold (env := env) (o := o) (pk := pk) (root := root) (P := P) (rels := rels)
      (s := extractRoot env o pk root s rel) (fun r hr => hP r (List.mem_cons_of_mem _ hr)) e1
    refine ⟨g1.trans g2, e2, fun c hc => m2 c (m1 c hc), ?_, ?_, r2.trans r1⟩
    · intro c hc
      rcases s2 c hc with h | ⟨r, hr, h⟩
      · rcases s1 c h with h | h
        · exact .inl h
        · exact .inr ⟨rel, List.mem_cons_self, h⟩
      · exact .inr ⟨r, List.mem_cons_of_mem _ hr, h⟩
    · intro r hr f hf
      rcases List.mem_cons.mp hr with rfl | hr
      · obtain ⟨h1, h2⟩ := c1 f hf
        exact ⟨fun h => m2 f (h1 h), fun h h' => (h2 h h').mono g2.mono⟩
      · exact c2 r hr f hf

theorem extractChild_step {env : Env} {o : Opc} {pk : InPkg} {file : InFile} {m : Model} {rel : Relationship}
    {P : InFile → Prop} (hP : ∀ f, rel.type ≠ relModel → Spec.relTarget o pk file.name rel = some f → P f) :
    Grows env P m (extractChild env o pk file m rel) ∧
    ((lookupChild m.childs file.name).isSome → ∀ f, Spec.relTarget o pk file.name rel = some f → rel.type ≠ relModel →
      f.copy.isSome → Spec.Covered env (extractChild env o pk file m rel).attachments f) := by
  unfold extractChild
  simp only [← target_eq]
  cases hf : Spec.relTarget o pk file.name rel with
  | none => exact ⟨.refl _, by simp⟩
  | some f =>
    by_cases ht : rel.type = relModel
    · simp only [if_pos ht]
      exact ⟨.refl _, fun _ _ _ h => absurd ht h⟩
    · simp only [if_neg ht]
      cases hl : lookupChild m.childs file.name with
      | none => exact ⟨.refl _, by simp⟩
      | some c =>
        refine ⟨.add (hP f ht hf) rfl ?_, ?_⟩
        · intro n hn
          simp only [lookup_addChildRel, Option.isSome_map]; exact hn
        · rintro - f' ⟨⟩ - hc
          exact addAttachment_spec.2.2.2 hc

theorem extractChild_fold {env : Env} {o : Opc} {pk : InPkg} {file : InFile} {P : InFile → Prop} :
    ∀ {rels : List Relationship} {m : Model},
    (∀ rel ∈ rels, ∀ f, rel.type ≠ relModel → Spec.relTarget o pk file.name rel = some f → P f) →
    Grows env P m (rels.foldl (extractChild env o pk file) m) ∧
    ((lookupChild m.childs file.name).isSome → ∀ rel ∈ rels, ∀ f, Spec.relTarget o pk file.name rel = some f → rel.type ≠ relModel →
      f.copy.isSome → Spec.Covered env (rels.foldl (extractChild env o pk file) m).attachments f)
  | [], m, _ => ⟨.refl _, by simp⟩
  | rel :: rels, m, hP => by
    obtain ⟨g1, c1⟩ := extractChild_step (env := env) (o := o) (pk := pk) (file := file) (m := m) (rel := rel) (P := P)
      (hP rel List.mem_cons_self)
    obtain ⟨g2, c2⟩ := extractChild_fold (env := env) (o := o) (pk := pk) (file := file) (P := P) (rels := rels)
      (m := extractChild env o pk file m rel) (fun r hr => hP r (List.mem_cons_of_mem _ hr))
    refine ⟨g1.trans g2, ?_⟩
    intro hl r hr f hf ht hc
    rcases List.mem_cons.mp hr with rfl | hr
    · exact (c1 hl f hf ht hc).mono g2.mono
    · exact c2 (g1.childs _ hl) r hr f hf ht hc

/-- The loop over the child parts (read.go:252-254). -/
def extractChilds (env : Env) (o : Opc) (pk : InPkg) (m : Model) (cs : List InFile) : Model :=
  cs.foldl (fun m c => c.rels.foldl (extractChild env o pk c) m) m

theorem extractChilds_spec {env : Env} {o : Opc} {pk : InPkg} {P : InFile → Prop} :
    ∀ {cs : List InFile} {m : Model},
    (∀ c ∈ cs, ∀ rel ∈ c.rels, ∀ f, rel.type ≠ relModel → Spec.relTarget o pk c.name rel = some f → P f) →
    (∀ c ∈ cs, (lookupChild m.childs c.name).isSome) →
    Grows env P m (extractChilds env o pk m cs) ∧
    (∀ c ∈ cs, ∀ rel ∈ c.rels, ∀ f, Spec.relTarget o pk c.name rel = some f → rel.type ≠ relModel →
      f.copy.isSome → Spec.Covered env (extractChilds env o pk m cs).attachments f)
  | [], m, _, _ => ⟨.refl _, by simp⟩
  | c :: cs, m, hP, hs => by
    obtain ⟨g1, c1⟩ := extractChild_fold (env := env) (o := o) (pk := pk) (file := c) (m := m) (rels := c.rels) (P := P)
      (hP c List.mem_cons_self)
    obtain ⟨g2, c2⟩ := extractChilds_spec (env := env) (o := o) (pk := pk) (P := P) (cs := cs)
      (m := c.rels.foldl (extractChild env o pk c) m) (fun x hx => hP x (List.mem_cons_of_mem _ hx))
      (fun x hx => g1.childs _ (hs x (List.mem_cons_of_mem _ hx)))
    refine ⟨g1.trans g2, ?_⟩
    intro x hx r hr f hf ht hc
    rcases List.mem_cons.mp hx with rfl | hx
    · exact (c1 (hs x List.mem_cons_self) r hr f hf ht hc).mono g2.mono
    · exact c2 x hx r hr f hf ht hc

/-- What is known after a relationship of the package. -/
theorem processRel_spec {env : Env} {o : Opc} {pk : InPkg} {s s' : OpcState} {r : Relationship} (hr : r ∈ pk.rels)
    (hs : HasEntries s) (hc : ∀ c ∈ s.childs, Spec.IsChildPart o pk c) (e : processRel env o pk s r = some s') :
    Grows env (Spec.Referenced o pk) s.model s'.model ∧ HasEntries s' ∧ (∀ c ∈ s'.childs, Spec.IsChildPart o pk c) ∧
    (∀ f, Spec.relTarget o pk b!"/" r = some f →
      (r.type ≠ relModel → f.copy.isSome → Spec.Covered env s'.model.attachments f) ∧
      (r.type = relModel → s'.root = some f ∧
        (∀ rel ∈ f.rels, ∀ g, Spec.relTarget o pk f.name rel = some g → rel.type ≠ relModel → g.copy.isSome →
          Spec.Covered env s'.model.attachments g) ∧
        ∀ rel ∈ f.rels, ∀ c, Spec.relTarget o pk f.name rel = some c → rel.type = relModel →
          ∀ crel ∈ c.rels, ∀ g, Spec.relTarget o pk c.name crel = some g → crel.type ≠ relModel → g.copy.isSome →
            Spec.Covered env s'.model.attachments g)) := by
  unfold processRel at e
  simp only [← target_eq] at e
  cases hf : Spec.relTarget o pk b!"/" r with
  | none =>
    simp only [hf] at e
    by_cases ht : r.type = relModel
    · rw [if_pos ht] at e; cases e
    · rw [if_neg ht] at e; injection e with e; subst e
      exact ⟨.refl _, hs, hc, by simp⟩
  | some f =>
    simp only [hf] at e
    by_cases ht : r.type = relModel
    · rw [if_pos ht] at e
      injection e with e
      have hroot : Spec.IsRootPart o pk f := ⟨r, hr, ht, hf⟩
      obtain ⟨g1, e1, m1, s1, c1, r1⟩ := extractRoot_fold (env := env) (o := o) (pk := pk) (root := f)
        (P := Spec.Referenced o pk) (rels := f.rels)
        (s := { s with model := { s.model with path := f.name }, root := some f })
        (fun rel hrel g hg hg' => .inr ⟨f, .inl hroot, rel, hrel, hg, hg'⟩) hs
      generalize hs1 : f.rels.foldl (extractRoot env o pk f) { s with model := { s.model with path := f.name }, root := some f } = t at *
      have hct : ∀ c ∈ t.childs, Spec.IsChildPart o pk c := by
        intro c hcc
        rcases s1 c hcc with h | ⟨rel, hrel, h1, h2⟩
        · exact hc c h
        · exact ⟨f, hroot, rel, hrel, h1, h2⟩
      obtain ⟨g2, c2⟩ := extractChilds_spec (env := env) (o := o) (pk := pk) (P := Spec.Referenced o pk) (cs := t.childs)
        (m := t.model) (fun c hcc rel hrel g hg hg' => .inr ⟨c, .inr (hct c hcc), rel, hrel, hg, hg'⟩) e1
      subst e
      have g0 : Grows env (Spec.Referenced o pk) s.model { s.model with path := f.name } :=
        ⟨id, fun _ h => h, fun _ h => .inl h, fun _ h => h⟩
      refine ⟨g0.trans (g1.trans g2), fun c hcc => g2.childs _ (e1 c hcc), hct, ?_⟩
      rintro f' ⟨⟩
      refine ⟨fun h => absurd ht h, fun _ => ⟨r1, ?_, ?_⟩⟩
      · intro rel hrel g hg hg' hcp
        exact ((c1 rel hrel g hg).2 hg' hcp).mono g2.mono
      · intro rel hrel c hcc hct' crel hcrel g hg hg' hcp
        exact c2 c ((c1 rel hrel c hcc).1 hct') crel hcrel g hg hg' hcp
    · rw [if_neg ht] at e
      injection e with e; subst e
      refine ⟨.add (.inl ⟨r, hr, ht, hf⟩) rfl fun _ h => h, hs, hc, ?_⟩
      rintro f' ⟨⟩
      exact ⟨fun _ h => addAttachment_spec.2.2.2 h, fun h => absurd h ht⟩

theorem processRels_spec {env : Env} {o : Opc} {pk : InPkg} : ∀ {rs : List Relationship} {s s' : OpcState},
    (∀ r ∈ rs, r ∈ pk.rels) → HasEntries s → (∀ c ∈ s.childs, Spec.IsChildPart o pk c) → processRels env o pk s rs = some s' →
    Grows env (Spec.Referenced o pk) s.model s'.model ∧
    (∀ r ∈ rs, ∀ f, Spec.relTarget o pk b!"/" r = some f →
      (r.type ≠ relModel → f.copy.isSome → Spec.Covered env s'.model.attachments f) ∧
      (r.type = relModel →
        (∀ rel ∈ f.rels, ∀ g, Spec.relTarget o pk f.name rel = some g → rel.type ≠ relModel → g.copy.isSome →
          Spec.Covered env s'.model.attachments g) ∧
        ∀ rel ∈ f.rels, ∀ c, Spec.relTarget o pk f.name rel = some c → rel.type = relModel →
          ∀ crel ∈ c.rels, ∀ g, Spec.relTarget o pk c.name crel = some g → crel.type ≠ relModel → g.copy.isSome →
            Spec.Covered env s'.model.attachments g))
  | [], s, s', _, _, _, e => by injection e with e; subst e; exact ⟨.refl _, by simp⟩
  | r :: rs, s, s', hr, hs, hc, e => by
    simp only [processRels, Option.bind_eq_some_iff] at e
    obtain ⟨t, e1, e2⟩ := e
    obtain ⟨g1, h1, h2, h3⟩ := processRel_spec (hr r List.mem_cons_self) hs hc e1
    obtain ⟨g2, h4⟩ := processRels_spec (fun x hx => hr x (List.mem_cons_of_mem _ hx)) h1 h2 e2
    refine ⟨g1.trans g2, ?_⟩
    intro x hx f hf
    rcases List.mem_cons.mp hx with rfl | hx
    · obtain ⟨h5, h6⟩ := h3 f hf
      refine ⟨fun h h' => (h5 h h').mono g2.mono, fun h => ⟨?_, ?_⟩⟩
      · intro rel hrel g hg hg' hcp
        exact ((h6 h).2.1 rel hrel g hg hg' hcp).mono g2.mono
      · intro rel hrel c hcc hct crel hcrel g hg hg' hcp
        exact ((h6 h).2.2 rel hrel c hcc hct crel hcrel g hg hg' hcp).mono g2.mono
    · exact h4 x hx f hf

theorem processOPC_some {env : Env} {o : Opc} {pk : InPkg} {m m' : Model} {root : InFile} {fs : List InFile}
    (h : processOPC env o pk m = some (m', root, fs)) :
    processRels env o pk ⟨m, none, []⟩ pk.rels = some ⟨m', some root, fs⟩ := by
  unfold processOPC at h
  cases hp : processRels env o pk ⟨m, none, []⟩ pk.rels with
  | none => simp [hp] at h
  | some s =>
    obtain ⟨sm, sr, sc⟩ := s
    simp only [hp] at h
    cases sr with
    | none => simp at h
    | some f =>
      simp only [Option.some.injEq, Prod.mk.injEq] at h
      obtain ⟨rfl, rfl, rfl⟩ := h
      rfl

/-- **C51**: reading a package records no attachment twice (up to case); every attachment is the copy of a file to which the package, a
root part or a child part has a relationship; and for every such file that can be read there is an attachment with its name
(up to case).  What is missing: a file that cannot be read has none (`C51_unreadable_false`). -/
theorem C51_attachments_partial (env : Env) (o : Opc) (pk : InPkg) (m m' : Model) (root : InFile) (fs : List InFile)
    (h : processOPC env o pk m = some (m', root, fs)) (hd : Spec.OnceEach env m.attachments) :
    Spec.OnceEach env m'.attachments ∧ (∀ a ∈ m.attachments, a ∈ m'.attachments) ∧
    (∀ a ∈ m'.attachments, a ∈ m.attachments ∨ ∃ f, Spec.Referenced o pk f ∧ Spec.CopyOf a f) ∧
    ∀ f data, Spec.Referenced o pk f → f.content = some (data, .eof) → Spec.Covered env m'.attachments f := by
  obtain ⟨g, hc⟩ := processRels_spec (fun _ h => h) (by intro c hc; simp at hc) (by simp) (processOPC_some h)
  refine ⟨g.distinct hd, g.mono, g.source, ?_⟩
  intro f data hf hdata
  have hcp : f.copy.isSome := by rw [copy_some.mpr hdata]; rfl
  rcases hf with ⟨r, hr, ht, hf⟩ | ⟨p, hp | ⟨q, ⟨r, hr, ht, hq⟩, r', hr', ht', hp⟩, rel, hrel, ht2, hf⟩
  · exact (hc r hr f hf).1 ht hcp
  · obtain ⟨r, hr, ht, hp⟩ := hp
    exact ((hc r hr p hp).2 ht).1 rel hrel f hf ht2 hcp
  · exact ((hc r hr q hq).2 ht).2 r' hr' p hp ht' rel hrel f hf ht2 hcp

/-! ## Relationships -/

/-- The relationships of a part or of the package that are not those of a model and whose target exists. -/
def Spec.present (o : Opc) (pk : InPkg) (source : Str) (rels : List Relationship) : List Relationship :=
  rels.filter fun r => decide (r.type ≠ relModel) && (Spec.relTarget o pk source r).isSome

/-- The child parts of a root part. -/
def Spec.childParts (o : Opc) (pk : InPkg) (root : InFile) : List InFile :=
  (root.rels.filter fun r => decide (r.type = relModel)).filterMap (Spec.relTarget o pk root.name)

/-- The relationships of a child model. -/
def childRels (m : Model) (n : Str) : Option (List Relationship) := (lookupChild m.childs n).map (·.relationships)

theorem extractRoot_rels {env : Env} {o : Opc} {pk : InPkg} {root : InFile} :
    ∀ {rels : List Relationship} {s : OpcState},
    (rels.foldl (extractRoot env o pk root) s).model.relationships =
      s.model.relationships ++ Spec.present o pk root.name rels ∧
    (rels.foldl (extractRoot env o pk root) s).childs = s.childs ++
      (rels.filter fun r => decide (r.type = relModel)).filterMap (Spec.relTarget o pk root.name) ∧
    (rels.foldl (extractRoot env o pk root) s).model.rootRelationships = s.model.rootRelationships ∧
    (rels.foldl (extractRoot env o pk root) s).model.path = s.model.path ∧
    (∀ n, childRels (rels.foldl (extractRoot env o pk root) s).model n =
      if n ∈ ((rels.filter fun r => decide (r.type = relModel)).filterMap (Spec.relTarget o pk root.name)).map (·.name) then some []
      else childRels s.model n)
  | [], s => by simp [Spec.present]
  | rel :: rels, s => by
    obtain ⟨h1, h2, h3, h4, h5⟩ := extractRoot_rels (env := env) (o := o) (pk := pk) (root := root) (rels := rels)
      (s := extractRoot env o pk root s rel)
    simp only [List.foldl_cons]
    refine ⟨?_, ?_, ?_, ?_, ?_⟩
    · rw [h1]
      simp only [Spec.present, extractRoot, ← target_eq]
      cases hf : Spec.relTarget o pk root.name rel with
      | none => simp [hf]
      | some f => by_cases ht : rel.type = relModel <;> simp [hf, ht]
    · rw [h2]
      simp only [extractRoot, ← target_eq]
      cases hf : Spec.relTarget o pk root.name rel with
      | none => by_cases ht : rel.type = relModel <;> simp [hf, ht]
      | some f => by_cases ht : rel.type = relModel <;> simp [hf, ht]
    · rw [h3]
      simp only [extractRoot]
      split
      · rfl
      · split <;> rfl
    · rw [h4]
      simp only [extractRoot]
      split
      · rfl
      · split <;> rfl
    · intro n
      rw [h5]
      have key : ((rel :: rels).filter fun r => decide (r.type = relModel)).filterMap (Spec.relTarget o pk root.name) =
          (if rel.type = relModel then (Spec.relTarget o pk root.name rel).toList else []) ++
          (rels.filter fun r => decide (r.type = relModel)).filterMap (Spec.relTarget o pk root.name) := by
        cases hf : Spec.relTarget o pk root.name rel with
        | none => by_cases ht : rel.type = relModel <;> simp [hf, ht]
        | some f => by_cases ht : rel.type = relModel <;> simp [hf, ht]
      rw [key]
      generalize (rels.filter fun r => decide (r.type = relModel)).filterMap (Spec.relTarget o pk root.name) = l
      simp only [extractRoot, ← target_eq]
      cases hf : Spec.relTarget o pk root.name rel with
      | none => by_cases ht : rel.type = relModel <;> simp [ht]
      | some f =>
        by_cases ht : rel.type = relModel
        · by_cases hn : n = f.name
          · simp [ht, childRels, lookup_resetChild, hn, ChildModel.zero]
          · simp [ht, childRels, lookup_resetChild, hn]
        · simp [ht, childRels]

theorem extractChild_rels {env : Env} {o : Opc} {pk : InPkg} {file : InFile} :
    ∀ {rels : List Relationship} {m : Model},
    (rels.foldl (extractChild env o pk file) m).relationships = m.relationships ∧
    (rels.foldl (extractChild env o pk file) m).rootRelationships = m.rootRelationships ∧
    (rels.foldl (extractChild env o pk file) m).path = m.path ∧
    (∀ n, childRels (rels.foldl (extractChild env o pk file) m) n =
      if n = file.name then (childRels m n).map (· ++ Spec.present o pk file.name rels) else childRels m n)
  | [], m => by simp [Spec.present]
  | rel :: rels, m => by
    obtain ⟨h1, h3, h4, h5⟩ := extractChild_rels (env := env) (o := o) (pk := pk) (file := file) (rels := rels)
      (m := extractChild env o pk file m rel)
    simp only [List.foldl_cons]
    have hs : (extractChild env o pk file m rel).relationships = m.relationships ∧
        (extractChild env o pk file m rel).rootRelationships = m.rootRelationships ∧
        (extractChild env o pk file m rel).path = m.path := by
      simp only [extractChild]
      split
      · exact ⟨rfl, rfl, rfl⟩
      · split
        · exact ⟨rfl, rfl, rfl⟩
        · split <;> exact ⟨rfl, rfl, rfl⟩
    refine ⟨h1.trans hs.1, h3.trans hs.2.1, h4.trans hs.2.2, ?_⟩
    intro n
    rw [h5]
    simp only [extractChild, ← target_eq, Spec.present]
    cases hf : Spec.relTarget o pk file.name rel with
    | none => simp [hf]
    | some f =>
      by_cases ht : rel.type = relModel
      · simp [hf, ht]
      · cases hl : lookupChild m.childs file.name with
        | none =>
          by_cases hn : n = file.name
          · simp [hf, ht, hl, hn, childRels]
          · simp [hf, ht, hl, hn]
        | some c =>
          by_cases hn : n = file.name
          · subst hn
            simp [hf, ht, hl, childRels, lookup_addChildRel]
          · simp [hf, ht, hl, hn, childRels, lookup_addChildRel]

theorem extractChilds_rels {env : Env} {o : Opc} {pk : InPkg} : ∀ {cs : List InFile} {m : Model}, (cs.map (·.name)).Nodup →
    (extractChilds env o pk m cs).relationships = m.relationships ∧
    (extractChilds env o pk m cs).rootRelationships = m.rootRelationships ∧
    (extractChilds env o pk m cs).path = m.path ∧
    (∀ c ∈ cs, childRels (extractChilds env o pk m cs) c.name =
      (childRels m c.name).map (· ++ Spec.present o pk c.name c.rels)) ∧
    ∀ n, n ∉ cs.map (·.name) → childRels (extractChilds env o pk m cs) n = childRels m n
  | [], m, _ => ⟨rfl, rfl, rfl, by simp, fun _ _ => rfl⟩
  | c :: cs, m, hn => by
    simp only [List.map_cons, List.nodup_cons] at hn
    obtain ⟨a1, a2, a3, a4⟩ := extractChild_rels (env := env) (o := o) (pk := pk) (file := c) (rels := c.rels) (m := m)
    obtain ⟨b1, b2, b3, b4, b5⟩ := extractChilds_rels (env := env) (o := o) (pk := pk) (cs := cs)
      (m := c.rels.foldl (extractChild env o pk c) m) hn.2
    refine ⟨b1.trans a1, b2.trans a2, b3.trans a3, ?_, ?_⟩
    · intro x hx
      rcases List.mem_cons.mp hx with rfl | hx
      · exact (b5 _ hn.1).trans (by rw [a4, if_pos rfl])
      · have hne : x.name ≠ c.name := by
          intro e; apply hn.1; rw [← e]; exact List.mem_map_of_mem hx
        exact (b4 x hx).trans (by rw [a4, if_neg hne])
    · intro n hn'
      simp only [List.map_cons, List.mem_cons, not_or] at hn'
      exact (b5 n hn'.2).trans (by rw [a4, if_neg hn'.1])

/-- The relationships of the package that are not those of a model. -/
theorem processRels_plain {env : Env} {o : Opc} {pk : InPkg} : ∀ {rs : List Relationship} {s s' : OpcState},
    (∀ r ∈ rs, r.type ≠ relModel) → processRels env o pk s rs = some s' →
    s'.model.rootRelationships = s.model.rootRelationships ++ Spec.present o pk b!"/" rs ∧
    s'.model.relationships = s.model.relationships ∧ s'.model.path = s.model.path ∧ s'.model.childs = s.model.childs ∧
    s'.root = s.root ∧ s'.childs = s.childs
  | [], s, s', _, e => by injection e with e; subst e; simp [Spec.present]
  | r :: rs, s, s', ht, e => by
    simp only [processRels, Option.bind_eq_some_iff] at e
    obtain ⟨t, e1, e2⟩ := e
    have hr := ht r List.mem_cons_self
    obtain ⟨h1, h2, h3, h4, h5, h6⟩ := processRels_plain (fun x hx => ht x (List.mem_cons_of_mem _ hx)) e2
    unfold processRel at e1
    simp only [← target_eq, if_neg hr] at e1
    cases hf : Spec.relTarget o pk b!"/" r with
    | none =>
      simp only [hf, Option.some.injEq] at e1
      subst e1
      refine ⟨?_, h2, h3, h4, h5, h6⟩
      rw [h1]; simp [Spec.present, hf]
    | some f =>
      simp only [hf, Option.some.injEq] at e1
      subst e1
      refine ⟨?_, h2, h3, h4, h5, h6⟩
      rw [h1]; simp [Spec.present, hf, hr]

theorem processRels_append {env : Env} {o : Opc} {pk : InPkg} : ∀ {rs rs' : List Relationship} {s : OpcState},
    processRels env o pk s (rs ++ rs') = (processRels env o pk s rs).bind (processRels env o pk · rs')
  | [], _, _ => rfl
  | r :: rs, rs', s => by
    simp only [List.cons_append, processRels]
    cases processRel env o pk s r with
    | none => rfl
    | some t => simp only [Option.bind_some]; exact processRels_append

/-- **C51**: if the package has one root part, whose child parts have different names, then each relationship whose target exists is
recorded once on the part that owns it: those of the package, those of the root part, and those of each child part. -/
theorem C51_relationships_partial (env : Env) (o : Opc) (pk : InPkg) (m m' : Model) (root : InFile) (fs : List InFile)
    (h : processOPC env o pk m = some (m', root, fs)) (r0 : Relationship)
    (h0 : pk.rels.filter (fun r => decide (r.type = relModel)) = [r0])
    (hn : ((Spec.childParts o pk root).map (·.name)).Nodup) :
    Spec.relTarget o pk b!"/" r0 = some root ∧ m'.path = root.name ∧ fs = Spec.childParts o pk root ∧
    m'.rootRelationships = m.rootRelationships ++ Spec.present o pk b!"/" pk.rels ∧
    m'.relationships = m.relationships ++ Spec.present o pk root.name root.rels ∧
    (∀ c ∈ Spec.childParts o pk root,
      (lookupChild m'.childs c.name).map (·.relationships) = some (Spec.present o pk c.name c.rels)) := by
  have hp := processOPC_some h
  have hm : r0 ∈ pk.rels.filter fun r => decide (r.type = relModel) := by rw [h0]; exact List.mem_cons_self
  obtain ⟨hm1, hm2⟩ := List.mem_filter.mp hm
  simp only [decide_eq_true_eq] at hm2
  obtain ⟨pre, post, hsplit⟩ := List.append_of_mem hm1
  rw [hsplit, List.filter_append, List.filter_cons, if_pos (by simpa using hm2)] at h0
  have hpre : ∀ r ∈ pre, r.type ≠ relModel := by
    intro r hr ht
    have : r ∈ pre.filter fun r => decide (r.type = relModel) := List.mem_filter.mpr ⟨hr, by simpa using ht⟩
    have hlen := congrArg List.length h0
    have := List.length_pos_of_mem this
    simp only [List.length_append, List.length_cons, List.length_nil] at hlen
    omega
  have hpost : ∀ r ∈ post, r.type ≠ relModel := by
    intro r hr ht
    have : r ∈ post.filter fun r => decide (r.type = relModel) := List.mem_filter.mpr ⟨hr, by simpa using ht⟩
    have hlen := congrArg List.length h0
    have := List.length_pos_of_mem this
    simp only [List.length_append, List.length_cons, List.length_nil] at hlen
    omega
  rw [hsplit, processRels_append, Option.bind_eq_some_iff] at hp
  obtain ⟨s1, e1, e2⟩ := hp
  obtain ⟨a1, a2, a3, a4, a5, a6⟩ := processRels_plain hpre e1
  simp only [processRels, Option.bind_eq_some_iff] at e2
  obtain ⟨s2, e2, e3⟩ := e2
  obtain ⟨b1, b2, b3, b4, b5, b6⟩ := processRels_plain hpost e3
  simp only at b1 b2 b3 b4 b5 b6 a1 a2 a3 a4 a5 a6
  unfold processRel at e2
  simp only [← target_eq, if_pos hm2] at e2
  cases hf : Spec.relTarget o pk b!"/" r0 with
  | none => simp [hf] at e2
  | some f =>
    simp only [hf, Option.some.injEq] at e2
    obtain ⟨c1, c2, c3, c4, c5⟩ := extractRoot_rels (env := env) (o := o) (pk := pk) (root := f) (rels := f.rels)
      (s := { s1 with model := { s1.model with path := f.name }, root := some f })
    have cr := (extractRoot_fold (env := env) (o := o) (pk := pk) (root := f) (P := fun _ => True) (rels := f.rels)
      (s := { s1 with model := { s1.model with path := f.name }, root := some f }) (fun _ _ _ _ _ => trivial)
      (by intro c hc; simp only [a6] at hc; simp at hc)).2.2.2.2.2
    generalize f.rels.foldl (extractRoot env o pk f)
      { s1 with model := { s1.model with path := f.name }, root := some f } = t at *
    simp only [a6, List.nil_append] at c2
    have hroot : root = f := by
      rw [← e2] at b5
      simp only [cr, Option.some.injEq] at b5
      exact b5
    subst hroot
    obtain ⟨d1, d2, d3, d4, d5⟩ := extractChilds_rels (env := env) (o := o) (pk := pk) (m := t.model) (cs := t.childs)
      (by rw [c2]; exact hn)
    have e4 : extractChilds env o pk t.model t.childs = s2.model := by rw [← e2]; rfl
    rw [e4] at d1 d2 d3 d4 d5
    have e5 : s2.childs = t.childs := by rw [← e2]
    refine ⟨rfl, ?_, ?_, ?_, ?_, ?_⟩
    · rw [b3, d3, c4]
    · rw [b6, e5, c2]; rfl
    · rw [b1, d2, c3]
      show s1.model.rootRelationships ++ _ = _
      rw [a1]
      rw [hsplit]
      simp only [Spec.present, List.filter_append, List.filter_cons, hm2, ne_eq, not_true_eq_false, decide_false,
        Bool.false_and, Bool.false_eq_true, if_false, List.append_assoc]
    · rw [b2, d1, c1]
      show s1.model.relationships ++ _ = _
      rw [a2]
    · intro c hc
      have hc' : c ∈ t.childs := by rw [c2]; exact hc
      have := d4 c hc'
      have hc2 : c.name ∈ ((root.rels.filter fun r => decide (r.type = relModel)).filterMap
        (Spec.relTarget o pk root.name)).map (·.name) :=
        List.mem_map_of_mem (f := fun x : InFile => x.name) hc
      rw [c5, if_pos hc2] at this
      rw [b4]
      simpa [childRels] using this

/-! ## Examples -/

/-- A library for the examples: names are kept. -/
def c51Opc : Opc := ⟨id, fun _ p => p, fun _ _ _ => true⟩

/-- A file of the examples. -/
def c51File (name : Str) (rels : List Relationship) : InFile := ⟨name, b!"t", rels, some (b!"x", .eof)⟩

/-- A package with a root part, two child parts and images that are used more than once. -/
def c51Pkg : InPkg :=
  ⟨[⟨b!"/t.png", relThumbnail, b!"1"⟩, ⟨b!"/r", relModel, b!"2"⟩, ⟨b!"/none", b!"x", b!"3"⟩],
    [c51File b!"/r" [⟨b!"/a", relModel, b!"4"⟩, ⟨b!"/t.png", relTexture, b!"5"⟩, ⟨b!"/b", relModel, b!"6"⟩],
      c51File b!"/a" [⟨b!"/u.png", relTexture, b!"7"⟩, ⟨b!"/t.png", relTexture, b!"8"⟩],
      c51File b!"/b" [⟨b!"/u.png", relTexture, b!"9"⟩, ⟨b!"/none", relTexture, b!"10"⟩],
      c51File b!"/t.png" [], c51File b!"/u.png" []]⟩

/-- The paths of the attachments, the relationships of the package, of the root part and of the child parts. -/
def c51Run (pk : InPkg) : Option (List (List Str) × List (Str × List Str)) :=
  (processOPC allExt c51Opc pk .zero).map fun x =>
    ([x.1.attachments.map (·.path), x.1.rootRelationships.map (·.id), x.1.relationships.map (·.id)],
      x.1.childs.map fun c => (c.1, c.2.relationships.map (·.id)))

/-- The hypotheses hold, and this is the outcome. -/
example : c51Run c51Pkg = some ([[b!"/t.png", b!"/u.png"], [b!"1"], [b!"5"]], [(b!"/a", [b!"7", b!"8"]), (b!"/b", [b!"9"])]) ∧
    Spec.OnceEach allExt Model.zero.attachments ∧
    c51Pkg.rels.filter (fun r => decide (r.type = relModel)) = [⟨b!"/r", relModel, b!"2"⟩] ∧
    (processOPC allExt c51Opc c51Pkg .zero).any
      (fun x => decide ((Spec.childParts c51Opc c51Pkg x.2.1).map (·.name)).Nodup) = true :=
  ⟨by decide +kernel, List.nodup_nil, by decide +kernel, by decide +kernel⟩

/-- **C51** is false of files that cannot be read: the relationship is recorded, the attachment is not, and there is no error. -/
theorem C51_unreadable_false :
    c51Run ⟨[⟨b!"/r", relModel, b!"1"⟩, ⟨b!"/t", b!"x", b!"2"⟩], [c51File b!"/r" [], ⟨b!"/t", b!"t", [], none⟩]⟩ =
      some ([[], [b!"2"], []], []) := by decide +kernel

/-- **C51** is false if the package has two relationships to the root part: the relationships of the root part and of the child
parts are recorded more than once. -/
theorem C51_roots_false :
    c51Run ⟨[⟨b!"/r", relModel, b!"1"⟩, ⟨b!"/r", relModel, b!"2"⟩],
      [c51File b!"/r" [⟨b!"/a", relModel, b!"3"⟩, ⟨b!"/t", b!"x", b!"4"⟩], c51File b!"/a" [⟨b!"/t", b!"x", b!"5"⟩],
        c51File b!"/t" []]⟩ =
      some ([[b!"/t"], [], [b!"4", b!"4"]], [(b!"/a", [b!"5", b!"5"])]) := by decide +kernel

/-- **C51** is false if the root part has two relationships to the same child part: the relationships of the child part are
recorded twice. -/
theorem C51_twice_false :
    c51Run ⟨[⟨b!"/r", relModel, b!"1"⟩],
      [c51File b!"/r" [⟨b!"/a", relModel, b!"3"⟩, ⟨b!"/a", relModel, b!"4"⟩], c51File b!"/a" [⟨b!"/t", b!"x", b!"5"⟩],
        c51File b!"/t" []]⟩ =
      some ([[b!"/t"], [], []], [(b!"/a", [b!"5", b!"5"])]) := by decide +kernel

end Go3mf
