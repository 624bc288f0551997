import Verif.Lemmas.Prefix
import Verif.Lemmas.PrefixValidate
import Verif.Props.C60
import Verif.Props.C62
import Verif.Props.C94

/-!
# C95: the choice of the name-space prefixes does not matter

Two documents that differ only in the prefixes — in the declarations, in `requiredextensions`, in the names of metadata and, as the parser
resolves them, in the names of elements and attributes — are read with the same errors as models that differ only in the prefixes.  That
they differ at all in the names of metadata is a violation.
-/

namespace Go3mf
open Spec

/-! ## The root element -/

theorem Spec.RenamedAttr.name {ρ : Str → Str} {a a' : Attr} (h : RenamedAttr ρ a a') : a'.name.space = a.name.space := by
  rw [RenamedAttr] at h
  split at h
  · next h0 => rw [h, h0]
  · split at h
    · rw [h.1]
    · rw [h]

theorem Spec.RenamedAttrs.attr? {ρ : Str → Str} {as as' : List Attr} (h : RenamedAttrs ρ as as') {n : Name}
    (h1 : n.space ≠ b!"xmlns") (h2 : n ≠ ⟨[], b!"requiredextensions"⟩) : Spec.attr? as' n = Spec.attr? as n := by
  induction h with
  | nil => rfl
  | @cons a a' as as' h _ ih =>
    simp only [Spec.attr?, List.find?_cons] at ih ⊢
    rw [RenamedAttr] at h
    split at h
    · next h0 =>
      have e1 : a.name ≠ n := fun e => h1 (e ▸ h0)
      have e2 : a'.name ≠ n := fun e => h1 (by rw [← e, h])
      simp only [e1, e2, decide_false]
      exact ih
    · split at h
      · next h0 =>
        have e1 : a.name ≠ n := fun e => h2 (e ▸ h0)
        have e2 : a'.name ≠ n := fun e => e1 (h.1 ▸ e)
        simp only [e1, e2, decide_false]
        exact ih
      · subst h
        by_cases e : a'.name = n
        · simp [e]
        · simp only [e, decide_false]
          exact ih

theorem Spec.RenamedAttrs.required {ρ : Str → Str} {as as' : List Attr} (h : RenamedAttrs ρ as as') :
    fields (textAt as' b!"requiredextensions") = (fields (textAt as b!"requiredextensions")).map ρ := by
  induction h with
  | nil => rfl
  | @cons a a' as as' h _ ih =>
    simp only [textAt, plain?, Spec.attr?, List.find?_cons] at ih ⊢
    rw [RenamedAttr] at h
    have hx : ∀ x : Attr, x.name.space = b!"xmlns" → x.name ≠ ⟨[], b!"requiredextensions"⟩ := by
      intro x hx e
      rw [e] at hx
      exact absurd hx (by decide)
    split at h
    · next h0 =>
      have e2 := hx a' (by rw [h])
      simp only [hx a h0, e2, decide_false]
      exact ih
    · split at h
      · next h0 =>
        simp only [h.1.trans h0, h0, decide_true, Option.map_some, Option.getD_some]
        exact h.2
      · next h0 =>
        subst h
        simp only [h0, decide_false]
        exact ih

theorem Spec.RenamedAttrs.extensions {ρ : Str → Str} (hρ : Renaming ρ) {as as' : List Attr} (h : RenamedAttrs ρ as as') :
    extensionsOf as' = (extensionsOf as).map fun x => { x with localName := ρ x.localName } := by
  have hr := h.required
  rw [extensionsOf, extensionsOf, hr]
  generalize fields (textAt as b!"requiredextensions") = req
  clear hr
  induction h with
  | nil => rfl
  | @cons a a' as as' h _ ih =>
    have hs := h.name
    simp only [List.filter_cons, hs]
    by_cases h0 : a.name.space = b!"xmlns"
    · rw [RenamedAttr, if_pos h0] at h
      simp only [h0, decide_true, if_true, List.map_cons, ih]
      congr 1
      rw [h]
      congr 1
      simp only [decide_eq_decide]
      constructor
      · intro hm
        obtain ⟨q, hq, e⟩ := List.mem_map.mp hm
        exact hρ.inj _ _ e ▸ hq
      · exact fun hm => List.mem_map_of_mem hm
    · simp only [h0, decide_false]
      exact ih

theorem Spec.RenamedAttrs.others {ρ : Str → Str} {as as' : List Attr} (h : RenamedAttrs ρ as as') (env : Env) :
    modelAttrs env as' = modelAttrs env as := by
  rw [modelAttrs, modelAttrs]
  congr 1
  induction h with
  | nil => rfl
  | @cons a a' as as' h _ ih =>
    have hs := h.name
    simp only [List.filter_cons, hs, ih]
    rw [RenamedAttr] at h
    split at h
    · next h0 => simp [h0]
    · split at h
      · next h0 => simp [h0]
      · rw [h]

theorem Spec.RenamedAttrs.faults {ρ : Str → Str} {as as' : List Attr} (h : RenamedAttrs ρ as as') (env : Env) :
    attrFaults env .model as' = attrFaults env .model as := by
  rw [attrFaults, attrFaults]
  induction h with
  | nil => rfl
  | @cons a a' as as' h _ ih =>
    simp only [List.flatMap_cons, ih]
    congr 1
    have hx : ∀ x : Attr, x.name.space = b!"xmlns" → attrFault env .model x = [] := by
      intro x hx
      have : attrType env .model x.name = none := by
        rw [attrType, if_neg (by rw [hx]; decide)]
        split <;> rfl
      rw [attrFault, this]
    have hy : ∀ x : Attr, x.name = ⟨[], b!"requiredextensions"⟩ → attrFault env .model x = [] := by
      intro x hx
      have : attrType env .model x.name = some (.text, false) := by
        rw [attrType, hx, if_pos rfl]
        decide +kernel
      rw [attrFault, this]
      rfl
    rw [RenamedAttr] at h
    split at h
    · next h0 => rw [hx a h0, hx a' (by rw [h])]
    · split at h
      · next h0 => rw [hy a h0, hy a' (h.1.trans h0)]
      · rw [h]

/-- No declared prefix is empty. -/
def Spec.PrefixesNamed (as : List Attr) : Prop := ∀ a ∈ as, a.name.space = b!"xmlns" → a.name.loc ≠ []

theorem declared_names {as : List Attr} (h : PrefixesNamed as) : [] ∉ (extensionsOf as).map (·.localName) := by
  intro hm
  simp only [extensionsOf, List.map_map, List.mem_map, List.mem_filter, decide_eq_true_eq, Function.comp] at hm
  obtain ⟨a, ⟨ha, h0⟩, e⟩ := hm
  exact h a ha h0 e

/-- What a document with other prefixes means. -/
theorem model_rename {ρ : Str → Str} (hρ : Renaming ρ) (env : Env) (m : Model) {as as' : List Attr} (h : RenamedAttrs ρ as as')
    (hd : PrefixesNamed as) (c : List Node) : modelOf env m (as', renameContent ρ c) = renameModel ρ (modelOf env m (as, c)) := by
  have he : (extensionsOf as').map (·.localName) = ((extensionsOf as).map (·.localName)).map ρ := by
    rw [h.extensions hρ, List.map_map, List.map_map]
    rfl
  have h0 := declared_names hd
  have hx := h.extensions hρ
  have n1 : ∀ l f, (∀ k' mu, (elements .model).lookup (core l) = some (k', mu) → k' = .metadata ∨ k' = .build ∨ k' = .resources) →
      ∀ c : List Node, (c.map (changeElem (core l) f)).filterMap (anyOf env .model) = c.filterMap (anyOf env .model) := by
    intro l f hl c
    refine filterMap_change (fun as d => ?_) c
    rw [anyOf, childKind_core]
    cases hk : (elements .model).lookup (core l) with
    | none => rfl
    | some q =>
      obtain ⟨k', mu⟩ := q
      rcases hl k' mu hk with rfl | rfl | rfl <;> rfl
  simp only [modelOf, renameModel, wordAt, textAt, plain?]
  rw [h.attr? (n := ⟨[], b!"unit"⟩) (by decide) (by decide), h.attr? (n := ⟨[], b!"thumbnail"⟩) (by decide) (by decide),
    h.attr? (n := ⟨nsXML, b!"lang"⟩) (by decide +kernel) (by decide +kernel), h.others env]
  have e1 : (children (core b!"metadata") (renameContent ρ c)).map (metadataOf (extensionsOf as')) =
      ((children (core b!"metadata") c).map (metadataOf (extensionsOf as))).map (renameMetadata ρ) := by
    rw [renameContent, children_change_ne (by decide +kernel), children_change_ne (by decide +kernel), children_change, List.map_map,
      List.map_map]
    exact List.map_congr_left fun x _ => metadata_rename hρ he h0 x
  have e2 : child? (core b!"build") (renameContent ρ c) = (child? (core b!"build") c).map (renameBuildElem ρ) := by
    rw [renameContent, child?_change_ne (by decide +kernel), child?_change, child?_change_ne (by decide +kernel)]
  have e3 : child? (core b!"resources") (renameContent ρ c) = (child? (core b!"resources") c).map (renameResourcesElem ρ) := by
    rw [renameContent, child?_change, child?_change_ne (by decide +kernel), child?_change_ne (by decide +kernel)]
  have e4 : (renameContent ρ c).filterMap (anyOf env .model) = c.filterMap (anyOf env .model) := by
    rw [renameContent, n1 _ _ ?_, n1 _ _ ?_, n1 _ _ ?_]
    · intro k' mu hk
      rw [show (elements .model).lookup (core b!"metadata") = some (.metadata, .many) by decide +kernel] at hk
      cases hk; exact .inl rfl
    · intro k' mu hk
      rw [show (elements .model).lookup (core b!"build") = some (.build, .single) by decide +kernel] at hk
      cases hk; exact .inr (.inl rfl)
    · intro k' mu hk
      rw [show (elements .model).lookup (core b!"resources") = some (.resources, .single) by decide +kernel] at hk
      cases hk; exact .inr (.inr rfl)
  rw [e1, e2, e3, e4, build_rename hρ env he h0, resources_rename hρ env he h0, hx]

/-- **C95** (root part): a document with other prefixes is read as the model with other prefixes, with the same errors. -/
theorem C95_root {ρ : Str → Str} (hρ : Renaming ρ) (env : Env) (mem mem' : Nat → Str → Str) (kept : Prop)
    (hk : kept → ∀ i t, mem i t = t) (hk' : kept → ∀ i t, mem' i t = t)
    (m : Model) (hm : FreshModel m) (path : Str) (hp : path = m.path ∨ m.path = [] ∧ path = defaultModelPath)
    (pre post pre' post' c : List Node) (as as' : List Attr) (hpre : NoElements pre) (hpost : NoElements post)
    (hpre' : NoElements pre') (hpost' : NoElements post') (ha : AttrsFit env .model as) (ha' : AttrsFit env .model as')
    (ho : Once env .model c) (ho' : Once env .model (renameContent ρ c)) (hc : ContentOk env kept .model (core b!"model") c)
    (hc' : ContentOk env kept .model (core b!"model") (renameContent ρ c)) (h : RenamedAttrs ρ as as') (hd : PrefixesNamed as) :
    ∃ m1 r, decodeEvents ⟨env, true, mem⟩ false (fun _ => false) m path (treeEvents (wholeDoc pre as c post)) .eof = some (m1, r) ∧
      decodeEvents ⟨env, true, mem'⟩ false (fun _ => false) m path (treeEvents (wholeDoc pre' as' (renameContent ρ c) post')) .eof =
        some (renameModel ρ m1, r) := by
  refine ⟨_, _, C60_root env mem kept hk m hm path hp pre post c as hpre hpost ha ho hc, ?_⟩
  rw [C60_root env mem' kept hk' m hm path hp pre' post' (renameContent ρ c) as' hpre' hpost' ha' ho' hc', model_rename hρ env m h hd]
  simp only [Spec.partFaults, h.faults env, content_faults]

/-- **C95** (child parts): nothing is known of the declarations in a child part, so that only what looks like a prefix is renamed. -/
theorem C95_child {ρ : Str → Str} (hρ : Renaming ρ) (env : Env) (mem mem' : Nat → Str → Str) (kept : Prop)
    (hk : kept → ∀ i t, mem i t = t) (hk' : kept → ∀ i t, mem' i t = t) (m : Model) (hx : m.extensions = []) (path : Str)
    (hp : ¬ (path = [] ∨ path = m.path ∨ (m.path = [] ∧ path = defaultModelPath))) (hf : m.findResources path = some ⟨[], [], []⟩)
    (pre post pre' post' c c' : List Node) (as as' : List Attr) (hpre : NoElements pre) (hpost : NoElements post)
    (hpre' : NoElements pre') (hpost' : NoElements post') (ho : Once env .childModel c) (ho' : Once env .childModel c')
    (hc : ContentOk env kept .childModel (core b!"model") c) (hc' : ContentOk env kept .childModel (core b!"model") c')
    (h : c' = c.map (changeElem (core b!"resources") (renameResourcesElem ρ))) :
    ∃ any rs r, decodeEvents ⟨env, false, mem⟩ false (fun _ => false) m path (treeEvents (wholeDoc pre as c post)) .eof =
        some ({ m with
          any := any
          childs := m.childs.map fun p => if p.1 = path then (p.1, { p.2 with resources := rs }) else p }, r) ∧
      decodeEvents ⟨env, false, mem'⟩ false (fun _ => false) m path (treeEvents (wholeDoc pre' as' c' post')) .eof =
        some ({ m with
          any := any
          childs := m.childs.map fun p => if p.1 = path then (p.1, { p.2 with resources := renameResources ρ rs }) else p }, r) := by
  refine ⟨_, _, _, C60_child env mem kept hk m path hp hf pre post c as hpre hpost ho hc, ?_⟩
  have e1 : resourcesOf env m.extensions (child? (core b!"resources") c') =
      renameResources ρ (resourcesOf env m.extensions (child? (core b!"resources") c)) := by
    rw [h, child?_change, resources_rename hρ (exts := m.extensions) env (by rw [hx]; rfl) (by rw [hx]; simp)]
  have e2 : c'.filterMap (anyOf env .childModel) = c.filterMap (anyOf env .childModel) := by
    rw [h]
    refine filterMap_change (fun as d => ?_) c
    rw [anyOf, childKind_core, show (elements .childModel).lookup (core b!"resources") = some (.resources, .single) by decide +kernel]
    rfl
  have e3 : contentFaults env .childModel [] c' = contentFaults env .childModel [] c := by
    rw [h]
    exact change_faults (k := .childModel) (n := core b!"resources") (f := renameResourcesElem ρ) (k' := .resources) (mu := .single) (by rw [childKind_core]; decide +kernel) (fun _ => rfl)
      (resourcesElem_faults env ρ) _ _ [] fun _ _ _ _ _ => rfl
  rw [C60_child env mem' kept hk' m path hp hf pre' post' c' as' hpre' hpost' ho' hc', e1, e2]
  simp only [Spec.partFaults, e3]

/-- **C95** (bytes): the same for two texts with the tokens of such documents. -/
theorem C95_bytes {ρ : Str → Str} (hρ : Renaming ρ) (env : Env) (mem mem' : Nat → Str → Str) (kept : Prop)
    (hk : kept → ∀ i t, mem i t = t) (hk' : kept → ∀ i t, mem' i t = t)
    (data data' : Str) (pre post pre' post' c : List Node) (as as' : List Attr)
    (hl : lex .eof (.new data) = (treeEvents (wholeDoc pre as c post), .eof))
    (hl' : lex .eof (.new data') = (treeEvents (wholeDoc pre' as' (renameContent ρ c) post'), .eof))
    (hpre : NoElements pre) (hpost : NoElements post)
    (hpre' : NoElements pre') (hpost' : NoElements post') (ha : AttrsFit env .model as) (ha' : AttrsFit env .model as')
    (ho : Once env .model c) (ho' : Once env .model (renameContent ρ c)) (hc : ContentOk env kept .model (core b!"model") c)
    (hc' : ContentOk env kept .model (core b!"model") (renameContent ρ c)) (h : RenamedAttrs ρ as as') (hd : PrefixesNamed as) :
    ∃ m1 r, unmarshalModel env mem data .zero = some (m1, r) ∧ unmarshalModel env mem' data' .zero = some (renameModel ρ m1, r) := by
  rw [unmarshalModel, unmarshalModel, hl, hl']
  exact C95_root hρ env mem mem' kept hk hk' .zero ⟨⟨rfl, rfl, rfl, rfl, rfl⟩, rfl, rfl, rfl, rfl⟩ defaultModelPath (.inr ⟨rfl, rfl⟩)
    pre post pre' post' c as as' hpre hpost hpre' hpost' ha ha' ho ho' hc hc' h hd

/-- **C95** (what is equal): everything but the prefixes of the extensions and the names of metadata. -/
theorem C95_equal (ρ : Str → Str) (m : Model) :
    (renameModel ρ m).extensions.map (fun x => (x.ns, x.isRequired)) = m.extensions.map (fun x => (x.ns, x.isRequired)) ∧
    (renameModel ρ m).metadata.map (fun x => (x.value, x.type, x.preserve)) = m.metadata.map (fun x => (x.value, x.type, x.preserve)) ∧
    (renameModel ρ m).resources.assets = m.resources.assets ∧
    (renameModel ρ m).resources.objects.map (fun o => (o.id, o.name, o.partNumber, o.type)) =
      m.resources.objects.map (fun o => (o.id, o.name, o.partNumber, o.type)) ∧
    (renameModel ρ m).resources.objects.map (fun o => (o.pid, o.pindex, o.mesh, o.components)) =
      m.resources.objects.map (fun o => (o.pid, o.pindex, o.mesh, o.components)) ∧
    (renameModel ρ m).build.items.map (fun i => (i.objectID, i.transform, i.partNumber, i.anyAttr)) =
      m.build.items.map (fun i => (i.objectID, i.transform, i.partNumber, i.anyAttr)) ∧
    (∀ x : Metadata, x.name.space = [] → 58 ∉ x.name.loc → renameMetadata ρ x = x) := by
  refine ⟨?_, ?_, rfl, ?_, ?_, ?_, ?_⟩
  · simp [renameModel, Function.comp_def]
  · simp [renameModel, renameMetadata, Function.comp_def]
  · simp [renameModel, renameResources, renameObject, Function.comp_def]
  · simp [renameModel, renameResources, renameObject, Function.comp_def]
  · simp [renameModel, renameItem, Function.comp_def]
  · rintro ⟨⟨s, l⟩, v, t, p⟩ h1 h2
    simp only at h1 h2
    subst h1
    simp [renameMetadata, renameName, renameValue, h2]

/-- **C95** (validation): `Validate` gives the same answer for models that differ in the prefixes of the extensions only. -/
theorem C95_validate (env : Env) (m : Model) (E : List Extension)
    (h : E.map (fun x => (x.ns, x.isRequired)) = m.extensions.map fun x => (x.ns, x.isRequired)) (errs : List Err) :
    ({ m with extensions := E } : Model).Validate env errs ↔ m.Validate env errs := by
  simp only [Model.Validate, validateFuel_ext (m := m) (E := E) h env]

/-- The metadata have names without a colon. -/
def Spec.PlainMetadata (m : Model) : Prop :=
  (∀ x ∈ m.metadata, x.name.space = [] ∧ 58 ∉ x.name.loc) ∧
  (∀ i ∈ m.build.items, ∀ x ∈ i.metadata.metadata, x.name.space = [] ∧ 58 ∉ x.name.loc) ∧
  ∀ o ∈ m.resources.objects, ∀ x ∈ o.metadata.metadata, x.name.space = [] ∧ 58 ∉ x.name.loc

theorem map_fixed {α : Type} {f : α → α} {l : List α} (h : ∀ x ∈ l, f x = x) : l.map f = l := by
  rw [List.map_congr_left (g := id) h, List.map_id]

theorem rename_plain {ρ : Str → Str} {m : Model} (h : PlainMetadata m) :
    renameModel ρ m = { m with extensions := m.extensions.map fun x => { x with localName := ρ x.localName } } := by
  have h1 := (C95_equal ρ m).2.2.2.2.2.2
  have hg : ∀ g : MetadataGroup, (∀ x ∈ g.metadata, x.name.space = [] ∧ 58 ∉ x.name.loc) → renameGroup ρ g = g := by
    intro g hg
    rw [renameGroup, map_fixed fun x hx => h1 x (hg x hx).1 (hg x hx).2]
  have e1 : m.metadata.map (renameMetadata ρ) = m.metadata := map_fixed fun x hx => h1 x (h.1 x hx).1 (h.1 x hx).2
  have e2 : m.build.items.map (renameItem ρ) = m.build.items :=
    map_fixed fun i hi => by rw [renameItem, hg _ (h.2.1 i hi)]
  have e3 : m.resources.objects.map (renameObject ρ) = m.resources.objects :=
    map_fixed fun o ho => by rw [renameObject, hg _ (h.2.2 o ho)]
  rw [renameModel, e1, e2, renameResources, e3]

/-- **C95** (reading and validating): if no metadata has a prefix, `Validate` answers the same for both documents. -/
theorem C95_checked {ρ : Str → Str} (env : Env) (m : Model) (h : PlainMetadata m) (errs : List Err) :
    (renameModel ρ m).Validate env errs ↔ m.Validate env errs := by
  rw [rename_plain h]
  exact C95_validate env m _ (by simp [Function.comp_def]) errs

/-! ## The violations -/

namespace Spec

/-- Two documents that differ in a prefix only. -/
def prefixDoc (p : Str) : Str :=
  b!"<model xmlns=\"http://schemas.microsoft.com/3dmanufacturing/core/2015/02\" xmlns:" ++ p ++ b!"=\"urn\"><metadata name=\"" ++ p ++
    b!":part\">x</metadata><resources/><build/></model>"

/-- A beam lattice with a beam to a vertex that does not exist, declared in the root element or in the element itself. -/
def latticeDoc (root inner : Str) : Str :=
  b!"<model xmlns=\"http://schemas.microsoft.com/3dmanufacturing/core/2015/02\"" ++ root ++
    b!"><resources><object id=\"1\"><mesh><vertices><vertex x=\"0\" y=\"0\" z=\"0\"/><vertex x=\"1\" y=\"0\" z=\"0\"/><vertex x=\"0\" y=\"1\" z=\"0\"/><vertex x=\"0\" y=\"0\" z=\"1\"/></vertices>" ++
    b!"<triangles><triangle v1=\"0\" v2=\"2\" v3=\"1\"/><triangle v1=\"0\" v2=\"1\" v3=\"3\"/><triangle v1=\"0\" v2=\"3\" v3=\"2\"/><triangle v1=\"1\" v2=\"2\" v3=\"3\"/></triangles>" ++
    b!"<b:beamlattice" ++ inner ++ b!" radius=\"1\" minlength=\"1\"><b:beams><b:beam v1=\"0\" v2=\"9\"/></b:beams></b:beamlattice></mesh></object></resources>" ++
    b!"<build><item objectid=\"1\"/></build></model>"

/-- The declaration. -/
def beamDecl : Str := b!" xmlns:b=\"" ++ nsBeam ++ b!"\""

/-- What is reported after reading without errors: the number of errors. -/
def checkedDoc (data : Str) : Option (Option Nat) :=
  match unmarshalModel allExt (fun _ t => t) data .zero with
  | some (m, .ok) => some ((m.validateFuel allExt 9).map (·.length))
  | _ => none

end Spec

/-- **C95 is violated**: the name of metadata depends on the prefix that its name space has in the document (decoder.go:165-167). -/
theorem C95_metadata_false :
    (unmarshalModel allExt (fun _ t => t) (prefixDoc b!"v") .zero).map (fun p => p.1.metadata.map (·.name)) = some [⟨b!"v", b!"part"⟩] ∧
    (unmarshalModel allExt (fun _ t => t) (prefixDoc b!"w") .zero).map (fun p => p.1.metadata.map (·.name)) = some [⟨b!"w", b!"part"⟩] := by
  decide +kernel

/-- **C95 is violated**: whether a model is valid depends on the prefix: the prefix is compared with the name spaces (validate.go:119-128). -/
theorem C95_validate_false : checkedDoc (prefixDoc b!"urn") = some (some 0) ∧ checkedDoc (prefixDoc b!"v") = some (some 1) := by
  decide +kernel

set_option maxRecDepth 8000 in
/-- **C95 is violated**: an extension that is declared where it is used instead of in the root element is read but not validated
(validate.go:241-245): a beam to a vertex that does not exist is accepted. -/
theorem C95_declaration_false : checkedDoc (latticeDoc beamDecl []) = some (some 2) ∧ checkedDoc (latticeDoc [] beamDecl) = some (some 0) ∧
    (unmarshalModel allExt (fun _ t => t) (latticeDoc beamDecl []) .zero).map (fun p => p.1.resources) =
      (unmarshalModel allExt (fun _ t => t) (latticeDoc [] beamDecl) .zero).map (fun p => p.1.resources) := by
  decide +kernel

/-! ## Example -/

namespace Spec

/-- Two prefixes are exchanged. -/
def swapPrefixes (s : Str) : Str := if s = b!"v" then b!"p" else if s = b!"p" then b!"v" else s

/-- The attributes of the root element. -/
def prefixAttrs (p v : Str) : List Attr :=
  [⟨⟨[], b!"xmlns"⟩, nsCore⟩, ⟨⟨b!"xmlns", p⟩, nsProduction⟩, ⟨⟨b!"xmlns", v⟩, b!"urn"⟩, pl b!"requiredextensions" (b!"x " ++ p),
   pl b!"unit" b!"inch"]

/-- The content: metadata in the model, in an object and in an item, with a wrong UUID and a wrong transform. -/
def prefixContent (v : Str) : List Node :=
  [.elem (core b!"metadata") [pl b!"name" (v ++ b!":part"), pl b!"type" b!"t"] [.text b!"x"],
   .elem (core b!"metadata") [pl b!"name" b!"Title"] [.text b!"y"],
   .elem (core b!"resources") []
    [.elem (core b!"object") [pl b!"id" b!"1", ⟨⟨nsProduction, b!"UUID"⟩, b!"no"⟩]
      [.elem (core b!"metadatagroup") [] [.elem (core b!"metadata") [pl b!"name" (v ++ b!":a:b")] [.text b!"z"]],
       .elem (core b!"mesh") [] []]],
   .elem (core b!"build") []
    [.elem (core b!"item") [pl b!"objectid" b!"1", pl b!"transform" b!"1"]
      [.elem (core b!"metadatagroup") [] [.elem (core b!"metadata") [pl b!"name" b!"w:c"] []]]]]

/-- The text of such a document. -/
def prefixText (p v : Str) : Str :=
  b!"<model xmlns=\"http://schemas.microsoft.com/3dmanufacturing/core/2015/02\" xmlns:" ++ p ++ b!"=\"" ++ nsProduction ++ b!"\" xmlns:" ++ v ++
    b!"=\"urn\" requiredextensions=\"x " ++ p ++ b!"\" unit=\"inch\"><metadata name=\"" ++ v ++ b!":part\" type=\"t\">x</metadata><metadata name=\"Title\">y</metadata>" ++
    b!"<resources><object id=\"1\" " ++ p ++ b!":UUID=\"no\"><metadatagroup><metadata name=\"" ++ v ++ b!":a:b\">z</metadata></metadatagroup><mesh></mesh></object></resources>" ++
    b!"<build><item objectid=\"1\" transform=\"1\"><metadatagroup><metadata name=\"w:c\"></metadata></metadatagroup></item></build></model>"

end Spec

theorem swapPrefixes_ok : Renaming swapPrefixes where
  inj := by
    intro p q h
    have hs : ∀ s, swapPrefixes (swapPrefixes s) = s := by
      intro s
      by_cases h1 : s = b!"v"
      · subst h1; decide
      · by_cases h2 : s = b!"p"
        · subst h2; decide
        · simp only [swapPrefixes, if_neg h1, if_neg h2]
    rw [← hs p, h, hs]
  plain := by
    intro p h
    simp only [swapPrefixes]
    split
    · decide
    · split
      · decide
      · exact h
  empty := by decide

set_option maxRecDepth 8000 in
/-- Both texts are read, with two errors. -/
example : ∃ m1 r, unmarshalModel allExt (fun _ t => t) (prefixText b!"p" b!"v") .zero = some (m1, r) ∧
    unmarshalModel allExt (fun _ t => t) (prefixText b!"v" b!"p") .zero = some (renameModel swapPrefixes m1, r) := by
  have hr : renameContent swapPrefixes (prefixContent b!"v") = prefixContent b!"p" := by
    simp [renameContent, prefixContent, changeElem, renameMetaElem, renameAttr, renameBuildElem, renameResourcesElem, renameHolderElem,
      renameGroupElem, renameValue, swapPrefixes, core, pl]
  refine C95_bytes swapPrefixes_ok allExt _ _ True (fun _ _ _ => rfl) (fun _ _ _ => rfl) _ _ [] [] [] [] (prefixContent b!"v")
    (prefixAttrs b!"p" b!"v") (prefixAttrs b!"v" b!"p") (by decide +kernel) (by rw [hr]; decide +kernel) (by simp [NoElements])
    (by simp [NoElements]) (by simp [NoElements]) (by simp [NoElements]) (attrsFit_of (by decide +kernel)) (attrsFit_of (by decide +kernel))
    (once_of (by decide +kernel)) (by rw [hr]; exact once_of (by decide +kernel)) (contentOk_of _ (by decide +kernel))
    (by rw [hr]; exact contentOk_of _ (by decide +kernel)) ?_ (by unfold PrefixesNamed; decide +kernel)
  refine .cons ?_ (.cons ?_ (.cons ?_ (.cons ?_ (.cons ?_ .nil)))) <;> unfold RenamedAttr <;> decide +kernel

set_option maxRecDepth 8000 in
/-- The names of the metadata and the extensions. -/
example :
    (unmarshalModel allExt (fun _ t => t) (prefixText b!"p" b!"v") .zero).map (fun p => p.1.metadata.map (·.name)) =
      some [⟨b!"v", b!"part"⟩, ⟨[], b!"Title"⟩] ∧
    (unmarshalModel allExt (fun _ t => t) (prefixText b!"v" b!"p") .zero).map (fun p => p.1.metadata.map (·.name)) =
      some [⟨b!"p", b!"part"⟩, ⟨[], b!"Title"⟩] ∧
    (unmarshalModel allExt (fun _ t => t) (prefixText b!"p" b!"v") .zero).map (fun p => p.1.extensions) =
      some [⟨nsProduction, b!"p", true⟩, ⟨b!"urn", b!"v", false⟩] ∧
    (unmarshalModel allExt (fun _ t => t) (prefixText b!"v" b!"p") .zero).map (fun p => p.1.extensions) =
      some [⟨nsProduction, b!"v", true⟩, ⟨b!"urn", b!"p", false⟩] ∧
    (unmarshalModel allExt (fun _ t => t) (prefixText b!"v" b!"p") .zero).map (fun p => p.2.errors.length) = some 2 := by decide +kernel

/-- The resources of a child part. -/
def Spec.prefixChild (v : Str) : List Node :=
  [.elem (core b!"resources") [] [.elem (core b!"object") [pl b!"id" b!"1", ⟨⟨nsProduction, b!"UUID"⟩, b!"no"⟩]
    [.elem (core b!"metadatagroup") [] [.elem (core b!"metadata") [pl b!"name" (v ++ b!":a")] [.text b!"z"]]]]]

set_option maxRecDepth 8000 in
/-- A child part with other prefixes. -/
example : ∃ any rs r, decodeEvents ⟨allExt, false, fun _ t => t⟩ false (fun _ => false) { Model.zero with childs := [(b!"/c", .zero)] } b!"/c"
      (treeEvents (wholeDoc [] [] (prefixChild b!"v") [])) .eof = some ({ Model.zero with any := any, childs := [(b!"/c", ⟨rs, [], []⟩)] }, r) ∧
    decodeEvents ⟨allExt, false, fun _ t => t⟩ false (fun _ => false) { Model.zero with childs := [(b!"/c", .zero)] } b!"/c"
      (treeEvents (wholeDoc [] [] (prefixChild b!"p") [])) .eof =
        some ({ Model.zero with any := any, childs := [(b!"/c", ⟨renameResources swapPrefixes rs, [], []⟩)] }, r) :=
  C95_child swapPrefixes_ok allExt _ _ True (fun _ _ _ => rfl) (fun _ _ _ => rfl) { Model.zero with childs := [(b!"/c", .zero)] } rfl b!"/c"
    (by decide +kernel) (by decide +kernel) [] [] [] [] _ _ [] [] (by simp [NoElements])
    (by simp [NoElements]) (by simp [NoElements]) (by simp [NoElements]) (once_of (by decide +kernel)) (once_of (by decide +kernel))
    (contentOk_of _ (by decide +kernel)) (contentOk_of _ (by decide +kernel))
    (by simp [prefixChild, changeElem, renameMetaElem, renameAttr, renameResourcesElem, renameHolderElem,
      renameGroupElem, renameValue, swapPrefixes, core, pl])

set_option maxRecDepth 8000 in
/-- A model of a beam lattice with another prefix: the errors are the same two. -/
example (errs : List Err) (m : Model) (h : m = ((unmarshalModel allExt (fun _ t => t) (latticeDoc beamDecl []) .zero).map (·.1)).getD .zero) :
    (renameModel (b!"x" ++ ·) m).Validate allExt errs ↔ m.Validate allExt errs :=
  C95_checked allExt m (by subst h; unfold PlainMetadata; decide +kernel) errs

end Go3mf
