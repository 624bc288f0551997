import Verif.Lemmas.DocMesh

/-!
# Objects in a document
-/

namespace Go3mf
open Spec

section
variable {cfg : DecCfg} {kept : Prop} {n : Name}

/-! ## Elements of any extension -/

theorem childKind_open {env : Env} {k : Kind} {m : Name} (ho : k.isOpen = true) (hm : m.space ≠ nsCore) :
    childKind env k m = match env.load m.space with
      | some _ => (extElements.lookup m).map fun k' => (k', if k = .resources then Mult.asset else .free)
      | none => some (if k = .resources then .foreignAsset else .foreign, if k = .resources then .asset else .free) := by
  rw [childKind, if_pos ⟨ho, hm⟩]
  rfl

theorem childKind_openCore {env : Env} {k : Kind} {m : Name} (hm : m.space = nsCore) :
    childKind env k m = (elements k).lookup m := by
  rw [childKind, if_neg fun h => h.2 hm]

/-- The list of a model or mesh. -/
theorem child_any {loc : AnyLoc} {r : Regs} {m : Name} (hl : loc ≠ .asset) (hm : m.space ≠ nsCore) :
    child cfg r loc.parent m = some (match newAnyElement cfg.env loc m with
      | none => (r, none)
      | some (d, e) => (r.putAny loc e, some (-1, d))) := by
  cases loc with
  | asset => exact absurd rfl hl
  | modelAny => simp only [AnyLoc.parent, child, modelChild, if_neg hm]; rfl
  | meshAny => simp only [AnyLoc.parent, child, meshChild, if_neg hm]; rfl

/-- Nothing happens for elements that the extension does not know. -/
theorem any_skip {loc : AnyLoc} {r : Regs} {k : Kind} {m : Name} (hl : loc ≠ .asset) (ho : k.isOpen = true) (hm : m.space ≠ nsCore)
    (h : childKind cfg.env k m = none) : child cfg r loc.parent m = some (r, none) := by
  rw [childKind_open ho hm] at h
  cases hx : cfg.env.load m.space with
  | none => rw [hx] at h; exact absurd h (by simp)
  | some x =>
    rw [hx] at h
    simp only [Option.map_eq_none_iff] at h
    rw [child_any hl hm]
    simp [newAnyElement, hx, ext_unknown hx h]

/-- An element of any extension in a model or mesh. -/
theorem any_elem {loc : AnyLoc} {r : Regs} {k k' : Kind} {mu : Mult} {m : Name} {as : List Attr} {before c : List Node}
    (hk : kept → ∀ i t, cfg.mem i t = t) (hl : loc ≠ .asset) (hh : ∀ e, Holds loc r e) (ho : k.isOpen = true)
    (hr : k ≠ .resources) (hm : m.space ≠ nsCore)
    (hc : childKind cfg.env k m = some (k', mu)) (ha : AttrsFit cfg.env k' as) (hon : Once cfg.env k' c)
    (hok : ContentOk cfg.env kept k' m c) :
    ∃ e s b, anyOf cfg.env k (.elem m as c) = some e ∧
      Runs cfg loc.parent n r (Node.elem m as c).events (({ r with slice := s, beamSet := b } : Regs).putAny loc e)
        (nodeFaults cfg.env k before (.elem m as c)) := by
  have hc' := hc
  rw [childKind_open ho hm] at hc'
  cases hx : cfg.env.load m.space with
  | none =>
    rw [hx] at hc'
    simp only [if_neg hr] at hc'
    obtain ⟨rfl, rfl⟩ := Prod.mk.inj (Option.some.inj hc')
    have hleaf : ∀ m, childKind cfg.env .foreign m = none := childKind_leaf rfl rfl
    have hf : attrFaults cfg.env .foreign as = [] := beamSet_faults (by simp [attributes]) rfl rfl
    refine ⟨.tokens (Node.elem m as c).tokens, r.slice, r.beamSet, by rw [anyOf, hc], ?_⟩
    have hw := runs_keptAll (cfg := cfg) (kept := kept) (d := .unknown loc m) (n := m) (k := .foreign)
      (T := fun ts => r.putAny loc (.tokens ts)) rfl (fun _ h => Dec.noConfusion h) hk rfl
      (fun ts t => by simp only [Regs.addToken]; rw [modAny_put (hh _) (hh _)]) c [.start m as] (passed_of_ok hleaf c hok)
    have := runs_elem (cfg := cfg) (k := k) (k' := .foreign) (mu := .free) (d := loc.parent) (d' := .unknown loc m) (n := n) (r := r)
      (before := before) (i := -1) (r1 := r.putAny loc (.tokens [])) hc (parent_hasChild loc)
      (by rw [child_any hl hm]; simp [newAnyElement, hx]) rfl
      (by simp only [start]; rw [modAny_put (hh _) (hh _), hf]) (by rw [contentFaults_leaf hleaf]; exact hw)
    simp only [stop, Regs.addToken] at this
    rw [modAny_put (hh _) (hh _)] at this
    rw [Node.tokens]
    simpa using this
  | some x =>
    rw [hx] at hc'
    simp only [if_neg hr, Option.map_eq_some_iff, Prod.mk.injEq] at hc'
    obtain ⟨_, h1, rfl, rfl⟩ := hc'
    obtain ⟨kd, e0, of, h2, h3, h4, h5, -⟩ := ext_reads (kept := kept) loc hx h1
    obtain ⟨r2, r3, w1, w2, s, b, rfl⟩ := h4 r as c (hh _) ha hon hok
    refine ⟨of (as, c), s, b, ?_, ?_⟩
    · have h6 := h5 (as, c)
      rw [anyOf, hc]
      rename_i kk
      cases kk <;> first | exact h6 | (simp [extAny, extResOf] at h6)
    · have := runs_elem (cfg := cfg) (n := n) (before := before) (i := -1) (d' := .ext loc kd) (r := r) (r1 := r.putAny loc e0) (r2 := r2) (as := as) hc (parent_hasChild loc)
        (by rw [child_any hl hm]; simp only [newAnyElement, hx, h2, Option.map_some]) rfl
        (by simp only [start, w1]) w2
      have e : ∀ r, stop r (.ext loc kd) = r := by
        intro r
        cases kd <;> simp only [ExtDec.isTop, Bool.false_eq_true] at h3 <;> rfl
      rwa [e] at this

theorem anyOf_core {env : Env} {k : Kind} {m : Name} {as : List Attr} {c : List Node} {k' : Kind} {mu : Mult}
    (h : childKind env k m = some (k', mu)) (h1 : k' ≠ .foreign) (h2 : ∀ e, extAny k' e = none) :
    anyOf env k (.elem m as c) = none := by
  have := h2 (as, c)
  rw [anyOf, h]
  cases k' <;> first | exact this | exact absurd rfl h1 | (simp [extAny] at this)

theorem anyOf_ignored {env : Env} {k : Kind} {x : Node} (h : Ignored env k x) : anyOf env k x = none := by
  cases x with
  | elem m as c => rw [Ignored] at h; rw [anyOf, h]
  | text t => rfl
  | other => rfl

/-! ## Meshes -/

theorem mesh_children {env : Env} {m : Name} {k' : Kind} {mu : Mult} (hm : m.space = nsCore)
    (h : childKind env .mesh m = some (k', mu)) :
    (m = core b!"vertices" ∧ k' = .vertices ∧ mu = .single) ∨ (m = core b!"triangles" ∧ k' = .triangles ∧ mu = .single) := by
  rw [childKind_openCore hm, elements, nameLookup_if, nameLookup_if, List.lookup_nil] at h
  split at h
  · rename_i h1; obtain ⟨rfl, rfl⟩ := Prod.mk.inj (Option.some.inj h); exact Or.inl ⟨h1, rfl, rfl⟩
  · split at h
    · rename_i h1; obtain ⟨rfl, rfl⟩ := Prod.mk.inj (Option.some.inj h); exact Or.inr ⟨h1, rfl, rfl⟩
    · exact absurd h (by simp)

/-- The content of a mesh. -/
theorem mesh_runs {r : Regs} {as : List Attr} {c : List Node} (hk : kept → ∀ i t, cfg.mem i t = t)
    (h0 : r.obj.mesh = some (meshOf cfg.env r.obj.pid r.obj.pindex (as, [])))
    (hon : Once cfg.env .mesh c) (hok : ContentOk cfg.env kept .mesh n c) :
    ∃ s b, Runs cfg .mesh n r (treeEvents c)
      { r with slice := s, beamSet := b,
               obj := { r.obj with mesh := some (meshOf cfg.env r.obj.pid r.obj.pindex (as, c)) } }
      (contentFaults cfg.env .mesh [] c) := by
  have n1 : childKind cfg.env .mesh (core b!"vertices") = some (.vertices, .single) := by
    rw [childKind_openCore rfl]; decide +kernel
  have n2 : childKind cfg.env .mesh (core b!"triangles") = some (.triangles, .single) := by
    rw [childKind_openCore rfl]; decide +kernel
  have hne : core b!"vertices" ≠ core b!"triangles" := by decide +kernel
  have hloc : (b!"triangles" : Str) ≠ b!"vertices" := by decide +kernel
  obtain ⟨r', w, s, b, rfl⟩ := runs_content (cfg := cfg) (kept := kept) (k := .mesh) (d := .mesh) (n := n)
    (I := fun q x => ∃ s b, x = ({ r with slice := s, beamSet := b, obj := { r.obj with
      mesh := some (meshOf cfg.env r.obj.pid r.obj.pindex (as, q)) } } : Regs)) (by decide)
    (by
      rintro q _ ⟨s, b, rfl⟩
      refine quiet_core rfl fun _ m hm => ?_
      by_cases hs : m.space = nsCore
      · have h1 : m ≠ core b!"vertices" := by rintro rfl; rw [n1] at hm; simp at hm
        have h2 : m ≠ core b!"triangles" := by rintro rfl; rw [n2] at hm; simp at hm
        have h1' : m.loc ≠ b!"vertices" := fun h => h1 (Name.eq_iff.2 ⟨hs, h⟩)
        have h2' : m.loc ≠ b!"triangles" := fun h => h2 (Name.eq_iff.2 ⟨hs, h⟩)
        simp only [child, meshChild, if_pos hs, if_neg h1', if_neg h2']
      · exact any_skip (loc := .meshAny) (by decide) rfl hs hm)
    (by
      rintro q x _ ⟨s, b, rfl⟩ hx
      refine ⟨s, b, ?_⟩
      simp only [meshOf]
      rw [child?_ignored hx (by rw [n1]; simp), child?_ignored hx (by rw [n2]; simp), List.filterMap_append]
      simp [anyOf_ignored hx])
    (by
      rintro q m as' c k' mu _ ⟨s, b, rfl⟩ hm _ ha hon hok hs
      by_cases hsp : m.space = nsCore
      · rcases mesh_children hsp hm with ⟨rfl, rfl, rfl⟩ | ⟨rfl, rfl, rfl⟩
        · have hb := hs rfl
          have hv := vertices_runs (cfg := cfg) (kept := kept) (n := core b!"vertices") (c := c)
            (r := { r with slice := s, beamSet := b, obj := { r.obj with mesh := some ({ meshOf cfg.env r.obj.pid r.obj.pindex (as, q) with verticesAttr := groupsOf cfg.env .vertices as' } : Mesh) } })
            rfl (by simp only [meshOf, child?_none hb]) hon hok
          refine ⟨_, runs_elem (i := -1) (d' := .vertices) (r1 := { r with slice := s, beamSet := b, obj := { r.obj with
            mesh := some (meshOf cfg.env r.obj.pid r.obj.pindex (as, q)) } }) hm rfl ?_ rfl ?_ hv, s, b, ?_⟩
          · simp only [child, meshChild, core, if_true]
          · simp only [start, Option.getD_some]
            have e : (meshOf cfg.env r.obj.pid r.obj.pindex (as, q)).verticesAttr = [] := by simp only [meshOf, child?_none hb]
            rw [e, groups_all rfl rfl ha]
            rfl
          · simp only [stop, meshOf, child?_one hb, child?_ne hne, List.filterMap_append]
            simp [anyOf_core hm (by decide) (fun _ => rfl)]
        · have hb := hs rfl
          have hv := triangles_runs (cfg := cfg) (kept := kept) (n := core b!"triangles") (c := c)
            (r := { r with slice := s, beamSet := b, obj := { r.obj with mesh := some ({ meshOf cfg.env r.obj.pid r.obj.pindex (as, q) with trianglesAttr := groupsOf cfg.env .triangles as' } : Mesh) } })
            rfl (by simp only [meshOf, child?_none hb]) hon hok
          refine ⟨_, runs_elem (i := -1) (d' := .triangles) (r1 := { r with slice := s, beamSet := b, obj := { r.obj with
            mesh := some (meshOf cfg.env r.obj.pid r.obj.pindex (as, q)) } }) hm rfl ?_ rfl ?_ hv, s, b, ?_⟩
          · simp only [child, meshChild, core, if_true, if_neg hloc]
          · simp only [start, Option.getD_some]
            have e : (meshOf cfg.env r.obj.pid r.obj.pindex (as, q)).trianglesAttr = [] := by simp only [meshOf, child?_none hb]
            rw [e, groups_all rfl rfl ha]
            rfl
          · simp only [stop, meshOf, child?_one hb, child?_ne (Ne.symm hne), List.filterMap_append]
            simp [anyOf_core hm (by decide) (fun _ => rfl)]
      · obtain ⟨e, s', b', h1, h2⟩ := any_elem (cfg := cfg) (kept := kept) (n := n) (loc := .meshAny)
          (r := { r with slice := s, beamSet := b, obj := { r.obj with
          mesh := some (meshOf cfg.env r.obj.pid r.obj.pindex (as, q)) } }) (before := q) hk (by decide) (fun _ => rfl) rfl (by decide) hsp hm ha hon hok
        refine ⟨_, h2, s', b', ?_⟩
        have e1 : m ≠ core b!"vertices" := by rintro rfl; exact hsp rfl
        have e2 : m ≠ core b!"triangles" := by rintro rfl; exact hsp rfl
        simp only [Regs.putAny, Object.modMesh, Option.map_some, meshOf, child?_ne e1, child?_ne e2, List.filterMap_append]
        simp [h1])
    c [] r hok (by simpa using hon) ⟨r.slice, r.beamSet, by rw [← h0]⟩
  exact ⟨s, b, by simpa using w⟩

/-! ## Metadata -/

theorem docText_none : ∀ c : List Node, texts c = 0 → docText c = []
  | [], _ => rfl
  | .elem m as c :: xs, h => by
    have : texts xs = 0 := by simpa [texts] using h
    simpa [docText] using docText_none xs this
  | .text t :: xs, h => by simp [texts] at h
  | .other :: xs, h => by
    have : texts xs = 0 := by simpa [texts] using h
    simpa [docText] using docText_none xs this

theorem metadata_text {l : Option MetaLoc} : ∀ (c : List Node) (r : Regs), texts c ≤ 1 → ContentOk cfg.env kept .metadata n c →
    Runs cfg (.metadata l) n r (treeEvents c)
      { r with md := { r.md with value := if texts c = 0 then r.md.value else docText c } } []
  | [], r, _, _ => by rw [treeEvents]; exact Runs.nil
  | .elem m as c :: xs, r, h, hok => by
    rw [ContentOk, NodeOk, childKind_leaf rfl rfl] at hok
    exact absurd rfl hok.1.1
  | .text t :: xs, r, h, hok => by
    rw [ContentOk] at hok
    have e1 : texts (.text t :: xs) = texts xs + 1 := by simp [texts]
    have e2 : texts xs = 0 := by omega
    have e3 : docText (.text t :: xs) = t := by
      have := docText_none xs e2
      simp only [docText] at this ⊢
      simp [this]
    have h1 : Runs cfg (.metadata l) n r [some (.chars t)] { r with md := { r.md with value := t } } [] :=
      Runs.single fun i idx st E => rfl
    have h2 := metadata_text (l := l) xs { r with md := { r.md with value := t } } (by omega) hok.2
    rw [treeEvents, Node.events, e3, if_neg (by omega)]
    have := h1.append h2
    rw [e2, if_pos rfl] at this
    simpa using this
  | .other :: xs, r, h, hok => by
    rw [ContentOk] at hok
    have e1 : texts (.other :: xs) = texts xs := by simp [texts]
    have e2 : docText (.other :: xs) = docText xs := by simp [docText]
    have h2 := metadata_text (l := l) xs r (by omega) hok.2
    rw [treeEvents, Node.events, e1, e2]
    simpa using (runs_other (cfg := cfg) (d := .metadata l) (n := n) (r := r)).append h2

theorem metadata_runs {l : Option MetaLoc} {r : Regs} {exts : List Extension} {as : List Attr} {c : List Node} (h0 : r.md = metadataOf exts (as, []))
    (hon : Once cfg.env .metadata c) (hok : ContentOk cfg.env kept .metadata n c) :
    Runs cfg (.metadata l) n r (treeEvents c) { r with md := metadataOf exts (as, c) } (contentFaults cfg.env .metadata [] c) := by
  have := metadata_text (l := l) c r (hon.2 rfl) hok
  rw [contentFaults_leaf (childKind_leaf rfl rfl)]
  have e : (if texts c = 0 then r.md.value else docText c) = docText c := by
    split
    · rename_i h; rw [docText_none c h, h0]; rfl
    · rfl
  rw [e, h0] at this
  exact this

theorem metadata_faults (as : List Attr) : attrFaults cfg.env .metadata as = [] :=
  beamSet_faults (by simp [attributes]) rfl rfl

theorem metadataGroup_runs {loc : MetaLoc} {r : Regs} {g : AnyAttr} {c : List Node} (h0 : r.getMeta loc = ⟨[], g⟩)
    (hon : Once cfg.env .metadataGroup c) (hok : ContentOk cfg.env kept .metadataGroup n c) :
    ∃ md, Runs cfg (.metadataGroup loc) n r (treeEvents c)
      { r.modMeta (fun _ => ⟨(children (core b!"metadata") c).map (metadataOf r.model.extensions), g⟩) loc with md := md }
      (contentFaults cfg.env .metadataGroup [] c) := by
  have hck := childKind_one (env := cfg.env) (k := .metadataGroup) rfl rfl
  obtain ⟨r', w, md, rfl⟩ := runs_list (cfg := cfg) (kept := kept) (k := .metadataGroup) (ck := .metadata) (d := .metadataGroup loc)
    (n := n) (cn := core b!"metadata") (c := c) (r := r)
    (I := fun xs x => ∃ md, x = ({ r.modMeta (fun _ => ⟨xs.map (metadataOf r.model.extensions), g⟩) loc with md := md } : Regs))
    (by decide) rfl rfl rfl
    (by
      rintro xs _ ⟨md, rfl⟩
      refine quiet_core rfl fun _ m hm => ?_
      have : m ≠ ⟨nsCore, b!"metadata"⟩ := by
        rintro rfl
        rw [hck] at hm
        exact absurd hm (by simp [core])
      simp only [child, onlyChild, if_neg this])
    (by
      rintro xs _ as c ⟨md, rfl⟩ ha hon hok
      refine ⟨{ r.modMeta (fun _ => ⟨xs.map (metadataOf r.model.extensions), g⟩) loc with md := .zero }, .metadata (some loc),
        { r.modMeta (fun _ => ⟨xs.map (metadataOf r.model.extensions), g⟩) loc with md := metadataOf r.model.extensions (as, []) },
        _, ?_, ?_, metadata_runs (as := as) (exts := r.model.extensions) rfl hon hok, metadataOf r.model.extensions (as, c), ?_⟩
      · cases loc <;> simp only [child, onlyChild, core, if_true, Regs.modMeta, Regs.getMeta, List.length_map]
      · cases loc <;> simp only [start, Regs.modMeta, metadata_start ha.distinct, metadata_faults]
      · cases loc <;> simp only [stop, Regs.modMeta, List.map_append, List.map_cons, List.map_nil])
    hok hon ⟨r.md, by cases loc <;> simp only [Regs.modMeta, List.map_nil, ← h0, Regs.getMeta]⟩
  exact ⟨md, w⟩

/-- A metadata group in an item or object. -/
theorem metadataGroup_elem {loc : MetaLoc} {k : Kind} {d : Dec} {r : Regs} {as : List Attr} {c before : List Node}
    (hk : childKind cfg.env k (core b!"metadatagroup") = some (.metadataGroup, .single)) (hd : d.hasChild = true)
    (hch : child cfg r d (core b!"metadatagroup") = some (r, some (-1, .metadataGroup loc)))
    (h0 : r.getMeta loc = ⟨[], []⟩) (ha : AttrsFit cfg.env .metadataGroup as)
    (hon : Once cfg.env .metadataGroup c) (hok : ContentOk cfg.env kept .metadataGroup (core b!"metadatagroup") c) :
    ∃ md, Runs cfg d n r (Node.elem (core b!"metadatagroup") as c).events
      { r.modMeta (fun _ => metadataGroupOf cfg.env r.model.extensions (some (as, c))) loc with md := md }
      (nodeFaults cfg.env k before (.elem (core b!"metadatagroup") as c)) := by
  obtain ⟨md, w⟩ := metadataGroup_runs (cfg := cfg) (kept := kept) (n := core b!"metadatagroup") (loc := loc)
    (r := r.modMeta (fun _ => ⟨[], groupsOf cfg.env .metadataGroup as⟩) loc) (g := groupsOf cfg.env .metadataGroup as) (c := c)
    (by cases loc <;> rfl) hon hok
  refine ⟨md, ?_⟩
  have := runs_elem (n := n) (before := before) (as := as) hk hd hch rfl (by
    simp only [start, h0]
    rw [groups_all rfl rfl ha]
    have : r.modMeta (fun m => ({ m with anyAttr := groupsOf cfg.env .metadataGroup as } : MetadataGroup)) loc =
        r.modMeta (fun _ => ⟨[], groupsOf cfg.env .metadataGroup as⟩) loc := by
      cases loc <;> simp only [Regs.modMeta, Regs.getMeta] at h0 ⊢ <;> rw [h0]
    rw [Option.map_some, this]) w
  cases loc <;> exact this

/-! ## Items and objects -/

theorem item_runs {r : Regs} {as : List Attr} {c : List Node} (h0 : r.item = itemOf cfg.env r.model.extensions (as, []))
    (hon : Once cfg.env .item c) (hok : ContentOk cfg.env kept .item n c) :
    ∃ md, Runs cfg .item n r (treeEvents c) { r with md := md, item := itemOf cfg.env r.model.extensions (as, c) }
      (contentFaults cfg.env .item [] c) := by
  have hck := childKind_one (env := cfg.env) (k := .item) rfl rfl
  obtain ⟨r', w, md, rfl⟩ := runs_content (cfg := cfg) (kept := kept) (k := .item) (d := .item) (n := n)
    (I := fun q x => ∃ md, x = ({ r with md := md, item := itemOf cfg.env r.model.extensions (as, q) } : Regs)) (by decide)
    (by
      rintro q _ ⟨md, rfl⟩
      refine quiet_core rfl fun _ m hm => ?_
      have : m ≠ ⟨nsCore, b!"metadatagroup"⟩ := by
        rintro rfl
        rw [hck] at hm
        exact absurd hm (by simp [core])
      simp only [child, onlyChild, if_neg this])
    (by
      rintro q x _ ⟨md, rfl⟩ hx
      refine ⟨md, ?_⟩
      simp only [itemOf]
      rw [child?_ignored hx (by rw [hck]; simp)])
    (by
      rintro q m as' c k' mu _ ⟨md, rfl⟩ hm _ ha hon hok hs
      have hm' := hm
      rw [hck] at hm'
      by_cases h1 : m = core b!"metadatagroup"
      · rw [if_pos h1] at hm'
        obtain ⟨rfl, rfl⟩ := Prod.mk.inj (Option.some.inj hm')
        subst h1
        have hb := hs rfl
        obtain ⟨md', w'⟩ := metadataGroup_elem (cfg := cfg) (kept := kept) (n := n) (loc := .item) (k := .item) (d := .item) (before := q)
          (r := { r with md := md, item := itemOf cfg.env r.model.extensions (as, q) }) (as := as') (c := c) hm rfl
          (by simp only [child, onlyChild, core, if_true])
          (by simp only [Regs.getMeta, itemOf, child?_none hb, metadataGroupOf]) ha hon hok
        refine ⟨_, w', md', ?_⟩
        simp only [Regs.modMeta, itemOf, child?_one hb]
      · rw [if_neg h1] at hm'; simp at hm')
    c [] r hok (by simpa using hon) ⟨r.md, by rw [← h0]⟩
  exact ⟨md, by simpa using w⟩

theorem object_runs {r : Regs} {as : List Attr} {c : List Node} (hk : kept → ∀ i t, cfg.mem i t = t)
    (h0 : r.obj = objectOf cfg.env r.model.extensions (as, []))
    (hon : Once cfg.env .object c) (hok : ContentOk cfg.env kept .object n c) :
    ∃ md s b, Runs cfg .object n r (treeEvents c)
      { r with md := md, slice := s, beamSet := b, obj := objectOf cfg.env r.model.extensions (as, c) }
      (contentFaults cfg.env .object [] c) := by
  have hck : ∀ m, childKind cfg.env .object m = if m = core b!"mesh" then some (.mesh, .single) else
      if m = core b!"components" then some (.components, .single) else
      if m = core b!"metadatagroup" then some (.metadataGroup, .single) else none := by
    intro m
    rw [childKind_closed rfl, elements, nameLookup_if, nameLookup_if, nameLookup_if]
    rfl
  have n1 : childKind cfg.env .object (core b!"mesh") = some (.mesh, .single) := by rw [hck, if_pos rfl]
  have n2 : childKind cfg.env .object (core b!"components") = some (.components, .single) := by
    rw [childKind_closed rfl]; decide +kernel
  have n3 : childKind cfg.env .object (core b!"metadatagroup") = some (.metadataGroup, .single) := by
    rw [childKind_closed rfl]; decide +kernel
  have e12 : core b!"components" ≠ core b!"mesh" := by decide +kernel
  have e13 : core b!"metadatagroup" ≠ core b!"mesh" := by decide +kernel
  have e23 : core b!"metadatagroup" ≠ core b!"components" := by decide +kernel
  obtain ⟨r', w, md, s, b, rfl⟩ := runs_content (cfg := cfg) (kept := kept) (k := .object) (d := .object) (n := n)
    (I := fun q x => ∃ md s b, x = ({ r with md := md, slice := s, beamSet := b, obj := objectOf cfg.env r.model.extensions (as, q) } : Regs))
    (by decide)
    (by
      rintro q _ ⟨md, s, b, rfl⟩
      refine quiet_core rfl fun _ m hm => ?_
      have h1 : m ≠ ⟨nsCore, b!"mesh"⟩ := fun h => by
        have : m = core b!"mesh" := h
        rw [this, n1] at hm; simp at hm
      have h2 : m ≠ ⟨nsCore, b!"components"⟩ := fun h => by
        have : m = core b!"components" := h
        rw [this, n2] at hm; simp at hm
      have h3 : m ≠ ⟨nsCore, b!"metadatagroup"⟩ := fun h => by
        have : m = core b!"metadatagroup" := h
        rw [this, n3] at hm; simp at hm
      simp only [child, if_neg h1, if_neg h2, if_neg h3])
    (by
      rintro q x _ ⟨md, s, b, rfl⟩ hx
      refine ⟨md, s, b, ?_⟩
      simp only [objectOf]
      have e1 : childKind cfg.env .object (core b!"mesh") ≠ none := by rw [n1]; simp
      have e2 : childKind cfg.env .object (core b!"components") ≠ none := by rw [n2]; simp
      have e3 : childKind cfg.env .object (core b!"metadatagroup") ≠ none := by rw [n3]; simp
      rw [child?_ignored hx e1, child?_ignored hx e2, child?_ignored hx e3])
    (by
      rintro q m as' c k' mu _ ⟨md, s, b, rfl⟩ hm _ ha hon hok hs
      have hm' := hm
      rw [hck] at hm'
      by_cases h1 : m = core b!"mesh"
      · rw [if_pos h1] at hm'
        obtain ⟨rfl, rfl⟩ := Prod.mk.inj (Option.some.inj hm')
        subst h1
        have hb := hs rfl
        obtain ⟨s', b', w'⟩ := mesh_runs (cfg := cfg) (kept := kept) (n := core b!"mesh") (c := c) (as := as')
          (r := { r with md := md, slice := s, beamSet := b, obj :=
            { objectOf cfg.env r.model.extensions (as, q) with
              mesh := some (meshOf cfg.env (uintAt as b!"pid") (uintAt as b!"pindex") (as', [])) } }) hk rfl hon hok
        refine ⟨_, runs_elem (i := -1) (d' := .mesh)
          (r1 := { r with md := md, slice := s, beamSet := b, obj := objectOf cfg.env r.model.extensions (as, q) }) hm rfl ?_ rfl ?_ w', md, s', b', ?_⟩
        · simp only [child, core, if_true]
        · simp only [start]
          rw [groups_all rfl rfl ha]
          rfl
        · simp only [stop, objectOf, child?_one hb, child?_ne (Ne.symm e12), child?_ne (Ne.symm e13), Option.map_some]
      · rw [if_neg h1] at hm'
        by_cases h2 : m = core b!"components"
        · rw [if_pos h2] at hm'
          obtain ⟨rfl, rfl⟩ := Prod.mk.inj (Option.some.inj hm')
          subst h2
          have hb := hs rfl
          have h1' : (⟨nsCore, b!"components"⟩ : Name) ≠ ⟨nsCore, b!"mesh"⟩ := h1
          have w' := components_runs (cfg := cfg) (kept := kept) (n := core b!"components") (c := c) (g := groupsOf cfg.env .components as')
            (r := { r with md := md, slice := s, beamSet := b, obj :=
              { objectOf cfg.env r.model.extensions (as, q) with
                components := some ⟨[], groupsOf cfg.env .components as'⟩ } }) rfl hon hok
          refine ⟨_, runs_elem (i := -1) (d' := .components)
          (r1 := { r with md := md, slice := s, beamSet := b, obj := objectOf cfg.env r.model.extensions (as, q) }) hm rfl ?_ rfl ?_ w', md, s, b, ?_⟩
          · simp only [child, core, if_true, if_neg h1']
          · simp only [start]
            rw [groups_all rfl rfl ha]
            rfl
          · simp only [stop, objectOf, child?_one hb, child?_ne e12, child?_ne (Ne.symm e23), Option.map_some, componentsOf]
        · rw [if_neg h2] at hm'
          by_cases h3 : m = core b!"metadatagroup"
          · rw [if_pos h3] at hm'
            obtain ⟨rfl, rfl⟩ := Prod.mk.inj (Option.some.inj hm')
            subst h3
            have hb := hs rfl
            have h1' : (⟨nsCore, b!"metadatagroup"⟩ : Name) ≠ ⟨nsCore, b!"mesh"⟩ := h1
            have h2' : (⟨nsCore, b!"metadatagroup"⟩ : Name) ≠ ⟨nsCore, b!"components"⟩ := h2
            obtain ⟨md', w'⟩ := metadataGroup_elem (cfg := cfg) (kept := kept) (n := n) (loc := .object) (k := .object) (d := .object)
              (before := q) (r := { r with md := md, slice := s, beamSet := b, obj := objectOf cfg.env r.model.extensions (as, q) })
              (as := as') (c := c) hm rfl
              (by simp only [child, core, if_true, if_neg h1', if_neg h2'])
              (by simp only [Regs.getMeta, objectOf, child?_none hb, metadataGroupOf]) ha hon hok
            refine ⟨_, w', md', s, b, ?_⟩
            simp only [Regs.modMeta, objectOf, child?_one hb, child?_ne e13, child?_ne e23]
          · rw [if_neg h3] at hm'; simp at hm')
    c [] r hok (by simpa using hon) ⟨r.md, r.slice, r.beamSet, by rw [← h0]⟩
  exact ⟨md, s, b, by simpa using w⟩

end

end Go3mf
