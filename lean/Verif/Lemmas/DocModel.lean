import Verif.Lemmas.DocObject

/-!
# Resources, build and model in a document
-/

namespace Go3mf
open Spec

section
variable {cfg : DecCfg} {kept : Prop} {n : Name}

/-! ## Build -/

theorem build_runs {r : Regs} {g : AnyAttr} {c : List Node} (h0 : r.model.build = ⟨[], g⟩)
    (hon : Once cfg.env .build c) (hok : ContentOk cfg.env kept .build n c) :
    ∃ r', Runs cfg .build n r (treeEvents c) r' (contentFaults cfg.env .build [] c) ∧ r'.res = r.res ∧
      r'.model = { r.model with build := ⟨(children (core b!"item") c).map (itemOf cfg.env r.model.extensions), g⟩ } := by
  have hck := childKind_one (env := cfg.env) (k := .build) rfl rfl
  refine runs_list (cfg := cfg) (kept := kept) (k := .build) (ck := .item) (d := .build) (n := n) (cn := core b!"item") (c := c)
    (r := r) (I := fun xs x => x.res = r.res ∧
      x.model = { r.model with build := ⟨xs.map (itemOf cfg.env r.model.extensions), g⟩ }) (by decide) rfl rfl rfl ?_ ?_ hok hon
    ⟨rfl, by simp only [List.map_nil, ← h0]⟩
  · rintro xs x ⟨-, -⟩
    refine quiet_core rfl fun _ m hm => ?_
    have : m ≠ ⟨nsCore, b!"item"⟩ := by
      rintro rfl
      rw [hck] at hm
      exact absurd hm (by simp [core])
    simp only [child, onlyChild, if_neg this]
  · rintro xs x as c ⟨e1, e2⟩ ha hon hok
    have e3 : x.model.extensions = r.model.extensions := by rw [e2]
    obtain ⟨md, w⟩ := item_runs (cfg := cfg) (kept := kept) (n := core b!"item") (c := c) (as := as)
      (r := { x with item := itemOf cfg.env x.model.extensions (as, []) }) rfl hon hok
    refine ⟨{ x with item := .zero }, .item, _, _, ?_, ?_, w, e1, ?_⟩
    · simp only [child, onlyChild, core, if_true, e2, List.length_map]
    · simp only [start, item_start x.model.extensions ha, Option.map_some]
    · simp only [stop, e3, e2, List.map_append, List.map_cons, List.map_nil]

/-! ## Resources -/

theorem foreignAsset_start {r : Regs} {m : Name} {as : List Attr} (h : AttrsFit cfg.env .foreignAsset as) (hu : r.unk = [])
    (hi : r.unkID = 0) : start cfg r (.unknownAsset m) as =
      some ({ r with unk := [.start m as], unkID := uintAt as b!"id" }, attrFaults cfg.env .foreignAsset as) := by
  rw [first_faults (l := b!"id") rfl rfl rfl h.distinct]
  rcases firstID_cases as with ⟨e1, e2⟩ | ⟨a, e1, e2, e3⟩
  · simp [start, e1, e2, uintAt, hu, ← hi]
  · simp [start, e1, e3, uintAt, hu, uintAttr_val, uint_faults, e2]

/-- How the assets are counted. -/
def isAsset (env : Env) : Node → Bool
  | .elem m _ _ => (childKind env .resources m).any (·.2 = .asset)
  | _ => false

theorem indexOf_asset {env : Env} {q : List Node} {m : Name} : indexOf env .resources q m .asset = (q.filter (isAsset env)).length := by
  rw [indexOf]
  congr 2

theorem resources_children {env : Env} {m : Name} {k' : Kind} {mu : Mult} (hm : m.space = nsCore)
    (h : childKind env .resources m = some (k', mu)) :
    (m = core b!"object" ∧ k' = .object ∧ mu = .many) ∨ (m = core b!"basematerials" ∧ k' = .baseMaterials ∧ mu = .asset) := by
  rw [childKind_openCore hm, elements, nameLookup_if, nameLookup_if, List.lookup_nil] at h
  split at h
  · rename_i h1; obtain ⟨rfl, rfl⟩ := Prod.mk.inj (Option.some.inj h); exact Or.inl ⟨h1, rfl, rfl⟩
  · split at h
    · rename_i h1; obtain ⟨rfl, rfl⟩ := Prod.mk.inj (Option.some.inj h); exact Or.inr ⟨h1, rfl, rfl⟩
    · exact absurd h (by simp)

theorem assetOf_ignored {env : Env} {x : Node} (h : Ignored env .resources x) : assetOf env x = none ∧ isAsset env x = false := by
  cases x with
  | elem m as c => rw [Ignored] at h; rw [assetOf, isAsset, h]; exact ⟨rfl, rfl⟩
  | text t => exact ⟨rfl, rfl⟩
  | other => exact ⟨rfl, rfl⟩

/-- The state after some of the content of the resources. -/
def AtResources (env : Env) (exts : List Extension) (m : Model) (g : AnyAttr) (q : List Node) (x : Regs) : Prop :=
  x.model = m ∧ m.extensions = exts ∧ (q.filter (isAsset env)).length = (q.filterMap (assetOf env)).length ∧
    x.res = some ⟨q.filterMap (assetOf env), (children (core b!"object") q).map (objectOf env exts), g⟩

theorem AtResources.asset {env : Env} {exts : List Extension} {m : Model} {g : AnyAttr} {q : List Node} {x x' : Regs}
    (h : AtResources env exts m g q x) {y : Name} {as : List Attr} {c : List Node} {a : Asset} (h1 : assetOf env (.elem y as c) = some a)
    (h2 : isAsset env (.elem y as c) = true) (h3 : y ≠ core b!"object") (h4 : x'.model = x.model)
    (h5 : x'.res = x.res.map fun rs => { rs with assets := rs.assets ++ [a] }) :
    AtResources env exts m g (q ++ [.elem y as c]) x' := by
  obtain ⟨e1, e2, e3, e4⟩ := h
  refine ⟨h4.trans e1, e2, ?_, ?_⟩
  · rw [List.filter_append, List.filterMap_append, List.length_append, List.length_append, e3]
    simp [h1, h2]
  · rw [h5, e4, children_ne h3, List.filterMap_append]
    simp [h1]

/-- The content of the resources. -/
theorem resources_runs {r : Regs} {g : AnyAttr} {c : List Node} (hk : kept → ∀ i t, cfg.mem i t = t) (h0 : r.res = some ⟨[], [], g⟩)
    (hon : Once cfg.env .resources c) (hok : ContentOk cfg.env kept .resources n c) :
    ∃ r', Runs cfg .resources n r (treeEvents c) r' (contentFaults cfg.env .resources [] c) ∧ r'.model = r.model ∧
      r'.res = some ⟨c.filterMap (assetOf cfg.env), (children (core b!"object") c).map (objectOf cfg.env r.model.extensions), g⟩ := by
  have n1 : childKind cfg.env .resources (core b!"object") = some (.object, .many) := by
    rw [childKind_openCore rfl]; decide +kernel
  have n2 : childKind cfg.env .resources (core b!"basematerials") = some (.baseMaterials, .asset) := by
    rw [childKind_openCore rfl]; decide +kernel
  have hob : (b!"basematerials" : Str) ≠ b!"object" := by decide +kernel
  obtain ⟨r', w, e⟩ := runs_content (cfg := cfg) (kept := kept) (k := .resources) (d := .resources) (n := n)
    (I := AtResources cfg.env r.model.extensions r.model g) (by decide)
    (by
      rintro q x ⟨-, -, -, e4⟩
      refine quiet_core rfl fun _ m hm => ?_
      by_cases hs : m.space = nsCore
      · have h1 : m.loc ≠ b!"object" := fun h => by
          have : m = core b!"object" := Name.eq_iff.2 ⟨hs, h⟩
          rw [this, n1] at hm; simp at hm
        have h2 : m.loc ≠ b!"basematerials" := fun h => by
          have : m = core b!"basematerials" := Name.eq_iff.2 ⟨hs, h⟩
          rw [this, n2] at hm; simp at hm
        simp only [child, resourcesChild, if_pos (show m.space = nsCore ∧ m.loc ≠ b!"object" ∧ m.loc ≠ b!"basematerials" from ⟨hs, h1, h2⟩)]
      · rw [childKind_open rfl hs] at hm
        cases hx : cfg.env.load m.space with
        | none => rw [hx] at hm; exact absurd hm (by simp)
        | some y =>
          rw [hx] at hm
          simp only [Option.map_eq_none_iff] at hm
          simp only [child, resourcesChild, if_neg (fun h : m.space = nsCore ∧ _ => hs h.1), e4, if_neg hs, newAnyElement, hx,
            ext_unknown hx hm, Option.map_none])
    (by
      rintro q x y ⟨e1, e2, e3, e4⟩ hx
      obtain ⟨a1, a2⟩ := assetOf_ignored hx
      refine ⟨e1, e2, ?_, ?_⟩
      · rw [List.filter_append, List.filterMap_append, List.length_append, List.length_append, e3]
        simp [a1, a2]
      · rw [e4, children_ignored hx (by rw [n1]; simp), List.filterMap_append]
        simp [a1])
    (by
      rintro q m as c k' mu x hI hm hbl ha hon hok hs
      have hI' := hI
      obtain ⟨e1, e2, e3, e4⟩ := hI'
      by_cases hsp : m.space = nsCore
      · rcases resources_children hsp hm with ⟨rfl, rfl, rfl⟩ | ⟨rfl, rfl, rfl⟩
        · obtain ⟨md, s, b, w'⟩ := object_runs (cfg := cfg) (kept := kept) (n := core b!"object") (c := c) (as := as)
            (r := { x with obj := objectOf cfg.env x.model.extensions (as, []) }) hk rfl hon hok
          refine ⟨_, runs_elem (i := ((children (core b!"object") q).length : Int)) (d' := .object) (r1 := { x with obj := .zero })
            hm rfl ?_ rfl ?_ w', e1, e2, ?_, ?_⟩
          · simp only [child, resourcesChild, core, e4, if_true, List.length_map]
            simp
          · simp only [start, object_start x.model.extensions ha, Option.map_some]
          · rw [List.filter_append, List.filterMap_append, List.length_append, List.length_append, e3]
            simp [assetOf, isAsset, hm, extResOf]
          · simp only [stop, e4, Option.map_some, children_same, List.map_append, List.map_cons, List.map_nil,
              List.filterMap_append, e1]
            simp [assetOf, hm, extResOf]
        · have w' := baseMaterials_runs (cfg := cfg) (kept := kept) (n := core b!"basematerials") (c := c) (as := as)
            (r := { x with base := baseMaterialsOf cfg.env (as, []) }) rfl hon hok
          refine ⟨_, runs_elem (i := ((q.filter (isAsset cfg.env)).length : Int)) (d' := .baseMaterials) (r1 := { x with base := .zero })
            hm rfl ?_ indexOf_asset.symm ?_ w', hI.asset (a := .base (baseMaterialsOf cfg.env (as, c))) ?_ ?_ ?_ rfl rfl⟩
          · rw [e3]
            simp only [child, resourcesChild, core, e4, if_true, if_neg hob]
            simp
          · simp only [start, baseMaterials_start ha, Option.map_some]
          · rw [assetOf, hm]
          · simp [isAsset, hm]
          · decide +kernel
      · have hm' := hm
        have hno : m ≠ core b!"object" := by rintro rfl; exact hsp rfl
        rw [childKind_open rfl hsp] at hm'
        have hcond : ¬ (m.space = nsCore ∧ m.loc ≠ b!"object" ∧ m.loc ≠ b!"basematerials") := fun h => hsp h.1
        cases hx : cfg.env.load m.space with
        | none =>
          rw [hx] at hm'
          simp only [if_true] at hm'
          obtain ⟨rfl, rfl⟩ := Prod.mk.inj (Option.some.inj hm')
          have hleaf : ∀ m, childKind cfg.env .foreignAsset m = none := childKind_leaf rfl rfl
          have hw := runs_keptAll (cfg := cfg) (kept := kept) (d := .unknownAsset m) (n := m) (k := .foreignAsset)
            (T := fun ts => ({ x with unk := ts, unkID := uintAt as b!"id" } : Regs)) rfl (fun _ h => Dec.noConfusion h) hk rfl
            (fun ts t => rfl) c [.start m as] (passed_of_ok hleaf c hok)
          refine ⟨_, runs_elem (i := ((q.filter (isAsset cfg.env)).length : Int)) (d' := .unknownAsset m)
            (r1 := { x with unk := [], unkID := 0 })
            (r3 := { x with unk := [.start m as] ++ tokensOf c, unkID := uintAt as b!"id" }) hm rfl ?_ indexOf_asset.symm (foreignAsset_start ha rfl rfl)
            (by rw [contentFaults_leaf hleaf]; exact hw),
            hI.asset (a := .unknown (uintAt as b!"id") (Node.elem m as c).tokens) ?_ ?_ hno rfl ?_⟩
          · rw [e3]
            simp only [child, resourcesChild, if_neg hcond, e4, if_neg hsp, newAnyElement, hx]
          · rw [assetOf, hm]
          · simp [isAsset, hm]
          · simp [stop, Node.tokens]
        | some y =>
          rw [hx] at hm'
          simp only [if_true, Option.map_eq_some_iff, Prod.mk.injEq] at hm'
          obtain ⟨_, h1, rfl, rfl⟩ := hm'
          rename_i kk
          obtain ⟨kd, e0, of, h2, h3, h4, h5, h6⟩ := ext_reads (cfg := cfg) (kept := kept) .asset hx h1
          obtain ⟨⟨y0, rfl⟩, gg, h7, h8⟩ := h6 (fun e => hbl ⟨rfl, e⟩)
          obtain ⟨r2, r3, w1, w2, s, b, rfl⟩ := h4 x as c ⟨by rw [e4]; rfl, y0, rfl⟩ ha hon hok
          refine ⟨_, runs_elem (i := ((q.filter (isAsset cfg.env)).length : Int)) (d' := .ext .asset kd)
            (r1 := x.putAny .asset (.res y0)) (r2 := r2) hm rfl ?_ indexOf_asset.symm (by simp only [start, w1]) w2,
            hI.asset (a := .res (gg (as, c))) ?_ ?_ hno ?_ ?_⟩
          · rw [e3]
            simp only [child, resourcesChild, if_neg hcond, e4, if_neg hsp, newAnyElement, hx, h2, Option.map_some, Regs.putAny]
          · have h9 := h8 (as, c)
            rw [assetOf, hm]
            cases kk <;> first | (simp [extResOf] at h9; done) | (simp only [h9, Option.map_some])
          · simp [isAsset, hm]
          · have : ∀ r, stop r (.ext .asset kd) = r := by
              intro r
              cases kd <;> simp only [ExtDec.isTop, Bool.false_eq_true] at h3 <;> rfl
            rw [this, h7]
            rfl
          · have : ∀ r, stop r (.ext .asset kd) = r := by
              intro r
              cases kd <;> simp only [ExtDec.isTop, Bool.false_eq_true] at h3 <;> rfl
            rw [this, h7]
            rfl)
    c [] r hok (by simpa using hon) ⟨rfl, rfl, rfl, by rw [h0]; rfl⟩
  obtain ⟨e1, -, -, e4⟩ := e
  exact ⟨r', w, e1, by simpa using e4⟩

/-- The resources of a part. -/
theorem resources_elem {k : Kind} {r : Regs} {as : List Attr} {c before : List Node} (hk : kept → ∀ i t, cfg.mem i t = t)
    (hck : childKind cfg.env k (core b!"resources") = some (.resources, .single)) (h0 : r.res = some ⟨[], [], []⟩)
    (ha : AttrsFit cfg.env .resources as) (hon : Once cfg.env .resources c)
    (hok : ContentOk cfg.env kept .resources (core b!"resources") c) :
    ∃ r', Runs cfg .model n r (Node.elem (core b!"resources") as c).events r'
      (nodeFaults cfg.env k before (.elem (core b!"resources") as c)) ∧ r'.model = r.model ∧
      r'.res = some (resourcesOf cfg.env r.model.extensions (some (as, c))) := by
  obtain ⟨r', w, e1, e2⟩ := resources_runs (cfg := cfg) (kept := kept) (n := core b!"resources") (c := c)
    (r := { r with res := some ⟨[], [], groupsOf cfg.env .resources as⟩ }) hk rfl hon hok
  refine ⟨_, runs_elem (i := -1) (d' := .resources) (r1 := r) hck rfl ?_ rfl ?_ w, e1, e2⟩
  · simp only [child, modelChild, core, if_true]
  · simp only [start, h0]
    rw [groups_all rfl rfl ha]
    rfl

/-- The content of the root part. -/
theorem model_runs {r : Regs} {c : List Node} (hroot : cfg.isRoot = true) (hk : kept → ∀ i t, cfg.mem i t = t)
    (h0 : r.res = some ⟨[], [], []⟩) (h1 : r.model.metadata = []) (h2 : r.model.build = ⟨[], []⟩) (h3 : r.model.any = [])
    (hon : Once cfg.env .model c) (hok : ContentOk cfg.env kept .model n c) :
    ∃ r', Runs cfg .model n r (treeEvents c) r' (contentFaults cfg.env .model [] c) ∧
      r'.model = { r.model with
        metadata := (children (core b!"metadata") c).map (metadataOf r.model.extensions)
        build := buildOf cfg.env r.model.extensions (child? (core b!"build") c)
        any := c.filterMap (anyOf cfg.env .model) } ∧
      r'.res = some (resourcesOf cfg.env r.model.extensions (child? (core b!"resources") c)) := by
  have hck : ∀ m, m.space = nsCore → childKind cfg.env .model m = if m = core b!"resources" then some (.resources, .single) else
      if m = core b!"build" then some (.build, .single) else
      if m = core b!"metadata" then some (.metadata, .many) else none := by
    intro m hm
    rw [childKind_openCore hm, elements, nameLookup_if, nameLookup_if, nameLookup_if]
    rfl
  have n1 : childKind cfg.env .model (core b!"resources") = some (.resources, .single) := by
    rw [childKind_openCore rfl]; decide +kernel
  have n2 : childKind cfg.env .model (core b!"build") = some (.build, .single) := by
    rw [childKind_openCore rfl]; decide +kernel
  have n3 : childKind cfg.env .model (core b!"metadata") = some (.metadata, .many) := by
    rw [childKind_openCore rfl]; decide +kernel
  have e12 : core b!"build" ≠ core b!"resources" := by decide +kernel
  have e13 : core b!"metadata" ≠ core b!"resources" := by decide +kernel
  have e23 : core b!"metadata" ≠ core b!"build" := by decide +kernel
  have l12 : (b!"build" : Str) ≠ b!"resources" := by decide +kernel
  have l13 : (b!"metadata" : Str) ≠ b!"resources" := by decide +kernel
  have l23 : (b!"metadata" : Str) ≠ b!"build" := by decide +kernel
  have := runs_content (cfg := cfg) (kept := kept) (k := .model) (d := .model) (n := n)
    (I := fun q x => x.model = { r.model with
        metadata := (children (core b!"metadata") q).map (metadataOf r.model.extensions)
        build := buildOf cfg.env r.model.extensions (child? (core b!"build") q)
        any := q.filterMap (anyOf cfg.env .model) } ∧
      x.res = some (resourcesOf cfg.env r.model.extensions (child? (core b!"resources") q))) (by decide)
    (by
      rintro q x ⟨-, -⟩
      refine quiet_core rfl fun _ m hm => ?_
      by_cases hs : m.space = nsCore
      · have h1 : m.loc ≠ b!"resources" := fun h => by
          have : m = core b!"resources" := Name.eq_iff.2 ⟨hs, h⟩
          rw [this, n1] at hm; simp at hm
        have h2 : m.loc ≠ b!"build" := fun h => by
          have : m = core b!"build" := Name.eq_iff.2 ⟨hs, h⟩
          rw [this, n2] at hm; simp at hm
        have h3 : m.loc ≠ b!"metadata" := fun h => by
          have : m = core b!"metadata" := Name.eq_iff.2 ⟨hs, h⟩
          rw [this, n3] at hm; simp at hm
        simp [child, modelChild, hs, h1, h2, h3]
      · exact any_skip (loc := .modelAny) (by decide) rfl hs hm)
    (by
      rintro q x y ⟨e1, e2⟩ hx
      have f1 : childKind cfg.env .model (core b!"resources") ≠ none := by rw [n1]; simp
      have f2 : childKind cfg.env .model (core b!"build") ≠ none := by rw [n2]; simp
      have f3 : childKind cfg.env .model (core b!"metadata") ≠ none := by rw [n3]; simp
      refine ⟨?_, ?_⟩
      · rw [e1, children_ignored hx f3, child?_ignored hx f2, List.filterMap_append]
        simp [anyOf_ignored hx]
      · rw [e2, child?_ignored hx f1])
    (by
      rintro q m as c k' mu x ⟨e1, e2⟩ hm _ ha hon hok hs
      have hex : x.model.extensions = r.model.extensions := by rw [e1]
      by_cases hsp : m.space = nsCore
      · have hm' := hm
        rw [hck m hsp] at hm'
        by_cases h1 : m = core b!"resources"
        · rw [if_pos h1] at hm'
          obtain ⟨rfl, rfl⟩ := Prod.mk.inj (Option.some.inj hm')
          subst h1
          have hb := hs rfl
          obtain ⟨r', w, g1, g2⟩ := resources_elem (cfg := cfg) (kept := kept) (n := n) (k := .model) (r := x) (before := q) hk hm
            (by rw [e2, child?_none hb]; rfl) ha hon hok
          refine ⟨r', w, ?_, ?_⟩
          · rw [g1, e1, children_ne (Ne.symm e13), child?_ne (Ne.symm e12), List.filterMap_append]
            simp [anyOf_core hm (by decide) (fun _ => rfl)]
          · rw [g2, hex, child?_one hb]
        · rw [if_neg h1] at hm'
          by_cases h2 : m = core b!"build"
          · rw [if_pos h2] at hm'
            obtain ⟨rfl, rfl⟩ := Prod.mk.inj (Option.some.inj hm')
            subst h2
            have hb := hs rfl
            obtain ⟨r', w, g1, g2⟩ := build_runs (cfg := cfg) (kept := kept) (n := core b!"build") (c := c)
              (g := groupsOf cfg.env .build as)
              (r := { x with model := { x.model with build := ⟨[], groupsOf cfg.env .build as⟩ } }) rfl hon hok
            have hbl : x.model.build = ⟨[], []⟩ := by rw [e1, child?_none hb]; rfl
            refine ⟨_, runs_elem (i := -1) (d' := .build) (r1 := x) hm rfl ?_ rfl ?_ w, ?_, ?_⟩
            · simp [child, modelChild, core, l12, hroot]
            · simp only [start, hbl]
              rw [groups_all rfl rfl ha]
              rfl
            · have : (stop r' .build).model = r'.model := rfl
              rw [this, g2]
              simp only [e1, children_ne (Ne.symm e23), child?_one hb, List.filterMap_append, buildOf]
              simp [anyOf_core hm (by decide) (fun _ => rfl)]
            · have : (stop r' .build).res = r'.res := rfl
              rw [this, g1, e2, child?_ne e12]
          · rw [if_neg h2] at hm'
            by_cases h3 : m = core b!"metadata"
            · rw [if_pos h3] at hm'
              obtain ⟨rfl, rfl⟩ := Prod.mk.inj (Option.some.inj hm')
              subst h3
              refine ⟨_, runs_elem (i := ((children (core b!"metadata") q).length : Int)) (d' := .metadata none)
                (r1 := { x with md := .zero }) (r2 := { x with md := metadataOf r.model.extensions (as, []) }) hm rfl ?_ rfl ?_
                (metadata_runs (as := as) (exts := r.model.extensions) rfl hon hok), ?_, ?_⟩
              · simp [child, modelChild, core, l13, l23, hroot, e1]
              · simp only [start, hex, metadata_start ha.distinct, metadata_faults]
              · simp only [stop, e1, children_same, child?_ne e23, List.map_append, List.map_cons, List.map_nil, List.filterMap_append]
                simp [anyOf_core hm (by decide) (fun _ => rfl)]
              · simp only [stop, e2, child?_ne e13]
            · rw [if_neg h3] at hm'; simp at hm'
      · obtain ⟨e, s, b, g1, g2⟩ := any_elem (cfg := cfg) (kept := kept) (n := n) (loc := .modelAny) (r := x) (before := q)
          hk (by decide) (fun _ => trivial) rfl (by decide) hsp hm ha hon hok
        have f1 : m ≠ core b!"resources" := by rintro rfl; exact hsp rfl
        have f2 : m ≠ core b!"build" := by rintro rfl; exact hsp rfl
        have f3 : m ≠ core b!"metadata" := by rintro rfl; exact hsp rfl
        refine ⟨_, g2, ?_, ?_⟩
        · simp only [Regs.putAny, e1, children_ne f3, child?_ne f2, List.filterMap_append]
          simp [g1]
        · simp only [Regs.putAny, e2, child?_ne f1])
    c [] r hok (by simpa using hon) ⟨by
      simp only [children, child?, List.filterMap_nil, List.map_nil, List.head?_nil, buildOf, ← h1, ← h2, ← h3], by rw [h0]; rfl⟩
  simpa using this

/-- The content of another part. -/
theorem childModel_runs {r : Regs} {c : List Node} (hroot : cfg.isRoot = false) (hk : kept → ∀ i t, cfg.mem i t = t)
    (h0 : r.res = some ⟨[], [], []⟩)
    (hon : Once cfg.env .childModel c) (hok : ContentOk cfg.env kept .childModel n c) :
    ∃ r', Runs cfg .model n r (treeEvents c) r' (contentFaults cfg.env .childModel [] c) ∧
      r'.model = { r.model with any := r.model.any ++ c.filterMap (anyOf cfg.env .childModel) } ∧
      r'.res = some (resourcesOf cfg.env r.model.extensions (child? (core b!"resources") c)) := by
  have hck : ∀ m, m.space = nsCore →
      childKind cfg.env .childModel m = if m = core b!"resources" then some (.resources, .single) else none := by
    intro m hm
    rw [childKind_openCore hm, elements, nameLookup_if]
    rfl
  have n1 : childKind cfg.env .childModel (core b!"resources") = some (.resources, .single) := by
    rw [childKind_openCore rfl]; decide +kernel
  have := runs_content (cfg := cfg) (kept := kept) (k := .childModel) (d := .model) (n := n)
    (I := fun q x => x.model = { r.model with any := r.model.any ++ q.filterMap (anyOf cfg.env .childModel) } ∧
      x.res = some (resourcesOf cfg.env r.model.extensions (child? (core b!"resources") q))) (by decide)
    (by
      rintro q x ⟨-, -⟩
      refine quiet_core rfl fun _ m hm => ?_
      by_cases hs : m.space = nsCore
      · have h1 : m.loc ≠ b!"resources" := fun h => by
          have : m = core b!"resources" := Name.eq_iff.2 ⟨hs, h⟩
          rw [this, n1] at hm; simp at hm
        simp [child, modelChild, hs, h1, hroot]
      · exact any_skip (loc := .modelAny) (by decide) rfl hs hm)
    (by
      rintro q x y ⟨e1, e2⟩ hx
      have f1 : childKind cfg.env .childModel (core b!"resources") ≠ none := by rw [n1]; simp
      refine ⟨?_, ?_⟩
      · rw [e1, List.filterMap_append]
        simp [anyOf_ignored hx]
      · rw [e2, child?_ignored hx f1])
    (by
      rintro q m as c k' mu x ⟨e1, e2⟩ hm _ ha hon hok hs
      have hex : x.model.extensions = r.model.extensions := by rw [e1]
      by_cases hsp : m.space = nsCore
      · have hm' := hm
        rw [hck m hsp] at hm'
        by_cases h1 : m = core b!"resources"
        · rw [if_pos h1] at hm'
          obtain ⟨rfl, rfl⟩ := Prod.mk.inj (Option.some.inj hm')
          subst h1
          have hb := hs rfl
          obtain ⟨r', w, g1, g2⟩ := resources_elem (cfg := cfg) (kept := kept) (n := n) (k := .childModel) (r := x) (before := q) hk hm
            (by rw [e2, child?_none hb]; rfl) ha hon hok
          refine ⟨r', w, ?_, ?_⟩
          · rw [g1, e1, List.filterMap_append]
            simp [anyOf_core hm (by decide) (fun _ => rfl)]
          · rw [g2, hex, child?_one hb]
        · rw [if_neg h1] at hm'; simp at hm'
      · obtain ⟨e, s, b, g1, g2⟩ := any_elem (cfg := cfg) (kept := kept) (n := n) (loc := .modelAny) (r := x) (before := q)
          hk (by decide) (fun _ => trivial) rfl (by decide) hsp hm ha hon hok
        have f1 : m ≠ core b!"resources" := by rintro rfl; exact hsp rfl
        refine ⟨_, g2, ?_, ?_⟩
        · simp only [Regs.putAny, e1, List.filterMap_append]
          simp [g1]
        · simp only [Regs.putAny, e2, child?_ne f1])
    c [] r hok (by simpa using hon) ⟨by simp, by rw [h0]; rfl⟩
  simpa using this

end

end Go3mf
