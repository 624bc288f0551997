import Verif.Lemmas.CrashAttrs

/-!
# Which elements the decoder follows
-/

namespace Go3mf
open Spec

/-! ## Names -/

/-- The name of the element of a decoder of an extension. -/
def ExtDec.name : ExtDec → Name
  | .colorGroup => ⟨nsMaterials, b!"colorgroup"⟩
  | .color => ⟨nsMaterials, b!"color"⟩
  | .texture2DGroup => ⟨nsMaterials, b!"texture2dgroup"⟩
  | .coord => ⟨nsMaterials, b!"tex2coord"⟩
  | .texture2D => ⟨nsMaterials, b!"texture2d"⟩
  | .compositeMaterials => ⟨nsMaterials, b!"compositematerials"⟩
  | .composite => ⟨nsMaterials, b!"composite"⟩
  | .multiProperties => ⟨nsMaterials, b!"multiproperties"⟩
  | .multi => ⟨nsMaterials, b!"multi"⟩
  | .sliceStack => ⟨nsSlices, b!"slicestack"⟩
  | .sliceRef => ⟨nsSlices, b!"sliceref"⟩
  | .slice => ⟨nsSlices, b!"slice"⟩
  | .polygonVertices => ⟨nsSlices, b!"vertices"⟩
  | .polygonVertex => ⟨nsSlices, b!"vertex"⟩
  | .polygon => ⟨nsSlices, b!"polygon"⟩
  | .segment => ⟨nsSlices, b!"segment"⟩
  | .beamLattice => ⟨nsBeam, b!"beamlattice"⟩
  | .beams => ⟨nsBeam, b!"beams"⟩
  | .beam => ⟨nsBeam, b!"beam"⟩
  | .beamSets => ⟨nsBeam, b!"beamsets"⟩
  | .beamSet => ⟨nsBeam, b!"beamset"⟩
  | .beamRef => ⟨nsBeam, b!"ref"⟩

/-- The decoders of the children. -/
def ExtDec.kids : ExtDec → List ExtDec
  | .colorGroup => [.color]
  | .texture2DGroup => [.coord]
  | .compositeMaterials => [.composite]
  | .multiProperties => [.multi]
  | .sliceStack => [.slice, .sliceRef]
  | .slice => [.polygonVertices, .polygon]
  | .polygonVertices => [.polygonVertex]
  | .polygon => [.segment]
  | .beamLattice => [.beams, .beamSets]
  | .beams => [.beam]
  | .beamSets => [.beamSet]
  | .beamSet => [.beamRef]
  | _ => []

/-- The decoder of the element of the list that the decoder fills. -/
def ExtDec.base : ExtDec → ExtDec
  | .colorGroup | .color => .colorGroup
  | .texture2DGroup | .coord => .texture2DGroup
  | .texture2D => .texture2D
  | .compositeMaterials | .composite => .compositeMaterials
  | .multiProperties | .multi => .multiProperties
  | .sliceStack | .sliceRef | .slice | .polygonVertices | .polygonVertex | .polygon | .segment => .sliceStack
  | .beamLattice | .beams | .beam | .beamSets | .beamSet | .beamRef => .beamLattice

/-- The decoder that makes an element. -/
def AnyElem.dec : AnyElem → Option ExtDec
  | .tokens _ => none
  | .res (.colorGroup _) => some .colorGroup
  | .res (.texture2DGroup _) => some .texture2DGroup
  | .res (.texture2D _) => some .texture2D
  | .res (.composite _) => some .compositeMaterials
  | .res (.multi _) => some .multiProperties
  | .res (.sliceStack _) => some .sliceStack
  | .beamLattice _ => some .beamLattice

/-- The second members of the pairs with a given first member. -/
def assoc {α : Type} [DecidableEq α] (t : List (α × Str)) (p : α) : List Str :=
  t.filterMap fun x => if x.1 = p then some x.2 else none

theorem mem_assoc {α : Type} [DecidableEq α] {t : List (α × Str)} {p : α} {l : Str} : (p, l) ∈ t ↔ l ∈ assoc t p := by
  simp only [assoc, List.mem_filterMap]
  constructor
  · intro h; exact ⟨(p, l), h, by simp⟩
  · rintro ⟨⟨a, b⟩, h, hx⟩
    by_cases ha : a = p
    · simp only [ha, ↓reduceIte, Option.some.injEq] at hx; subst ha; subst hx; exact h
    · simp [ha] at hx

theorem ext_name_space (k : ExtDec) : k.name.space ≠ nsCore := by cases k <;> decide +kernel

theorem ext_assoc (k : ExtDec) : assoc extTable (k.name.space, k.name.loc) = k.kids.map (·.name.loc) := by
  cases k <;> decide +kernel

theorem ext_kids {k k' : ExtDec} (h : k' ∈ k.kids) : k'.name.space = k.name.space ∧ k'.base = k.base := by
  cases k <;> simp only [ExtDec.kids, List.mem_cons, List.not_mem_nil, or_false] at h <;>
    first | (rcases h with rfl | rfl <;> exact ⟨rfl, rfl⟩) | (subst h; exact ⟨rfl, rfl⟩)

theorem ext_follows {env : Env} {isRoot : Bool} {k : ExtDec} {n : Name} :
    Follows env isRoot (some k.name) n ↔ (env.load k.name.space).isSome = true ∧ ∃ k' ∈ k.kids, n = k'.name := by
  simp only [Follows, if_neg (ext_name_space k), mem_assoc, ext_assoc, List.mem_map]
  refine and_congr_right fun _ => ⟨?_, ?_⟩
  · rintro ⟨h1, k', h2, h3⟩
    refine ⟨k', h2, ?_⟩
    rw [show k'.name = ⟨k'.name.space, k'.name.loc⟩ from rfl, Name.eq_iff]
    exact ⟨by rw [h1, (ext_kids h2).1], h3.symm⟩
  · rintro ⟨k', h2, rfl⟩
    exact ⟨(ext_kids h2).1, k', h2, rfl⟩

theorem extChild_kids {r : Regs} {loc : AnyLoc} {k k' : ExtDec} {n : Name} {i : Int} (h : extChild r loc k n = some (i, k')) :
    k' ∈ k.kids ∧ n = k'.name := by
  unfold extChild at h
  split at h <;> (repeat' split at h) <;> first
    | (simp at h; done)
    | (simp only [Option.some.injEq, Prod.mk.injEq] at h
       obtain ⟨-, rfl⟩ := h
       rename_i hn
       exact ⟨by simp [ExtDec.kids], hn⟩)

theorem extChild_of {r : Regs} {loc : AnyLoc} {k k' : ExtDec} (hb : (r.getAny loc).bind AnyElem.dec = some k.base)
    (h : k' ∈ k.kids) : ∃ i, extChild r loc k k'.name = some (i, k') := by
  cases hg : r.getAny loc with
  | none => rw [hg] at hb; simp at hb
  | some e =>
    rw [hg] at hb
    simp only [Option.bind_some] at hb
    cases k <;> simp only [ExtDec.kids, List.mem_cons, List.not_mem_nil, or_false] at h
    all_goals
      first
        | (rcases h with rfl | rfl)
        | subst h
    all_goals
      rcases e with ts | x | b
      all_goals
        try cases x
      all_goals
        first
          | (simp [AnyElem.dec, ExtDec.base] at hb; done)
          | (simp [extChild, hg, ExtDec.name]; done)

/-! ## Elements of extensions in the model, the resources and meshes -/

theorem ns_distinct : nsMaterials ≠ nsSlices ∧ nsMaterials ≠ nsBeam ∧ nsSlices ≠ nsBeam ∧ nsProduction ≠ nsMaterials ∧
    nsProduction ≠ nsSlices ∧ nsProduction ≠ nsBeam := by decide +kernel

theorem newAny_exact (env : Env) (loc : AnyLoc) (n : Name) :
    (env.load n.space = none ∧ newAnyElement env loc n = some (.unknown loc n, .tokens [])) ∨
    (∃ k e, (n.space, n.loc) ∈ extRoots ∧ (env.load n.space).isSome = true ∧ newAnyElement env loc n = some (.ext loc k, e) ∧
      n = k.name ∧ e.dec = some k.base) ∨
    (env.load n.space ≠ none ∧ (n.space, n.loc) ∉ extRoots ∧ newAnyElement env loc n = none) := by
  obtain ⟨a1, a2, a3, a4, a5, a6⟩ := ns_distinct
  cases hl : env.load n.space with
  | none => exact Or.inl ⟨rfl, by simp [newAnyElement, hl]⟩
  | some x =>
    right
    have hs := load_ns_eq hl
    obtain ⟨s, l⟩ := n
    simp only at hs hl
    cases x with
    | production =>
      right
      simp only at hs; subst hs
      refine ⟨by simp, ?_, by simp [newAnyElement, hl, newExtElement]⟩
      simp [extRoots, a4, a5, a6]
    | slices =>
      simp only at hs; subst hs
      by_cases h1 : l = b!"slicestack"
      · subst h1
        exact Or.inl ⟨_, _, by decide +kernel, rfl, by simp only [newAnyElement, hl, newExtElement]; rfl, rfl, rfl⟩
      · right
        refine ⟨by simp, ?_, by simp [newAnyElement, hl, newExtElement, h1]⟩
        simp [extRoots, a1.symm, a3, h1]
    | beamlattice =>
      simp only at hs; subst hs
      by_cases h1 : l = b!"beamlattice"
      · subst h1
        exact Or.inl ⟨_, _, by decide +kernel, rfl, by simp only [newAnyElement, hl, newExtElement]; rfl, rfl, rfl⟩
      · right
        refine ⟨by simp, ?_, by simp [newAnyElement, hl, newExtElement, h1]⟩
        simp [extRoots, a2.symm, a3.symm, h1]
    | materials =>
      simp only at hs; subst hs
      by_cases h1 : l = b!"colorgroup"
      · subst h1
        exact Or.inl ⟨_, _, by decide +kernel, rfl, by simp only [newAnyElement, hl, newExtElement]; rfl, rfl, rfl⟩
      by_cases h2 : l = b!"texture2dgroup"
      · subst h2
        exact Or.inl ⟨_, _, by decide +kernel, rfl, by simp only [newAnyElement, hl, newExtElement]; rfl, rfl, rfl⟩
      by_cases h3 : l = b!"texture2d"
      · subst h3
        exact Or.inl ⟨_, _, by decide +kernel, rfl, by simp only [newAnyElement, hl, newExtElement]; rfl, rfl, rfl⟩
      by_cases h4 : l = b!"compositematerials"
      · subst h4
        exact Or.inl ⟨_, _, by decide +kernel, rfl, by simp only [newAnyElement, hl, newExtElement]; rfl, rfl, rfl⟩
      by_cases h5 : l = b!"multiproperties"
      · subst h5
        exact Or.inl ⟨_, _, by decide +kernel, rfl, by simp only [newAnyElement, hl, newExtElement]; rfl, rfl, rfl⟩
      · right
        refine ⟨by simp, ?_, by simp [newAnyElement, hl, newExtElement, h1, h2, h3, h4, h5]⟩
        simp [extRoots, a1, a2, h1, h2, h3, h4, h5]

/-! ## The decoder of the current element -/

/-- The name of the element of a decoder. -/
def Dec.Exact (env : Env) (d : Dec) (n : Name) : Prop :=
  match d with
  | .ext _ k => n = k.name ∧ (env.load n.space).isSome = true
  | .unknownAsset m => m = n ∧ n.space ≠ nsCore ∧ env.load n.space = none
  | .unknown _ m => m = n ∧ n.space ≠ nsCore ∧ env.load n.space = none
  | d => d.DecName n

theorem Dec.Exact.decName {env : Env} {d : Dec} {n : Name} (h : d.Exact env n) : d.DecName n := by
  cases d <;> first
    | exact h
    | exact ⟨h.1, h.2.1⟩
    | (obtain ⟨rfl, -⟩ := h; exact ext_name_space _)

/-- The decoder of the element, or the one before the first element. -/
def Dec.At (env : Env) (d : Dec) : Option Name → Prop
  | none => d = .top
  | some p => d.Exact env p

/-- How deep a decoder is. -/
def Dec.rank : Dec → Nat
  | .top => 0
  | .model => 1
  | .build | .resources | .metadata none => 2
  | .item | .baseMaterials | .object | .unknownAsset _ => 3
  | .base | .mesh | .components | .metadataGroup _ => 4
  | .vertices | .triangles | .component | .metadata (some _) => 5
  | .vertex | .triangle => 6
  | .unknown _ _ => 8
  | .ext _ _ => 9

/-- The registers that an open decoder needs. -/
def Regs.Fits (r : Regs) : Dec → Prop
  | .mesh => r.obj.mesh.isSome = true
  | .ext loc k => (r.getAny loc).bind AnyElem.dec = some k.base
  | _ => True

/-- The registers that decide whether `Start` panics. -/
def Regs.Ready (r : Regs) : Dec → Prop
  | .item => r.item.anyAttr = []
  | .baseMaterials => r.base.anyAttr = []
  | .object => r.obj.anyAttr = []
  | _ => True

/-- The groups of attributes of the open elements. -/
structure Regs.Clean (env : Env) (r : Regs) : Prop where
  res : ∃ rs, r.res = some rs ∧ CleanAttrs env b!"resources" rs.anyAttr
  model : CleanAttrs env b!"model" r.model.anyAttr
  build : CleanAttrs env b!"build" r.model.build.anyAttr
  item : CleanAttrs env b!"metadatagroup" r.item.metadata.anyAttr
  obj : CleanAttrs env b!"metadatagroup" r.obj.metadata.anyAttr
  mesh : ∀ m, r.obj.mesh = some m → CleanAttrs env b!"vertices" m.verticesAttr ∧ CleanAttrs env b!"triangles" m.trianglesAttr

/-- What a decoder does with an element that it follows. -/
structure Follow (env : Env) (d : Dec) (r r' : Regs) (d' : Dec) (n : Name) : Prop where
  exact : d'.Exact env n
  rank : d.rank = 9 ∧ d'.rank = 9 ∨ d.rank < d'.rank
  fits : d' = .mesh ∨ r'.Fits d'
  ready : r'.Ready d'
  clean : r'.Clean env
  mesh : 4 ≤ d.rank → r'.obj.mesh.isSome = r.obj.mesh.isSome
  kinds : 5 ≤ d.rank → ∀ loc, r'.getAny loc = r.getAny loc

theorem core_follows {env : Env} {isRoot : Bool} {p n : Name} {l : Str} (hp : p = ⟨nsCore, l⟩)
    (hl : l ∉ [b!"model", b!"resources", b!"mesh"]) :
    Follows env isRoot (some p) n ↔ ∃ l' ∈ assoc coreTable l, n = ⟨nsCore, l'⟩ := by
  subst hp
  simp only [Follows, ↓reduceIte]
  by_cases hs : n.space = nsCore
  · rw [if_pos hs, mem_assoc]
    have : l ≠ b!"model" := fun h => hl (by simp [h])
    constructor
    · rintro ⟨h, -⟩; exact ⟨_, h, Name.eq_iff.2 ⟨hs, rfl⟩⟩
    · rintro ⟨l', h, rfl⟩; exact ⟨h, fun h => absurd h this⟩
  · rw [if_neg hs]
    constructor
    · rintro ⟨h, -⟩; exact absurd h hl
    · rintro ⟨l', h, rfl⟩; exact absurd rfl hs

theorem onlyChild_yes {r r' : Regs} {n : Name} {l : Str} {i : Int} {d : Dec} (h : n = ⟨nsCore, l⟩) :
    onlyChild r r' n l i d = (r', some (i, d)) := if_pos h

theorem onlyChild_no {r r' : Regs} {n : Name} {l : Str} {i : Int} {d : Dec} (h : n ≠ ⟨nsCore, l⟩) :
    onlyChild r r' n l i d = (r, none) := if_neg h

theorem model_follows {env : Env} {isRoot : Bool} {n : Name} :
    Follows env isRoot (some ⟨nsCore, b!"model"⟩) n ↔
      n = ⟨nsCore, b!"resources"⟩ ∨ (isRoot = true ∧ (n = ⟨nsCore, b!"build"⟩ ∨ n = ⟨nsCore, b!"metadata"⟩)) ∨
      (n.space ≠ nsCore ∧ (env.load n.space = none ∨ (n.space, n.loc) ∈ extRoots)) := by
  simp only [Follows, ↓reduceIte, mem_assoc, show assoc coreTable b!"model" = [b!"resources", b!"build", b!"metadata"] from by decide +kernel]
  obtain ⟨s, l⟩ := n
  by_cases hs : s = nsCore
  · subst hs
    by_cases h1 : l = b!"resources"
    · subst h1; simp
    · simp [h1, and_comm]
  · simp [hs]

theorem resources_follows {env : Env} {isRoot : Bool} {n : Name} :
    Follows env isRoot (some ⟨nsCore, b!"resources"⟩) n ↔
      n = ⟨nsCore, b!"object"⟩ ∨ n = ⟨nsCore, b!"basematerials"⟩ ∨
      (n.space ≠ nsCore ∧ (env.load n.space = none ∨ (n.space, n.loc) ∈ extRoots)) := by
  simp only [Follows, ↓reduceIte, mem_assoc, show assoc coreTable b!"resources" = [b!"object", b!"basematerials"] from by decide +kernel]
  obtain ⟨s, l⟩ := n
  by_cases hs : s = nsCore
  · subst hs; simp
  · simp [hs]

theorem mesh_follows {env : Env} {isRoot : Bool} {n : Name} :
    Follows env isRoot (some ⟨nsCore, b!"mesh"⟩) n ↔
      n = ⟨nsCore, b!"vertices"⟩ ∨ n = ⟨nsCore, b!"triangles"⟩ ∨
      (n.space ≠ nsCore ∧ (env.load n.space = none ∨ (n.space, n.loc) ∈ extRoots)) := by
  simp only [Follows, ↓reduceIte, mem_assoc, show assoc coreTable b!"mesh" = [b!"vertices", b!"triangles"] from by decide +kernel]
  obtain ⟨s, l⟩ := n
  by_cases hs : s = nsCore
  · subst hs; simp
  · simp [hs]

theorem leaf_assoc {l : Str} (h : l ∈ [b!"metadata", b!"base", b!"vertex", b!"triangle", b!"component"]) :
    assoc coreTable l = [] := by
  simp only [List.mem_cons, List.not_mem_nil, or_false] at h
  rcases h with rfl | rfl | rfl | rfl | rfl <;> decide +kernel

theorem getAny_model_append (r : Regs) (e : AnyElem) :
    ({ r with model := { r.model with any := r.model.any ++ [e] } } : Regs).getAny .modelAny = some e := by
  simp [Regs.getAny]

theorem getAny_mesh_append (r : Regs) (e : AnyElem) (h : r.obj.mesh.isSome = true) :
    ({ r with obj := r.obj.modMesh fun m => { m with any := m.any ++ [e] } } : Regs).getAny .meshAny = some e := by
  cases hm : r.obj.mesh with
  | none => rw [hm] at h; cases h
  | some m => simp [Regs.getAny, Object.modMesh, hm]

theorem getAny_asset_append (r : Regs) (rs : Resources) (x : ExtRes) :
    ({ r with res := some { rs with assets := rs.assets ++ [.res x] } } : Regs).getAny .asset = some (.res x) := by
  simp [Regs.getAny]

/-- An element that the specification follows is followed. -/
theorem child_follows {cfg : DecCfg} {r : Regs} {d : Dec} {p : Option Name} {n : Name} (hd : d.At cfg.env p) (hf : r.Fits d)
    (hc : r.Clean cfg.env) (hl : ¬ LatticeAsset cfg.env p n) (hF : Follows cfg.env cfg.isRoot p n) :
    d.hasChild = true ∧ ∃ r' i d', child cfg r d n = some (r', some (i, d')) ∧ Follow cfg.env d r r' d' n := by
  cases p with
  | none =>
    obtain rfl : d = .top := hd
    refine ⟨rfl, _, _, _, congrArg some (onlyChild_yes hF), ⟨hF, by simp [Dec.rank], Or.inr trivial, trivial, hc, by simp, by simp⟩⟩
  | some p =>
    have hd : d.Exact cfg.env p := hd
    have leaf : ∀ {l : Str}, p = ⟨nsCore, l⟩ → l ∈ [b!"metadata", b!"base", b!"vertex", b!"triangle", b!"component"] → False := by
      intro l hp hm
      have hn : l ∉ [b!"model", b!"resources", b!"mesh"] := by
        intro h
        simp only [List.mem_cons, List.not_mem_nil, or_false] at hm h
        rcases hm with rfl | rfl | rfl | rfl | rfl <;> revert h <;> decide +kernel
      rw [core_follows hp hn, leaf_assoc hm] at hF
      obtain ⟨_, h, -⟩ := hF
      cases h
    have only : ∀ {l l' : Str}, p = ⟨nsCore, l⟩ → l ∉ [b!"model", b!"resources", b!"mesh"] → assoc coreTable l = [l'] →
        n = ⟨nsCore, l'⟩ := by
      intro l l' hp hn ha
      rw [core_follows hp hn, ha] at hF
      obtain ⟨_, h, rfl⟩ := hF
      rw [List.mem_singleton.1 h]
    cases d with
    | top => exact hd.elim
    | model =>
      obtain rfl : p = ⟨nsCore, b!"model"⟩ := hd
      rcases model_follows.1 hF with rfl | ⟨hr, rfl | rfl⟩ | ⟨hs, hx⟩
      · exact ⟨rfl, r, -1, .resources, by simp [child, modelChild], ⟨rfl, by simp [Dec.rank], Or.inr trivial, trivial, hc, by simp [Dec.rank], by simp [Dec.rank]⟩⟩
      · exact ⟨rfl, r, -1, .build, by simp [child, modelChild, hr], ⟨rfl, by simp [Dec.rank], Or.inr trivial, trivial, hc, by simp [Dec.rank], by simp [Dec.rank]⟩⟩
      · exact ⟨rfl, { r with md := .zero }, r.model.metadata.length, .metadata none, by simp [child, modelChild, hr], ⟨rfl, by simp [Dec.rank], Or.inr trivial, trivial, ⟨hc.1, hc.2, hc.3, hc.4, hc.5, hc.6⟩, by simp [Dec.rank], by simp [Dec.rank]⟩⟩
      · rcases newAny_exact cfg.env .modelAny n with ⟨h1, h2⟩ | ⟨k, e, -, h1, h2, h3, h4⟩ | ⟨h1, h2, -⟩
        · exact ⟨rfl, { r with model := { r.model with any := r.model.any ++ [.tokens []] } }, -1, .unknown .modelAny n, by simp [child, modelChild, if_neg hs, h2],
            ⟨⟨rfl, hs, h1⟩, by simp [Dec.rank], Or.inr trivial, trivial, ⟨hc.1, hc.2, hc.3, hc.4, hc.5, hc.6⟩, by simp [Dec.rank], by simp [Dec.rank]⟩⟩
        · exact ⟨rfl, { r with model := { r.model with any := r.model.any ++ [e] } }, -1, .ext .modelAny k, by simp [child, modelChild, if_neg hs, h2],
            ⟨⟨h3, h1⟩, by simp [Dec.rank], Or.inr (by simp only [Regs.Fits]; rw [getAny_model_append]; exact h4), trivial,
              ⟨hc.1, hc.2, hc.3, hc.4, hc.5, hc.6⟩, by simp [Dec.rank], by simp [Dec.rank]⟩⟩
        · rcases hx with hx | hx
          · exact absurd hx h1
          · exact absurd hx h2
    | metadataGroup l =>
      obtain rfl := only (l' := b!"metadata") hd (by decide +kernel) (by decide +kernel)
      exact ⟨rfl, _, _, _, congrArg some (onlyChild_yes rfl), ⟨rfl, by simp [Dec.rank], Or.inr trivial, trivial,
        ⟨hc.1, hc.2, hc.3, hc.4, hc.5, hc.6⟩, fun _ => rfl, fun _ loc => by cases loc <;> rfl⟩⟩
    | metadata l => exact (leaf hd (by decide +kernel)).elim
    | build =>
      obtain rfl := only (l' := b!"item") hd (by decide +kernel) (by decide +kernel)
      exact ⟨rfl, _, _, _, congrArg some (onlyChild_yes rfl), ⟨rfl, by simp [Dec.rank], Or.inr trivial, rfl,
        ⟨hc.1, hc.2, hc.3, cleanAttrs_nil, hc.5, hc.6⟩, by simp [Dec.rank], by simp [Dec.rank]⟩⟩
    | item =>
      obtain rfl := only (l' := b!"metadatagroup") hd (by decide +kernel) (by decide +kernel)
      exact ⟨rfl, _, _, _, congrArg some (onlyChild_yes rfl), ⟨rfl, by simp [Dec.rank], Or.inr trivial, trivial,
        hc, by simp [Dec.rank], by simp [Dec.rank]⟩⟩
    | resources =>
      obtain rfl : p = ⟨nsCore, b!"resources"⟩ := hd
      obtain ⟨rs, hrs, hra⟩ := hc.res
      rcases resources_follows.1 hF with rfl | rfl | ⟨hs, hx⟩
      · exact ⟨rfl, { r with obj := .zero }, rs.objects.length, .object, by simp [child, resourcesChild, hrs], ⟨rfl, by simp [Dec.rank], Or.inr trivial, rfl,
          ⟨⟨rs, hrs, hra⟩, hc.2, hc.3, hc.4, cleanAttrs_nil, fun m hm => by cases hm⟩, by simp [Dec.rank], by simp [Dec.rank]⟩⟩
      · exact ⟨rfl, { r with base := .zero }, rs.assets.length, .baseMaterials, by simp [child, resourcesChild, hrs], ⟨rfl, by simp [Dec.rank], Or.inr trivial, rfl,
          ⟨⟨rs, hrs, hra⟩, hc.2, hc.3, hc.4, hc.5, hc.6⟩, by simp [Dec.rank], by simp [Dec.rank]⟩⟩
      · have h0 : ¬ (n.space = nsCore ∧ n.loc ≠ b!"object" ∧ n.loc ≠ b!"basematerials") := fun h => hs h.1
        rcases newAny_exact cfg.env .asset n with ⟨h1, h2⟩ | ⟨k, e, -, h1, h2, h3, h4⟩ | ⟨h1, h2, -⟩
        · exact ⟨rfl, { r with unk := [], unkID := 0 }, rs.assets.length, .unknownAsset n, by simp [child, resourcesChild, if_neg h0, hrs, if_neg hs, h2],
            ⟨⟨rfl, hs, h1⟩, by simp [Dec.rank], Or.inr trivial, trivial, ⟨⟨rs, hrs, hra⟩, hc.2, hc.3, hc.4, hc.5, hc.6⟩, by simp [Dec.rank], by simp [Dec.rank]⟩⟩
        · cases e with
          | tokens ts => simp [AnyElem.dec] at h4
          | beamLattice b =>
            exfalso
            have hk : k = .beamLattice := by
              have : k.base = .beamLattice := by simpa [AnyElem.dec] using h4.symm
              obtain ⟨s, l⟩ := n
              have hl2 := h2
              unfold newAnyElement at hl2
              cases hx : cfg.env.load s with
              | none => simp [hx] at hl2
              | some x =>
                simp only [hx, Option.map_eq_some_iff, Prod.mk.injEq, Dec.ext.injEq, true_and] at hl2
                obtain ⟨q, hq, rfl, hq2⟩ := hl2
                obtain ⟨q1, q2⟩ := q
                simp only at hq2; subst hq2
                cases x <;> simp only [newExtElement] at hq <;> (repeat' split at hq) <;> simp at hq
                exact hq.1.symm
            subst hk
            refine hl ⟨?_, rfl, h3⟩
            subst h3
            obtain ⟨x, hx⟩ := Option.isSome_iff_exists.1 h1
            unfold Env.load at hx
            rw [if_neg (by rintro ⟨h, -⟩; revert h; decide +kernel), if_neg (by rintro ⟨h, -⟩; revert h; decide +kernel)] at hx
            by_cases hb : cfg.env.beamlattice = true
            · exact hb
            · rw [if_neg (by rintro ⟨-, h⟩; exact hb h), if_neg (by rintro ⟨h, -⟩; revert h; decide +kernel)] at hx
              cases hx
          | res x =>
            exact ⟨rfl, { r with res := some { rs with assets := rs.assets ++ [.res x] } }, rs.assets.length, .ext .asset k, by simp [child, resourcesChild, if_neg h0, hrs, if_neg hs, h2],
              ⟨⟨h3, h1⟩, by simp [Dec.rank], Or.inr (by simp only [Regs.Fits]; rw [getAny_asset_append]; exact h4), trivial,
                ⟨⟨_, rfl, hra⟩, hc.2, hc.3, hc.4, hc.5, hc.6⟩, by simp [Dec.rank], by simp [Dec.rank]⟩⟩
        · rcases hx with hx | hx
          · exact absurd hx h1
          · exact absurd hx h2
    | baseMaterials =>
      obtain rfl := only (l' := b!"base") hd (by decide +kernel) (by decide +kernel)
      exact ⟨rfl, _, _, _, congrArg some (onlyChild_yes rfl), ⟨rfl, by simp [Dec.rank], Or.inr trivial, trivial,
        hc, by simp [Dec.rank], by simp [Dec.rank]⟩⟩
    | base => exact (leaf hd (by decide +kernel)).elim
    | mesh =>
      obtain rfl : p = ⟨nsCore, b!"mesh"⟩ := hd
      have hf : r.obj.mesh.isSome = true := hf
      have hcm : ∀ e, (({ r with obj := r.obj.modMesh fun m => { m with any := m.any ++ [e] } } : Regs)).Clean cfg.env := by
        intro e
        refine ⟨hc.1, hc.2, hc.3, hc.4, hc.5, fun m hm => ?_⟩
        simp only [Object.modMesh, Option.map_eq_some_iff] at hm
        obtain ⟨m0, h0, rfl⟩ := hm
        exact hc.6 m0 h0
      rcases mesh_follows.1 hF with rfl | rfl | ⟨hs, hx⟩
      · exact ⟨rfl, r, -1, .vertices, by simp [child, meshChild], ⟨rfl, by simp [Dec.rank], Or.inr trivial, trivial, hc, fun _ => rfl, by simp [Dec.rank]⟩⟩
      · exact ⟨rfl, r, -1, .triangles, by simp [child, meshChild], ⟨rfl, by simp [Dec.rank], Or.inr trivial, trivial, hc, fun _ => rfl, by simp [Dec.rank]⟩⟩
      · rcases newAny_exact cfg.env .meshAny n with ⟨h1, h2⟩ | ⟨k, e, -, h1, h2, h3, h4⟩ | ⟨h1, h2, -⟩
        · exact ⟨rfl, { r with obj := r.obj.modMesh fun m => { m with any := m.any ++ [.tokens []] } }, -1, .unknown .meshAny n, by simp [child, meshChild, if_neg hs, h2],
            ⟨⟨rfl, hs, h1⟩, by simp [Dec.rank], Or.inr trivial, trivial, hcm _, fun _ => by simp [Object.modMesh], by simp [Dec.rank]⟩⟩
        · exact ⟨rfl, { r with obj := r.obj.modMesh fun m => { m with any := m.any ++ [e] } }, -1, .ext .meshAny k, by simp [child, meshChild, if_neg hs, h2],
            ⟨⟨h3, h1⟩, by simp [Dec.rank], Or.inr (by simp only [Regs.Fits]; rw [getAny_mesh_append r e hf]; exact h4), trivial,
              hcm _, fun _ => by simp [Object.modMesh], by simp [Dec.rank]⟩⟩
        · rcases hx with hx | hx
          · exact absurd hx h1
          · exact absurd hx h2
    | vertices =>
      obtain rfl := only (l' := b!"vertex") hd (by decide +kernel) (by decide +kernel)
      exact ⟨rfl, _, _, _, congrArg some (onlyChild_yes rfl), ⟨rfl, by simp [Dec.rank], Or.inr trivial, trivial,
        hc, fun _ => rfl, fun _ _ => rfl⟩⟩
    | vertex => exact (leaf hd (by decide +kernel)).elim
    | triangles =>
      obtain rfl := only (l' := b!"triangle") hd (by decide +kernel) (by decide +kernel)
      exact ⟨rfl, _, _, _, congrArg some (onlyChild_yes rfl), ⟨rfl, by simp [Dec.rank], Or.inr trivial, trivial,
        hc, fun _ => rfl, fun _ _ => rfl⟩⟩
    | triangle => exact (leaf hd (by decide +kernel)).elim
    | object =>
      rw [core_follows hd (by decide +kernel),
        show assoc coreTable b!"object" = [b!"metadatagroup", b!"mesh", b!"components"] from by decide +kernel] at hF
      obtain ⟨l', h, rfl⟩ := hF
      simp only [List.mem_cons, List.not_mem_nil, or_false] at h
      rcases h with rfl | rfl | rfl
      · exact ⟨rfl, r, -1, .metadataGroup .object, by simp [child], ⟨rfl, by simp [Dec.rank], Or.inr trivial, trivial, hc, fun _ => rfl, by simp [Dec.rank]⟩⟩
      · exact ⟨rfl, r, -1, .mesh, by simp [child], ⟨rfl, by simp [Dec.rank], Or.inl rfl, trivial, hc, fun _ => rfl, by simp [Dec.rank]⟩⟩
      · exact ⟨rfl, r, -1, .components, by simp [child], ⟨rfl, by simp [Dec.rank], Or.inr trivial, trivial, hc, fun _ => rfl, by simp [Dec.rank]⟩⟩
    | components =>
      obtain rfl := only (l' := b!"component") hd (by decide +kernel) (by decide +kernel)
      exact ⟨rfl, _, _, _, congrArg some (onlyChild_yes rfl), ⟨rfl, by simp [Dec.rank], Or.inr trivial, trivial,
        hc, fun _ => rfl, fun _ _ => rfl⟩⟩
    | component => exact (leaf hd (by decide +kernel)).elim
    | unknownAsset m =>
      obtain ⟨-, h1, h2⟩ := hd
      simp [Follows, h1, h2] at hF
    | unknown l m =>
      obtain ⟨-, h1, h2⟩ := hd
      simp [Follows, h1, h2] at hF
    | ext loc k =>
      obtain ⟨rfl, hld⟩ := hd
      obtain ⟨-, k', hk, rfl⟩ := ext_follows.1 hF
      obtain ⟨i, hi⟩ := extChild_of hf hk
      refine ⟨(by cases k <;> first | rfl | cases hk), ?_⟩
      have hc' : ({ r with slice := ⟨.zero, [], []⟩ } : Regs).Clean cfg.env := ⟨hc.1, hc.2, hc.3, hc.4, hc.5, hc.6⟩
      have hc'' : ({ r with beamSet := ⟨[], [], []⟩ } : Regs).Clean cfg.env := ⟨hc.1, hc.2, hc.3, hc.4, hc.5, hc.6⟩
      have hx : ∀ r', r'.Clean cfg.env → r'.obj = r.obj → (∀ loc, r'.getAny loc = r.getAny loc) →
          Follow cfg.env (.ext loc k) r r' (.ext loc k') k'.name := by
        intro r' h1 h2 h3
        refine ⟨⟨rfl, ?_⟩, Or.inl ⟨rfl, rfl⟩, Or.inr ?_, trivial, h1, fun _ => by rw [h2], fun _ => h3⟩
        · rw [(ext_kids hk).1]; exact hld
        · simp only [Regs.Fits]; rw [h3, (ext_kids hk).2]; exact hf
      by_cases h1 : k' = .slice
      · subst h1
        exact ⟨_, i, _, by simp only [child, hi], hx _ hc' rfl fun l => by cases l <;> rfl⟩
      by_cases h2 : k' = .beamSet
      · subst h2
        exact ⟨_, i, _, by simp only [child, hi], hx _ hc'' rfl fun l => by cases l <;> rfl⟩
      refine ⟨r, i, .ext loc k', ?_, hx _ hc rfl fun l => rfl⟩
      simp only [child, hi]

/-- An element that the specification does not follow is not followed. -/
theorem child_ignores {cfg : DecCfg} {r : Regs} {d : Dec} {p : Option Name} {n : Name} (hd : d.At cfg.env p)
    (hc : r.Clean cfg.env) (hF : ¬ Follows cfg.env cfg.isRoot p n) :
    d.hasChild = false ∨ child cfg r d n = some (r, none) := by
  cases p with
  | none =>
    obtain rfl : d = .top := hd
    exact Or.inr (congrArg some (onlyChild_no hF))
  | some p =>
    have hd : d.Exact cfg.env p := hd
    have only : ∀ {l l' : Str}, p = ⟨nsCore, l⟩ → l ∉ [b!"model", b!"resources", b!"mesh"] → l' ∈ assoc coreTable l →
        n ≠ ⟨nsCore, l'⟩ := by
      intro l l' hp hn ha he
      rw [core_follows hp hn] at hF
      exact hF ⟨l', ha, he⟩
    cases d with
    | top => exact hd.elim
    | metadata l => exact Or.inl rfl
    | base => exact Or.inl rfl
    | vertex => exact Or.inl rfl
    | triangle => exact Or.inl rfl
    | component => exact Or.inl rfl
    | unknownAsset m => exact Or.inl rfl
    | unknown l m => exact Or.inl rfl
    | metadataGroup l => exact Or.inr (congrArg some (onlyChild_no (only hd (by decide +kernel) (by decide +kernel))))
    | build => exact Or.inr (congrArg some (onlyChild_no (only hd (by decide +kernel) (by decide +kernel))))
    | item => exact Or.inr (congrArg some (onlyChild_no (only hd (by decide +kernel) (by decide +kernel))))
    | baseMaterials => exact Or.inr (congrArg some (onlyChild_no (only hd (by decide +kernel) (by decide +kernel))))
    | vertices => exact Or.inr (congrArg some (onlyChild_no (only hd (by decide +kernel) (by decide +kernel))))
    | triangles => exact Or.inr (congrArg some (onlyChild_no (only hd (by decide +kernel) (by decide +kernel))))
    | components => exact Or.inr (congrArg some (onlyChild_no (only hd (by decide +kernel) (by decide +kernel))))
    | object =>
      right
      simp only [child]
      rw [if_neg (only hd (by decide +kernel) (by decide +kernel)), if_neg (only hd (by decide +kernel) (by decide +kernel)),
        if_neg (only hd (by decide +kernel) (by decide +kernel))]
    | model =>
      right
      obtain rfl : p = ⟨nsCore, b!"model"⟩ := hd
      rw [model_follows] at hF
      simp only [not_or, not_and] at hF
      obtain ⟨h1, h2, h3⟩ := hF
      simp only [child, modelChild]
      by_cases hs : n.space = nsCore
      · simp only [Name.eq_iff, hs, true_and] at h1 h2
        rw [if_pos hs, if_neg h1, if_neg (fun h => (h2 h.2).1 h.1), if_neg (fun h => (h2 h.2).2 h.1)]
      · rw [if_neg hs]
        rcases newAny_exact cfg.env .modelAny n with ⟨h4, -⟩ | ⟨k, e, h4, -⟩ | ⟨-, -, h4⟩
        · exact absurd h4 (h3 hs).1
        · exact absurd h4 (h3 hs).2
        · rw [h4]
    | mesh =>
      right
      obtain rfl : p = ⟨nsCore, b!"mesh"⟩ := hd
      rw [mesh_follows] at hF
      simp only [not_or, not_and] at hF
      obtain ⟨h1, h2, h3⟩ := hF
      simp only [child, meshChild]
      by_cases hs : n.space = nsCore
      · simp only [Name.eq_iff, hs, true_and] at h1 h2
        rw [if_pos hs, if_neg h1, if_neg h2]
      · rw [if_neg hs]
        rcases newAny_exact cfg.env .meshAny n with ⟨h4, -⟩ | ⟨k, e, h4, -⟩ | ⟨-, -, h4⟩
        · exact absurd h4 (h3 hs).1
        · exact absurd h4 (h3 hs).2
        · rw [h4]
    | resources =>
      right
      obtain rfl : p = ⟨nsCore, b!"resources"⟩ := hd
      rw [resources_follows] at hF
      simp only [not_or, not_and] at hF
      obtain ⟨h1, h2, h3⟩ := hF
      obtain ⟨rs, hrs, -⟩ := hc.res
      simp only [child, resourcesChild]
      by_cases hs : n.space = nsCore
      · simp only [Name.eq_iff, hs, true_and] at h1 h2
        rw [if_pos ⟨hs, h1, h2⟩]
      · rw [if_neg (fun h => hs h.1), hrs]
        simp only []
        rw [if_neg hs]
        rcases newAny_exact cfg.env .asset n with ⟨h4, -⟩ | ⟨k, e, h4, -⟩ | ⟨-, -, h4⟩
        · exact absurd h4 (h3 hs).1
        · exact absurd h4 (h3 hs).2
        · rw [h4]
    | ext loc k =>
      right
      obtain ⟨rfl, hld⟩ := hd
      simp only [child]
      cases he : extChild r loc k n with
      | none => rfl
      | some q =>
        obtain ⟨i, k'⟩ := q
        obtain ⟨h1, h2⟩ := extChild_kids he
        exact absurd (ext_follows.2 ⟨hld, k', h1, h2⟩) hF

/-- A beam lattice among the resources makes the decoder panic. -/
theorem child_lattice {cfg : DecCfg} {r : Regs} {d : Dec} {p : Option Name} {n : Name} (hd : d.At cfg.env p)
    (hl : LatticeAsset cfg.env p n) : d.hasChild = true ∧ child cfg r d n = none := by
  obtain ⟨hb, rfl, rfl⟩ := hl
  have hd : d.Exact cfg.env ⟨nsCore, b!"resources"⟩ := hd
  have hld : cfg.env.load nsBeam = some .beamlattice := by
    unfold Env.load
    rw [if_neg (by rintro ⟨h, -⟩; revert h; decide +kernel), if_neg (by rintro ⟨h, -⟩; revert h; decide +kernel),
      if_pos ⟨rfl, hb⟩]
  have hd : d = .resources := by
    cases d <;> first
      | rfl
      | (exfalso; revert hd; simp only [Dec.Exact, Dec.DecName]; first | decide +kernel | (rintro ⟨-, h, -⟩; exact h rfl))
      | (obtain ⟨h, -⟩ := hd; exact absurd (congrArg Name.space h).symm (ext_name_space _))
  subst hd
  refine ⟨rfl, ?_⟩
  simp only [child, resourcesChild]
  rw [if_neg (by rintro ⟨h, -⟩; revert h; decide +kernel)]
  cases r.res with
  | none => rfl
  | some rs =>
    simp only []
    rw [if_neg (by decide +kernel)]
    simp [newAnyElement, latticeName, hld, newExtElement]

end Go3mf
