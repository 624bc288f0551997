import Verif.Props.C37

/-!
# C42: validation of the materials extension
-/

namespace Go3mf

/-- The model declares the extension of the namespace. -/
def Spec.Declares (m : Model) (ns : Str) : Prop := ∃ e ∈ m.extensions, e.ns = ns

theorem load_materials (env : Env) (h : env.materials = true) : env.load nsMaterials = some .materials := by
  unfold Env.load
  rw [if_neg (fun h => absurd h.1 (by decide)), if_neg (fun h => absurd h.1 (by decide)),
    if_neg (fun h => absurd h.1 (by decide)), if_pos ⟨rfl, h⟩]

theorem load_slices (env : Env) (h : env.slices = true) : env.load nsSlices = some .slices := by
  unfold Env.load
  rw [if_neg (fun h => absurd h.1 (by decide)), if_pos ⟨rfl, h⟩]

theorem load_beamlattice (env : Env) (h : env.beamlattice = true) : env.load nsBeam = some .beamlattice := by
  unfold Env.load
  rw [if_neg (fun h => absurd h.1 (by decide)), if_neg (fun h => absurd h.1 (by decide)), if_pos ⟨rfl, h⟩]

theorem load_production (env : Env) (h : env.production = true) : env.load nsProduction = some .production := by
  unfold Env.load
  rw [if_pos ⟨rfl, h⟩]

theorem accepted_material {env : Env} {m : Model} (hwf : m.WF) (h : m.Accepts env) (hreg : env.materials = true)
    (hd : Spec.Declares m nsMaterials) {p : Str} {rs : Resources} (hp : Spec.IsPart m p rs) {a : Asset} (ha : a ∈ rs.assets) :
    materialsValidateAsset env m p a = [] := by
  obtain ⟨fuel, h⟩ := isPart_accepts hwf h hp
  rw [resources_nil] at h
  have h1 := (h.2.1 a ha).2
  unfold extAssetErrs at h1
  rw [List.flatMap_eq_nil_iff] at h1
  obtain ⟨e, he, hns⟩ := hd
  have h2 := h1 e he
  rw [hns, load_materials env hreg] at h2
  exact h2

theorem findAsset_part {env : Env} {m : Model} (hwf : m.WF) (h : m.Accepts env) {p : Str} {rs : Resources}
    (hp : Spec.IsPart m p rs) (hne : p ≠ []) {id : UInt32} {a : Asset} (ha : m.findAsset p id = some a) :
    a ∈ rs.assets ∧ a.identify = id := by
  rw [Model.findAsset, isPart_found hwf h hp hne] at ha
  exact findAsset_mem ha

/-- **C42**, composite materials: the identifier and the group of base materials exist, and no index exceeds the number of
its materials.  Missing: the index equal to that number, which is accepted (`C42_composite_false`). -/
theorem C42_composite_partial (env : Env) (m : Model) (hwf : m.WF) (h : m.Accepts env) (hreg : env.materials = true)
    (hd : Spec.Declares m nsMaterials) (p : Str) (rs : Resources) (hp : Spec.IsPart m p rs) (hne : p ≠ [])
    (r : CompositeMaterials) (hr : Asset.res (.composite r) ∈ rs.assets) :
    r.id ≠ 0 ∧ ∃ b, Asset.base b ∈ rs.assets ∧ b.id = r.materialID ∧ ∀ i ∈ r.indices, i.toNat ≤ b.materials.length := by
  have h1 : r.validate m p = [] := accepted_material hwf h hreg hd hp hr
  unfold CompositeMaterials.validate at h1
  simp only [List.append_eq_nil_iff, ite_nil] at h1
  obtain ⟨⟨⟨h2, h3⟩, -⟩, -⟩ := h1
  refine ⟨h2, ?_⟩
  by_cases h0 : r.materialID = 0
  · simp [h0] at h3
  · rw [if_neg h0] at h3
    cases hf : m.findAsset p r.materialID with
    | none => rw [hf] at h3; cases h3
    | some a =>
      rw [hf] at h3
      cases a with
      | unknown _ _ => cases h3
      | res _ => cases h3
      | base b =>
        obtain ⟨h4, h5⟩ := findAsset_part hwf h hp hne hf
        simp only [ite_nil, List.any_eq_true, decide_eq_true_eq, not_exists, not_and, gt_iff_lt, not_lt] at h3
        exact ⟨b, h4, h5, h3⟩

theorem multiLayers_ok {m : Model} {p : Str} : ∀ (pids : List UInt32) (j c : Nat), (multiLayers m p j c false pids).1 = [] →
    ∀ (k : Nat) (pid : UInt32), pids[k]? = some pid → ∃ a L, m.findAsset p pid = some a ∧
      (multiLayers m p j c false pids).2[k]? = some L ∧ (∀ n, Spec.groupSize a = some n → L ≤ n) ∧
      ∀ q, a ≠ .res (.multi q) := by
  intro pids
  induction pids with
  | nil => intro j c _ k pid hk; simp at hk
  | cons x xs ih =>
    intro j c h k pid hk
    rw [multiLayers] at h ⊢
    cases hf : m.findAsset p x with
    | none => simp [hf] at h
    | some a =>
      -- the head and the tail of the loop
      have key : ∀ (c' : Nat) (L : Nat), (multiLayers m p (j + 1) c' false xs).1 = [] → (∀ n, Spec.groupSize a = some n → L ≤ n) →
          (∀ q, a ≠ .res (.multi q)) →
          ∃ a' L', m.findAsset p pid = some a' ∧ (L :: (multiLayers m p (j + 1) c' false xs).2)[k]? = some L' ∧
            (∀ n, Spec.groupSize a' = some n → L' ≤ n) ∧ ∀ q, a' ≠ .res (.multi q) := by
        intro c' L h1 h2 h3
        cases k with
        | zero =>
          simp only [List.getElem?_cons_zero, Option.some.injEq] at hk
          subst hk
          exact ⟨a, L, hf, by simp, h2, h3⟩
        | succ k =>
          simp only [List.getElem?_cons_succ] at hk ⊢
          exact ih (j + 1) c' h1 k pid hk
      simp only [hf] at h ⊢
      cases a with
      | base r =>
        simp only [List.append_eq_nil_iff] at h
        exact key _ _ h.2 (by intro n hn; cases hn; exact le_refl _) (by intro q hq; cases hq)
      | unknown id ts =>
        exact key _ _ h (by intro n hn; cases hn) (by intro q hq; cases hq)
      | res r =>
        cases r with
        | colorGroup r =>
          simp only [List.append_eq_nil_iff] at h
          exact key _ _ h.2 (by intro n hn; cases hn; exact le_refl _) (by intro q hq; cases hq)
        | texture2D r => exact key _ _ h (by intro n hn; cases hn) (by intro q hq; cases hq)
        | texture2DGroup r => exact key _ _ h (by intro n _; exact Nat.zero_le _) (by intro q hq; cases hq)
        | composite r =>
          simp only [List.append_eq_nil_iff] at h
          exact key _ _ h.2 (by intro n hn; cases hn; exact le_refl _) (by intro q hq; cases hq)
        | multi r => cases h
        | sliceStack r => exact key _ _ h (by intro n hn; cases hn) (by intro q hq; cases hq)

/-- **C42**, multi-properties: every referenced resource exists, is not itself a group of multi-properties, and no index of an
entry exceeds the number of its properties.  Missing: the index equal to that number, which is accepted
(`C42_multi_false`). -/
theorem C42_multi_partial (env : Env) (m : Model) (hwf : m.WF) (h : m.Accepts env) (hreg : env.materials = true)
    (hd : Spec.Declares m nsMaterials) (p : Str) (rs : Resources) (hp : Spec.IsPart m p rs) (hne : p ≠ [])
    (r : MultiProperties) (hr : Asset.res (.multi r) ∈ rs.assets) :
    r.id ≠ 0 ∧ ∀ (k : Nat) (pid : UInt32), r.pids[k]? = some pid →
      ∃ a ∈ rs.assets, a.identify = pid ∧ (∀ q, a ≠ .res (.multi q)) ∧
        ∀ entry ∈ r.multis, ∀ i, entry[k]? = some i → ∀ n, Spec.groupSize a = some n → i.toNat ≤ n := by
  have h1 : r.validate m p = [] := accepted_material hwf h hreg hd hp hr
  unfold MultiProperties.validate at h1
  simp only [List.append_eq_nil_iff, ite_nil, errsIdx_nil] at h1
  obtain ⟨⟨⟨⟨⟨h2, -⟩, -⟩, -⟩, h3⟩, h4⟩ := h1
  refine ⟨h2, fun k pid hk => ?_⟩
  obtain ⟨a, L, e1, e2, e3, e4⟩ := multiLayers_ok r.pids 0 0 h3 k pid hk
  obtain ⟨e5, e6⟩ := findAsset_part hwf h hp hne e1
  refine ⟨a, e5, e6, e4, fun entry he i hi n hn => ?_⟩
  obtain ⟨j, hj⟩ := List.getElem?_of_mem he
  have h5 := h4 j entry hj
  simp only [multiOut, List.any_eq_true, decide_eq_true_eq, not_exists, not_and, not_lt] at h5
  refine le_trans (h5 (L, i) ?_) (e3 n hn)
  rw [List.mem_iff_getElem?]
  exact ⟨k, by rw [List.getElem?_zip_eq_some]; exact ⟨e2, hi⟩⟩

/-! ### Counterexamples -/

/-- A model that declares the materials extension, with one base material. -/
def Spec.oneBase (r : ExtRes) : Model :=
  { Model.zero with
    extensions := [⟨nsMaterials, b!"m", true⟩]
    resources := { Resources.zero with assets := [.base ⟨1, [⟨b!"a", ⟨1, 1, 1, 1⟩, []⟩], []⟩, .res r] } }

/-- **C42** fails: the index 1 of a group of one material is accepted in composite materials. -/
theorem C42_composite_false : ∃ (env : Env) (m : Model) (r : CompositeMaterials) (b : BaseMaterials) (i : UInt32),
    m.WF ∧ m.Accepts env ∧ env.materials = true ∧ Spec.Declares m nsMaterials ∧ Asset.res (.composite r) ∈ m.resources.assets ∧
    Asset.base b ∈ m.resources.assets ∧ b.id = r.materialID ∧ i ∈ r.indices ∧ ¬ i.toNat < b.materials.length := by
  refine ⟨.ascii true true true true, Spec.oneBase (.composite ⟨2, 1, [1], [[.one]]⟩), _, _, 1, by decide,
    accepts_of 1 (by decide +kernel), rfl, ⟨_, List.mem_singleton.2 rfl, rfl⟩, List.mem_cons_of_mem _ (List.mem_singleton.2 rfl),
    List.mem_cons.2 (.inl rfl), rfl, List.mem_singleton.2 rfl, by decide⟩

/-- **C42** fails: the index 1 of a group of one material is accepted in multi-properties. -/
theorem C42_multi_false : ∃ (env : Env) (m : Model) (r : MultiProperties) (b : BaseMaterials) (entry : List UInt32) (i : UInt32),
    m.WF ∧ m.Accepts env ∧ env.materials = true ∧ Spec.Declares m nsMaterials ∧ Asset.res (.multi r) ∈ m.resources.assets ∧
    Asset.base b ∈ m.resources.assets ∧ r.pids[0]? = some b.id ∧ entry ∈ r.multis ∧ entry[0]? = some i ∧
    ¬ i.toNat < b.materials.length := by
  refine ⟨.ascii true true true true, Spec.oneBase (.multi ⟨2, [1], [], [[1]]⟩), _, _, [1], 1, by decide,
    accepts_of 1 (by decide +kernel), rfl, ⟨_, List.mem_singleton.2 rfl, rfl⟩, List.mem_cons_of_mem _ (List.mem_singleton.2 rfl),
    List.mem_cons.2 (.inl rfl), rfl, List.mem_singleton.2 rfl, rfl, by decide⟩

/-- On the other hand the second entry of a group of texture coordinates is rejected in multi-properties: their number is
taken to be 0. -/
theorem C42_texture_false : ∃ (env : Env) (m : Model) (r : MultiProperties) (t : Texture2DGroup) (entry : List UInt32),
    m.WF ∧ ¬ m.Accepts env ∧ m.resources.assets = [.res (.texture2D ⟨1, b!"/t", .png, .wrap, .wrap, .auto⟩),
      .res (.texture2DGroup t), .res (.multi r)] ∧ t.textureID = 1 ∧ t.coords.length = 2 ∧ r.pids = [t.id] ∧
      r.multis = [entry] ∧ entry = [1] ∧
      (({ m with resources := { m.resources with assets := [.res (.texture2D ⟨1, b!"/t", .png, .wrap, .wrap, .auto⟩),
        .res (.texture2DGroup t), .res (.multi { r with multis := [[0]] })] } } : Model).Accepts env) := by
  let t : Texture2DGroup := ⟨2, 1, [⟨.zero, .zero⟩, ⟨.one, .one⟩]⟩
  let r : MultiProperties := ⟨3, [2], [], [[1]]⟩
  let m : Model := { Model.zero with
    extensions := [⟨nsMaterials, b!"m", true⟩]
    attachments := [⟨[], b!"/t", []⟩]
    resources := { Resources.zero with assets := [.res (.texture2D ⟨1, b!"/t", .png, .wrap, .wrap, .auto⟩),
      .res (.texture2DGroup t), .res (.multi r)] } }
  refine ⟨.ascii true true true true, m, r, t, [1], by decide, ?_, rfl, rfl, rfl, rfl, rfl, rfl, accepts_of 1 (by decide +kernel)⟩
  intro h
  have h1 : r.validate m m.pathOrDefault = [] :=
    accepted_material (m := m) (by exact List.nodup_nil) h rfl ⟨_, List.mem_singleton.2 rfl, rfl⟩ .root (a := .res (.multi r))
      (by simp [m])
  have h2 : (r.validate m m.pathOrDefault).length ≠ 0 := by decide +kernel
  rw [h1] at h2
  exact h2 rfl

/- The hypotheses can be met. -/
example : (Spec.oneBase (.multi ⟨2, [1], [], [[0]]⟩)).Accepts (.ascii true true true true) := accepts_of 1 (by decide +kernel)

end Go3mf
