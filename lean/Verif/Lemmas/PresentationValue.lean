import Verif.Lemmas.Presentation
import Mathlib.Tactic.FinCases
import Mathlib.Tactic.Tauto

/-!
# What is made of documents that differ in their presentation only
-/

namespace Go3mf
open Spec

/-- The type of an element with a meaning of its own. -/
theorem childKind_core (env : Env) (k : Kind) (l : Str) : childKind env k (core l) = (elements k).lookup (core l) := by
  rw [childKind, if_neg]
  exact fun h => h.2 rfl

theorem childKind_notOpen (env : Env) {k : Kind} (hk : k.isOpen = false) (n : Name) : childKind env k n = (elements k).lookup n := by
  rw [childKind, if_neg]
  simp [hk]

namespace Spec.SameElem

variable {env : Env} {e e' : List Attr × List Node}

/-! ## Values -/

theorem metadata (h : SameElem env .metadata e e') (exts : List Extension) : metadataOf exts e = metadataOf exts e' := by
  rw [metadataOf, metadataOf, h.1.plain, h.1.text, h.1.text, h.2.docText rfl]

theorem metadataGroup (h : SameElem env .metadataGroup e e') (exts : List Extension) :
    metadataGroupOf env exts (some e) = metadataGroupOf env exts (some e') := by
  rw [metadataGroupOf, metadataGroupOf, h.1.eq_of_none rfl,
    h.2.map (childKind_core _ _ _) _ fun _ _ h => h.metadata exts]

theorem optMetadataGroup {k : Kind} {mu : Mult} {c c' : List Node} (h : SameContent env k c c')
    (hk : (elements k).lookup (core b!"metadatagroup") = some (.metadataGroup, mu)) (exts : List Extension) :
    metadataGroupOf env exts (child? (core b!"metadatagroup") c) = metadataGroupOf env exts (child? (core b!"metadatagroup") c') := by
  rcases h.child ((childKind_core _ _ _).trans hk) with ⟨h1, h2⟩ | ⟨x, x', h1, h2, h3⟩
  · rw [h1, h2]
  · rw [h1, h2, h3.metadataGroup]

theorem item (h : SameElem env .item e e') (exts : List Extension) : itemOf env exts e = itemOf env exts e' := by
  rw [itemOf, itemOf, h.1.uint, h.1.matrix, h.1.text, h.1.ext, optMetadataGroup h.2 rfl]

theorem build (h : SameElem env .build e e') (exts : List Extension) : buildOf env exts (some e) = buildOf env exts (some e') := by
  rw [buildOf, buildOf, h.1.eq_of_none rfl, h.2.map (childKind_core _ _ _) _ fun _ _ h => h.item exts]

theorem base (h : SameElem env .base e e') : baseOf env e = baseOf env e' := by
  rw [baseOf, baseOf, h.1.plain, h.1.text, h.1.ext]

theorem baseMaterials (h : SameElem env .baseMaterials e e') : baseMaterialsOf env e = baseMaterialsOf env e' := by
  rw [baseMaterialsOf, baseMaterialsOf, h.1.uint, h.1.ext, h.2.map (childKind_core _ _ _) _ fun _ _ h => h.base]

theorem vertex (h : SameElem env .vertex e e') : vertexOf e.1 = vertexOf e'.1 := by
  rw [vertexOf, vertexOf, h.1.float, h.1.float, h.1.float]

theorem triangle (h : SameElem env .triangle e e') (p q : UInt32) : triangleOf env p q e.1 = triangleOf env p q e'.1 := by
  simp only [triangleOf, h.1.uint, h.1.plain, h.1.ext]

theorem component (h : SameElem env .component e e') : componentOf env e.1 = componentOf env e'.1 := by
  rw [componentOf, componentOf, h.1.uint, h.1.matrix, h.1.ext]

theorem components (h : SameElem env .components e e') : componentsOf env e = componentsOf env e' := by
  rw [componentsOf, componentsOf, h.1.eq_of_none rfl, h.2.map (childKind_core _ _ _) _ fun _ _ h => h.component]

theorem colorGroup (h : SameElem env .colorGroup e e') : colorGroupOf e = colorGroupOf e' := by
  rw [colorGroupOf, colorGroupOf, h.1.uint, h.2.map (childKind_notOpen _ rfl _) _ fun _ _ h => by rw [h.1.text]]

theorem texture2DGroup (h : SameElem env .texture2DGroup e e') : texture2DGroupOf e = texture2DGroupOf e' := by
  rw [texture2DGroupOf, texture2DGroupOf, h.1.uint, h.1.uint,
    h.2.map (childKind_notOpen _ rfl _) _ fun _ _ h => by rw [h.1.float, h.1.float]]

theorem texture2D (h : SameElem env .texture2D e e') : texture2DOf e.1 = texture2DOf e'.1 := by
  simp only [texture2DOf, h.1.uint, h.1.text, h.1.word]

theorem compositeMaterials (h : SameElem env .compositeMaterials e e') : compositeMaterialsOf e = compositeMaterialsOf e' := by
  rw [compositeMaterialsOf, compositeMaterialsOf, h.1.uint, h.1.uint, h.1.uints,
    h.2.map (childKind_notOpen _ rfl _) _ fun _ _ h => by rw [h.1.floats]]

theorem multiProperties (h : SameElem env .multiProperties e e') : multiPropertiesOf e = multiPropertiesOf e' := by
  rw [multiPropertiesOf, multiPropertiesOf, h.1.uint, h.1.uints, h.1.text,
    h.2.map (childKind_notOpen _ rfl _) _ fun _ _ h => by rw [h.1.uints]]

theorem segment (h : SameElem env .segment e e') : segmentOf e.1 = segmentOf e'.1 := by
  simp only [segmentOf, h.1.uint, h.1.plain]

theorem polygon (h : SameElem env .polygon e e') : polygonOf e = polygonOf e' := by
  rw [polygonOf, polygonOf, h.1.uint, h.2.map (childKind_notOpen _ rfl _) _ fun _ _ h => h.segment]

theorem polygonVertex (h : SameElem env .polygonVertex e e') : polygonVertexOf e.1 = polygonVertexOf e'.1 := by
  rw [polygonVertexOf, polygonVertexOf, h.1.float, h.1.float]

theorem slice (h : SameElem env .slice e e') : sliceOf e = sliceOf e' := by
  rw [sliceOf, sliceOf, h.1.float, h.2.map (childKind_notOpen _ rfl (slc b!"polygon")) _ fun _ _ h => h.polygon]
  congr 1
  rcases h.2.child (childKind_notOpen _ rfl (slc b!"vertices")) with ⟨h1, h2⟩ | ⟨x, x', h1, h2, h3⟩
  · rw [h1, h2]
  · rw [h1, h2]
    exact h3.2.map (childKind_notOpen _ rfl _) _ fun _ _ h => h.polygonVertex

theorem sliceRef (h : SameElem env .sliceRef e e') : sliceRefOf e.1 = sliceRefOf e'.1 := by
  rw [sliceRefOf, sliceRefOf, h.1.uint, h.1.text]

theorem sliceStack (h : SameElem env .sliceStack e e') : sliceStackOf e = sliceStackOf e' := by
  rw [sliceStackOf, sliceStackOf, h.1.uint, h.1.float, h.2.map (childKind_notOpen _ rfl (slc b!"slice")) _ fun _ _ h => h.slice,
    h.2.map (childKind_notOpen _ rfl (slc b!"sliceref")) _ fun _ _ h => h.sliceRef]

theorem beam (h : SameElem env .beam e e') (r : F32) (c : CapMode) : beamOf r c e.1 = beamOf r c e'.1 := by
  simp only [beamOf, h.1.uint, h.1.float, h.1.word]

theorem beamSet (h : SameElem env .beamSet e e') : beamSetOf e = beamSetOf e' := by
  rw [beamSetOf, beamSetOf, h.1.text, h.1.text, h.2.map (childKind_notOpen _ rfl _) _ fun _ _ h => h.1.uint _]

theorem beamLattice (h : SameElem env .beamLattice e e') : beamLatticeOf e = beamLatticeOf e' := by
  simp only [beamLatticeOf, h.1.uint, h.1.float, h.1.word, h.1.plain]
  congr 1
  · rcases h.2.child (childKind_notOpen _ rfl (bml b!"beams")) with ⟨h1, h2⟩ | ⟨x, x', h1, h2, h3⟩
    · rw [h1, h2]
    · rw [h1, h2]
      exact h3.2.map (childKind_notOpen _ rfl _) _ fun _ _ h => h.beam _ _
  · rcases h.2.child (childKind_notOpen _ rfl (bml b!"beamsets")) with ⟨h1, h2⟩ | ⟨x, x', h1, h2, h3⟩
    · rw [h1, h2]
    · rw [h1, h2]
      exact h3.2.map (childKind_notOpen _ rfl _) _ fun _ _ h => h.beamSet

theorem extRes {k : Kind} (h : SameElem env k e e') : extResOf k e = extResOf k e' := by
  cases k <;> simp only [extResOf]
  · rw [h.colorGroup]
  · rw [h.texture2DGroup]
  · rw [h.texture2D]
  · rw [h.compositeMaterials]
  · rw [h.multiProperties]
  · rw [h.sliceStack]

end Spec.SameElem

namespace Spec.SameContent

variable {env : Env} {k : Kind} {c c' : List Node}

/-- In an element where extensions may be, the elements that are there once or have a number of their own are of the core specification. -/
theorem single_core {n : Name} {k' : Kind} {mu : Mult} (hk : k.isOpen = true) (h : childKind env k n = some (k', mu))
    (h0 : mu = .single ∨ mu = .many) : n.space = nsCore := by
  by_contra hn
  rw [childKind, if_pos ⟨hk, hn⟩] at h
  have hm : (if k = .resources then Mult.asset else Mult.free) ≠ mu := by rcases h0 with rfl | rfl <;> split <;> simp
  revert h
  simp only
  split
  · rw [Option.map_eq_some_iff]
    rintro ⟨_, _, h⟩
    exact hm (Prod.mk.inj h).2
  · intro h
    exact hm (Prod.mk.inj (Option.some.inj h)).2

theorem any (h : SameContent env k c c') (hk : k = .model ∨ k = .childModel ∨ k = .mesh) :
    c.filterMap (anyOf env k) = c'.filterMap (anyOf env k) := by
  have single : ∀ n k' mu as b, childKind env k n = some (k', mu) → mu = .single ∨ mu = .many → anyOf env k (.elem n as b) = none := by
    intro n k' mu as b hn h0
    have hs := single_core (by rcases hk with rfl | rfl | rfl <;> rfl) hn h0
    have hn' : n = core n.loc := by rw [core, ← hs]
    rw [hn', childKind_core] at hn
    have hm := List.lookup_eq_some_iff.1 hn
    rw [anyOf, hn', childKind_core, hn]
    have : k' ∈ ([.resources, .build, .metadata, .vertices, .triangles] : List Kind) := by
      obtain ⟨l1, l2, e, -⟩ := hm
      have : (core n.loc, k', mu) ∈ elements k := by rw [e]; simp
      rcases hk with rfl | rfl | rfl <;> simp [elements] at this ⊢ <;> tauto
    fin_cases this <;> rfl
  refine h.filterMap _ (fun x hx => ?_) (fun n k' mu e e' hn he hf => ?_) single
  · cases x with
    | elem n as b => rw [anyOf, show childKind env k n = none from hx]
    | text t => rfl
    | other => rfl
  · rw [anyOf, anyOf, hn]
    cases k' <;> simp only [] <;> first
      | (rw [he.extRes])
      | (rw [he.beamLattice])
      | (simp [Kind.isForeign] at hf)

theorem assets (h : SameContent env .resources c c') : c.filterMap (assetOf env) = c'.filterMap (assetOf env) := by
  refine h.filterMap _ (fun x hx => ?_) (fun n k' mu e e' hn he hf => ?_) fun n k' mu as b hn h0 => ?_
  · cases x with
    | elem n as b => rw [assetOf, show childKind env .resources n = none from hx]
    | text t => rfl
    | other => rfl
  · rw [assetOf, assetOf, hn]
    cases k' <;> simp only [] <;> first
      | (rw [he.extRes])
      | (rw [he.baseMaterials])
      | (simp [Kind.isForeign] at hf)
  · have hs := single_core rfl hn h0
    have hn' : n = core n.loc := by rw [core, ← hs]
    have hn0 := hn
    rw [hn', childKind_core] at hn
    obtain ⟨l1, l2, e, -⟩ := List.lookup_eq_some_iff.1 hn
    have : (core n.loc, k', mu) ∈ elements .resources := by rw [e]; simp
    have hk : k' = .object := by rcases h0 with rfl | rfl <;> simp [elements] at this; exact this.2
    subst hk
    rw [assetOf, hn0]
    rfl

end Spec.SameContent

namespace Spec.SameElem

variable {env : Env} {e e' : List Attr × List Node}

theorem mesh (h : SameElem env .mesh e e') (p q : UInt32) : meshOf env p q e = meshOf env p q e' := by
  rw [meshOf, meshOf, h.1.eq_of_none rfl, h.2.any (.inr (.inr rfl))]
  rcases h.2.child (childKind_core _ _ b!"vertices") with ⟨h1, h2⟩ | ⟨x, x', h1, h2, h3⟩ <;>
  rcases h.2.child (childKind_core _ _ b!"triangles") with ⟨k1, k2⟩ | ⟨y, y', k1, k2, k3⟩ <;>
  simp only [h1, h2, k1, k2]
  · rw [k3.1.eq_of_none rfl, k3.2.map (childKind_core _ _ _) _ fun _ _ h => h.triangle p q]
  · rw [h3.1.eq_of_none rfl, h3.2.map (childKind_core _ _ _) _ fun _ _ h => h.vertex]
  · rw [h3.1.eq_of_none rfl, h3.2.map (childKind_core _ _ _) _ fun _ _ h => h.vertex, k3.1.eq_of_none rfl,
      k3.2.map (childKind_core _ _ _) _ fun _ _ h => h.triangle p q]

theorem object (h : SameElem env .object e e') (exts : List Extension) : objectOf env exts e = objectOf env exts e' := by
  rw [objectOf, objectOf, h.1.ext]
  simp only [h.1.uint, h.1.text, h.1.word, optMetadataGroup h.2 rfl]
  congr 1
  · rcases h.2.child (childKind_core _ _ b!"mesh") with ⟨h1, h2⟩ | ⟨x, x', h1, h2, h3⟩
    · rw [h1, h2]
    · rw [h1, h2, Option.map_some, Option.map_some, h3.mesh]
  · rcases h.2.child (childKind_core _ _ b!"components") with ⟨h1, h2⟩ | ⟨x, x', h1, h2, h3⟩
    · rw [h1, h2]
    · rw [h1, h2, Option.map_some, Option.map_some, h3.components]

theorem resources (h : SameElem env .resources e e') (exts : List Extension) :
    resourcesOf env exts (some e) = resourcesOf env exts (some e') := by
  rw [resourcesOf, resourcesOf, h.1.eq_of_none rfl, h.2.assets, h.2.map (childKind_core _ _ _) _ fun _ _ h => h.object exts]

theorem optResources {k : Kind} {mu : Mult} {c c' : List Node} (h : SameContent env k c c')
    (hk : (elements k).lookup (core b!"resources") = some (.resources, mu)) (exts : List Extension) :
    resourcesOf env exts (child? (core b!"resources") c) = resourcesOf env exts (child? (core b!"resources") c') := by
  rcases h.child ((childKind_core _ _ _).trans hk) with ⟨h1, h2⟩ | ⟨x, x', h1, h2, h3⟩
  · rw [h1, h2]
  · rw [h1, h2, h3.resources]

theorem model (h : SameElem env .model e e') (m : Model) : modelOf env m e = modelOf env m e' := by
  have he : extensionsOf e.1 = extensionsOf e'.1 := by
    rw [extensionsOf, extensionsOf, h.1.text, h.1.filter _ fun a ha hn => by simp [hn.1] at ha]
  have ha : modelAttrs env e.1 = modelAttrs env e'.1 := by
    rw [modelAttrs, modelAttrs, h.1.filter _ fun a ha hn => by simp [hn.1] at ha]
  have hb : buildOf env (extensionsOf e'.1) (child? (core b!"build") e.2) = buildOf env (extensionsOf e'.1) (child? (core b!"build") e'.2) := by
    rcases h.2.child (childKind_core _ _ b!"build") with ⟨h1, h2⟩ | ⟨x, x', h1, h2, h3⟩
    · rw [h1, h2]
    · rw [h1, h2, h3.build]
  rw [modelOf, modelOf, he, ha, hb, h.1.word, h.1.text, h.1.find, h.2.any (.inl rfl), optResources h.2 rfl,
    h.2.map (childKind_core _ _ _) _ fun _ _ h => h.metadata _]

end Spec.SameElem

/-! ## Faults -/

/-- As many elements before, of each kind that is counted. -/
def SameBefore (env : Env) (k : Kind) (b b' : List Node) : Prop :=
  ∀ n k' mu, childKind env k n = some (k', mu) → mu ≠ .single → indexOf env k b n mu = indexOf env k b' n mu

theorem indexOf_append (env : Env) (k : Kind) (b : List Node) (x : Node) (n : Name) :
    indexOf env k (b ++ [x]) n .many = indexOf env k b n .many + (children n [x]).length ∧
    indexOf env k (b ++ [x]) n .asset = indexOf env k b n .asset + indexOf env k [x] n .asset := by
  constructor
  · simp [indexOf, children, List.filterMap_append]
  · simp only [indexOf, List.filter_append, List.length_append]
    push_cast
    rfl

theorem SameBefore.append {env : Env} {k : Kind} {b b' : List Node} (h : SameBefore env k b b') (x x' : Node)
    (hx : ∀ n k' mu, childKind env k n = some (k', mu) → mu ≠ .single → indexOf env k [x] n mu = indexOf env k [x'] n mu) :
    SameBefore env k (b ++ [x]) (b' ++ [x']) := by
  intro n k' mu hn hm
  have h1 := h n k' mu hn hm
  have h2 := hx n k' mu hn hm
  cases mu with
  | single => exact absurd rfl hm
  | free => rfl
  | many =>
    rw [(indexOf_append ..).1, (indexOf_append ..).1, h1]
    simp only [indexOf] at h2
    rw [h2]
  | asset => rw [(indexOf_append ..).2, (indexOf_append ..).2, h1, h2]

/-- A node that is not counted. -/
def Uncounted (env : Env) (k : Kind) (x : Node) : Prop :=
  ∀ n k' mu, childKind env k n = some (k', mu) → mu ≠ .single → indexOf env k [x] n mu = indexOf env k [] n mu

theorem SameBefore.left {env : Env} {k : Kind} {b b' : List Node} (h : SameBefore env k b b') {x : Node} (hx : Uncounted env k x) :
    SameBefore env k (b ++ [x]) b' := by
  intro n k' mu hn hm
  have h1 := h n k' mu hn hm
  have h2 := hx n k' mu hn hm
  cases mu with
  | single => exact absurd rfl hm
  | free => rfl
  | many =>
    rw [(indexOf_append ..).1, h1]
    simp only [indexOf] at h2
    rw [h2]
    simp [children]
  | asset =>
    rw [(indexOf_append ..).2, h1, h2]
    simp [indexOf]

theorem SameBefore.symm {env : Env} {k : Kind} {b b' : List Node} (h : SameBefore env k b b') : SameBefore env k b' b :=
  fun n k' mu hn hm => (h n k' mu hn hm).symm

theorem SameBefore.right {env : Env} {k : Kind} {b b' : List Node} (h : SameBefore env k b b') {x : Node} (hx : Uncounted env k x) :
    SameBefore env k b (b' ++ [x]) := (h.symm.left hx).symm

theorem idle_uncounted {env : Env} {k : Kind} {x : Node} (hx : Idle env k x) : Uncounted env k x := by
  intro n k' mu hn hm
  cases mu with
  | single => exact absurd rfl hm
  | free => rfl
  | many => simp only [indexOf]; rw [children_cons_not (idle_named hx hn)]
  | asset =>
    cases x with
    | elem m as b => simp [indexOf, show childKind env k m = none from hx]
    | text t => simp [indexOf]
    | other => simp [indexOf]

/-- An element that is not counted among the assets does not change the number of others. -/
theorem other_counted {env : Env} {k : Kind} {m : Name} {k1 : Kind} {mu1 : Mult} (h : childKind env k m = some (k1, mu1))
    (h0 : mu1 = .single ∨ mu1 = .many) (as : List Attr) (d b : List Node) {n : Name} (hn : m ≠ n) (mu : Mult) :
    indexOf env k (b ++ [.elem m as d]) n mu = indexOf env k b n mu := by
  cases mu with
  | single => rfl
  | free => rfl
  | many =>
    rw [(indexOf_append ..).1, children_cons_elem, if_neg hn]
    simp [children]
  | asset =>
    rw [(indexOf_append ..).2]
    have : mu1 ≠ .asset := by rcases h0 with rfl | rfl <;> simp
    simp [indexOf, h, this]

/-- The count of elements of one name does not depend on the others. -/
theorem own_counted {env : Env} {k : Kind} {y : Node} {n : Name} (hy : ¬ y.named n) (b : List Node) {mu : Mult}
    (h0 : mu = .single ∨ mu = .many) : indexOf env k (b ++ [y]) n mu = indexOf env k b n mu := by
  rcases h0 with rfl | rfl
  · rfl
  · rw [(indexOf_append ..).1, children_cons_not hy]
    simp [children]

theorem SameBefore.swap {env : Env} {k : Kind} {b b' : List Node} (h : SameBefore env k b b') (x y : Node) :
    SameBefore env k (b ++ [x] ++ [y]) (b' ++ [y] ++ [x]) := by
  intro n k' mu hn hm
  have h1 := h n k' mu hn hm
  cases mu with
  | single => exact absurd rfl hm
  | free => rfl
  | many => simp only [(indexOf_append ..).1, h1]; omega
  | asset => simp only [(indexOf_append ..).2, h1]; omega

/-- The faults of a node depend on the counts only. -/
theorem nodeFaults_before {env : Env} {k : Kind} {b b' : List Node} (h : SameBefore env k b b') (x : Node) :
    nodeFaults env k b x = nodeFaults env k b' x := by
  cases x with
  | elem n as c =>
    rw [nodeFaults, nodeFaults]
    cases hn : childKind env k n with
    | none => rfl
    | some q =>
      obtain ⟨k', mu⟩ := q
      have : indexOf env k b n mu = indexOf env k b' n mu := by
        by_cases hm : mu = .single
        · subst hm; rfl
        · exact h n k' mu hn hm
      simp only [this]
  | text t => simp [nodeFaults]
  | other => simp [nodeFaults]

theorem contentFaults_before {env : Env} {k : Kind} : ∀ (c : List Node) {b b' : List Node}, SameBefore env k b b' →
    contentFaults env k b c = contentFaults env k b' c
  | [], _, _, _ => by rw [contentFaults, contentFaults]
  | x :: c, b, b', h => by
    rw [contentFaults, contentFaults, nodeFaults_before h, contentFaults_before c (h.append x x fun _ _ _ _ _ => rfl)]

theorem idle_faults {env : Env} {k : Kind} {x : Node} (hx : Idle env k x) (b : List Node) : nodeFaults env k b x = [] := by
  cases x with
  | elem m as c => rw [nodeFaults, show childKind env k m = none from hx]
  | text t => simp [nodeFaults]
  | other => simp [nodeFaults]

/-- Two elements are exchanged. -/
theorem swap_faults {env : Env} {k : Kind} {n : Name} {k1 : Kind} {mu : Mult} (h1 : childKind env k n = some (k1, mu))
    (h0 : mu = .single ∨ mu = .many) {y : Node} (h2 : ¬ y.named n) (as : List Attr) (d c : List Node) {b b' : List Node}
    (hb : SameBefore env k b b') :
    (contentFaults env k b (.elem n as d :: y :: c)).Perm (contentFaults env k b' (y :: .elem n as d :: c)) := by
  simp only [contentFaults]
  rw [← List.append_assoc, ← List.append_assoc, contentFaults_before c (hb.swap (.elem n as d) y)]
  refine .append_right _ ?_
  have e1 : nodeFaults env k b (.elem n as d) = nodeFaults env k (b' ++ [y]) (.elem n as d) := by
    rw [nodeFaults_before hb, nodeFaults, nodeFaults, h1]
    simp only [own_counted h2 b' h0]
  have e2 : nodeFaults env k (b ++ [.elem n as d]) y = nodeFaults env k b' y := by
    rw [← nodeFaults_before hb]
    cases y with
    | elem m as' c' => rw [nodeFaults, nodeFaults]; simp only [other_counted h1 h0 as d b (Ne.symm h2)]
    | text t => simp [nodeFaults]
    | other => simp [nodeFaults]
  rw [e1, e2]
  exact List.perm_append_comm

/-- The faults are the same, in another order. -/
theorem Spec.SameContent.faults {env : Env} {k : Kind} {c c' : List Node} (h : SameContent env k c c') :
    ∀ {b b' : List Node}, SameBefore env k b b' → (contentFaults env k b c).Perm (contentFaults env k b' c') := by
  induction h with
  | nil => intro b b' _; rw [contentFaults, contentFaults]
  | @same k x c c' _ ih =>
    intro b b' hb
    rw [contentFaults, contentFaults, nodeFaults_before hb]
    exact (ih (hb.append x x fun _ _ _ _ _ => rfl)).append_left _
  | @elem k n k' mu as as' d d' c c' h1 h2 h3 h4 h5 ih1 ih2 =>
    intro b b' hb
    rw [contentFaults, contentFaults]
    refine .append ?_ (ih2 (hb.append _ _ fun n' k'' mu' hn hm => ?_))
    · have : indexOf env k b n mu = indexOf env k b' n mu := by
        by_cases hm : mu = .single
        · subst hm; rfl
        · exact hb n k' mu h1 hm
      rw [nodeFaults, nodeFaults, h1]
      simp only [this]
      refine .map _ (.append (.map _ (h3.faults env k')) (ih1 fun _ _ _ _ _ => rfl))
    · cases mu' with
      | single => exact absurd rfl hm
      | free => rfl
      | many =>
        simp only [indexOf]
        rw [children_cons_elem, children_cons_elem]
        split <;> rfl
      | asset =>
        simp only [indexOf, List.filter_cons, List.filter_nil]
        split <;> rfl
  | drop hx _ ih =>
    intro b b' hb
    rw [contentFaults, idle_faults hx, List.nil_append]
    exact ih (hb.left (idle_uncounted hx))
  | insert hx _ ih =>
    intro b b' hb
    rw [contentFaults, idle_faults hx, List.nil_append]
    exact ih (hb.right (idle_uncounted hx))
  | @move k n k' mu as d y c h1 h0 h2 => exact fun hb => swap_faults h1 h0 h2 as d c hb
  | @back k n k' mu as d y c h1 h0 h2 => exact fun hb => (swap_faults h1 h0 h2 as d c hb.symm).symm
  | trans _ _ ih1 ih2 =>
    intro b b' hb
    exact (ih1 fun _ _ _ _ _ => rfl).trans (ih2 hb)

end Go3mf
