import Verif.Lemmas.Reorder
import Verif.Props.C37
import Verif.Props.C96

/-!
# C98: the order of resources and items does not matter

Resources are found by identifier, and the goroutines of the bounding box join their results in any order.  So a model with the
assets, objects and items in another order is accepted or not as before, finds the same and has the same box.  Only a beam lattice needs
its clipping mesh to stand before the object that uses it, as the standard demands.
-/

namespace Go3mf
open Spec

/-- Every asset has an identifier. -/
def Spec.AssetsNumbered (m : Model) : Prop :=
  ∀ rs, (rs = m.resources ∨ ∃ c ∈ m.childs, rs = c.2.resources) → ∀ a ∈ rs.assets, a.identify ≠ 0

/-- The numbers of an accepted model are distinct. -/
theorem accepted_distinct {env : Env} {m : Model} (hwf : m.WF) (hn : AssetsNumbered m) (h : m.Accepts env) : IdsDistinct m := by
  intro rs hrs
  obtain ⟨p, hp⟩ : ∃ p, IsPart m p rs := by
    rcases hrs with rfl | ⟨⟨q, c⟩, hc, rfl⟩
    · exact ⟨_, .root⟩
    · exact ⟨q, .child hc⟩
  obtain ⟨h1, h2, _⟩ := C37_ids_partial env m hwf h p rs hp
  have e1 : (rs.assets.map Asset.identify).filter (· ≠ 0) = rs.assets.map Asset.identify := by
    rw [List.filter_eq_self]
    intro x hx
    obtain ⟨a, ha, rfl⟩ := List.mem_map.1 hx
    simpa using hn rs hrs a ha
  have e2 : (rs.objects.map Object.id).filter (· ≠ 0) = rs.objects.map Object.id := by
    rw [List.filter_eq_self]
    intro x hx
    obtain ⟨o, ho, rfl⟩ := List.mem_map.1 hx
    simpa using h2 o ho
  rw [DistinctIds, List.filter_append, e1, e2] at h1
  exact ⟨h1.of_append_left, h1.of_append_right⟩

theorem Spec.Reordered.numbered {m m' : Model} (h : Reordered m m') (hn : AssetsNumbered m) : AssetsNumbered m' := by
  intro rs' hr a ha
  obtain ⟨rs, h1, h2⟩ := h.part hr
  exact hn rs h1 a (h2.assets.mem_iff.1 ha)

/-- **C98**: a model is accepted in one order of its assets, objects and items exactly if it is in another, if every asset has a number
and no beam lattice refers to another mesh, or that extension is not declared. -/
theorem C98_accepts (env : Env) {m m' : Model} (hwf : m.WF) (hn : AssetsNumbered m) (h : Reordered m m')
    (hl : (∀ e ∈ m.extensions, env.load e.ns ≠ some .beamlattice) ∨ LatticesAlone m) : m'.Accepts env ↔ m.Accepts env := by
  have hwf' : m'.WF := by
    have := forall₂_keys h.childs
    unfold Model.WF at hwf ⊢
    rw [this]
    exact hwf
  constructor
  · intro ha
    refine accepts_reorder (accepted_distinct hwf' (h.numbered hn) ha) h.symm (hl.imp ?_ h.alone) ha
    obtain ⟨_, _, _, e⟩ := h.rest
    rw [e]
    exact id
  · exact fun ha => accepts_reorder (accepted_distinct hwf hn ha) h hl ha

/-- **C98**: the lookups find the same, if no two assets of a part and no two objects have the same number. -/
theorem C98_found {m m' : Model} (hd : IdsDistinct m) (h : Reordered m m') (p : Str) (id : UInt32) :
    m'.findObject p id = m.findObject p id ∧ m'.findAsset p id = m.findAsset p id :=
  ⟨(h.lookups hd).object p id, (h.lookups hd).asset p id⟩

/-- **C98**: the bounding box can become the same boxes, and that of every object is the same. -/
theorem C98_box {m m' : Model} (hd : IdsDistinct m) (h : Reordered m m') :
    (∀ b, m'.BoundingBox b ↔ m.BoundingBox b) ∧ ∀ (o : Object) p b, o.BoundingBox m' p b ↔ o.BoundingBox m p b :=
  ⟨fun _ => ⟨(h.lookups hd).symm.box, (h.lookups hd).box⟩, (h.lookups hd).objectBox⟩

/-! ## Beam lattices -/

/-- A mesh with a beam lattice that is clipped by the object 2. -/
def Spec.orderLattice : Object :=
  { Object.zero with
    id := 1
    mesh := some
      { numMesh .one with
        any := [.beamLattice
          { clipMode := .inside, clippingMeshID := 2, representationMeshID := 0, minLength := .one, radius := .one,
            capMode := .sphere, beams := [⟨0, 1, .one, .one, .sphere, .sphere⟩], beamSets := [] }] } }

/-- The object 2. -/
def Spec.orderClip : Object :=
  { Object.zero with
    id := 2
    mesh := some (numMesh .one) }

/-- A model with the two. -/
def Spec.orderModel (os : List Object) : Model :=
  { Model.zero with
    extensions := [⟨nsBeam, b!"b", false⟩]
    resources := { Resources.zero with objects := os }
    build := { Build.zero with items := [{ Item.zero with objectID := 1 }] } }

set_option maxRecDepth 8000 in
/-- The condition on beam lattices is needed. -/
theorem C98_lattice_false : ¬ ∀ (m m' : Model), m.WF → AssetsNumbered m → Reordered m m' → m.Accepts allExt → m'.Accepts allExt := by
  intro h
  have h1 := h (orderModel [orderClip, orderLattice]) (orderModel [orderLattice, orderClip]) (by unfold Model.WF; decide +kernel)
    (by rintro rs (rfl | ⟨c, hc, rfl⟩) a ha
        · cases ha
        · cases hc)
    ⟨⟨.refl _, .swap .., rfl⟩, .refl _, .nil, ⟨_, _, _, rfl⟩⟩ (accepts_of 4 (by decide +kernel))
  obtain ⟨es, h2, h3⟩ : ∃ es, (orderModel [orderLattice, orderClip]).Validate allExt es ∧ es.length = 1 := by
    cases e : (orderModel [orderLattice, orderClip]).validateFuel allExt 4 with
    | none => exact absurd (congrArg Option.isSome e) (by decide +kernel)
    | some es => exact ⟨es, ⟨4, e⟩, Option.some.inj ((congrArg (Option.map List.length) e).symm.trans (by decide +kernel))⟩
  rw [← Validate_unique h1 h2] at h3
  cases h3

/-! ## Cases -/

/-- The model of C96 with materials and slices, in another order, and with a child part of two objects. -/
def Spec.orderFirst : Model :=
  { numRefs with
    extensions := [⟨nsMaterials, b!"m", false⟩, ⟨nsSlices, b!"s", true⟩]
    build := { Build.zero with items := [{ Item.zero with objectID := 2 }, { Item.zero with objectID := 1 }] }
    childs := [(b!"/c", { ChildModel.zero with resources := { Resources.zero with objects := [orderClip, numComps 1 [⟨2, .identity, []⟩]] } })] }

/-- Everything the other way round. -/
def Spec.orderSecond : Model :=
  { orderFirst with
    resources :=
      { Resources.zero with
        assets := numRefs.resources.assets.reverse
        objects := numRefs.resources.objects.reverse }
    build := { Build.zero with items := [{ Item.zero with objectID := 1 }, { Item.zero with objectID := 2 }] }
    childs := [(b!"/c", { ChildModel.zero with resources := { Resources.zero with objects := [numComps 1 [⟨2, .identity, []⟩], orderClip] } })] }

theorem order_reordered : Reordered orderFirst orderSecond :=
  ⟨⟨List.reverse_perm _, List.reverse_perm _, rfl⟩, .swap .., .cons ⟨rfl, ⟨.refl _, .swap .., rfl⟩, rfl, rfl⟩ .nil, ⟨_, _, _, rfl⟩⟩

set_option maxRecDepth 8000 in
/-- It is accepted in the other order too, where the composite comes before its materials and the components before their object. -/
example : orderSecond.Accepts allExt ∧ orderSecond ≠ orderFirst :=
  ⟨(C98_accepts allExt (by unfold Model.WF; decide +kernel)
    (by rintro rs (rfl | ⟨c, hc, rfl⟩)
        · decide +kernel
        · rw [List.mem_singleton.1 hc]; decide +kernel) order_reordered (.inl (by decide +kernel))).2 (accepts_of 4 (by decide +kernel)),
   by decide +kernel⟩

set_option maxRecDepth 8000 in
/-- The numbers are distinct. -/
example (b : Box) : orderSecond.BoundingBox b ↔ orderFirst.BoundingBox b :=
  (C98_box (by
    rintro rs (rfl | ⟨c, hc, rfl⟩)
    · decide +kernel
    · rw [List.mem_singleton.1 hc]; decide +kernel) order_reordered).1 b

end Go3mf
