import Verif.Props.C42

/-!
# C43: validation of beam lattices
-/

namespace Go3mf

theorem mapM_flatten_mem {α : Type} {f : α → Option (List Err)} {l : List α} (h : (l.mapM f).map List.flatten = some [])
    {a : α} (ha : a ∈ l) : f a = some [] := (mapM_flatten_nil f l).1 h a ha

theorem accepted_lattice {env : Env} {m : Model} (hwf : m.WF) (h : m.Accepts env) (hreg : env.beamlattice = true)
    (hd : Spec.Declares m nsBeam) {p : Str} {rs : Resources} (hp : Spec.IsPart m p rs) {o : Object} (ho : o ∈ rs.objects) :
    beamValidateObject m p o = [] := by
  obtain ⟨fuel, h⟩ := isPart_accepts hwf h hp
  rw [resources_nil] at h
  have h1 := (h.2.2 o ho).2
  unfold extObjectErrs at h1
  obtain ⟨e, he, hns⟩ := hd
  have h2 := mapM_flatten_mem h1 he
  rw [hns, load_beamlattice env hreg] at h2
  simpa using h2

/-- **C43**, beams: every beam of the lattice of an accepted mesh uses two different existing vertices. -/
theorem C43_beams (env : Env) (m : Model) (hwf : m.WF) (h : m.Accepts env) (hreg : env.beamlattice = true)
    (hd : Spec.Declares m nsBeam) (p : Str) (rs : Resources) (hp : Spec.IsPart m p rs) (o : Object) (ho : o ∈ rs.objects)
    (mesh : Mesh) (hm : o.mesh = some mesh) (bl : BeamLattice) (hbl : getBeamLattice mesh.any = some bl) (b : Beam)
    (hb : b ∈ bl.beams) :
    b.v1 ≠ b.v2 ∧ b.v1.toNat < mesh.vertices.length ∧ b.v2.toNat < mesh.vertices.length := by
  have h1 := accepted_lattice hwf h hreg hd hp ho
  unfold beamValidateObject at h1
  simp only [hm, hbl, List.map_eq_nil_iff, List.append_eq_nil_iff, errsIdx_nil] at h1
  obtain ⟨⟨-, h2⟩, -⟩ := h1
  obtain ⟨i, hi⟩ := List.getElem?_of_mem hb
  have h3 := h2 i b hi
  unfold Beam.validate at h3
  rw [List.append_eq_nil_iff] at h3
  have h4 := h3.1
  by_cases he : b.v1 = b.v2
  · simp [he] at h4
  · simp only [he, if_false, ite_nil, not_or, ge_iff_le, not_le] at h4
    exact ⟨he, h4⟩

/-- **C43**, beam sets, as far as it goes: a set refers to numbers smaller than its own length.  Missing: that these are
beams, which is not checked (`C43_sets_false`). -/
theorem C43_sets_partial (env : Env) (m : Model) (hwf : m.WF) (h : m.Accepts env) (hreg : env.beamlattice = true)
    (hd : Spec.Declares m nsBeam) (p : Str) (rs : Resources) (hp : Spec.IsPart m p rs) (o : Object) (ho : o ∈ rs.objects)
    (mesh : Mesh) (hm : o.mesh = some mesh) (bl : BeamLattice) (hbl : getBeamLattice mesh.any = some bl) (s : BeamSet)
    (hs : s ∈ bl.beamSets) : ∀ r ∈ s.refs, r.toNat < s.refs.length := by
  have h1 := accepted_lattice hwf h hreg hd hp ho
  unfold beamValidateObject at h1
  simp only [hm, hbl, List.map_eq_nil_iff, List.append_eq_nil_iff, errsIdx_nil] at h1
  obtain ⟨-, h2⟩ := h1
  obtain ⟨i, hi⟩ := List.getElem?_of_mem hs
  have h3 := h2 i s hi
  simpa [ite_nil] using h3

/-- A mesh object with one triangle and the given lattice. -/
def Spec.latticeModel (bl : BeamLattice) : Model :=
  { Model.zero with
    extensions := [⟨nsBeam, b!"b", true⟩]
    resources := { Resources.zero with
      objects := [{ Object.zero with id := 1, type := .model, mesh := some { Spec.oneTriangle 0 0 with any := [.beamLattice bl] } }] } }

/-- A lattice of one beam, clipped by no mesh; the clipping mode `outside` is needed for acceptance (see
`C43_clip_false`). -/
def Spec.lattice (refs : List UInt32) : BeamLattice :=
  { clipMode := .outside, clippingMeshID := 0, representationMeshID := 0, beams := [⟨0, 1, .one, .one, .sphere, .sphere⟩],
    beamSets := [⟨refs, [], []⟩], minLength := .one, radius := .one, capMode := .sphere }

/-- **C43** fails: a beam set may refer to the beam 1 of a lattice of one beam. -/
theorem C43_sets_false : ∃ (env : Env) (m : Model) (o : Object) (mesh : Mesh) (bl : BeamLattice) (s : BeamSet) (r : UInt32),
    m.WF ∧ m.Accepts env ∧ env.beamlattice = true ∧ Spec.Declares m nsBeam ∧ o ∈ m.resources.objects ∧
    o.mesh = some mesh ∧ getBeamLattice mesh.any = some bl ∧ s ∈ bl.beamSets ∧ r ∈ s.refs ∧ ¬ r.toNat < bl.beams.length := by
  refine ⟨.ascii true true true true, Spec.latticeModel (Spec.lattice [0, 1]), _, _, Spec.lattice [0, 1], _, 1, by decide,
    accepts_of 1 (by decide +kernel), rfl, ⟨_, List.mem_singleton.2 rfl, rfl⟩, List.mem_singleton.2 rfl, rfl, rfl,
    List.mem_singleton.2 rfl, by simp, by decide⟩

/-- The check of the clipping mesh is inverted: a lattice clipped by no mesh is accepted in mode `inside`, and rejected
in mode `none`, in which no mesh is needed. -/
theorem C43_clip_false : ∃ (env : Env) (bl : BeamLattice), bl.clippingMeshID = 0 ∧
    (Spec.latticeModel { bl with clipMode := .inside }).Accepts env ∧ ¬ (Spec.latticeModel { bl with clipMode := .none }).Accepts env := by
  refine ⟨.ascii true true true true, Spec.lattice [0], rfl, accepts_of 1 (by decide +kernel), fun h => ?_⟩
  have h1 := accepted_lattice (m := Spec.latticeModel { Spec.lattice [0] with clipMode := .none }) (by exact List.nodup_nil) h rfl
    ⟨_, List.mem_singleton.2 rfl, rfl⟩ .root (List.mem_singleton.2 rfl)
  have h2 : (beamValidateObject (Spec.latticeModel { Spec.lattice [0] with clipMode := .none }) defaultModelPath
    { Object.zero with id := 1, type := .model, mesh := some { Spec.oneTriangle 0 0 with
      any := [.beamLattice { Spec.lattice [0] with clipMode := .none }] } }).length ≠ 0 := by decide +kernel
  exact h2 (by rw [List.length_eq_zero_iff]; exact h1)

/- The hypotheses can be met. -/
example : (Spec.latticeModel (Spec.lattice [0])).Accepts (.ascii true true true true) := accepts_of 1 (by decide +kernel)

end Go3mf
