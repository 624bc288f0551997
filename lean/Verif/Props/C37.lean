import Verif.Lemmas.Core

/-!
# C37: what is known of a model that `Model.Validate` accepts
-/

namespace Go3mf

theorem accepts_of {env : Env} {m : Model} (n : Nat) (h : (m.validateFuel env n).map List.isEmpty = some true) :
    m.Accepts env := by
  refine ⟨n, ?_⟩
  cases hv : m.validateFuel env n with
  | none => rw [hv] at h; cases h
  | some es =>
    rw [hv] at h
    simp only [Option.map_some, Option.some.injEq, List.isEmpty_iff] at h
    rw [h]

theorem isPart_accepts {env : Env} {m : Model} (hwf : m.WF) (h : m.Accepts env) {p : Str} {rs : Resources}
    (hp : Spec.IsPart m p rs) : ∃ fuel, rs.validate env m fuel p = some [] := by
  rw [accepts_iff env m hwf] at h
  obtain ⟨-, -, -, -, -, -, ⟨fuel, h1, h2⟩, -⟩ := h
  refine ⟨fuel, ?_⟩
  cases hp with
  | root => exact h2
  | child hc => exact h1 _ _ hc

theorem isPart_object {env : Env} {m : Model} (hwf : m.WF) (h : m.Accepts env) {p : Str} {rs : Resources}
    (hp : Spec.IsPart m p rs) {o : Object} (ho : o ∈ rs.objects) : o.validateCore m p = [] := by
  obtain ⟨fuel, h⟩ := isPart_accepts hwf h hp
  rw [resources_nil] at h
  exact (h.2.2 o ho).1

/-- The part of a child model that is not stored under the empty path is found under its path. -/
theorem isPart_found {env : Env} {m : Model} (hwf : m.WF) (h : m.Accepts env) {p : Str} {rs : Resources}
    (hp : Spec.IsPart m p rs) (hne : p ≠ []) : m.findResources p = some rs := by
  cases hp with
  | root => exact C03_root _ _ (.inr rfl)
  | @child p c hc =>
    rw [accepts_iff env m hwf] at h
    have h1 := (h.2.2.1 p c hc).1
    refine (C03_child m hwf p ?_ _).2 ⟨c, hc, rfl⟩
    rintro (h2 | h2)
    · exact hne h2
    · exact h1 h2

/-- **C37**, identifiers: the objects and base materials of every part have an identifier, and the identifiers other than
0 of the resources of a part are distinct. -/
theorem C37_ids_partial (env : Env) (m : Model) (hwf : m.WF) (h : m.Accepts env) (p : Str) (rs : Resources)
    (hp : Spec.IsPart m p rs) :
    Spec.DistinctIds rs ∧ (∀ o ∈ rs.objects, o.id ≠ 0) ∧ ∀ r, Asset.base r ∈ rs.assets → r.id ≠ 0 := by
  obtain ⟨fuel, h⟩ := isPart_accepts hwf h hp
  rw [resources_nil] at h
  obtain ⟨h1, h2, h3⟩ := h
  refine ⟨h1, fun o ho => ?_, fun r hr => ?_⟩
  · exact ((validateCore_nil m p o).1 (h3 o ho).1).1
  · exact ((base_nil r).1 ((h2 _ hr).1 r rfl)).id

/-- **C37**, build items: the object of every item exists. -/
theorem C37_items (env : Env) (m : Model) (hwf : m.WF) (h : m.Accepts env) (it : Item) (hit : it ∈ m.build.items) :
    ∃ o, Spec.ObjectAt m it.objectPath it.objectID o := by
  rw [accepts_iff env m hwf] at h
  obtain ⟨-, -, -, -, -, -, -, h⟩ := h
  obtain ⟨-, ⟨o, h1, -⟩, -⟩ := (item_nil m it).1 ((build_nil m m.build).1 h it hit)
  obtain ⟨rs, h2, h3⟩ := (C03_findObject m _ _ _).1 h1
  obtain ⟨h4, h5⟩ := isFirst_mem h3
  exact ⟨o, rs, (partAt_iff m hwf _ _).1 h2, h4, h5⟩

/-- **C37**, components: the object of every component exists. -/
theorem C37_components (env : Env) (m : Model) (hwf : m.WF) (h : m.Accepts env) (p : Str) (rs : Resources)
    (hp : Spec.IsPart m p rs) (o : Object) (ho : o ∈ rs.objects) (cs : Components) (hcs : o.components = some cs)
    (c : Component) (hc : c ∈ cs.component) :
    c.objectID ≠ 0 ∧ ∃ obj, Spec.ObjectAt m (Spec.componentPart p c) c.objectID obj := by
  have h1 := ((validateCore_nil m p o).1 (isPart_object hwf h hp ho)).2.2.2.2 cs hcs (List.ne_nil_of_mem hc)
  obtain ⟨h2, ref, h3, -⟩ := (validateComponents_nil m p o _).1 h1.2 c hc
  refine ⟨h2, ref, ?_⟩
  rw [componentPart_eq] at h3
  obtain ⟨rs, h4, h5⟩ := (C03_findObject m _ _ _).1 h3
  obtain ⟨h6, h7⟩ := isFirst_mem h5
  exact ⟨rs, (partAt_iff m hwf _ _).1 h4, h6, h7⟩

/-- **C37**, triangles: every triangle uses three different existing vertices. -/
theorem C37_triangles (env : Env) (m : Model) (hwf : m.WF) (h : m.Accepts env) (p : Str) (rs : Resources)
    (hp : Spec.IsPart m p rs) (o : Object) (ho : o ∈ rs.objects) (mesh : Mesh) (hm : o.mesh = some mesh)
    (t : Triangle) (ht : t ∈ mesh.triangles) : Spec.TriangleOk mesh t := by
  obtain ⟨h1, h2⟩ := ((validateCore_nil m p o).1 (isPart_object hwf h hp ho)).2.2.2.1 mesh hm
  obtain ⟨⟨a1, a2, a3⟩, ⟨b1, b2, b3⟩, -⟩ := ((validateMesh_nil _ o mesh h1).1 h2).2 t ht
  have : ∀ v : UInt32, v < UInt32.ofNat mesh.vertices.length → v.toNat < mesh.vertices.length := by
    intro v hv
    rw [UInt32.lt_iff_toNat_lt, UInt32.toNat_ofNat'] at hv
    exact lt_of_lt_of_le hv (Nat.mod_le _ _)
  exact ⟨a1, a2, a3, this _ b1, this _ b2, this _ b3⟩

/-- **C37**, properties of meshes and triangles: the resource exists, and has the property if it is a group of properties.
Missing: that the resource is a group (false, `C37_group_false`) and child models stored under the empty path, which
are validated with the resources of the root model (`C37_emptyPath_false`). -/
theorem C37_properties_partial (env : Env) (m : Model) (hwf : m.WF) (h : m.Accepts env) (p : Str) (rs : Resources)
    (hp : Spec.IsPart m p rs) (hne : p ≠ []) (o : Object) (ho : o ∈ rs.objects) (mesh : Mesh) (hm : o.mesh = some mesh) :
    (o.pid ≠ 0 → Spec.WeakProperty rs o.pid o.pindex) ∧
    ∀ t ∈ mesh.triangles, t.pid ≠ 0 →
      Spec.WeakProperty rs t.pid t.p1 ∧ Spec.WeakProperty rs t.pid t.p2 ∧ Spec.WeakProperty rs t.pid t.p3 := by
  obtain ⟨h1, h2⟩ := ((validateCore_nil m p o).1 (isPart_object hwf h hp ho)).2.2.2.1 mesh hm
  have hr := isPart_found hwf h hp hne
  rw [hr, Option.getD_some] at h1 h2
  refine ⟨fun h0 => propOk_weak (h1 h0) _ (by simp), fun t ht h0 => ?_⟩
  have := propOk_weak ((((validateMesh_nil _ o mesh h1).1 h2).2 t ht).2.2 h0)
  exact ⟨this _ (by simp), this _ (by simp), this _ (by simp)⟩

/-- **C37**, properties, for groups of base materials, colours, texture coordinates, composites and multi-properties: if
all the resources of a part are such groups, the properties of its meshes and triangles exist. -/
theorem C37_groups (env : Env) (m : Model) (hwf : m.WF) (h : m.Accepts env) (p : Str) (rs : Resources)
    (hp : Spec.IsPart m p rs) (hne : p ≠ []) (hg : ∀ a ∈ rs.assets, Spec.groupSize a ≠ none)
    (o : Object) (ho : o ∈ rs.objects) (mesh : Mesh) (hm : o.mesh = some mesh) :
    (o.pid ≠ 0 → Spec.Property rs o.pid o.pindex) ∧
    ∀ t ∈ mesh.triangles, t.pid ≠ 0 →
      Spec.Property rs t.pid t.p1 ∧ Spec.Property rs t.pid t.p2 ∧ Spec.Property rs t.pid t.p3 := by
  have hw : ∀ pid i, Spec.WeakProperty rs pid i → Spec.Property rs pid i := by
    rintro pid i ⟨a, ha, h1, h2⟩
    obtain ⟨n, hn⟩ := Option.ne_none_iff_exists'.1 (hg a ha)
    exact ⟨a, ha, h1, n, hn, h2 n hn⟩
  obtain ⟨h1, h2⟩ := C37_properties_partial env m hwf h p rs hp hne o ho mesh hm
  exact ⟨fun h0 => hw _ _ (h1 h0), fun t ht h0 => ⟨hw _ _ (h2 t ht h0).1, hw _ _ (h2 t ht h0).2.1, hw _ _ (h2 t ht h0).2.2⟩⟩

/-! ### Counterexamples -/

/-- A mesh with one triangle. -/
def Spec.oneTriangle (pid p : UInt32) : Mesh :=
  { Mesh.zero with
    vertices := [⟨.zero, .zero, .zero⟩, ⟨.one, .zero, .zero⟩, ⟨.zero, .one, .zero⟩]
    triangles := [{ v1 := 0, v2 := 1, v3 := 2, pid := pid, p1 := p, p2 := p, p3 := p, anyAttr := [] }] }

/-- **C37** fails: the properties of a triangle may refer to a texture, which has none. -/
theorem C37_group_false : ∃ (env : Env) (m : Model) (o : Object) (mesh : Mesh) (t : Triangle), m.WF ∧ m.Accepts env ∧
    o ∈ m.resources.objects ∧ o.mesh = some mesh ∧ t ∈ mesh.triangles ∧ t.pid ≠ 0 ∧
    ¬ Spec.Property m.resources t.pid t.p1 := by
  refine ⟨.ascii true true true true, { Model.zero with
      attachments := [⟨[], b!"/t.png", []⟩]
      extensions := [⟨nsMaterials, b!"m", false⟩]
      resources := { Resources.zero with
        assets := [.res (.texture2D ⟨5, b!"/t.png", .png, .wrap, .wrap, .auto⟩)]
        objects := [{ Object.zero with id := 1, type := .support, mesh := some (Spec.oneTriangle 5 7) }] } },
    _, Spec.oneTriangle 5 7, _, by decide, accepts_of 1 (by decide +kernel), List.mem_singleton.2 rfl, rfl,
    List.mem_singleton.2 rfl, by decide, ?_⟩
  rintro ⟨a, ha, -, n, hn, -⟩
  rw [List.mem_singleton] at ha
  subst ha
  cases hn

/-- **C37** fails: a slice stack need not have an identifier. -/
theorem C37_zeroId_false : ∃ (env : Env) (m : Model) (a : Asset), m.WF ∧ m.Accepts env ∧ a ∈ m.resources.assets ∧
    a.identify = 0 := by
  refine ⟨.ascii true true true true, { Model.zero with
      extensions := [⟨nsSlices, b!"s", true⟩]
      resources := { Resources.zero with
        assets := [.res (.sliceStack ⟨0, .zero, [⟨.one, [], []⟩], []⟩)] } },
    _, by decide, accepts_of 1 (by decide +kernel), List.mem_singleton.2 rfl, rfl⟩

/-- **C37** fails for a child model stored under the empty path: its triangles may refer to the materials of the root
model. -/
theorem C37_emptyPath_false : ∃ (env : Env) (m : Model) (c : ChildModel) (o : Object) (mesh : Mesh) (t : Triangle),
    m.WF ∧ m.Accepts env ∧ ([], c) ∈ m.childs ∧ o ∈ c.resources.objects ∧ o.mesh = some mesh ∧ t ∈ mesh.triangles ∧
    t.pid ≠ 0 ∧ ¬ Spec.WeakProperty c.resources t.pid t.p1 := by
  refine ⟨.ascii true true true true, { Model.zero with
      resources := { Resources.zero with
        assets := [.base ⟨5, [⟨b!"a", ⟨1, 1, 1, 1⟩, []⟩], []⟩] }
      childs := [([], { ChildModel.zero with resources := { Resources.zero with
        objects := [{ Object.zero with id := 1, type := .support, mesh := some (Spec.oneTriangle 5 0) }] } })] },
    _, _, Spec.oneTriangle 5 0, _, by decide, accepts_of 1 (by decide +kernel), List.mem_singleton.2 rfl,
    List.mem_singleton.2 rfl, rfl, List.mem_singleton.2 rfl, by decide, ?_⟩
  rintro ⟨a, ha, -⟩
  cases ha

/-! ### The hypotheses can be met -/

/-- A tetrahedron of one material, placed through a component of a child model. -/
def Spec.accepted : Model :=
  { Model.zero with
    resources := { Resources.zero with
      objects := [{ Object.zero with id := 1, components := some { Components.zero with
        component := [{ Component.zero with objectID := 2, anyAttr := [.prodComponent [] b!"/a"] }] } }] }
    childs := [(b!"/a", { ChildModel.zero with resources := { Resources.zero with
      assets := [.base ⟨5, [⟨b!"a", ⟨1, 1, 1, 1⟩, []⟩, ⟨b!"b", ⟨1, 1, 1, 1⟩, []⟩], []⟩]
      objects := [{ Object.zero with id := 2, pid := 5, pindex := 1, mesh := some { Mesh.zero with
        vertices := [⟨.zero, .zero, .zero⟩, ⟨.one, .zero, .zero⟩, ⟨.zero, .one, .zero⟩, ⟨.zero, .zero, .one⟩]
        triangles := [⟨0, 1, 2, 5, 1, 1, 1, []⟩, ⟨0, 1, 3, 5, 0, 1, 1, []⟩, ⟨0, 2, 3, 0, 0, 0, 0, []⟩, ⟨1, 2, 3, 5, 1, 0, 1, []⟩] } }] } })]
    build := { Build.zero with items := [{ Item.zero with objectID := 1 }] } }

example : Spec.accepted.WF ∧ Spec.accepted.Accepts (.ascii true true true true) :=
  ⟨by decide, accepts_of 1 (by decide +kernel)⟩

end Go3mf
