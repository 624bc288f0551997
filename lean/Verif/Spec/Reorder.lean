import Verif.Model.Validate

/-!
# Specification of other orders of the resources and items of a model
-/

namespace Go3mf.Spec

/-- The same resources in another order. -/
structure ResReordered (rs rs' : Resources) : Prop where
  assets : rs'.assets.Perm rs.assets
  objects : rs'.objects.Perm rs.objects
  anyAttr : rs'.anyAttr = rs.anyAttr

/-- The same child model, with its resources in another order. -/
structure ChildReordered (c c' : Str × ChildModel) : Prop where
  path : c'.1 = c.1
  resources : ResReordered c.2.resources c'.2.resources
  relationships : c'.2.relationships = c.2.relationships
  any : c'.2.any = c.2.any

/-- The same model, with the assets and objects of each part and the items of the build in another order. -/
structure Reordered (m m' : Model) : Prop where
  resources : ResReordered m.resources m'.resources
  items : m'.build.items.Perm m.build.items
  childs : List.Forall₂ ChildReordered m.childs m'.childs
  rest : ∃ rs its cs, m' = { m with
    resources := rs
    build := { m.build with items := its }
    childs := cs }

/-- In each part no two assets have the same identifier, nor have two objects. -/
def IdsDistinct (m : Model) : Prop :=
  ∀ rs, (rs = m.resources ∨ ∃ c ∈ m.childs, rs = c.2.resources) →
    (rs.assets.map Asset.identify).Nodup ∧ (rs.objects.map (·.id)).Nodup

/-- No beam lattice refers to another mesh. -/
def LatticesAlone (m : Model) : Prop :=
  ∀ rs, (rs = m.resources ∨ ∃ c ∈ m.childs, rs = c.2.resources) → ∀ o ∈ rs.objects, ∀ mesh, o.mesh = some mesh →
    ∀ bl, .beamLattice bl ∈ mesh.any → bl.clippingMeshID = 0 ∧ bl.representationMeshID = 0

end Go3mf.Spec
