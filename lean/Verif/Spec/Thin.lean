import Verif.Spec.Reorder
import Verif.Spec.Conform

/-!
# Specification of removals from a model
-/

namespace Go3mf.Spec

/-- Some of the resources, in the same order. -/
structure ResThinned (rs rs' : Resources) : Prop where
  assets : rs'.assets.Sublist rs.assets
  objects : rs'.objects.Sublist rs.objects

/-- The same child model with some of its resources. -/
structure ChildThinned (c c' : Str × ChildModel) : Prop where
  path : c'.1 = c.1
  resources : ResThinned c.2.resources c'.2.resources
  relationships : c'.2.relationships = c.2.relationships

/-- The model with some of the assets and objects of each part and some of the items. -/
structure Thinned (m m' : Model) : Prop where
  resources : ResThinned m.resources m'.resources
  items : m'.build.items.Sublist m.build.items
  childs : List.Forall₂ ChildThinned m.childs m'.childs
  rest : ∃ rs its cs, m' = { m with
    resources := rs
    build := { m.build with items := its }
    childs := cs }

/-- Something in the model refers to the object `id` of the part `p`. -/
inductive ObjectRef (m : Model) : Str → UInt32 → Prop
  | item {it : Item} : it ∈ m.build.items → ObjectRef m it.objectPath it.objectID
  | component {p : Str} {rs : Resources} {o : Object} {cs : Components} {c : Component} : IsPart m p rs → o ∈ rs.objects →
      o.components = some cs → c ∈ cs.component → ObjectRef m (c.objectPath p) c.objectID
  | clipping {p : Str} {rs : Resources} {o : Object} {x : Mesh} {bl : BeamLattice} : IsPart m p rs → o ∈ rs.objects →
      o.mesh = some x → .beamLattice bl ∈ x.any → ObjectRef m p bl.clippingMeshID
  | representation {p : Str} {rs : Resources} {o : Object} {x : Mesh} {bl : BeamLattice} : IsPart m p rs → o ∈ rs.objects →
      o.mesh = some x → .beamLattice bl ∈ x.any → ObjectRef m p bl.representationMeshID

/-- Something in the model refers to the asset `id` of the part `p`. -/
inductive AssetRef (m : Model) : Str → UInt32 → Prop
  | object {p : Str} {rs : Resources} {o : Object} : IsPart m p rs → o ∈ rs.objects → AssetRef m p o.pid
  | triangle {p : Str} {rs : Resources} {o : Object} {x : Mesh} {t : Triangle} : IsPart m p rs → o ∈ rs.objects → o.mesh = some x →
      t ∈ x.triangles → AssetRef m p t.pid
  | texture {p : Str} {rs : Resources} {r : Texture2DGroup} : IsPart m p rs → .res (.texture2DGroup r) ∈ rs.assets →
      AssetRef m p r.textureID
  | composite {p : Str} {rs : Resources} {r : CompositeMaterials} : IsPart m p rs → .res (.composite r) ∈ rs.assets →
      AssetRef m p r.materialID
  | multi {p : Str} {rs : Resources} {r : MultiProperties} {id : UInt32} : IsPart m p rs → .res (.multi r) ∈ rs.assets → id ∈ r.pids →
      AssetRef m p id
  | slices {p : Str} {rs : Resources} {o : Object} {id : UInt32} {q : MeshResolution} : IsPart m p rs → o ∈ rs.objects →
      .sliceObject id q ∈ o.anyAttr → AssetRef m p id
  | stack {p : Str} {rs : Resources} {r : SliceStack} {s : SliceRef} : IsPart m p rs → .res (.sliceStack r) ∈ rs.assets → s ∈ r.refs →
      AssetRef m s.path s.sliceStackID

/-- What is left refers only to what is left: nothing that `m'` refers to was removed. -/
structure NothingMissed (m m' : Model) : Prop where
  objects : ∀ p id, ObjectRef m' p id → m'.findObject p id = m.findObject p id
  assets : ∀ p id, AssetRef m' p id → m'.findAsset p id = m.findAsset p id

end Go3mf.Spec
