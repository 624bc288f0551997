import Verif.Props.C03
import Verif.Props.C40
import Verif.Props.C41

/-!
# The rules of the core specification, as far as `Model.Validate` is concerned

These predicates use nothing of `validate.go`.
-/

namespace Go3mf

/-- The model parts: the root model under its path, and the child models under theirs. -/
inductive Spec.IsPart (m : Model) : Str → Resources → Prop
  | root : Spec.IsPart m (if m.path = [] then b!"/3D/3dmodel.model" else m.path) m.resources
  | child {p : Str} {c : ChildModel} : (p, c) ∈ m.childs → Spec.IsPart m p c.resources

/-- The resources that a path refers to. -/
def Spec.PartAt (m : Model) (p : Str) (rs : Resources) : Prop :=
  (Spec.IsRootPath m p ∧ rs = m.resources) ∨ (¬ Spec.IsRootPath m p ∧ ∃ c, (p, c) ∈ m.childs ∧ rs = c.resources)

/-- There is an object with the identifier in the part that the path refers to. -/
def Spec.ObjectAt (m : Model) (p : Str) (id : UInt32) (o : Object) : Prop :=
  ∃ rs, Spec.PartAt m p rs ∧ o ∈ rs.objects ∧ o.id = id

/-- The part a component of an object of the part `p` refers to. -/
def Spec.componentPart (p : Str) (c : Component) : Str := if c.objectPath [] = [] then p else c.objectPath []

/-- The number of properties of a group of properties. -/
def Spec.groupSize : Asset → Option Nat
  | .base r => some r.materials.length
  | .res (.colorGroup r) => some r.colors.length
  | .res (.texture2DGroup r) => some r.coords.length
  | .res (.composite r) => some r.composites.length
  | .res (.multi r) => some r.multis.length
  | _ => none

/-- `pid` is the identifier of a group of the part that has a property number `index`. -/
def Spec.Property (rs : Resources) (pid index : UInt32) : Prop :=
  ∃ a ∈ rs.assets, a.identify = pid ∧ ∃ n, Spec.groupSize a = some n ∧ index.toNat < n

/-- The weaker condition that the code checks: the resource exists, and has the property if it is a group. -/
def Spec.WeakProperty (rs : Resources) (pid index : UInt32) : Prop :=
  ∃ a ∈ rs.assets, a.identify = pid ∧ ∀ n, Spec.groupSize a = some n → index.toNat < n

/-- The identifiers of a part, other than 0, are distinct. -/
def Spec.DistinctIds (rs : Resources) : Prop :=
  ((rs.assets.map Asset.identify ++ rs.objects.map Object.id).filter (· ≠ 0)).Nodup

/-- Three different existing vertices. -/
def Spec.TriangleOk (mesh : Mesh) (t : Triangle) : Prop :=
  t.v1 ≠ t.v2 ∧ t.v1 ≠ t.v3 ∧ t.v2 ≠ t.v3 ∧
  t.v1.toNat < mesh.vertices.length ∧ t.v2.toNat < mesh.vertices.length ∧ t.v3.toNat < mesh.vertices.length

/-- A conforming group of base materials. -/
structure Spec.BaseOk (r : BaseMaterials) : Prop where
  id : r.id ≠ 0
  some : r.materials ≠ []
  named : ∀ b ∈ r.materials, b.name ≠ []
  coloured : ∀ b ∈ r.materials, b.color ≠ ⟨0, 0, 0, 0⟩

/-- A conforming mesh of an object. -/
structure Spec.MeshOk (rs : Resources) (o : Object) (mesh : Mesh) : Prop where
  property : o.pid ≠ 0 → Spec.Property rs o.pid o.pindex
  vertices : o.type = .model ∨ o.type = .solidSupport → 3 ≤ mesh.vertices.length
  triangles : o.type = .model ∨ o.type = .solidSupport → 4 ≤ mesh.triangles.length ∨ mesh.any ≠ []
  triangle : ∀ t ∈ mesh.triangles, Spec.TriangleOk mesh t
  properties : ∀ t ∈ mesh.triangles, t.pid ≠ 0 →
    Spec.Property rs t.pid t.p1 ∧ Spec.Property rs t.pid t.p2 ∧ Spec.Property rs t.pid t.p3

/-- A conforming list of components of the object `o` of the part at `p`. -/
structure Spec.ComponentsOk (m : Model) (p : Str) (o : Object) (cs : Components) : Prop where
  pid : o.pid = 0
  id : ∀ c ∈ cs.component, c.objectID ≠ 0
  resolves : ∀ c ∈ cs.component, ∃ obj, Spec.ObjectAt m (Spec.componentPart p c) c.objectID obj
  notSelf : ∀ c ∈ cs.component, ¬ (c.objectID = o.id ∧ Spec.componentPart p c = p)

/-- A conforming object of the part at `p`. -/
structure Spec.ObjectOk (m : Model) (p : Str) (rs : Resources) (o : Object) : Prop where
  id : o.id ≠ 0
  pindex : o.pindex ≠ 0 → o.pid ≠ 0
  kind : (∃ mesh, o.mesh = some mesh ∧ o.components = none ∧ Spec.MeshOk rs o mesh) ∨
    (∃ cs, o.mesh = none ∧ o.components = some cs ∧ Spec.ComponentsOk m p o cs)

/-- A conforming build item. -/
structure Spec.ItemOk (m : Model) (it : Item) : Prop where
  id : it.objectID ≠ 0
  object : ∃ o, Spec.ObjectAt m it.objectPath it.objectID o ∧ o.type ≠ .other
  metadata : ∀ i md, it.metadata.metadata[i]? = some md → ∀ k : Spec.MetaFault,
    ¬ k.Holds m (it.metadata.metadata.take i) md

/-- No relationship of the list has a fault. -/
def Spec.RelsOk (env : Env) (m : Model) (rels : List Relationship) : Prop :=
  ∀ i r, rels[i]? = some r → ∀ s, ¬ Spec.RelFault env m (rels.take i) r s

/-- A conforming core model. -/
structure Spec.Conforming (env : Env) (m : Model) : Prop where
  rootRels : Spec.RelsOk env m m.rootRelationships
  rels : Spec.RelsOk env m m.relationships
  childRels : ∀ p c, (p, c) ∈ m.childs → Spec.RelsOk env m c.relationships
  childPaths : ∀ p c, (p, c) ∈ m.childs → ¬ Spec.IsRootPath m p
  metadata : ∀ i md, m.metadata[i]? = some md → ∀ k : Spec.MetaFault, ¬ k.Holds m (m.metadata.take i) md
  ids : ∀ p rs, Spec.IsPart m p rs → Spec.DistinctIds rs
  bases : ∀ p rs r, Spec.IsPart m p rs → Asset.base r ∈ rs.assets → Spec.BaseOk r
  objects : ∀ p rs o, Spec.IsPart m p rs → o ∈ rs.objects → Spec.ObjectOk m p rs o
  items : ∀ it ∈ m.build.items, Spec.ItemOk m it

end Go3mf
