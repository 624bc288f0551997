import Verif.Model.Core

/-!
# Specification of a change of the identifiers

The identifiers of objects and assets are names: they say nothing but which resource is meant, and they are chosen for each part of
a package on its own.  `renumberModel σ m` is the model `m` with the identifier `id` of the part `p` replaced by `σ p id` wherever it
occurs: at the resource and in the references to it.
-/

namespace Go3mf.Spec

/-- Is the root part meant by the path? -/
def MeansRoot (m : Model) (path : Str) : Prop := path = [] ∨ path = m.path ∨ (m.path = [] ∧ path = defaultModelPath)

/-- Other identifiers in each part: different ones stay different, and 0 still means that there is none. -/
structure Numbering (m : Model) (σ : Str → UInt32 → UInt32) : Prop where
  inj : ∀ p a b, σ p a = σ p b → a = b
  zero : ∀ p, σ p 0 = 0
  root : ∀ p, MeansRoot m p → σ p = σ []

variable (σ : Str → UInt32 → UInt32)

/-- The attribute that refers to a slice stack. -/
def renumberAttr (f : UInt32 → UInt32) : AttrGroup → AttrGroup
  | .sliceObject id r => .sliceObject (f id) r
  | g => g

/-- The references of a beam lattice. -/
def renumberAny (f : UInt32 → UInt32) : AnyElem → AnyElem
  | .beamLattice b => .beamLattice
    { b with
      clippingMeshID := f b.clippingMeshID
      representationMeshID := f b.representationMeshID }
  | x => x

/-- A mesh. -/
def renumberMesh (f : UInt32 → UInt32) (x : Mesh) : Mesh :=
  { x with
    triangles := x.triangles.map fun t => { t with pid := f t.pid }
    any := x.any.map (renumberAny f) }

/-- A component of an object of the part `p`; it can be in another part. -/
def renumberComponent (p : Str) (c : Component) : Component := { c with objectID := σ (c.objectPath p) c.objectID }

/-- An object of the part `p`. -/
def renumberObject (p : Str) (o : Object) : Object :=
  { o with
    id := σ p o.id
    pid := σ p o.pid
    mesh := o.mesh.map (renumberMesh (σ p))
    components := o.components.map fun cs => { cs with component := cs.component.map (renumberComponent σ p) }
    anyAttr := o.anyAttr.map (renumberAttr (σ p)) }

/-- A polygon of a slice. -/
def renumberPolygon (f : UInt32 → UInt32) (x : Polygon) : Polygon :=
  { x with segments := x.segments.map fun g => { g with pid := f g.pid } }

/-- A slice. -/
def renumberSlice (f : UInt32 → UInt32) (s : Slice) : Slice := { s with polygons := s.polygons.map (renumberPolygon f) }

/-- A resource of an extension. -/
def renumberRes (p : Str) : ExtRes → ExtRes
  | .colorGroup r => .colorGroup { r with id := σ p r.id }
  | .texture2D r => .texture2D { r with id := σ p r.id }
  | .texture2DGroup r => .texture2DGroup
    { r with
      id := σ p r.id
      textureID := σ p r.textureID }
  | .composite r => .composite
    { r with
      id := σ p r.id
      materialID := σ p r.materialID }
  | .multi r => .multi
    { r with
      id := σ p r.id
      pids := r.pids.map (σ p) }
  | .sliceStack r => .sliceStack
    { r with
      id := σ p r.id
      slices := r.slices.map (renumberSlice (σ p))
      refs := r.refs.map fun x => { x with sliceStackID := σ x.path x.sliceStackID } }

/-- An asset. -/
def renumberAsset (p : Str) : Asset → Asset
  | .base r => .base { r with id := σ p r.id }
  | .unknown id ts => .unknown (σ p id) ts
  | .res r => .res (renumberRes σ p r)

/-- The resources of the part `p`. -/
def renumberResources (p : Str) (rs : Resources) : Resources :=
  { rs with
    assets := rs.assets.map (renumberAsset σ p)
    objects := rs.objects.map (renumberObject σ p) }

/-- An item of the build. -/
def renumberItem (i : Item) : Item := { i with objectID := σ i.objectPath i.objectID }

/-- The model. -/
def renumberModel (m : Model) : Model :=
  { m with
    resources := renumberResources σ [] m.resources
    build := { m.build with items := m.build.items.map (renumberItem σ) }
    childs := m.childs.map fun c => (c.1, { c.2 with resources := renumberResources σ c.1 c.2.resources }) }

end Go3mf.Spec
