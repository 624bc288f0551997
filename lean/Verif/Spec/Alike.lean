import Verif.Spec.Rules
import Verif.Spec.Package

/-!
# What validation depends on

Two models are alike if they agree in everything that the rules of `Spec.ModelRule` look at, relationships excepted.
-/

namespace Go3mf.Spec

/-! ## Numbers that survive -/

/-- `x` is the only number of its sign that is so close to some decimal with `n` digits, and the decimal is less than half
a unit away: a number as it is read from a text with `n` decimals. -/
def StableAt (n : Nat) (x : F32) : Prop :=
  x.isFinite = false ∨ ∃ k : ℤ, |k / 10 ^ n - floatVal x| < 1 / 2 / 10 ^ n ∧
    ∀ y : F32, y.isFinite = true → y.signBit = x.signBit → |k / 10 ^ n - floatVal y| ≤ |k / 10 ^ n - floatVal x| → y = x

/-- `x` survives at a precision; at a negative one every number does. -/
def Stable (prec : Int) (x : F32) : Prop := prec < 0 ∨ StableAt prec.toNat x

/-- The entries of a transform that tell whether it tilts survive. -/
def StableTransform (t : Matrix) : Prop :=
  Stable 3 t.m2 ∧ Stable 3 t.m6 ∧ Stable 3 t.m8 ∧ Stable 3 t.m9 ∧ Stable 3 t.m10

structure StableStack (prec : Int) (s : SliceStack) : Prop where
  bottom : Stable prec s.bottomZ
  tops : ∀ l ∈ s.slices, Stable prec l.topZ

structure StableLattice (prec : Int) (b : BeamLattice) : Prop where
  minLength : Stable prec b.minLength
  radius : Stable prec b.radius
  beams : ∀ x ∈ b.beams, Stable prec x.r1 ∧ Stable prec x.r2

structure StableObject (prec : Int) (o : Object) : Prop where
  lattice : ∀ m, o.mesh = some m → ∀ b, AnyElem.beamLattice b ∈ m.any → StableLattice prec b
  components : ∀ cs, o.components = some cs → ∀ c ∈ cs.component, StableTransform c.transform

structure StableResources (prec : Int) (rs : Resources) : Prop where
  heights : ∀ s, Asset.res (.sliceStack s) ∈ rs.assets → StableStack prec s
  objects : ∀ o ∈ rs.objects, StableObject prec o

/-- Heights of slices, radii of beams and the entries of transforms that matter survive. -/
structure StableModel (prec : Int) (m : Model) : Prop where
  resources : StableResources prec m.resources
  childs : ∀ x ∈ m.childs, StableResources prec x.2.resources
  items : ∀ i ∈ m.build.items, StableTransform i.transform

/-! ## Models that agree for the rules -/

structure AlikeSlice (s s' : Slice) : Prop where
  topZ : s'.topZ = s.topZ
  vertices : s'.vertices.length = s.vertices.length
  polygons : s'.polygons = s.polygons

structure AlikeStack (s s' : SliceStack) : Prop where
  id : s'.id = s.id
  bottomZ : ∀ z : F32, z.lt s'.bottomZ = z.lt s.bottomZ
  slices : List.Forall₂ AlikeSlice s.slices s'.slices
  refs : s'.refs = s.refs

inductive AlikeAsset : Asset → Asset → Prop
  | same (a : Asset) : AlikeAsset a a
  | texture2DGroup {g g' : Texture2DGroup} : g'.id = g.id → g'.textureID = g.textureID → g'.coords.length = g.coords.length →
      AlikeAsset (.res (.texture2DGroup g)) (.res (.texture2DGroup g'))
  | composite {g g' : CompositeMaterials} : g'.id = g.id → g'.materialID = g.materialID → g'.indices = g.indices →
      g'.composites.length = g.composites.length → AlikeAsset (.res (.composite g)) (.res (.composite g'))
  | sliceStack {s s' : SliceStack} : AlikeStack s s' → AlikeAsset (.res (.sliceStack s)) (.res (.sliceStack s'))

/-- The triangle has no property, or the one of the object. -/
def Default (o : Object) (t : Triangle) : Prop := t.pid = 0 ∨ Inherits o t

structure AlikeTriangle (o : Object) (t t' : Triangle) : Prop where
  v1 : t'.v1 = t.v1
  v2 : t'.v2 = t.v2
  v3 : t'.v3 = t.v3
  property : (t'.pid = t.pid ∧ t'.p1 = t.p1 ∧ t'.p2 = t.p2 ∧ t'.p3 = t.p3) ∨ (Default o t ∧ Default o t')

structure AlikeMesh (o : Object) (m m' : Mesh) : Prop where
  vertices : m'.vertices.length = m.vertices.length
  triangles : List.Forall₂ (AlikeTriangle o) m.triangles m'.triangles
  empty : m'.any = [] ↔ m.any = []
  lattice : latticeOf m'.any = latticeOf m.any

structure AlikeComponent (c c' : Component) : Prop where
  objectID : c'.objectID = c.objectID
  tilted : Tilted c'.transform ↔ Tilted c.transform
  anyAttr : c'.anyAttr = c.anyAttr

structure AlikeObject (o o' : Object) : Prop where
  id : o'.id = o.id
  pid : o'.pid = o.pid
  pindex : o'.pindex = o.pindex
  type : o'.type = o.type
  mesh : Option.Rel (AlikeMesh o) o.mesh o'.mesh
  components : Option.Rel (fun c c' => List.Forall₂ AlikeComponent c.component c'.component) o.components o'.components
  anyAttr : o'.anyAttr = o.anyAttr

structure AlikeResources (rs rs' : Resources) : Prop where
  assets : List.Forall₂ AlikeAsset rs.assets rs'.assets
  objects : List.Forall₂ AlikeObject rs.objects rs'.objects

structure AlikeItem (i i' : Item) : Prop where
  objectID : i'.objectID = i.objectID
  tilted : Tilted i'.transform ↔ Tilted i.transform
  metadata : i'.metadata = i.metadata
  anyAttr : i'.anyAttr = i.anyAttr

structure Alike (env : Env) (m m' : Model) : Prop where
  path : rootPath m' = rootPath m
  extensions : m'.extensions = m.extensions
  metadata : m'.metadata = m.metadata
  resources : AlikeResources m.resources m'.resources
  items : List.Forall₂ AlikeItem m.build.items m'.build.items
  build : m'.build.anyAttr = m.build.anyAttr
  childs : ∀ p c, (p, c) ∈ m.childs → ∃ c', (p, c') ∈ m'.childs ∧ AlikeResources c.resources c'.resources
  childs' : ∀ p c', (p, c') ∈ m'.childs → ∃ c, (p, c) ∈ m.childs ∧ AlikeResources c.resources c'.resources
  /-- The parts that textures refer to. -/
  textures : ∀ rs, (rs = m.resources ∨ ∃ x ∈ m.childs, rs = x.2.resources) → ∀ t, Asset.res (.texture2D t) ∈ rs.assets →
    ((∃ a ∈ m'.attachments, env.fold a.path = env.fold t.path) ↔ ∃ a ∈ m.attachments, env.fold a.path = env.fold t.path)

end Go3mf.Spec
