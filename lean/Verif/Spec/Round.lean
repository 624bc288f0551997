import Verif.Model.Types
import Verif.Spec.Number
import Verif.Spec.Utf8
import Verif.Props.C17

/-!
# A model up to the precision of its numbers

The relation between a model and what a writer with a given number of decimals may make of it.  Nothing here refers to
the encoder or to the decoder.
-/

namespace Go3mf.Spec

/-- A text of XML characters. -/
def Text (s : Str) : Prop := ∃ cs, (∀ c ∈ cs, XmlChar c) ∧ s = utf8s cs

/-- A name without colon: letters, digits, `_`, `-`, `.` and anything that is not ASCII. -/
def PlainName (s : Str) : Prop := s ≠ [] ∧ ∀ b ∈ s,
  (48 ≤ b ∧ b ≤ 57) ∨ (65 ≤ b ∧ b ≤ 90) ∨ (97 ≤ b ∧ b ≤ 122) ∨ b = 95 ∨ b = 45 ∨ b = 46 ∨ 128 ≤ b

/-! ## Numbers -/

/-- `y` is `x` rounded to `n` decimals: there is a decimal at most half a unit of the last decimal from `x`, and `y` is
not farther from it than `x`.  What is no number is kept. -/
def Rounded (n : Nat) (x y : F32) : Prop :=
  (x.isFinite = true → y.isFinite = true ∧ y.signBit = x.signBit ∧
    ∃ k : ℤ, |k / 10 ^ n - floatVal x| ≤ 1 / 2 / 10 ^ n ∧ |k / 10 ^ n - floatVal y| ≤ |k / 10 ^ n - floatVal x|) ∧
  (x.isFinite = false → y = x)

/-- `y` is what may become of `x` at a precision: `x` itself at a negative precision, else `x` rounded to so many decimals. -/
def Near (prec : Int) (x y : F32) : Prop := if prec < 0 then y = x else Rounded prec.toNat x y

/-- The same number; the signs of zeros may differ. -/
def SameValue (x y : F32) : Prop := x.isFinite = true ∧ y.isFinite = true ∧ floatVal x = floatVal y

/-- Rounded, but the sign of zero may be lost. -/
def NearOrZero (prec : Int) (x y : F32) : Prop := (SameValue x .zero ∧ y = .zero) ∨ (¬ SameValue x .zero ∧ Near prec x y)

structure NearPoint2 (prec : Int) (p q : Point2D) : Prop where
  x : Near prec p.x q.x
  y : Near prec p.y q.y

structure NearPoint3 (prec : Int) (p q : Point3D) : Prop where
  x : Near prec p.x q.x
  y : Near prec p.y q.y
  z : Near prec p.z q.z

/-! ## Transforms -/

/-- All entries. -/
def entries (m : Matrix) : List F32 :=
  [m.m0, m.m1, m.m2, m.m3, m.m4, m.m5, m.m6, m.m7, m.m8, m.m9, m.m10, m.m11, m.m12, m.m13, m.m14, m.m15]

/-- The matrices that stand for the absence of a transform: the zero value and the identity. -/
def NoTransform (m : Matrix) : Prop :=
  List.Forall₂ SameValue (entries m) (entries .zero) ∨ List.Forall₂ SameValue (entries m) (entries .identity)

/-- Transforms have twelve entries with three decimals. -/
def NearTransform (m m' : Matrix) : Prop :=
  (NoTransform m ∧ m' = .zero) ∨
  (¬ NoTransform m ∧ List.Forall₂ (Near 3) (cells m) (cells m') ∧
    m'.m3 = .zero ∧ m'.m7 = .zero ∧ m'.m11 = .zero ∧ m'.m15 = .one)

/-! ## Resources of the extensions -/

/-- Segments without a property group have no properties. -/
def SegmentOk (s : Segment) : Prop := s.pid = 0 → s.p1 = 0 ∧ s.p2 = 0

structure NearSlice (prec : Int) (s s' : Slice) : Prop where
  topZ : Near prec s.topZ s'.topZ
  vertices : List.Forall₂ (NearPoint2 prec) s.vertices s'.vertices
  polygons : s'.polygons = s.polygons

structure NearStack (prec : Int) (s s' : SliceStack) : Prop where
  id : s'.id = s.id
  bottomZ : NearOrZero prec s.bottomZ s'.bottomZ
  slices : List.Forall₂ (NearSlice prec) s.slices s'.slices
  refs : s'.refs = s.refs

/-- The resources of the materials extension and slice stacks. -/
inductive NearRes (prec : Int) : ExtRes → ExtRes → Prop
  | colorGroup (g : ColorGroup) : NearRes prec (.colorGroup g) (.colorGroup g)
  | texture2D (g : Texture2D) : NearRes prec (.texture2D g) (.texture2D g)
  | texture2DGroup {g g' : Texture2DGroup} : g'.id = g.id → g'.textureID = g.textureID →
      List.Forall₂ (NearPoint2 prec) g.coords g'.coords → NearRes prec (.texture2DGroup g) (.texture2DGroup g')
  | composite {g g' : CompositeMaterials} : g'.id = g.id → g'.materialID = g.materialID → g'.indices = g.indices →
      List.Forall₂ (List.Forall₂ (Near prec)) g.composites g'.composites → NearRes prec (.composite g) (.composite g')
  | multi (g : MultiProperties) : NearRes prec (.multi g) (.multi g)
  | sliceStack {s s' : SliceStack} : NearStack prec s s' → NearRes prec (.sliceStack s) (.sliceStack s')

/-- The slice stacks that can be written. -/
def ResOk : ExtRes → Prop
  | .sliceStack s => ∀ l ∈ s.slices, ∀ p ∈ l.polygons, ∀ g ∈ p.segments, SegmentOk g
  | _ => True

structure NearBeam (prec : Int) (b b' : Beam) : Prop where
  v1 : b'.v1 = b.v1
  v2 : b'.v2 = b.v2
  r1 : Near prec b.r1 b'.r1
  r2 : Near prec b.r2 b'.r2
  cap1 : b'.cap1 = b.cap1
  cap2 : b'.cap2 = b.cap2

structure NearLattice (prec : Int) (b b' : BeamLattice) : Prop where
  clipMode : b'.clipMode = b.clipMode
  clippingMeshID : b'.clippingMeshID = b.clippingMeshID
  representationMeshID : b'.representationMeshID = b.representationMeshID
  beams : List.Forall₂ (NearBeam prec) b.beams b'.beams
  beamSets : b'.beamSets = b.beamSets
  minLength : Near prec b.minLength b'.minLength
  radius : Near prec b.radius b'.radius
  capMode : b'.capMode = b.capMode

/-- A radius that is not rounded to zero. -/
def RadiusOk (prec : Int) (x : F32) : Prop :=
  x.isFinite = true ∧ if prec < 0 then 0 < floatVal x else 1 / 10 ^ prec.toNat ≤ floatVal x

/-- The beams that can be written: the second radius may only be the one of the lattice if the first one is, too. -/
structure BeamOk (prec : Int) (radius : F32) (b : Beam) : Prop where
  r1 : RadiusOk prec b.r1
  r2 : RadiusOk prec b.r2
  default : b.r2 = radius → b.r1 = radius

structure LatticeOk (prec : Int) (b : BeamLattice) : Prop where
  radius : b.radius.isFinite = true
  beams : ∀ x ∈ b.beams, BeamOk prec b.radius x

inductive NearElem (prec : Int) : AnyElem → AnyElem → Prop
  | tokens (ts : List Token) : NearElem prec (.tokens ts) (.tokens ts)
  | res {x x' : ExtRes} : NearRes prec x x' → NearElem prec (.res x) (.res x')
  | beamLattice {b b' : BeamLattice} : NearLattice prec b b' → NearElem prec (.beamLattice b) (.beamLattice b')

def ElemOk (prec : Int) : AnyElem → Prop
  | .tokens _ => True
  | .res x => ResOk x
  | .beamLattice b => LatticeOk prec b

/-- A list of elements of extensions of which at most one is there. -/
structure AnyOk (prec : Int) (es : List AnyElem) : Prop where
  one : es.length ≤ 1
  elems : ∀ e ∈ es, ElemOk prec e

/-! ## The core -/

/-- The property that applies to a triangle of an object with the property `pid`, `pindex`: its own or, if it has none, the
one of the object at all three corners. -/
def effective (pid pindex : UInt32) (t : Triangle) : UInt32 × UInt32 × UInt32 × UInt32 :=
  if t.pid = 0 then (pid, pindex, pindex, pindex) else (t.pid, t.p1, t.p2, t.p3)

/-- Triangles with properties are the same; triangles without have the properties of the object. -/
structure NearTriangle (pid pindex : UInt32) (t t' : Triangle) : Prop where
  v1 : t'.v1 = t.v1
  v2 : t'.v2 = t.v2
  v3 : t'.v3 = t.v3
  property : (t'.pid, t'.p1, t'.p2, t'.p3) = effective pid pindex t
  anyAttr : t'.anyAttr = t.anyAttr

structure NearMesh (prec : Int) (pid pindex : UInt32) (m m' : Mesh) : Prop where
  vertices : List.Forall₂ (NearPoint3 prec) m.vertices m'.vertices
  verticesAttr : m'.verticesAttr = m.verticesAttr
  triangles : List.Forall₂ (NearTriangle pid pindex) m.triangles m'.triangles
  trianglesAttr : m'.trianglesAttr = m.trianglesAttr
  anyAttr : m'.anyAttr = m.anyAttr
  any : List.Forall₂ (NearElem prec) m.any m'.any

structure NearComponent (c c' : Component) : Prop where
  objectID : c'.objectID = c.objectID
  transform : NearTransform c.transform c'.transform
  anyAttr : c'.anyAttr = c.anyAttr

structure NearComponents (c c' : Components) : Prop where
  component : List.Forall₂ NearComponent c.component c'.component
  anyAttr : c'.anyAttr = c.anyAttr

structure NearObject (prec : Int) (o o' : Object) : Prop where
  id : o'.id = o.id
  name : o'.name = o.name
  partNumber : o'.partNumber = o.partNumber
  thumbnail : o'.thumbnail = o.thumbnail
  pid : o'.pid = o.pid
  pindex : o'.pindex = o.pindex
  type : o'.type = o.type
  metadata : o'.metadata = o.metadata
  mesh : Option.Rel (NearMesh prec o.pid o.pindex) o.mesh o'.mesh
  components : Option.Rel NearComponents o.components o'.components
  anyAttr : o'.anyAttr = o.anyAttr

/-- The objects that can be written: a mesh or components, and properties only with a mesh. -/
structure ObjectFits (prec : Int) (o : Object) : Prop where
  one : o.mesh = none ∨ o.components = none
  noMesh : o.mesh = none → o.pid = 0 ∧ o.pindex = 0
  any : ∀ m, o.mesh = some m → AnyOk prec m.any

inductive NearAsset (prec : Int) : Asset → Asset → Prop
  | base (b : BaseMaterials) : NearAsset prec (.base b) (.base b)
  | unknown (id : UInt32) (ts : List Token) : NearAsset prec (.unknown id ts) (.unknown id ts)
  | res {x x' : ExtRes} : NearRes prec x x' → NearAsset prec (.res x) (.res x')

def AssetOk : Asset → Prop
  | .res x => ResOk x
  | _ => True

structure NearResources (prec : Int) (rs rs' : Resources) : Prop where
  assets : List.Forall₂ (NearAsset prec) rs.assets rs'.assets
  objects : List.Forall₂ (NearObject prec) rs.objects rs'.objects
  anyAttr : rs'.anyAttr = rs.anyAttr

structure NearItem (i i' : Item) : Prop where
  objectID : i'.objectID = i.objectID
  transform : NearTransform i.transform i'.transform
  partNumber : i'.partNumber = i.partNumber
  metadata : i'.metadata = i.metadata
  anyAttr : i'.anyAttr = i.anyAttr

structure NearBuild (b b' : Build) : Prop where
  items : List.Forall₂ NearItem b.items b'.items
  anyAttr : b'.anyAttr = b.anyAttr

/-- The content of the root model part.  The path, the other parts and the relationships are not stored there. -/
structure NearModel (prec : Int) (m m' : Model) : Prop where
  language : m'.language = m.language
  units : m'.units = m.units
  thumbnail : m'.thumbnail = m.thumbnail
  extensions : m'.extensions = m.extensions
  metadata : m'.metadata = m.metadata
  resources : NearResources prec m.resources m'.resources
  build : NearBuild m.build m'.build
  any : List.Forall₂ (NearElem prec) m.any m'.any
  anyAttr : m'.anyAttr = m.anyAttr

/-- What can be written without loss. -/
structure ModelOk (prec : Int) (m : Model) : Prop where
  assets : ∀ a ∈ m.resources.assets, AssetOk a
  objects : ∀ o ∈ m.resources.objects, ObjectFits prec o
  any : AnyOk prec m.any

end Go3mf.Spec
