import Verif.Spec.Alike
import Verif.Spec.Round

/-!
# Models that are written without any loss

Every number survives the precision at which it is written, every triangle has the property that applies to it, and what
stands for the absence of something is its zero value.  At a negative precision the numbers other than the entries of transforms
always survive.
-/

namespace Go3mf.Spec

structure ExactPoint2 (prec : Int) (p : Point2D) : Prop where
  x : Stable prec p.x
  y : Stable prec p.y

structure ExactPoint3 (prec : Int) (p : Point3D) : Prop where
  x : Stable prec p.x
  y : Stable prec p.y
  z : Stable prec p.z

/-- No transform, or one with the last column of an affine map whose entries survive with three decimals. -/
def ExactTransform (t : Matrix) : Prop :=
  t = .zero ∨ ¬NoTransform t ∧ (∀ x ∈ cells t, Stable 3 x) ∧ t.m3 = .zero ∧ t.m7 = .zero ∧ t.m11 = .zero ∧ t.m15 = .one

structure ExactSlice (prec : Int) (s : Slice) : Prop where
  topZ : Stable prec s.topZ
  vertices : ∀ p ∈ s.vertices, ExactPoint2 prec p

/-- The bottom is not −0. -/
structure ExactStack (prec : Int) (s : SliceStack) : Prop where
  bottomZ : s.bottomZ = .zero ∨ ¬SameValue s.bottomZ .zero ∧ Stable prec s.bottomZ
  slices : ∀ l ∈ s.slices, ExactSlice prec l

def ExactRes (prec : Int) : ExtRes → Prop
  | .texture2DGroup g => ∀ p ∈ g.coords, ExactPoint2 prec p
  | .composite g => ∀ c ∈ g.composites, ∀ x ∈ c, Stable prec x
  | .sliceStack s => ExactStack prec s
  | _ => True

def ExactElem (prec : Int) : AnyElem → Prop
  | .tokens _ => True
  | .res x => ExactRes prec x
  | .beamLattice b => StableLattice prec b

def ExactAsset (prec : Int) : Asset → Prop
  | .res x => ExactRes prec x
  | _ => True

structure ExactMesh (prec : Int) (pid pindex : UInt32) (m : Mesh) : Prop where
  vertices : ∀ p ∈ m.vertices, ExactPoint3 prec p
  triangles : ∀ t ∈ m.triangles, (t.pid, t.p1, t.p2, t.p3) = effective pid pindex t
  any : ∀ e ∈ m.any, ExactElem prec e

structure ExactObject (prec : Int) (o : Object) : Prop where
  mesh : ∀ m, o.mesh = some m → ExactMesh prec o.pid o.pindex m
  components : ∀ cs, o.components = some cs → ∀ c ∈ cs.component, ExactTransform c.transform

structure ExactResources (prec : Int) (rs : Resources) : Prop where
  assets : ∀ a ∈ rs.assets, ExactAsset prec a
  objects : ∀ o ∈ rs.objects, ExactObject prec o

structure ExactModel (prec : Int) (m : Model) : Prop where
  resources : ExactResources prec m.resources
  items : ∀ i ∈ m.build.items, ExactTransform i.transform
  any : ∀ e ∈ m.any, ExactElem prec e

end Go3mf.Spec
