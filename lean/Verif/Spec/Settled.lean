import Verif.Spec.Writable

/-!
# Values that keep their default meaning when they are rounded

The encoder leaves out values that are the default, and compares them before they are rounded.  A value that becomes the default
only by rounding is written once and left out the next time.
-/

namespace Go3mf.Spec

/-- A transform that does not become the identity. -/
def SettledTransform (t : Matrix) : Prop :=
  t.isTransform = true → ∀ t', parseMatrix t.str = some t' → t'.isTransform = true

/-- A bottom that does not become 0. -/
def SettledStack (prec : Int) (s : SliceStack) : Prop :=
  s.bottomZ.eq .zero = false → ∀ z, parseFloat (s.bottomZ.format prec) = .ok z → z.eq .zero = false

/-- Second radii that do not become the radius of the lattice. -/
def SettledLattice (prec : Int) (l : BeamLattice) : Prop :=
  ∀ b ∈ l.beams, F32.zero.lt b.r2 = true → b.r2.eq l.radius = false → b.r2.format prec ≠ l.radius.format prec

def SettledRes (prec : Int) : ExtRes → Prop
  | .sliceStack s => SettledStack prec s
  | _ => True

def SettledElem (prec : Int) : AnyElem → Prop
  | .res x => SettledRes prec x
  | .beamLattice l => SettledLattice prec l
  | .tokens _ => True

structure SettledObject (prec : Int) (o : Object) : Prop where
  mesh : ∀ m, o.mesh = some m → ∀ e ∈ m.any, SettledElem prec e
  components : ∀ cs, o.components = some cs → ∀ c ∈ cs.component, SettledTransform c.transform

structure SettledModel (prec : Int) (m : Model) : Prop where
  assets : ∀ x, Asset.res x ∈ m.resources.assets → SettledRes prec x
  objects : ∀ o ∈ m.resources.objects, SettledObject prec o
  items : ∀ i ∈ m.build.items, SettledTransform i.transform
  any : ∀ e ∈ m.any, SettledElem prec e

end Go3mf.Spec
