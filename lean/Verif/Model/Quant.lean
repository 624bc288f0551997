import Verif.Model.Types
import Verif.Model.Core

/-!
# math.go: the quantisation of vertices
-/

namespace Go3mf

/-- Go float32 division, round to nearest even. -/
def F32.div : F32 → F32 → F32
  | .nan, _ => .nan
  | _, .nan => .nan
  | .inf _, .inf _ => .nan
  | .inf s, .fin t _ _ => .inf (s != t)
  | .fin s _ _, .inf t => F32.mk (s != t) 0
  | .fin s m _, .fin t n _ =>
    if n = 0 then (if m = 0 then .nan else .inf (s != t)) else F32.ofRat (s != t) (m * scale) n

/-- math.go:45 `micronsAccuracy`, converted to float32. -/
def micron : F32 := F32.ofRat false scale (10 ^ 6)

/-- `int32(math.Floor(float64(x)))`.  The conversion to float64 and `math.Floor` are exact; the conversion of a value
outside the range of int32 depends on the machine: −2³¹ as on amd64. -/
def floorInt32 : F32 → Int
  | .fin s m h =>
    let k := F32.key (.fin s m h) / (scale : Int)
    if -2 ^ 31 ≤ k ∧ k < 2 ^ 31 then k else -2 ^ 31
  | _ => -2 ^ 31

/-- math.go:39-43 `vec3I`. -/
structure Vec3I where
  x : Int
  y : Int
  z : Int
  deriving DecidableEq, Repr

/-- math.go:47-54 `newvec3IFromVec3`. -/
def cellOf (p : Point3D) : Vec3I :=
  ⟨floorInt32 (p.x.div micron), floorInt32 (p.y.div micron), floorInt32 (p.z.div micron)⟩

end Go3mf
