import Verif.Model.Core
import Verif.Model.Errors

/-!
# validate.go, math.go: coherency of meshes
-/

namespace Go3mf

/-- math.go:31-36 `newPairEntry`. -/
def newPairEntry (a b : UInt32) : UInt32 × UInt32 := if a < b then (a, b) else (b, a)

/-- math.go:17 `pairMatch`, a map; the newest binding of a key comes first. -/
abbrev PairMatch := List ((UInt32 × UInt32) × UInt32)

/-- math.go:26-29 `CheckMatch`. -/
def PairMatch.check : PairMatch → UInt32 → UInt32 → Option UInt32
  | [], _, _ => none
  | (k, v) :: t, a, b => if k = newPairEntry a b then some v else PairMatch.check t a b

/-- math.go:21-23 `AddMatch`. -/
def PairMatch.add (t : PairMatch) (a b param : UInt32) : PairMatch := (newPairEntry a b, param) :: t

/-- validate.go:433-435, 447-449: the pairs `fv[j], fv[(j+1)%3]` for `j = 0, 1, 2`. -/
def Triangle.edges (t : Triangle) : List (UInt32 × UInt32) := [(t.v1, t.v2), (t.v2, t.v3), (t.v3, t.v1)]

/-- validate.go:436-439: the body of the first loop. -/
def countEdge (st : PairMatch × UInt32) (e : UInt32 × UInt32) : PairMatch × UInt32 :=
  match st.1.check e.1 e.2 with
  | some _ => st
  | none => (st.1.add e.1 e.2 st.2, st.2 + 1)

/-- validate.go:450-455: the body of the second loop.  An index outside the slice would panic; here it is
ignored, which `C07_indices` shows not to happen. -/
def tallyEdge (pm : PairMatch) (st : List UInt32 × List UInt32) (e : UInt32 × UInt32) :
    List UInt32 × List UInt32 :=
  let i := ((pm.check e.1 e.2).getD 0).toNat
  if e.1 ≤ e.2 then (st.1.modify i (· + 1), st.2) else (st.1, st.2.modify i (· + 1))

/-- validate.go:421-462 `Mesh.ValidateCoherency`; `none` is nil. -/
def Mesh.validateCoherency (m : Mesh) : Option Sentinel :=
  if m.vertices.length < 3 then some .insufficientVertices
  else if m.triangles.length ≤ 3 then some .insufficientTriangles
  else
    let es := m.triangles.flatMap Triangle.edges
    let (pm, n) := es.foldl countEdge ([], 0)
    let (pos, neg) := es.foldl (tallyEdge pm) (List.replicate n.toNat 0, List.replicate n.toNat 0)
    if (List.range n.toNat).any (fun i => pos[i]? != some 1 || neg[i]? != some 1) then some .meshConsistency
    else none

/-- validate.go:416-418 `isSolidObject`. -/
def Object.isSolid (o : Object) : Bool := o.mesh.isSome && (o.type == .model || o.type == .solidSupport)

end Go3mf
