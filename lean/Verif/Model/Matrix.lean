import Verif.Model.Box
import Verif.Model.Quant

/-!
# math.go: products of matrices and the vector tree
-/

namespace Go3mf

/-- math.go:126-131 `Matrix.Translate`. -/
def Matrix.translate (m : Matrix) (x y z : F32) : Matrix :=
  { m with m12 := m.m12.add x, m13 := m.m13.add y, m14 := m.m14.add z }

/-- One element of `Mul`: `a*b + c*d + e*f + g*h`, left to right, each operation rounded (no fused
multiply-add, as on amd64). -/
def F32.dot4 (a b c d e f g h : F32) : F32 := (((a.mul b).add (c.mul d)).add (e.mul f)).add (g.mul h)

/-- math.go:135-154 `Matrix.Mul`. -/
def Matrix.mul (a b : Matrix) : Matrix where
  m0 := F32.dot4 a.m0 b.m0 a.m4 b.m1 a.m8 b.m2 a.m12 b.m3
  m1 := F32.dot4 a.m1 b.m0 a.m5 b.m1 a.m9 b.m2 a.m13 b.m3
  m2 := F32.dot4 a.m2 b.m0 a.m6 b.m1 a.m10 b.m2 a.m14 b.m3
  m3 := F32.dot4 a.m3 b.m0 a.m7 b.m1 a.m11 b.m2 a.m15 b.m3
  m4 := F32.dot4 a.m0 b.m4 a.m4 b.m5 a.m8 b.m6 a.m12 b.m7
  m5 := F32.dot4 a.m1 b.m4 a.m5 b.m5 a.m9 b.m6 a.m13 b.m7
  m6 := F32.dot4 a.m2 b.m4 a.m6 b.m5 a.m10 b.m6 a.m14 b.m7
  m7 := F32.dot4 a.m3 b.m4 a.m7 b.m5 a.m11 b.m6 a.m15 b.m7
  m8 := F32.dot4 a.m0 b.m8 a.m4 b.m9 a.m8 b.m10 a.m12 b.m11
  m9 := F32.dot4 a.m1 b.m8 a.m5 b.m9 a.m9 b.m10 a.m13 b.m11
  m10 := F32.dot4 a.m2 b.m8 a.m6 b.m9 a.m10 b.m10 a.m14 b.m11
  m11 := F32.dot4 a.m3 b.m8 a.m7 b.m9 a.m11 b.m10 a.m15 b.m11
  m12 := F32.dot4 a.m0 b.m12 a.m4 b.m13 a.m8 b.m14 a.m12 b.m15
  m13 := F32.dot4 a.m1 b.m12 a.m5 b.m13 a.m9 b.m14 a.m13 b.m15
  m14 := F32.dot4 a.m2 b.m12 a.m6 b.m13 a.m10 b.m14 a.m14 b.m15
  m15 := F32.dot4 a.m3 b.m12 a.m7 b.m13 a.m11 b.m14 a.m15 b.m15

/-- math.go:168-173 `Matrix.Mul2D`. -/
def Matrix.mul2D (m : Matrix) (v : Point2D) : Point2D :=
  ⟨((m.m0.mul v.x).add (m.m4.mul v.y)).add m.m12, ((m.m1.mul v.x).add (m.m5.mul v.y)).add m.m13⟩

/-- math.go:57 `vectorTree`: a Go map, the most recent entry of a key first. -/
abbrev VectorTree := List (Vec3I × UInt32)

/-- math.go:60-62 `vectorTree.AddVector`. -/
def VectorTree.addVector (t : VectorTree) (p : Point3D) (v : UInt32) : VectorTree := (cellOf p, v) :: t

/-- math.go:65-68 `vectorTree.FindVector`; `none` when `ok` is false. -/
def VectorTree.findVector (t : VectorTree) (p : Point3D) : Option UInt32 := t.lookup (cellOf p)

/-- math.go:71-73 `vectorTree.RemoveVector`. -/
def VectorTree.removeVector (t : VectorTree) (p : Point3D) : VectorTree := t.filter fun e => e.1 != cellOf p

end Go3mf
