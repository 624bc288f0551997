import Verif.Model.Core
import Verif.Model.Par

/-!
# math.go, core.go: transforms and bounding boxes
-/

namespace Go3mf

/-- math.go:242-247 `min`. -/
def F32.min (x y : F32) : F32 := if x.lt y then x else y

/-- math.go:249-254 `max`. -/
def F32.max (x y : F32) : F32 := if y.lt x then x else y

/-- `math.MaxFloat32`. -/
def F32.maxVal : F32 := .mk false maxMag

/-- math.go:198-201 `Box`. -/
structure Box where
  min : Point3D
  max : Point3D
  deriving DecidableEq

/-- `Box{}` and math.go:203 `emptyBox`. -/
def Box.zero : Box := ⟨⟨.zero, .zero, .zero⟩, ⟨.zero, .zero, .zero⟩⟩

/-- Go `==` on `Point3D`. -/
def Point3D.eq (a b : Point3D) : Bool := a.x.eq b.x && a.y.eq b.y && a.z.eq b.z

/-- Go `==` on `Box`. -/
def Box.eq (a b : Box) : Bool := a.min.eq b.min && a.max.eq b.max

/-- math.go:205-210 `newLimitBox`. -/
def Box.limit : Box :=
  ⟨⟨.maxVal, .maxVal, .maxVal⟩, ⟨F32.maxVal.neg, F32.maxVal.neg, F32.maxVal.neg⟩⟩

/-- math.go:212-225 `Box.extend`. -/
def Box.extend (b v : Box) : Box :=
  ⟨⟨b.min.x.min v.min.x, b.min.y.min v.min.y, b.min.z.min v.min.z⟩,
   ⟨b.max.x.max v.max.x, b.max.y.max v.max.y, b.max.z.max v.max.z⟩⟩

/-- math.go:227-240 `Box.extendPoint`. -/
def Box.extendPoint (b : Box) (v : Point3D) : Box :=
  ⟨⟨b.min.x.min v.x, b.min.y.min v.y, b.min.z.min v.z⟩,
   ⟨b.max.x.max v.x, b.max.y.max v.y, b.max.z.max v.z⟩⟩

/-- One coordinate of `Mul3D`: `a*x + b*y + c*z + d`, left to right, each operation rounded (no fused
multiply-add, as on amd64). -/
def F32.row (a b c d : F32) (p : Point3D) : F32 := (((a.mul p.x).add (b.mul p.y)).add (c.mul p.z)).add d

/-- math.go:158-164 `Matrix.Mul3D`. -/
def Matrix.mul3D (m : Matrix) (p : Point3D) : Point3D :=
  ⟨F32.row m.m0 m.m4 m.m8 m.m12 p, F32.row m.m1 m.m5 m.m9 m.m13 p, F32.row m.m2 m.m6 m.m10 m.m14 p⟩

/-- math.go:185-193: the conditional exchange of one coordinate. -/
def swapIf (u w : F32) : F32 × F32 := if w.lt u then (w, u) else (u, w)

/-- math.go:177-195 `Matrix.MulBox`. -/
def Matrix.mulBox (m : Matrix) (b : Box) : Box :=
  if m.m15.eq .zero then b
  else
    let u := m.mul3D b.min
    let w := m.mul3D b.max
    let x := swapIf u.x w.x
    let y := swapIf u.y w.y
    let z := swapIf u.z w.z
    ⟨⟨x.1, y.1, z.1⟩, ⟨x.2, y.2, z.2⟩⟩

/-- core.go:500-509 `Mesh.BoundingBox`. -/
def Mesh.boundingBox (m : Mesh) : Box :=
  if m.vertices.length = 0 then .zero else m.vertices.foldl Box.extendPoint .limit

/-- core.go:424-431: the loop over the components; `none` if a nested call does not return. -/
def componentsBox (rec : Object → Str → Option Box) (m : Model) (path : Str) : List Component → Box → Option Box
  | [], b => some b
  | c :: cs, b =>
    match m.findObject (c.objectPath path) c.objectID with
    | none => componentsBox rec m path cs b
    | some obj =>
      match rec obj path with
      | none => none
      | some cb =>
        componentsBox rec m path cs (if cb.eq .zero then b else b.extend (c.transform.mulBox cb))

/-- core.go:416-433 `Object.boundingBox`, with at most `fuel` nested calls: `none` if they do not suffice. -/
def Object.boxFuel (m : Model) : Nat → Object → Str → Option Box
  | 0, _, _ => none
  | fuel + 1, o, path =>
    match o.mesh with
    | some mesh => some mesh.boundingBox
    | none =>
      match o.components with
      | none => some .zero
      | some cs =>
        if cs.component.length = 0 then some .zero
        else componentsBox (Object.boxFuel m fuel) m path cs.component .limit

/-- core.go:416-433 `Object.boundingBox` returns `b`. -/
def Object.BoundingBox (m : Model) (o : Object) (path : Str) (b : Box) : Prop :=
  ∃ fuel, o.boxFuel m fuel path = some b

/-- core.go:249-258: the goroutine of one item does the update `op` (none: it does not touch `box`). -/
inductive Item.BoxOp (m : Model) (it : Item) : Option (Box → Box) → Prop
  | missing : m.findObject it.objectPath it.objectID = none → Item.BoxOp m it none
  | empty {o b} : m.findObject it.objectPath it.objectID = some o → o.BoundingBox m it.objectPath b →
      b.eq .zero = true → Item.BoxOp m it none
  | extend {o b} : m.findObject it.objectPath it.objectID = some o → o.BoundingBox m it.objectPath b →
      b.eq .zero = false → Item.BoxOp m it (some fun box => box.extend (it.transform.mulBox b))

/-- core.go:237-261 `Model.BoundingBox` returns `r`. -/
def Model.BoundingBox (m : Model) (r : Box) : Prop :=
  if m.build.items.length = 0 then r = .zero
  else ∃ ops : List (Option (Box → Box)), List.Forall₂ (Item.BoxOp m) m.build.items ops ∧ Par.Result ops .limit r

end Go3mf
