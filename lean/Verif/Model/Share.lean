import Verif.Model.Encode

/-!
# Slices that share memory

In the rest of the model a slice is the list of its elements.  Here slices are what they are in Go: a window of an array
that may be shared with other slices.  `append` writes behind the end of the window if the array has room there, and
copies otherwise.  Only the slices to which the encoder appends are modelled this way: the relationships.
-/

namespace Go3mf

/-- The header of a slice: the number of its array, its place in the array, length and capacity. -/
structure View where
  arr : Nat
  off : Nat
  len : Nat
  cap : Nat
  deriving DecidableEq, Repr

/-- The arrays. -/
abbrev Heap (α : Type) := List (List α)

variable {α : Type}

/-- The elements of a slice. -/
def Heap.cells (h : Heap α) (v : View) : List α := ((h.getD v.arr []).drop v.off).take v.len

/-- `append(v, x)`: in place if there is room, otherwise in a new array with `grow len` spare cells that hold `zero`. -/
def Heap.push (grow : Nat → Nat) (zero : α) (h : Heap α) (v : View) (x : α) : Heap α × View :=
  if v.len < v.cap then (h.modify v.arr (·.set (v.off + v.len) x), { v with len := v.len + 1 })
  else (h ++ [h.cells v ++ x :: List.replicate (grow v.len) zero], ⟨h.length, 0, v.len + 1, v.len + 1 + grow v.len⟩)

/-- A relationship without content, in the spare cells of new arrays. -/
def Relationship.none : Relationship := ⟨[], [], []⟩

/-- encoder.go:38-49 `AddRelationship`. -/
def Heap.addRel (grow : Nat → Nat) (p : Heap Relationship × View) (r : Relationship) : Heap Relationship × View :=
  if (p.1.cells p.2).any fun x => x.path = r.path then p else p.1.push grow .none p.2 r

/-- The calls of `AddRelationship` while a part is written, on the slice `v`. -/
def Heap.addRels (grow : Nat → Nat) (h : Heap Relationship) (v : View) (rs : List Relationship) : Heap Relationship × View :=
  rs.foldl (Heap.addRel grow) (h, v)

/-- encoder.go:164-173: the root part works on a copy, `make` gives it no spare cells. -/
def Heap.rootRels (grow : Nat → Nat) (h : Heap Relationship) (v : View) (rs : List Relationship) : Heap Relationship × View :=
  Heap.addRels grow (h ++ [h.cells v]) ⟨h.length, 0, (h.cells v).length, (h.cells v).length⟩ rs

/-- encoder.go:182-205: the child parts work on the slices of the model; the relationships of every part and the memory
afterwards. -/
def Heap.childRels (grow : Nat → Nat) : Heap Relationship → List (View × List Relationship) →
    List (List Relationship) × Heap Relationship
  | h, [] => ([], h)
  | h, c :: cs =>
    let p := Heap.addRels grow h c.1 c.2
    let q := Heap.childRels grow p.1 cs
    (p.1.cells p.2 :: q.1, q.2)

/-- encoder.go:146-180: the relationships of the root part, those of the child parts, in the order in which the map is
visited, and the memory afterwards. -/
def Heap.encodeRels (grow : Nat → Nat) (h : Heap Relationship) (root : View) (rs : List Relationship)
    (childs : List (View × List Relationship)) : List Relationship × List (List Relationship) × Heap Relationship :=
  let p := h.rootRels grow root rs
  let q := Heap.childRels grow p.1 childs
  (p.1.cells p.2, q.1, q.2)

end Go3mf
