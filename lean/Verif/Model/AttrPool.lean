import Verif.Model.Xml

/-!
# The pool of attributes of the XML reader

In `Verif.Model.Xml` a start tag has a list of attributes.  The code hands over a slice of `attrPool`, an array that it uses for every start tag, and the
value of each attribute is a slice of the array of a `bytes.Buffer` of `strPool`, which is used for every start tag too.  Both are made twice as long
when they are too short.  Here the arrays of the buffers are modelled: a slice is the number of an array and a length.

`bytes.Buffer` belongs to the standard library: `Reset` keeps the array; `Write` writes into it as long as the capacity suffices and goes on in a new
array otherwise; the first array has 64 bytes.  The capacity of the following arrays depends on the allocator; the parameter `grow` stands for it.
-/

namespace Go3mf

/-- A slice of bytes: the number of the array, `none` for the slice nil, and the length. -/
structure ByteSlice where
  arr : Option Nat
  len : Nat
  deriving DecidableEq

/-- What a slice reads as. -/
def ByteSlice.read (heap : List Str) (s : ByteSlice) : Str :=
  match s.arr with
  | none => []
  | some p => (heap.getD p []).take s.len

/-- internal/xml/xml.go:18-21 `XMLAttr`. -/
structure PoolAttr where
  name : Name
  value : ByteSlice
  deriving DecidableEq

/-- The arrays, and the fields `strPool` and `attrPool` (internal/xml/xml.go:102-103).  A buffer is the slice of its bytes. -/
structure AttrPool where
  heap : List Str
  bufs : List ByteSlice
  attrs : List PoolAttr
  deriving DecidableEq

/-- internal/xml/xml.go:113-114: ten of each. -/
def AttrPool.new : AttrPool := ⟨[], List.replicate 10 ⟨none, 0⟩, List.replicate 10 ⟨⟨[], []⟩, ⟨none, 0⟩⟩⟩

/-- internal/xml/xml.go:476-478: `Reset` and `Write` of a buffer. -/
def ByteSlice.rewrite (grow : Nat → Nat) (heap : List Str) (b : ByteSlice) (data : Str) : List Str × ByteSlice :=
  match b.arr with
  | none =>
    if data = [] then (heap, ⟨none, 0⟩)
    else (heap ++ [data ++ List.replicate (64 - data.length) 0], ⟨some heap.length, data.length⟩)
  | some p =>
    if data.length ≤ (heap.getD p []).length then (heap.set p (data ++ (heap.getD p []).drop data.length), ⟨some p, data.length⟩)
    else (heap ++ [data ++ List.replicate (grow data.length) 0], ⟨some heap.length, data.length⟩)

/-- internal/xml/xml.go:472-475: both are made longer if there are fewer than `i` attributes in the pool. -/
def AttrPool.reserve (m : AttrPool) (i : Nat) : AttrPool :=
  if m.attrs.length < i then
    { m with
      attrs := m.attrs ++ List.replicate m.attrs.length ⟨⟨[], []⟩, ⟨none, 0⟩⟩
      bufs := m.bufs ++ List.replicate m.bufs.length ⟨none, 0⟩ }
  else m

/-- internal/xml/xml.go:471-480: the attribute number `i`, counted from 0, is stored; `none` if an index is out of range. -/
def AttrPool.put (grow : Nat → Nat) (m : AttrPool) (i : Nat) (a : Attr) : Option AttrPool :=
  let m := m.reserve (i + 1)
  match m.bufs[i]? with
  | none => none
  | some b =>
    let w := b.rewrite grow m.heap a.value
    if i < m.attrs.length then some ⟨w.1, m.bufs.set i w.2, m.attrs.set i ⟨a.name, w.2⟩⟩ else none

/-- internal/xml/xml.go:426-481: the attributes of a start tag, from number `i` on. -/
def AttrPool.fill (grow : Nat → Nat) : AttrPool → Nat → List Attr → Option AttrPool
  | m, _, [] => some m
  | m, i, a :: as => (m.put grow i a).bind fun m' => AttrPool.fill grow m' (i + 1) as

/-- internal/xml/xml.go:140-142: the names of the first `n` attributes are translated where they are. -/
def AttrPool.rename (m : AttrPool) (n : Nat) (tr : Name → Name) : AttrPool :=
  { m with attrs := (m.attrs.take n).map (fun a => { a with name := tr a.name }) ++ m.attrs.drop n }

/-- internal/xml/xml.go:426-487: a start tag with `as`, whose names are translated with `tr`: the attributes that the handler gets, and the pool. -/
def AttrPool.tag (grow : Nat → Nat) (m : AttrPool) (tr : Name → Name) (as : List Attr) : Option (List PoolAttr × AttrPool) :=
  (m.fill grow 0 as).map fun m' => ((m'.rename as.length tr).attrs.take as.length, m'.rename as.length tr)

/-- What a handler reads that looks at the attributes while it is called. -/
def PoolAttr.read (heap : List Str) (a : PoolAttr) : Attr := ⟨a.name, a.value.read heap⟩

/-- The start tags of a document one after the other, what their handlers read, and the pool at the end. -/
def AttrPool.tags (grow : Nat → Nat) : AttrPool → List ((Name → Name) × List Attr) → Option (List (List Attr) × AttrPool)
  | m, [] => some ([], m)
  | m, t :: ts =>
    (m.tag grow t.1 t.2).bind fun p =>
      (AttrPool.tags grow p.2 ts).map fun q => (p.1.map (PoolAttr.read p.2.heap) :: q.1, q.2)

end Go3mf
