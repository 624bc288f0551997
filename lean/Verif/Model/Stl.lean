import Verif.Model.Quant
import Verif.Model.Text
import Verif.Model.Validate

/-!
# importer/stl: reading STL files

A reader is given by the bytes that it delivers and the error with which it then ends, for ever: `io.EOF` or another
one.  `bufio.Reader` and `bufio.Scanner` are those of the standard library; how the bytes are cut into chunks has no
effect on them.  A context is given by what `ctx.Done()` tells when the mesh has a certain number of triangles.
-/

namespace Go3mf.Stl

/-- The errors returned by the importer. -/
inductive Error where
  /-- `io.EOF` -/
  | eof
  /-- `io.ErrUnexpectedEOF` -/
  | unexpectedEOF
  /-- an error of the reader -/
  | io
  /-- `bufio.ErrTooLong` -/
  | tooLong
  /-- `ctx.Err()` -/
  | ctx
  deriving DecidableEq, Repr

/-- How a reader ends: `true` for `io.EOF`, `false` for another error. -/
structure Input where
  data : Str
  eof : Bool

/-- `ctx.Done()` when the mesh has so many triangles. -/
abbrev Ctx := Nat → Bool

/-- A mesh under construction: the builder and the triangles, each given by its three vertex indices. -/
structure Mesh where
  mb : MeshBuilder Point3D Vec3I
  tris : List Triangle

/-- `new(go3mf.Mesh)` with its builder. -/
def Mesh.new : Mesh := ⟨.new [], []⟩

/-- `mb.AddVertex`. -/
def Mesh.addVertex (m : Mesh) (p : Point3D) : Mesh × UInt32 :=
  let r := m.mb.addVertex cellOf p
  ({ m with mb := r.1 }, r.2)

/-- `append(m.Triangles.Triangle, go3mf.Triangle{V1: a, V2: b, V3: c})`. -/
def Mesh.addTriangle (m : Mesh) (a b c : UInt32) : Mesh :=
  { m with tris := m.tris ++ [{ Triangle.zero with v1 := a, v2 := b, v3 := c }] }

/-- importer/stl/decoder.go:16 `checkEveryFaces`. -/
def checkEveryFaces : Nat := 1000

/-! ## Binary files -/

/-- `io.ReadFull` of `n > 0` bytes. -/
def readFull (n : Nat) (i : Input) : Except Error (Str × Input) :=
  if n ≤ i.data.length then .ok (i.data.take n, { i with data := i.data.drop n })
  else if !i.eof then .error .io
  else if i.data = [] then .error .eof
  else .error .unexpectedEOF

/-- `binary.LittleEndian.Uint32` at an offset. -/
def le32 (s : Str) (k : Nat) : UInt32 :=
  UInt32.ofNat ((s.getD k 0).toNat + (s.getD (k + 1) 0).toNat * 2 ^ 8 + (s.getD (k + 2) 0).toNat * 2 ^ 16 +
    (s.getD (k + 3) 0).toNat * 2 ^ 24)

/-- A float32 at an offset. -/
def leF32 (s : Str) (k : Nat) : F32 := F32.ofBits (le32 s k)

/-- The vertex number `j` of a `binaryFace` (importer/stl/binary.go:19-23): 12 bytes of normal, then three vertices
of 12 bytes, then two bytes. -/
def faceVertex (s : Str) (j : Nat) : Point3D := ⟨leF32 s (12 + 12 * j), leF32 s (16 + 12 * j), leF32 s (20 + 12 * j)⟩

/-- importer/stl/binary.go:61-68 `binaryDecoder.decodeFace`. -/
def Mesh.decodeFace (m : Mesh) (face : Str) : Mesh :=
  let a := m.addVertex (faceVertex face 0)
  let b := a.1.addVertex (faceVertex face 1)
  let c := b.1.addVertex (faceVertex face 2)
  c.1.addTriangle a.2 b.2 c.2

/-- importer/stl/binary.go:41-56: the loop over the faces, with the number of faces left, `nextFaceCheck` and `err`.  The
`break` in the `select` does not leave the loop. -/
def binaryLoop (ctx : Ctx) (every : Nat) : Nat → Input → Mesh → Nat → Option Error → Mesh × Option Error
  | 0, _, m, _, err => (m, err)
  | n + 1, i, m, next, _ =>
    match readFull 50 i with
    | .error e => (m, some e)
    | .ok (face, i') =>
      let m' := m.decodeFace face
      if m'.tris.length > next then
        binaryLoop ctx every n i' m' (next + every) (if ctx m'.tris.length then some .ctx else none)
      else binaryLoop ctx every n i' m' next none

/-- importer/stl/binary.go:38: the capacity of the slice of triangles that is allocated when the header has been read; `none`
if it cannot be read. -/
def binaryReserve (i : Input) : Option Nat :=
  match readFull 84 i with
  | .error _ => none
  | .ok (h, _) => some (le32 h 80).toNat

/-- importer/stl/binary.go:31-59 `binaryDecoder.decode` on a new mesh.  The allocation of the triangles is not
part of it, see `binaryReserve`. -/
def binaryDecode (ctx : Ctx) (every : Nat) (i : Input) : Mesh × Option Error :=
  match readFull 84 i with
  | .error e => (.new, some e)
  | .ok (h, i') => binaryLoop ctx every (le32 h 80).toNat i' .new every none

/-! ## ASCII files -/

/-- The largest line of `bufio.Scanner` (`bufio.MaxScanTokenSize`). -/
def maxLine : Nat := 65536

/-- `bufio.ScanLines`: the lines of a text, without the final line feed; `cur` is the line so far. -/
def linesGo (cur : Str) : Str → List Str
  | [] => if cur = [] then [] else [cur]
  | c :: s => if c = 10 then cur :: linesGo [] s else linesGo (cur ++ [c]) s

/-- The lines of a text, each still with its carriage return. -/
def lines (s : Str) : List Str := linesGo [] s

/-- `dropCR`. -/
def dropCR (l : Str) : Str := if l.getLast? = some 13 then l.dropLast else l

/-- The state of the loop: the mesh, the nodes read since the last triangle (`position` is their number) and
`nextFaceCheck`. -/
structure AsciiState where
  mesh : Mesh
  nodes : List UInt32
  next : Nat

/-- importer/stl/ascii.go:29-52: what is done for one line, and `err`. -/
def asciiLine (ctx : Ctx) (every : Nat) (s : AsciiState) (line : Str) : AsciiState × Option Error :=
  match fields line with
  | [k, a, b, c] =>
    if k = b!"vertex" then
      let r := s.mesh.addVertex ⟨parseFloatVal a, parseFloatVal b, parseFloatVal c⟩
      match s.nodes ++ [r.2] with
      | [n0, n1, n2] =>
        let m := r.1.addTriangle n0 n1 n2
        if m.tris.length > s.next then
          (⟨m, [], s.next + every⟩, if ctx m.tris.length then some .ctx else none)
        else (⟨m, [], s.next⟩, none)
      | ns => (⟨r.1, ns, s.next⟩, none)
    else (s, none)
  | _ => (s, none)

/-- importer/stl/ascii.go:28-57: the loop over the lines, and `scanner.Err()`. -/
def asciiLoop (ctx : Ctx) (every : Nat) (eof : Bool) : List Str → AsciiState → Mesh × Option Error
  | [], s => (s.mesh, if eof then none else some .io)
  | l :: ls, s =>
    if l.length ≥ maxLine then (s.mesh, some .tooLong)
    else
      match asciiLine ctx every s (dropCR l) with
      | (s', some e) => (s'.mesh, some e)
      | (s', none) => asciiLoop ctx every eof ls s'

/-- importer/stl/ascii.go:22-58 `asciiDecoder.decode` on a new mesh. -/
def asciiDecode (ctx : Ctx) (every : Nat) (i : Input) : Mesh × Option Error :=
  asciiLoop ctx every i.eof (lines i.data) ⟨.new, [], every⟩

/-! ## Both -/

/-- importer/stl/decoder.go:18 `sizeOfHeader`. -/
def sizeOfHeader : Nat := 300

/-- importer/stl/decoder.go:76-83 `isASCII`. -/
def allASCII (s : Str) : Bool := s.all (· < 128)

/-- importer/stl/decoder.go:61-74 `Decoder.isASCII`; `none` if the loop does not end, which is the case if the reader keeps
failing with another error than `io.EOF` (`Peek` reports an error of the reader once and reads again). -/
def isASCII (i : Input) : Option (Except Error Bool) :=
  if sizeOfHeader ≤ i.data.length then
    let header := lowerName (i.data.take sizeOfHeader)
    some (.ok (header.hasPrefix b!"solid" && allASCII header))
  else if i.eof then some (.error .eof)
  else none

/-- The mesh of the model. -/
def Mesh.mesh (m : Mesh) : Go3mf.Mesh := { Go3mf.Mesh.zero with vertices := m.mb.vertices, triangles := m.tris }

/-- importer/stl/decoder.go:39-59 `Decoder.DecodeContext`: the model afterwards and the error; `none` if it does not
return. -/
def decodeWith (every : Nat) (ctx : Ctx) (i : Input) (m : Model) : Option (Model × Option Error) :=
  match isASCII i with
  | none => none
  | some (.error e) => some (m, some e)
  | some (.ok ascii) =>
    match (if ascii then asciiDecode ctx every i else binaryDecode ctx every i) with
    | (_, some e) => some (m, some e)
    | (mesh, none) =>
      let id := m.resources.unusedID
      some ({ m with
        resources := { m.resources with objects :=
          m.resources.objects ++ [{ Object.zero with id := id, mesh := some mesh.mesh }] }
        build := { m.build with items := m.build.items ++ [{ Item.zero with objectID := id }] } }, none)

/-- importer/stl/decoder.go:39-59 `Decoder.DecodeContext`. -/
def decode (ctx : Ctx) (i : Input) (m : Model) : Option (Model × Option Error) := decodeWith checkEveryFaces ctx i m

end Go3mf.Stl
