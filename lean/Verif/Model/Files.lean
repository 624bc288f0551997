import Verif.Model.Children

/-!
# Files: read.go:39-62 `OpenReader`, encoder.go:106-127 `CreateWriter`, opc.go:98-110

The package `os` and the operating system are modelled as far as the repository uses them: a directory leads from names to
the contents, which stay where they are when a name is removed or given to another file, and an `os.File` is a place in
such a content that is open or closed.  The library that reads and writes the package is a parameter (`PkgLib`): it reads through
`io.ReaderAt` and writes a list of pieces, each with one call of `Write`.  What it reads while `Decode` runs it reads from the disk as it
is when `Decode` is called.
-/

namespace Go3mf

/-- An `os.File`. -/
structure OsFile where
  inode : Nat
  pos : Nat
  isOpen : Bool
  deriving DecidableEq

/-- The names, the contents and the files that this process has opened. -/
structure Disk where
  dir : List (Str × Nat)
  data : List Str
  files : List OsFile
  deriving DecidableEq

/-- What the operating system refuses: to open or to create a file, `Stat`, `Close`, and how many of the bytes are taken by a
`Write` at a position. -/
structure Os where
  opens : Str → Bool
  creates : Str → Bool
  stats : Bool
  closes : Bool
  takes : Nat → Str → Nat

/-- Where a name leads to. -/
def Disk.lookup (d : Disk) (name : Str) : Option Nat := (d.dir.find? fun x => decide (x.1 = name)).map (·.2)

/-- A new `os.File`. -/
def Disk.addFile (d : Disk) (inode : Nat) : Disk := { d with files := d.files ++ [⟨inode, 0, true⟩] }

/-- `os.Open`: `none` is an error. -/
def osOpen (os : Os) (d : Disk) (name : Str) : Option Nat × Disk :=
  match d.lookup name with
  | none => (none, d)
  | some i => if os.opens name then (some d.files.length, d.addFile i) else (none, d)

/-- `os.Create`: a file that exists loses its content. -/
def osCreate (os : Os) (d : Disk) (name : Str) : Option Nat × Disk :=
  if os.creates name then
    match d.lookup name with
    | none => (some d.files.length,
        { d with dir := d.dir ++ [(name, d.data.length)], data := d.data ++ [[]] }.addFile d.data.length)
    | some i => (some d.files.length, { d with data := d.data.set i [] }.addFile i)
  else (none, d)

/-- The content that a file that is open leads to. -/
def Disk.reads (d : Disk) (f : Nat) : Option Str :=
  match d.files[f]? with
  | none => none
  | some x => if x.isOpen then d.data[x.inode]? else none

/-- `File.Stat`: the size. -/
def osStat (os : Os) (d : Disk) (f : Nat) : Option Nat :=
  if os.stats then (d.reads f).map (·.length) else none

/-- `File.ReadAt`: `none` is an error, also if there are fewer bytes.  The position of the file plays no part. -/
def osReadAt (d : Disk) (f : Nat) (off n : Nat) : Option Str :=
  match d.reads f with
  | none => none
  | some b => if off + n ≤ b.length then some ((b.drop off).take n) else none

/-- Put bytes at a position; there are zeros in a gap. -/
def putAt (b : Str) (pos : Nat) (p : Str) : Str :=
  (b.take pos ++ List.replicate (pos - b.length) 0) ++ p ++ b.drop (pos + p.length)

/-- `File.Write`: is there no error? -/
def osWrite (os : Os) (d : Disk) (f : Nat) (p : Str) : Bool × Disk :=
  match d.files[f]? with
  | none => (false, d)
  | some x =>
    if x.isOpen then
      let q := p.take (os.takes x.pos p)
      (decide (q.length = p.length), { d with
        data := d.data.modify x.inode fun b => putAt b x.pos q
        files := d.files.set f { x with pos := x.pos + q.length } })
    else (false, d)

/-- `File.Close`: is there no error?  The file cannot be used afterwards even if there is one. -/
def osClose (os : Os) (d : Disk) (f : Nat) : Bool × Disk :=
  match d.files[f]? with
  | none => (false, d)
  | some x => if x.isOpen then (os.closes, { d with files := d.files.set f { x with isOpen := false } }) else (false, d)

/-! ## Reading -/

/-- read.go:39-43 `ReadCloser`: the file, and the size that the decoder has been given. -/
structure ReadCloser where
  f : Nat
  size : Nat
  deriving DecidableEq

/-- read.go:45-57 `OpenReader`: `none` is an error. -/
def openReader (os : Os) (d : Disk) (name : Str) : Option ReadCloser × Disk :=
  match osOpen os d name with
  | (none, d) => (none, d)
  | (some f, d) =>
    match osStat os d f with
    | none => (none, (osClose os d f).2)
    | some n => (some ⟨f, n⟩, d)

/-- read.go:59-62 `Close`. -/
def ReadCloser.close (os : Os) (d : Disk) (r : ReadCloser) : Bool × Disk := osClose os d r.f

/-- What is used of the library: `opc.NewReader` with all that is read from the package afterwards (`none` is an error of
`NewReader`), the calls of `Write` for a package, and the calls that have been made when the package cannot be finished. -/
structure PkgLib where
  read : (Nat → Nat → Option Str) → Nat → Option InPkg
  write : OutPkg → List Str
  broken : Model → List Str

/-- read.go:177-192 `Decode` with opc.go:104-110 `Open`: the model and the result, `none` if the package cannot be opened.  The
disk is only read. -/
def ReadCloser.Decodes (c : PkgCfg) (o : Opc) (lib : PkgLib) (d : Disk) (r : ReadCloser) (m m' : Model) (res : Option PkgResult) :
    Prop :=
  match lib.read (osReadAt d r.f) r.size with
  | none => m' = m ∧ res = none
  | some pk => ∃ x, res = some x ∧ DecodesBg c o pk m m' x

/-- The stream of an attachment: bytes in memory, or a part of a package that is still to be read. -/
inductive Content where
  | mem (b : Str)
  | part (r : ReadCloser) (name : Str)
  deriving DecidableEq

/-- read.go:324-333 `copyFile`: the stream of an attachment that has been read from a package. -/
def copyContent (_r : ReadCloser) (a : Attachment) : Content := .mem a.stream

/-- Read a stream. -/
def Content.read (lib : PkgLib) (d : Disk) : Content → Option Str
  | .mem b => some b
  | .part r name =>
    (lib.read (osReadAt d r.f) r.size).bind fun pk =>
      (pk.files.find? fun f => decide (f.name = name)).bind InFile.copy

/-! ## Writing -/

/-- encoder.go:106-110 `WriteCloser`. -/
structure WriteCloser where
  f : Nat
  deriving DecidableEq

/-- encoder.go:117-127 `CreateWriter`: `none` is an error. -/
def createWriter (os : Os) (d : Disk) (name : Str) : Option WriteCloser × Disk :=
  match osCreate os d name with
  | (none, d) => (none, d)
  | (some f, d) => (some ⟨f⟩, d)

/-- encoder.go:112-115 `Close`. -/
def WriteCloser.close (os : Os) (d : Disk) (w : WriteCloser) : Bool × Disk := osClose os d w.f

/-- The calls of `Write` up to the first error. -/
def writeAll (os : Os) (f : Nat) : List Str → Disk → Bool × Disk
  | [], d => (true, d)
  | p :: ps, d =>
    match osWrite os d f p with
    | (false, d) => (false, d)
    | (true, d) => writeAll os f ps d

/-- encoder.go:146-180 `Encode` to a file: is there no error?  The streams of the attachments are read when it is called. -/
def WriteCloser.encode (os : Os) (o : Opc) (lib : PkgLib) (prec : Int) (d : Disk) (w : WriteCloser) (m : Model)
    (cs : List Content) (order1 : List Str) (order2 : List (Str × ChildModel)) : Bool × Disk :=
  match cs.mapM (Content.read lib d) with
  | none => (false, (writeAll os w.f (lib.broken m) d).2)
  | some bs =>
    match encodePkg o prec { m with attachments := List.zipWith (fun a b => { a with stream := b }) m.attachments bs }
        order1 order2 with
    | none => (false, (writeAll os w.f (lib.broken m) d).2)
    | some out => writeAll os w.f (lib.write out) d

end Go3mf
