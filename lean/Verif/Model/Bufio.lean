import Verif.Model.Xml

/-!
# internal/xml/xml.go: the buffered byte source and the cache of names of the XML reader
-/

namespace Go3mf

/-! ## The underlying reader -/

/-- An `io.Reader`: it delivers the chunks one by one, then possibly a last chunk together with the error `fin`, then
no bytes and `fin` for ever.  A chunk that does not fit in the slice given to `Read` is delivered in pieces. -/
structure Source where
  chunks : List Str
  last : Option Str
  fin : LexErr

/-- All the bytes of the source. -/
def Source.content (s : Source) : Str := s.chunks.flatten ++ s.last.getD []

/-- `Read` with a slice of `m` bytes: the bytes, the error, and the source afterwards. -/
def Source.read (s : Source) (m : Nat) : Str × Option LexErr × Source :=
  match s.chunks with
  | c :: cs =>
    if c.length ≤ m then (c, none, { s with chunks := cs })
    else (c.take m, none, { s with chunks := c.drop m :: cs })
  | [] =>
    match s.last with
    | some c =>
      if c.length ≤ m then (c, some s.fin, { s with last := none })
      else (c.take m, none, { s with last := some (c.drop m) })
    | none => ([], some s.fin, s)

/-! ## The buffer -/

/-- internal/xml/xml.go:23-29 `bufioReader`. -/
structure BufReader where
  buf : Str
  rd : Source
  r : Nat
  w : Nat
  err : Option LexErr
  next : Option Byte

/-- Copy bytes into a slice at a position. -/
def overwrite (buf : Str) (i : Nat) (c : Str) : Str := buf.take i ++ c ++ buf.drop (i + c.length)

/-- internal/xml/xml.go:69-81: the loop of `fill`, with the number of reads left; `io.ErrNoProgress` is an error of the
reader as any other. -/
def BufReader.fillLoop : Nat → BufReader → BufReader
  | 0, b => { b with err := some .io }
  | i + 1, b =>
    let p := b.rd.read (b.buf.length - b.w)
    let b' := { b with buf := overwrite b.buf b.w p.1, rd := p.2.2, w := b.w + p.1.length }
    match p.2.1 with
    | some e => { b' with err := some e }
    | none => if p.1.length > 0 then b' else fillLoop i b'

/-- internal/xml/xml.go:57-82 `fill`.  The panic on a full buffer is not modelled: `ReadByte` only calls `fill` when the
buffer is empty. -/
def BufReader.fill (b : BufReader) : BufReader :=
  fillLoop 100 (if b.r > 0 then
    { b with buf := overwrite b.buf 0 ((b.buf.take b.w).drop b.r), w := b.w - b.r, r := 0 } else b)

/-- internal/xml/xml.go:40-54 `ReadByte`.  The loop ends after one `fill`, which leaves a byte in the buffer or an
error. -/
def BufReader.readByte (b : BufReader) : Except LexErr Byte × BufReader :=
  match b.next with
  | some c => (.ok c, { b with next := none })
  | none =>
    let b' := if b.r = b.w ∧ b.err = none then b.fill else b
    if b'.r = b'.w then (.error (b'.err.getD .io), { b' with err := none })
    else (.ok (b'.buf.getD b'.r 0), { b' with r := b'.r + 1 })

/-- internal/xml/xml.go:542-544 `ungetc`. -/
def BufReader.unget (b : BufReader) (c : Byte) : BufReader := { b with next := some c }

/-- The reader made by `NewDecoder` (internal/xml/xml.go:115-119) with a buffer of the given size. -/
def BufReader.new (size : Nat) (rd : Source) : BufReader := ⟨List.replicate size 0, rd, 0, 0, none, none⟩

/-- The results of successive calls of `ReadByte`. -/
def BufReader.reads : Nat → BufReader → List (Except LexErr Byte)
  | 0, _ => []
  | k + 1, b => b.readByte.1 :: reads k b.readByte.2

/-- The bytes before the first error, and this error, among the results of successive calls of `ReadByte`. -/
def bytesOf : List (Except LexErr Byte) → Str × LexErr
  | [] => ([], .io)
  | .ok c :: rs => (c :: (bytesOf rs).1, (bytesOf rs).2)
  | .error e :: _ => ([], e)

/-- The tokens of a source: the XML reader on the bytes that it gets from `ReadByte` (internal/xml/xml.go:524-528
`getc`), the number of calls being at most one more than the number of bytes. -/
def lexSource (size : Nat) (rd : Source) : List (Option Event) × LexErr :=
  let p := bytesOf ((BufReader.new size rd).reads (rd.content.length + 1))
  lex p.2 (.new p.1)

/-! ## The cache of names -/

/-- `names`: a map from arrays of eight bytes to names. -/
abbrev NameCache := Str → Option Str

/-- internal/xml/xml.go:754-757: copy the name into an array of eight zeros. -/
def padName (b : Str) : Str := (b ++ List.replicate 8 0).take 8

/-- internal/xml/xml.go:712-752: the names returned without using the cache. -/
def fixedName (b : Str) : Option Str :=
  if b.length = 1 then
    if b = b!"x" then some b!"x" else if b = b!"y" then some b!"y" else if b = b!"z" then some b!"z"
    else if b = b!"u" then some b!"u" else if b = b!"v" then some b!"v" else none
  else if b.length = 2 then
    if b = b!"v1" then some b!"v1" else if b = b!"v2" then some b!"v2" else if b = b!"v3" then some b!"v3"
    else if b = b!"p1" then some b!"p1" else if b = b!"p2" then some b!"p2" else if b = b!"p3" then some b!"p3"
    else none
  else if b = b!"vertex" then some b!"vertex"
  else if b = b!"triangle" then some b!"triangle"
  else if b.length = 3 ∧ b = b!"pid" then some b!"pid"
  else if b.length = 5 ∧ b = b!"color" then some b!"color"
  else none

/-- internal/xml/xml.go:705-772 `name`, after the bytes have been read: the name (none for a syntax error) and the new
cache. -/
def internName (m : NameCache) (b : Str) : Option Str × NameCache :=
  match fixedName b with
  | some s => (some s, m)
  | none =>
    match (if b.length ≤ 8 then m (padName b) else none) with
    | some s => (some s, m)
    | none =>
      if b.length = 0 then (none, m)
      else (some b, if b.length ≤ 8 then fun k => if k = padName b then some b else m k else m)

/-- The names returned for a sequence of names read. -/
def internNames (m : NameCache) : List Str → List (Option Str)
  | [] => []
  | b :: bs => (internName m b).1 :: internNames (internName m b).2 bs

end Go3mf
