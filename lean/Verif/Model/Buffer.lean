import Verif.Model.Xml

/-!
# The buffer of the reader

The reader collects names, attribute values and texts in one `bytes.Buffer` (internal/xml/xml.go:95).  The text of a
`CharData` is `d.buf.Bytes()` (internal/xml/xml.go:682), a slice of the array of the buffer, and read.go:127 hands it to the
decoder without a copy.  This file models the array: `lexMem` says what each text reads as when the document has been read
to its end.

`bytes.Buffer` belongs to the standard library: `Reset` and `Truncate` keep the array; `Write` and `WriteByte` write into it
as long as the capacity suffices and otherwise go on in a new array with a copy of the bytes; the first array has 64 bytes.
The buffer is never read from, so that its offset is zero.  The capacity of the following arrays depends on the allocator;
the parameter `grow` stands for it.
-/

namespace Go3mf

/-- A `bytes.Buffer`: the arrays that it has left, its array, and the number of bytes in it. -/
structure Buf where
  old : List Str
  arr : Str
  len : Nat
  deriving DecidableEq, Repr

/-- The zero value. -/
def Buf.zero : Buf := ⟨[], [], 0⟩

/-- The calls on the buffer. -/
inductive BufOp where
  /-- `Reset` -/
  | reset
  /-- `WriteByte` and `Write` -/
  | write (bs : Str)
  /-- `Truncate`, given by the number of bytes that go away. -/
  | drop (k : Nat)
  deriving DecidableEq, Repr

/-- What a call does. -/
def Buf.step (grow : Nat → Nat) (b : Buf) : BufOp → Buf
  | .reset => { b with len := 0 }
  | .drop k => { b with len := b.len - k }
  | .write bs =>
    if b.len + bs.length ≤ b.arr.length then
      { b with arr := b.arr.take b.len ++ bs ++ b.arr.drop (b.len + bs.length), len := b.len + bs.length }
    else if b.arr = [] then ⟨b.old, bs ++ List.replicate (64 - bs.length) 0, bs.length⟩
    else
      ⟨b.old ++ [b.arr], b.arr.take b.len ++ bs ++ List.replicate (grow (b.len + bs.length)) 0, b.len + bs.length⟩

def Buf.run (grow : Nat → Nat) (b : Buf) (ops : List BufOp) : Buf := ops.foldl (Buf.step grow) b

/-- `Bytes`, at this time. -/
def Buf.bytes (b : Buf) : Str := b.arr.take b.len

/-- The slice that `Bytes` returns: the number of the array and the length. -/
def Buf.slice (b : Buf) : Nat × Nat := (b.old.length, b.len)

/-- What a slice reads as. -/
def Buf.read (b : Buf) (s : Nat × Nat) : Str := ((b.old ++ [b.arr]).getD s.1 []).take s.2

/-! ## The calls of the reader -/

/-- One call of `WriteByte` for each byte. -/
def writeBytes (s : Str) : List BufOp := s.map fun b => .write [b]

/-- internal/xml/xml.go:705-772 `name`, which reads the name `n`. -/
def nameBuf (n : Str) : List BufOp := .reset :: writeBytes n

/-- internal/xml/xml.go:563-682: the loop of `text`, as `textGo`.  An entity is written byte by byte, removed, and replaced
by what it stands for. -/
def textBuf (fin : LexErr) (quote : Option Byte) : Nat → Byte → Str → List BufOp
  | _, _, [] => []
  | k + 1, b1, _ :: s => textBuf fin quote k b1 s
  | 0, b1, b :: s =>
    if b = 60 then []
    else if quote = some b then []
    else if b = 38 then
      match entity fin s with
      | .error _ => []
      | .ok (d, r) =>
        writeBytes (b :: s.take (s.length - r.length)) ++ [.drop (1 + (s.length - r.length)), .write d] ++
          textBuf fin quote (s.length - r.length) 0 s
    else if b = 13 then .write [10] :: textBuf fin quote 0 b s
    else if b1 = 13 ∧ b = 10 then textBuf fin quote 0 b s
    else .write [b] :: textBuf fin quote 0 b s

/-- internal/xml/xml.go:558-683 `text`. -/
def lexTextBuf (fin : LexErr) (quote : Option Byte) (s : Str) : List BufOp := .reset :: textBuf fin quote 0 0 s

/-- internal/xml/xml.go:490-503 `attrval`. -/
def attrvalBuf (fin : LexErr) : Str → List BufOp
  | [] => []
  | b :: s => if b = 34 || b = 39 then lexTextBuf fin (some b) s else []

/-- internal/xml/xml.go:426-481: the loop over the attributes, as `lexAttrs`. -/
def lexAttrsBuf (fin : LexErr) : Nat → Str → List BufOp
  | 0, _ => []
  | fuel + 1, s =>
    match skipSpace s with
    | [] => []
    | b :: t =>
      if b = 47 || b = 62 then []
      else match readName fin (b :: t) with
        | .ok n r =>
          match skipSpace r with
          | [] => nameBuf n
          | c :: u =>
            if c ≠ 61 then nameBuf n
            else nameBuf n ++ attrvalBuf fin (skipSpace u) ++ (match attrval fin (skipSpace u) with
              | .ok (_, w) => lexAttrsBuf fin fuel w
              | .error _ => [])
        | _ => []

/-- internal/xml/xml.go:397-408: the rest of a processing instruction, as `skipPI`. -/
def skipPIBuf : Byte → Str → List BufOp
  | _, [] => []
  | b0, b :: s => .write [b] :: if b0 = 63 ∧ b = 62 then [] else skipPIBuf b s

/-- internal/xml/xml.go:318-488 `RawToken`: the calls on the buffer if it succeeds, as `rawToken`. -/
def tokenBuf (fin : LexErr) (st : Lexer) : List BufOp :=
  match st.close with
  | some _ => []
  | none =>
    match st.inp with
    | [] => []
    | b :: s =>
      if b ≠ 60 then lexTextBuf fin none (b :: s)
      else
        match s with
        | [] => []
        | c :: t =>
          if c = 47 then match readName fin t with
            | .ok n _ => nameBuf n
            | _ => []
          else if c = 63 then match readName fin t with
            | .ok n r => nameBuf n ++ skipPIBuf 0 (skipSpace r)
            | _ => []
          else match readName fin (c :: t) with
            | .ok n r => nameBuf n ++ lexAttrsBuf fin (r.length + 1) r
            | _ => []

/-- The buffer after at most `fuel` successful calls of `RawToken`, and the slices returned by them. -/
def lexSlices (fin : LexErr) (grow : Nat → Nat) : Nat → Lexer → Buf → Buf × List (Nat × Nat)
  | 0, _, b => (b, [])
  | fuel + 1, st, b =>
    match rawToken fin st with
    | .error _ => (b, [])
    | .ok (_, st') =>
      let b' := b.run grow (tokenBuf fin st)
      ((lexSlices fin grow fuel st' b').1, b'.slice :: (lexSlices fin grow fuel st' b').2)

/-- What the text returned by the call number `i` of `RawToken` reads as after the last successful call. -/
def lexMem (grow : Nat → Nat) (data : Str) (i : Nat) (t : Str) : Str :=
  match (lexSlices .eof grow ((Lexer.new data).size + 1) (.new data) .zero).2[i]? with
  | some s => (lexSlices .eof grow ((Lexer.new data).size + 1) (.new data) .zero).1.read s
  | none => t

end Go3mf
