import Verif.Model.Printer

/-!
# Writers that can fail

`Printer` (internal/xml/printer.go) writes into a `bufio.Writer` of the standard library and ignores the results.  Here
the `bufio.Writer` is modelled as it is in Go, over a writer that can fail, together with the individual calls that the
printer makes.
-/

namespace Go3mf

/-- An `io.Writer`.  The result of `Write` depends on what was passed to it before: the number of bytes that were
written, and whether there was no error. -/
structure Sink where
  write : List Str → Str → Nat × Bool

/-- The documentation of `io.Writer`: not more bytes than were given, and an error if there are fewer. -/
def Sink.Honest (s : Sink) : Prop :=
  ∀ h p, (s.write h p).1 ≤ p.length ∧ ((s.write h p).2 = true → (s.write h p).1 = p.length)

/-- What happened to an `io.Writer`: the arguments of the calls of `Write`, and the bytes that were written. -/
structure RawW where
  hist : List Str
  out : Str
  deriving DecidableEq

/-- Before the first call. -/
def RawW.new : RawW := ⟨[], []⟩

/-- A call of `Write`, afterwards. -/
def RawW.call (s : Sink) (w : RawW) (p : Str) : RawW := ⟨w.hist ++ [p], w.out ++ p.take (s.write w.hist p).1⟩

/-- `defaultBufSize` of bufio. -/
def bufSize : Nat := 4096

/-- A `bufio.Writer`: the writer below it, the bytes in the buffer, and whether there was an error. -/
structure BufW where
  raw : RawW
  buf : Str
  failed : Bool
  deriving DecidableEq

/-- `bufio.NewWriter`. -/
def BufW.new (w : RawW) : BufW := ⟨w, [], false⟩

/-- `bufio.Writer.Available`. -/
def BufW.available (b : BufW) : Nat := bufSize - b.buf.length

/-- `bufio.Writer.Flush`; it returns an error if the result has failed. -/
def BufW.flush (s : Sink) (b : BufW) : BufW :=
  if b.failed then b
  else if b.buf = [] then b
  else
    let r := s.write b.raw.hist b.buf
    if r.2 ∧ b.buf.length ≤ r.1 then ⟨b.raw.call s b.buf, [], false⟩
    else ⟨b.raw.call s b.buf, b.buf.drop r.1, true⟩

/-- The loop of `bufio.Writer.Write`, which passes its argument on if the buffer is empty (`direct`), and of
`bufio.Writer.WriteString`, which does not.  The first argument bounds the number of iterations. -/
def BufW.put (s : Sink) (direct : Bool) : Nat → BufW → Str → BufW
  | 0, b, _ => { b with failed := true }
  | k + 1, b, p =>
    if b.failed then b
    else if b.available < p.length then
      if direct ∧ b.buf = [] then
        let r := s.write b.raw.hist p
        BufW.put s direct k ⟨b.raw.call s p, [], !r.2⟩ (p.drop r.1)
      else
        BufW.put s direct k (({ b with buf := b.buf ++ p.take b.available } : BufW).flush s) (p.drop b.available)
    else { b with buf := b.buf ++ p }

/-- `bufio.Writer.WriteByte`. -/
def BufW.putByte (s : Sink) (b : BufW) (c : Byte) : BufW :=
  if b.failed then b
  else
    let b := if b.available = 0 then b.flush s else b
    if b.failed then b else { b with buf := b.buf ++ [c] }

/-- A call of a method of `bufio.Writer`. -/
inductive BCall where
  /-- `WriteByte` -/
  | byte (c : Byte)
  /-- `WriteString` -/
  | str (p : Str)
  /-- `Write` -/
  | bytes (p : Str)
  deriving DecidableEq, Repr

/-- The bytes that a call is given. -/
def BCall.data : BCall → Str
  | .byte c => [c]
  | .str p => p
  | .bytes p => p

/-- The call. -/
def BufW.call (s : Sink) (b : BufW) : BCall → BufW
  | .byte c => b.putByte s c
  | .str p => b.put s false (p.length + 2) p
  | .bytes p => b.put s true (p.length + 2) p

/-! ## The calls of the printer -/

/-- The loop of `xml.EscapeText`: what was passed over since the last call of `Write` is written before a character that
is replaced, and at the end.  That it stops when `Write` fails makes no difference, as a `bufio.Writer` that failed does
nothing. -/
def escapeChunks : Nat → Bool → Str → Str → List Str
  | _, _, last, [] => [last]
  | k + 1, copy, last, b :: s => escapeChunks k copy (if copy then last ++ [b] else last) s
  | 0, _, last, b :: s =>
    if b < 0x80 then
      if escapeASCII b = [b] then escapeChunks 0 false (last ++ [b]) s
      else last :: escapeASCII b :: escapeChunks 0 false [] s
    else match runeLen (b :: s) with
      | 0 => last :: replacement :: escapeChunks 0 false [] s
      | n + 1 =>
        if isNonChar (b :: s) then last :: replacement :: escapeChunks n false [] s
        else escapeChunks n true (last ++ [b]) s

/-- `xml.EscapeText`. -/
def escapeCalls (s : Str) : List BCall := (escapeChunks 0 false [] s).map .bytes

/-- internal/xml/printer.go:52-58 and 89-95: the calls for a name. -/
def nameCalls (m : PrefixMap) (n : Name) : List BCall :=
  (if n.space ≠ [] ∧ m n.space ≠ [] then [.str (m n.space), .byte 58] else []) ++ [.str n.loc]

/-- internal/xml/printer.go:61-79: the calls for the attributes. -/
def attrsCalls (skip : Bool) : PrefixMap → List Attr → List BCall × PrefixMap
  | m, [] => ([], m)
  | m, a :: as =>
    if a.name.loc = [] then attrsCalls skip m as
    else
      let p := if a.name.space ≠ [] then createAttrPrefix m a else ([], m)
      let r := attrsCalls skip p.2 as
      ([.byte 32] ++ (if a.name.space ≠ [] then [.str p.1, .byte 58] else []) ++ [.str a.name.loc, .str b!"=\""] ++
        (if skip then [.str a.value] else escapeCalls a.value) ++ [.byte 34] ++ r.1, r.2)

/-- internal/xml/printer.go:50-84 `WriteStart`. -/
def startCalls (m : PrefixMap) (n : Name) (as : List Attr) (auto skip : Bool) : List BCall × PrefixMap :=
  let r := attrsCalls skip m as
  ([.byte 60] ++ nameCalls m n ++ r.1 ++ (if auto then [.byte 47] else []) ++ [.byte 62], r.2)

/-- internal/xml/printer.go:86-97 `WriteEnd`. -/
def endCalls (m : PrefixMap) (n : Name) : List BCall := [.byte 60, .byte 47] ++ nameCalls m n ++ [.byte 62]

/-- encoder.go:58-68 `EncodeToken`. -/
def opCalls (m : PrefixMap) : Op → List BCall × PrefixMap
  | .start n as auto skip => startCalls m n as auto skip
  | .stop n => (endCalls m n, m)
  | .chars s => (escapeCalls s, m)

/-- A step of `writeModel` or `writeChildModel`: a call of `EncodeToken` or of `Flush`. -/
inductive Step where
  | op (o : Op)
  | flush
  deriving DecidableEq, Repr

/-- The steps, until a call of `Flush` returns an error; is there none? -/
def runSteps (s : Sink) : PrefixMap → BufW → List Step → Bool × BufW
  | _, b, [] => (true, b)
  | m, b, .op o :: t => runSteps s (opCalls m o).2 ((opCalls m o).1.foldl (BufW.call s) b) t
  | m, b, .flush :: t => if (b.flush s).failed then (false, b.flush s) else runSteps s m (b.flush s) t

/-- The calls of `EncodeToken`. -/
def Step.op? : Step → Option Op
  | .op o => some o
  | .flush => none

end Go3mf
