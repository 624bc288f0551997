import Verif.Model.Types
import Verif.Model.Utf8

/-!
# internal/xml/xml.go: the XML reader

The reader works on the bytes of the underlying `io.Reader` (see `Verif.Model.Bufio` for the buffering) and the error
`fin` with which they end, assumed to be repeated by further reads.  Messages of syntax errors are not modelled.
`d.buf` and the pools are only visible through the values they hold (see `Verif.Model.Buffer` for the aliasing of
character data).  `pushEOF` and `popEOF` are not used in the repository, so that the stack has no `stkEOF` entry.
-/

namespace Go3mf

/-- The errors of the reader: `io.EOF`, `*xml.SyntaxError`, or the error of the underlying reader. -/
inductive LexErr where
  | eof
  | syntax
  | io
  deriving DecidableEq, Repr

/-- internal/xml/xml.go:534-539 `mustNotEOF`. -/
def LexErr.must : LexErr → LexErr
  | .eof => .syntax
  | e => e

/-- What `OnStart`, `OnEnd` and `OnChar` are called with. -/
inductive Event where
  | start (name : Name) (attrs : List Attr)
  | stop (name : Name)
  | chars (text : Str)
  deriving DecidableEq, Repr

/-! ## Names -/

/-- internal/xml/xml.go:805-810 `isNameByte`. -/
def isNameByte (c : Byte) : Bool :=
  (65 ≤ c && c ≤ 90) || (97 ≤ c && c ≤ 122) || (48 ≤ c && c ≤ 57) || c = 95 || c = 58 || c = 46 || c = 45

/-- The byte continues a name: the negation of `b < runSelf && !isNameByte(b)`. -/
def nameByte (c : Byte) : Bool := 0x80 ≤ c || isNameByte c

/-- internal/xml/xml.go:791-801: the loop of `readName`: the name and the rest. -/
def readNameLoop (fin : LexErr) : Str → Except LexErr (Str × Str)
  | [] => .error fin.must
  | b :: s =>
    if nameByte b then
      match readNameLoop fin s with
      | .ok (n, r) => .ok (b :: n, r)
      | .error e => .error e
    else .ok ([], b :: s)

/-- The outcomes of `readName`: a name and the rest, no name (`d.err` is nil), or an error. -/
inductive NameRes where
  | ok (name rest : Str)
  | missing (rest : Str)
  | fail (e : LexErr)

/-- internal/xml/xml.go:777-803 `readName`; also `name` (705-772), whose cache is transparent (`C52_transparent`)
and whose check `isName` (811-813) holds of every non-empty name. -/
def readName (fin : LexErr) : Str → NameRes
  | [] => .fail fin.must
  | b :: s =>
    if nameByte b then
      match readNameLoop fin s with
      | .ok (n, r) => .ok (b :: n) r
      | .error e => .fail e
    else .missing (b :: s)

/-- Split at the first colon. -/
def splitColon : Str → Option (Str × Str)
  | [] => none
  | c :: s => if c = 58 then some ([], s) else (splitColon s).map fun p => (c :: p.1, p.2)

/-- internal/xml/xml.go:692-698: the part before the first colon is the name space. -/
def toName (s : Str) : Name :=
  match splitColon s with
  | none => ⟨[], s⟩
  | some (p, l) => ⟨p, l⟩

/-- internal/xml/xml.go:506-519 `space`. -/
def skipSpace : Str → Str
  | [] => []
  | b :: s => if b = 32 || b = 13 || b = 10 || b = 9 then skipSpace s else b :: s

/-! ## Text -/

/-- internal/xml/xml.go:546-552 `entity`. -/
def entityTable (s : Str) : Option Byte :=
  if s = b!"lt" then some 60
  else if s = b!"gt" then some 62
  else if s = b!"amp" then some 38
  else if s = b!"apos" then some 39
  else if s = b!"quot" then some 34
  else none

/-- internal/xml/xml.go:611-613: a digit in the base. -/
def isRefDigit (hex : Bool) (b : Byte) : Bool :=
  (48 ≤ b && b ≤ 57) || (hex && 97 ≤ b && b ≤ 102) || (hex && 65 ≤ b && b ≤ 70)

/-- The value of a digit. -/
def refDigit (b : Byte) : Nat :=
  if b ≤ 57 then b.toNat - 48 else if b ≤ 70 then b.toNat - 55 else b.toNat - 87

/-- `strconv.ParseUint(s, base, 64)` on digits, without the bound 2^64, which is above `unicode.MaxRune`. -/
def refVal (hex : Bool) (s : Str) : Nat := s.foldl (fun n b => n * (if hex then 16 else 10) + refDigit b) 0

/-- The longest prefix of digits and the rest. -/
def spanDigits (hex : Bool) : Str → Str × Str
  | [] => ([], [])
  | b :: s => if isRefDigit hex b then (b :: (spanDigits hex s).1, (spanDigits hex s).2) else ([], b :: s)

/-- internal/xml/xml.go:610-630: the digits of a character reference and what follows. -/
def refDigits (fin : LexErr) (hex : Bool) (s : Str) : Except LexErr (Str × Str) :=
  match (spanDigits hex s).2 with
  | [] => .error fin.must
  | c :: r =>
    if c = 59 ∧ (spanDigits hex s).1 ≠ [] ∧ refVal hex (spanDigits hex s).1 ≤ 0x10FFFF then
      .ok (encodeRune (refVal hex (spanDigits hex s).1), r)
    else .error .syntax

/-- internal/xml/xml.go:638-654: what follows the name of an entity. -/
def entityEnd (fin : LexErr) (name rest : Str) : Except LexErr (Str × Str) :=
  match rest with
  | [] => .error fin.must
  | c :: r =>
    if c = 59 then
      match entityTable name with
      | some b => .ok ([b], r)
      | none => .error .syntax
    else .error .syntax

/-- internal/xml/xml.go:591-668: what follows `&`: the character it stands for and the rest. -/
def entity (fin : LexErr) : Str → Except LexErr (Str × Str)
  | [] => .error fin.must
  | b :: s =>
    if b = 35 then
      match s with
      | [] => .error fin.must
      | c :: r => if c = 120 then refDigits fin true r else refDigits fin false (c :: r)
    else
      match readName fin (b :: s) with
      | .fail e => .error e
      | .missing r => entityEnd fin [] r
      | .ok n r => entityEnd fin n r

/-- Put bytes before the text read. -/
def prepend (d : Str) : Except LexErr (Str × Str) → Except LexErr (Str × Str)
  | .ok (t, r) => .ok (d ++ t, r)
  | .error e => .error e

/-- internal/xml/xml.go:563-682: the loop of `text`, with `b1`; the next `skip` bytes belong to an entity already
read.  At the end of the input the loop ends without error (the error is met by the next read). -/
def textGo (fin : LexErr) (quote : Option Byte) : Nat → Byte → Str → Except LexErr (Str × Str)
  | _, _, [] => .ok ([], [])
  | k + 1, b1, _ :: s => textGo fin quote k b1 s
  | 0, b1, b :: s =>
    if b = 60 then if quote.isSome then .error .syntax else .ok ([], b :: s)
    else if quote = some b then .ok ([], s)
    else if b = 38 then
      match entity fin s with
      | .error e => .error e
      | .ok (d, r) => prepend d (textGo fin quote (s.length - r.length) 0 s)
    else if b = 13 then prepend [10] (textGo fin quote 0 b s)
    else if b1 = 13 ∧ b = 10 then textGo fin quote 0 b s
    else prepend [b] (textGo fin quote 0 b s)

/-- internal/xml/xml.go:558-683 `text`: the text and the rest. -/
def lexText (fin : LexErr) (quote : Option Byte) (s : Str) : Except LexErr (Str × Str) := textGo fin quote 0 0 s

/-- internal/xml/xml.go:490-503 `attrval`. -/
def attrval (fin : LexErr) : Str → Except LexErr (Str × Str)
  | [] => .error fin.must
  | b :: s => if b = 34 || b = 39 then lexText fin (some b) s else .error .syntax

/-! ## Elements -/

/-- internal/xml/xml.go:426-481: the loop over the attributes: the attributes, whether the element ends with `/>`, and
the rest.  `fuel` bounds the number of iterations. -/
def lexAttrs (fin : LexErr) : Nat → Str → Except LexErr (List Attr × Bool × Str)
  | 0, _ => .error .syntax
  | fuel + 1, s =>
    match skipSpace s with
    | [] => .error fin.must
    | b :: t =>
      if b = 47 then
        match t with
        | [] => .error fin.must
        | c :: r => if c = 62 then .ok ([], true, r) else .error .syntax
      else if b = 62 then .ok ([], false, t)
      else match readName fin (b :: t) with
        | .fail e => .error e
        | .missing _ => .error .syntax
        | .ok n r =>
          match skipSpace r with
          | [] => .error fin.must
          | c :: u =>
            if c ≠ 61 then .error .syntax
            else match attrval fin (skipSpace u) with
              | .error e => .error e
              | .ok (v, w) =>
                match lexAttrs fin fuel w with
                | .error e => .error e
                | .ok (as, empty, z) => .ok (⟨toName n, v⟩ :: as, empty, z)

/-- internal/xml/xml.go:397-408: the rest after a processing instruction, `b0` being the last byte read. -/
def skipPI (fin : LexErr) : Byte → Str → Except LexErr Str
  | _, [] => .error fin.must
  | b0, b :: s => if b0 = 63 ∧ b = 62 then .ok s else skipPI fin b s

/-! ## Name spaces -/

/-- `xmlnsPrefix` (internal/xml/xml.go:162). -/
def xmlnsStr : Str := b!"xmlns"

/-- A Go map from strings to strings. -/
abbrev StrMap := Str → Option Str

/-- `m[k] = v`, or `delete(m, k)` for `none`. -/
def StrMap.set (m : StrMap) (k : Str) (v : Option Str) : StrMap := fun x => if x = k then v else m x

/-- The entries of the stack (internal/xml/xml.go:189-200): an open element, or the former value of a prefix. -/
inductive StkEntry where
  | elem (name : Name)
  | ns (loc : Str) (old : Option Str)
  deriving DecidableEq

/-- internal/xml/xml.go:180-182: look up the name space. -/
def lookupSpace (ns : StrMap) (n : Name) : Name :=
  match ns n.space with
  | some v => { n with space := v }
  | none => n

/-- internal/xml/xml.go:169-183 `translate`. -/
def translate (ns : StrMap) (isElement : Bool) (n : Name) : Name :=
  if n.space = xmlnsStr then n
  else if n.space = [] ∧ isElement = false then n
  else if n.space = b!"xml" then lookupSpace ns { n with space := nsXML }
  else if n.space = [] ∧ n.loc = xmlnsStr then n
  else lookupSpace ns n

/-- The state of the reader between calls of `RawToken`. -/
structure Lexer where
  inp : Str
  stk : List StkEntry
  ns : StrMap
  /-- `needClose` and `toClose`. -/
  close : Option Name

/-- internal/xml/xml.go:125-137: the name space declared by an attribute. -/
def declare (p : List StkEntry × StrMap) (a : Attr) : List StkEntry × StrMap :=
  if a.name.space = xmlnsStr then
    (.ns a.name.loc (p.2 a.name.loc) :: p.1, p.2.set a.name.loc (some a.value))
  else if a.name.space = [] ∧ a.name.loc = xmlnsStr then
    (.ns [] (p.2 []) :: p.1, p.2.set [] (some a.value))
  else p

/-- internal/xml/xml.go:124-147 `handleStartElement`; `close` is already set. -/
def handleStart (st : Lexer) (name : Name) (attrs : List Attr) : Event × Lexer :=
  let p := attrs.foldl declare (st.stk, st.ns)
  let n := translate p.2 true name
  (.start n (attrs.map fun a => { a with name := translate p.2 false a.name }),
    { st with stk := .elem n :: p.1, ns := p.2 })

/-- internal/xml/xml.go:306-313: undo the declarations of the element just closed. -/
def undo : List StkEntry → StrMap → List StkEntry × StrMap
  | .ns l old :: s, ns => undo s (ns.set l old)
  | s, ns => (s, ns)

/-- internal/xml/xml.go:149-158 `handleEndElement`, 288-316 `popElement`. -/
def handleEnd (st : Lexer) (name : Name) : Except LexErr (Event × Lexer) :=
  let n := translate st.ns true name
  match st.stk with
  | .elem m :: s =>
    if m.loc ≠ n.loc ∨ m.space ≠ n.space then .error .syntax
    else
      let p := undo s st.ns
      .ok (.stop n, { st with stk := p.1, ns := p.2 })
  | _ => .error .syntax

/-- The result of `RawToken`: an error, or at most one event and the next state. -/
abbrev TokenRes := Except LexErr (Option Event × Lexer)

/-- An event and the next state. -/
def TokenRes.of : Except LexErr (Event × Lexer) → TokenRes
  | .ok (e, st) => .ok (some e, st)
  | .error e => .error e

/-- internal/xml/xml.go:366-386: an end tag, after `</`. -/
def lexEnd (fin : LexErr) (st : Lexer) (s : Str) : TokenRes :=
  match readName fin s with
  | .fail e => .error e
  | .missing _ => .error .syntax
  | .ok n r =>
    match skipSpace r with
    | [] => .error fin.must
    | c :: t => if c = 62 then .of (handleEnd { st with inp := t } (toName n)) else .error .syntax

/-- internal/xml/xml.go:389-409: a processing instruction, after `<?`. -/
def lexPI (fin : LexErr) (st : Lexer) (s : Str) : TokenRes :=
  match readName fin s with
  | .fail e => .error e
  | .missing _ => .error .syntax
  | .ok _ r =>
    match skipPI fin 0 (skipSpace r) with
    | .error e => .error e
    | .ok t => .ok (none, { st with inp := t })

/-- internal/xml/xml.go:412-487: a start tag, after `<`. -/
def lexStart (fin : LexErr) (st : Lexer) (s : Str) : TokenRes :=
  match readName fin s with
  | .fail e => .error e
  | .missing _ => .error .syntax
  | .ok n r =>
    match lexAttrs fin (r.length + 1) r with
    | .error e => .error e
    | .ok (as, empty, t) =>
      let p := handleStart { st with inp := t, close := if empty then some (toName n) else none } (toName n) as
      .ok (some p.1, p.2)

/-- internal/xml/xml.go:318-488 `RawToken`, when no error has occurred before. -/
def rawToken (fin : LexErr) (st : Lexer) : TokenRes :=
  match st.close with
  | some n => .of (handleEnd { st with close := none } n)
  | none =>
    match st.inp with
    | [] => .error (if fin = .eof ∧ st.stk ≠ [] then .syntax else fin)
    | b :: s =>
      if b ≠ 60 then
        match lexText fin none (b :: s) with
        | .error e => .error e
        | .ok (t, r) => .ok (some (.chars t), { st with inp := r })
      else
        match s with
        | [] => .error fin.must
        | c :: t =>
          if c = 47 then lexEnd fin st t
          else if c = 63 then lexPI fin st t
          else lexStart fin st (c :: t)

/-- internal/xml/xml.go:109-122 `NewDecoder`. -/
def Lexer.new (inp : Str) : Lexer := ⟨inp, [], fun _ => none, none⟩

/-- The results of at most `fuel` calls of `RawToken`, up to the first error. -/
def lexFuel (fin : LexErr) : Nat → Lexer → List (Option Event) × LexErr
  | 0, _ => ([], .syntax)
  | fuel + 1, st =>
    match rawToken fin st with
    | .error e => ([], e)
    | .ok (ev, st') => (ev :: (lexFuel fin fuel st').1, (lexFuel fin fuel st').2)

/-- An upper bound of the number of calls of `RawToken` before an error (`lex_eq` shows that it suffices). -/
def Lexer.size (st : Lexer) : Nat := 2 * st.inp.length + (if st.close.isSome then 1 else 0)

/-- The results of the calls of `RawToken` up to the first error, and this error. -/
def lex (fin : LexErr) (st : Lexer) : List (Option Event) × LexErr := lexFuel fin (st.size + 1) st

end Go3mf
