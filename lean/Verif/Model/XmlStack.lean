import Verif.Model.Xml

/-!
# The records of the XML reader

In `Verif.Model.Xml` the open elements and the former values of the prefixes are a list.  The code keeps them in records that it links with pointers, and
takes records that are no longer needed from a second linked list.  Here these records are modelled as they are: the memory is the list of the records
that were ever allocated, and a pointer is a position in it.  The texts of the errors are left out, as in `Verif.Model.Xml`.  `pushEOF` and `popEOF`
(internal/xml/xml.go:228-260) are not called in the repository and are left out.
-/

namespace Go3mf

/-- internal/xml/xml.go:196-200: `stkStart`, `stkNs`; `stkEOF` is only used by `pushEOF`. -/
inductive StkKind where
  | start
  | ns
  deriving DecidableEq

/-- internal/xml/xml.go:189-194 `stack`. -/
structure StkRec where
  next : Option Nat
  kind : StkKind
  name : Name
  ok : Bool
  deriving DecidableEq

/-- The fields `stk`, `free` and `ns` of the reader (internal/xml/xml.go:96, 97 and 100), and the records. -/
structure StkMem where
  recs : List StkRec
  stk : Option Nat
  free : Option Nat
  ns : StrMap

/-- A change of the record at `i`. -/
def StkMem.modify (d : StkMem) (i : Nat) (f : StkRec → StkRec) : StkMem := { d with recs := d.recs.modify i f }

/-- internal/xml/xml.go:202-213 `push`.  A record that is used again keeps its name and its flag. -/
def StkMem.push (d : StkMem) (kind : StkKind) : StkMem × Nat :=
  match d.free.bind fun i => d.recs[i]?.map fun r => (i, r) with
  | some (i, r) =>
    ({ d with
        recs := d.recs.set i { r with next := d.stk, kind := kind }
        free := r.next
        stk := some i }, i)
  | none =>
    ({ d with
        recs := d.recs ++ [⟨d.stk, kind, ⟨[], []⟩, false⟩]
        stk := some d.recs.length }, d.recs.length)

/-- internal/xml/xml.go:215-223 `pop`: the record on top, which is given to the free list. -/
def StkMem.pop (d : StkMem) : StkMem × Option StkRec :=
  match d.stk.bind fun i => d.recs[i]?.map fun r => (i, r) with
  | some (i, r) =>
    ({ d with
        recs := d.recs.set i { r with next := d.free }
        stk := r.next
        free := some i }, some r)
  | none => (d, none)

/-- internal/xml/xml.go:263-266 `pushElement`. -/
def StkMem.pushElement (d : StkMem) (name : Name) : StkMem :=
  (d.push .start).1.modify (d.push .start).2 fun r => { r with name := name }

/-- internal/xml/xml.go:270-275 `pushNs`. -/
def StkMem.pushNs (d : StkMem) (loc : Str) (old : Option Str) : StkMem :=
  (d.push .ns).1.modify (d.push .ns).2 fun r => { r with name := ⟨old.getD [], loc⟩, ok := old.isSome }

/-- internal/xml/xml.go:306-313: the loop of `popElement`, at most `fuel` times. -/
def StkMem.undo : Nat → StkMem → StkMem
  | 0, d => d
  | fuel + 1, d =>
    match d.stk.bind fun i => d.recs[i]? with
    | none => d
    | some top =>
      if top.kind = .start then d
      else
        match d.pop with
        | (d', some r) => StkMem.undo fuel { d' with ns := d'.ns.set r.name.loc (if r.ok then some r.name.space else none) }
        | (d', none) => d'

/-- internal/xml/xml.go:288-316 `popElement`. -/
def StkMem.popElement (d : StkMem) (name : Name) : StkMem × Bool :=
  match d.pop with
  | (d', none) => (d', false)
  | (d', some s) =>
    if s.kind ≠ .start then (d', false)
    else if s.name.loc ≠ name.loc then (d', false)
    else if s.name.space ≠ name.space then (d', false)
    else (StkMem.undo (d'.recs.length + 1) d', true)

/-- The state of the reader between calls of `RawToken`. -/
structure MLexer where
  inp : Str
  mem : StkMem
  close : Option Name

/-- internal/xml/xml.go:125-137: the name space declared by an attribute. -/
def StkMem.declare (d : StkMem) (a : Attr) : StkMem :=
  if a.name.space = xmlnsStr then
    { d.pushNs a.name.loc (d.ns a.name.loc) with ns := d.ns.set a.name.loc (some a.value) }
  else if a.name.space = [] ∧ a.name.loc = xmlnsStr then
    { d.pushNs [] (d.ns []) with ns := d.ns.set [] (some a.value) }
  else d

/-- internal/xml/xml.go:124-147 `handleStartElement`. -/
def MLexer.handleStart (st : MLexer) (name : Name) (attrs : List Attr) : Event × MLexer :=
  let d := attrs.foldl StkMem.declare st.mem
  let n := translate d.ns true name
  (.start n (attrs.map fun a => { a with name := translate d.ns false a.name }), { st with mem := d.pushElement n })

/-- internal/xml/xml.go:149-158 `handleEndElement`. -/
def MLexer.handleEnd (st : MLexer) (name : Name) : Except LexErr (Option Event) × MLexer :=
  let n := translate st.mem.ns true name
  ((if (st.mem.popElement n).2 then .ok (some (.stop n)) else .error .syntax), { st with mem := (st.mem.popElement n).1 })

/-- internal/xml/xml.go:366-386: an end tag, after `</`. -/
def MLexer.lexEnd (fin : LexErr) (st : MLexer) (s : Str) : Except LexErr (Option Event) × MLexer :=
  match readName fin s with
  | .fail e => (.error e, st)
  | .missing _ => (.error .syntax, st)
  | .ok n r =>
    match skipSpace r with
    | [] => (.error fin.must, st)
    | c :: t => if c = 62 then MLexer.handleEnd { st with inp := t } (toName n) else (.error .syntax, st)

/-- internal/xml/xml.go:389-409: a processing instruction, after `<?`. -/
def MLexer.lexPI (fin : LexErr) (st : MLexer) (s : Str) : Except LexErr (Option Event) × MLexer :=
  match readName fin s with
  | .fail e => (.error e, st)
  | .missing _ => (.error .syntax, st)
  | .ok _ r =>
    match skipPI fin 0 (skipSpace r) with
    | .error e => (.error e, st)
    | .ok t => (.ok none, { st with inp := t })

/-- internal/xml/xml.go:412-487: a start tag, after `<`. -/
def MLexer.lexStart (fin : LexErr) (st : MLexer) (s : Str) : Except LexErr (Option Event) × MLexer :=
  match readName fin s with
  | .fail e => (.error e, st)
  | .missing _ => (.error .syntax, st)
  | .ok n r =>
    match lexAttrs fin (r.length + 1) r with
    | .error e => (.error e, st)
    | .ok (as, empty, t) =>
      let p := MLexer.handleStart { st with inp := t, close := if empty then some (toName n) else none } (toName n) as
      (.ok (some p.1), p.2)

/-- internal/xml/xml.go:318-488 `RawToken`, when no error has occurred before. -/
def MLexer.rawToken (fin : LexErr) (st : MLexer) : Except LexErr (Option Event) × MLexer :=
  match st.close with
  | some n => MLexer.handleEnd { st with close := none } n
  | none =>
    match st.inp with
    | [] => (.error (if fin = .eof ∧ st.mem.stk ≠ none then .syntax else fin), st)
    | b :: s =>
      if b ≠ 60 then
        match lexText fin none (b :: s) with
        | .error e => (.error e, st)
        | .ok (t, r) => (.ok (some (.chars t)), { st with inp := r })
      else
        match s with
        | [] => (.error fin.must, st)
        | c :: t =>
          if c = 47 then MLexer.lexEnd fin st t
          else if c = 63 then MLexer.lexPI fin st t
          else MLexer.lexStart fin st (c :: t)

/-- internal/xml/xml.go:109-122 `NewDecoder`. -/
def MLexer.new (inp : Str) : MLexer := ⟨inp, ⟨[], none, none, fun _ => none⟩, none⟩

/-- The results of at most `fuel` calls of `RawToken`, up to the first error, and the records at the end. -/
def MLexer.run (fin : LexErr) : Nat → MLexer → List (Option Event) × LexErr × StkMem
  | 0, st => ([], .syntax, st.mem)
  | fuel + 1, st =>
    match st.rawToken fin with
    | (.error e, st') => ([], e, st'.mem)
    | (.ok ev, st') => (ev :: (MLexer.run fin fuel st').1, (MLexer.run fin fuel st').2)

end Go3mf
