import Verif.Model.Types
import Verif.Model.Utf8

/-!
# internal/xml/printer.go: the XML writer

Errors of the underlying `io.Writer` are not modelled: the `bufio.Writer` keeps them for `Flush`.
-/

namespace Go3mf

/-- The `attrPrefix` map of a `Printer`; the empty string if there is no entry. -/
abbrev PrefixMap := Str → Str

/-- `m[k] = v`. -/
def PrefixMap.set (m : PrefixMap) (k v : Str) : PrefixMap := fun x => if x = k then v else m x

/-- internal/xml/printer.go:21-41 `createAttrPrefix`: the prefix to write and the new map. -/
def createAttrPrefix (m : PrefixMap) (a : Attr) : Str × PrefixMap :=
  if m a.name.space ≠ [] then (m a.name.space, m)
  else if a.name.space = nsXML then (b!"xml", m)
  else if a.name.space = b!"xmlns" then (a.name.space, m.set a.value a.name.loc)
  else (a.name.space, m.set a.name.space a.name.loc)

/-- The name of an element, with its prefix if there is one (internal/xml/printer.go:52-58, 89-95). -/
def printName (m : PrefixMap) (n : Name) : Str :=
  (if n.space ≠ [] ∧ m n.space ≠ [] then m n.space ++ b!":" else []) ++ n.loc

/-- internal/xml/printer.go:61-79: the attributes. -/
def printAttrs (skip : Bool) : PrefixMap → List Attr → Str × PrefixMap
  | m, [] => ([], m)
  | m, a :: as =>
    if a.name.loc = [] then printAttrs skip m as
    else
      let p := if a.name.space ≠ [] then createAttrPrefix m a else ([], m)
      let r := printAttrs skip p.2 as
      (b!" " ++ (if a.name.space ≠ [] then p.1 ++ b!":" else []) ++ a.name.loc ++ b!"=\"" ++
        (if skip then a.value else escape a.value) ++ b!"\"" ++ r.1, r.2)

/-- internal/xml/printer.go:50-84 `WriteStart`. -/
def printStart (m : PrefixMap) (n : Name) (as : List Attr) (auto skip : Bool) : Str × PrefixMap :=
  let r := printAttrs skip m as
  (b!"<" ++ printName m n ++ r.1 ++ (if auto then b!"/" else []) ++ b!">", r.2)

/-- internal/xml/printer.go:86-97 `WriteEnd`. -/
def printEnd (m : PrefixMap) (n : Name) : Str := b!"</" ++ printName m n ++ b!">"

/-- A call of `EncodeToken` (encoder.go:58-68), with the values of `AutoClose` and `SkipAttrEscape`. -/
inductive Op where
  | start (name : Name) (attrs : List Attr) (auto skip : Bool)
  | stop (name : Name)
  | chars (text : Str)
  deriving DecidableEq, Repr

/-- encoder.go:58-68 `EncodeToken`: the bytes written and the new map. -/
def printOp (m : PrefixMap) : Op → Str × PrefixMap
  | .start n as auto skip => printStart m n as auto skip
  | .stop n => (printEnd m n, m)
  | .chars s => (escape s, m)

/-- The bytes written by a sequence of calls. -/
def printOps (m : PrefixMap) : List Op → Str
  | [] => []
  | op :: ops => (printOp m op).1 ++ printOps (printOp m op).2 ops

/-- `xml.Header` of the standard library. -/
def xmlHeader : Str := b!"<?xml version=\"1.0\" encoding=\"UTF-8\"?>\n"

end Go3mf
