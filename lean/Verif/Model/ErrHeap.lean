import Verif.Model.Errors

/-!
# The memory of the errors

errors/errors.go and errors/list.go change the errors that they are given: `WrapIndex` and `WrapPath` extend the
target of an `*Error` and overwrite the members of a `*List`, `Append` extends the `*List` it is given, and
validate.go:350-356 sets the path of an `*Error`.  Verif/Model/Errors.lean has them return new values.  Here is what
they do to the memory.  A nil `*List` in a non-nil interface does not occur: no function of the module makes one.  The
backing array of `Errors` belongs to one `*List` only, since it is always made by an `append` to a nil slice, so that a
cell holds the members of the list itself; likewise for `Target`.
-/

namespace Go3mf

/-- An error: nil, an error without memory of its own that is changed (`errors.New`, a `*MissingFieldError`, …), or a
pointer to an `Error` or a `List`. -/
inductive HErr where
  | nil
  | leaf (l : Leaf)
  | ptr (a : Nat)
  deriving DecidableEq

/-- What a pointer points to: errors/errors.go:53-57 `Error`, errors/list.go:13-15 `List`. -/
inductive HCell where
  | error (target : List Level) (err : HErr) (path : Str)
  | list (errors : List HErr)
  deriving DecidableEq

/-- The memory: the cell of each address. -/
abbrev EHeap := List HCell

/-- errors/errors.go:72-74, 90-92: `for i, e1 := range e.Errors { e.Errors[i] = … }` on the list at `a`, from index `k`,
with `n` iterations to go. -/
def wrapLoopH (f : EHeap → HErr → Option (EHeap × HErr)) (a : Nat) : Nat → Nat → EHeap → Option EHeap
  | _, 0, h => some h
  | k, n + 1, h =>
    match h[a]? with
    | some (.list es) =>
      match es[k]? with
      | some e1 =>
        match f h e1 with
        | some (h1, r) =>
          match h1[a]? with
          | some (.list es1) => wrapLoopH f a (k + 1) n (h1.set a (.list (es1.set k r)))
          | _ => none
        | none => none
      | none => none
    | _ => none

/-- errors/errors.go:63-78 `WrapIndex` (`path = none`) and 80-96 `WrapPath` (`path = some _`, the index of the level
being -1), with at most `fuel` nested calls. -/
def wrapH (lv : Level) (path : Option Str) : Nat → EHeap → HErr → Option (EHeap × HErr)
  | _, h, .nil => some (h, .nil)
  | _, h, .leaf l => some (h ++ [.error [lv] (.leaf l) (path.getD [])], .ptr h.length)
  | 0, _, .ptr _ => none
  | fuel + 1, h, .ptr a =>
    match h[a]? with
    | some (.error t e p) => some (h.set a (.error (t ++ [lv]) e (path.getD p)), .ptr a)
    | some (.list es) => (wrapLoopH (wrapH lv path fuel) a 0 es.length h).map fun h1 => (h1, .ptr a)
    | none => none

/-- errors/list.go:65-84: `Append` onto the `*List` at `a`, for one argument. -/
def appendOneH (h : EHeap) (a : Nat) (e : HErr) : EHeap :=
  match h[a]? with
  | some (.list es) =>
    match e with
    | .nil => h
    | .leaf l => h.set a (.list (es ++ [.leaf l]))
    | .ptr b =>
      match h[b]? with
      | some (.list fs) => h.set a (.list (es ++ fs))
      | _ => h.set a (.list (es ++ [.ptr b]))
  | _ => h

/-- errors/list.go:59-101 `Append` with one argument, as all the callers have it. -/
def appendH (h : EHeap) (err e : HErr) : EHeap × HErr :=
  let fresh : EHeap × HErr :=
    match err, e with
    | .nil, .nil => (h, .nil)
    | _, _ => (appendOneH (appendOneH (h ++ [.list []]) h.length err) h.length e, .ptr h.length)
  match err with
  | .ptr a =>
    match h[a]? with
    | some (.list _) => (appendOneH h a e, .ptr a)
    | _ => fresh
  | _ => fresh

/-- validate.go:351-355: the path of the member `e` is set. -/
def setPathOneH (path : Str) (h : EHeap) (e : HErr) : EHeap :=
  match e with
  | .ptr b =>
    match h[b]? with
    | some (.error t e1 _) => h.set b (.error t e1 path)
    | _ => h
  | _ => h

/-- validate.go:350-356: the paths of all members are set; `errs.(*errors.List)` panics on another error. -/
def setPathH (path : Str) (h : EHeap) : HErr → Option EHeap
  | .nil => some h
  | .leaf _ => none
  | .ptr a =>
    match h[a]? with
    | some (.list es) => some (es.foldl (setPathOneH path) h)
    | _ => none

/-- How the validators and the decoder make errors: each error that an expression stands for is used once, by the
expression around it. -/
inductive ErrProg where
  /-- No error. -/
  | nil
  /-- A package-level error, `NewMissingFieldError`, `NewParseAttrError`, or an error of the standard library. -/
  | leaf (l : Leaf)
  /-- read.go:77: `var errs specerr.List`. -/
  | empty
  /-- `WrapIndex(e, name, index)`, and `Wrap` with -1. -/
  | wrapIndex (name : Str) (index : Int) (e : ErrProg)
  /-- `WrapPath(e, name, path)`. -/
  | wrapPath (name path : Str) (e : ErrProg)
  /-- `Append(err, e)`. -/
  | append (err e : ErrProg)
  /-- validate.go:350-356, for errors made by `Append`. -/
  | setPath (path : Str) (err e : ErrProg)

/-- Run an expression on the memory. -/
def ErrProg.run (fuel : Nat) : ErrProg → EHeap → Option (EHeap × HErr)
  | .nil, h => some (h, .nil)
  | .leaf l, h => some (h, .leaf l)
  | .empty, h => some (h ++ [.list []], .ptr h.length)
  | .wrapIndex n i e, h => (e.run fuel h).bind fun x => wrapH ⟨n, i⟩ none fuel x.1 x.2
  | .wrapPath n p e, h => (e.run fuel h).bind fun x => wrapH ⟨n, -1⟩ (some p) fuel x.1 x.2
  | .append err e, h => (err.run fuel h).bind fun x => (e.run fuel x.1).map fun y => appendH y.1 x.2 y.2
  | .setPath p err e, h =>
    (err.run fuel h).bind fun x => (e.run fuel x.1).bind fun y =>
      let z := appendH y.1 x.2 y.2
      (setPathH p z.1 z.2).map fun h1 => (h1, z.2)

end Go3mf
