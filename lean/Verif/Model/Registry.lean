import Verif.Model.Base

/-!
# The registry of extensions

spec/spec.go keeps the extensions in a map that is guarded by a `sync.RWMutex`.  The functions are called by any number of goroutines: `Register` by the
packages of the extensions and by the program, `Load` by every goroutine that decodes.  Here every call is a thread that takes the lock, does its
access to the map, and releases the lock, and the threads take their steps in any order.

`sync.RWMutex` belongs to the runtime: `Lock` waits until nobody holds the lock, `RLock` until no writer does.  That `RLock` also waits for writers that
wait already is left out: it only removes some of the orders.  An extension is a number, and `none` is the interface value nil.
-/

namespace Go3mf

/-- A call: spec/spec.go:19-23 `Register`, 25-30 `Load` (and 32-41 `LoadValidator`, which accesses the map in the same way). -/
inductive RegOp where
  | register (ns : Str) (ext : Option Nat)
  | load (ns : Str)
  deriving DecidableEq

/-- Whether the call takes the lock for writing. -/
def RegOp.writes : RegOp → Bool
  | .register _ _ => true
  | .load _ => false

/-- How far a call is: before the lock, with the lock, after the access to the map, after the release. -/
inductive RegPhase where
  | idle
  | held
  | did
  | out
  deriving DecidableEq

/-- A call and what it returns: `none` for the result `(nil, false)` of `Load`. -/
structure RegCall where
  op : RegOp
  phase : RegPhase
  res : Option (Option Nat)
  deriving DecidableEq

/-- The call holds the lock. -/
def RegCall.crit (c : RegCall) : Bool := c.phase = .held || c.phase = .did

/-- spec/spec.go:11-14: the lock and the map, and the calls.  `log` lists the accesses to the map; the code has no such field. -/
structure Registry where
  writer : Bool
  readers : Nat
  specs : Str → Option (Option Nat)
  calls : List RegCall
  log : List (Nat × RegOp)

/-- The access to the map: spec/spec.go:22 and 27. -/
def RegOp.access (specs : Str → Option (Option Nat)) : RegOp → (Str → Option (Option Nat)) × Option (Option Nat)
  | .register ns ext => (fun x => if x = ns then some ext else specs x, none)
  | .load ns => (specs, specs ns)

/-- One step of the call number `i`; `none` if it has to wait or has returned. -/
def Registry.step (s : Registry) (i : Nat) : Option Registry :=
  match s.calls[i]? with
  | none => none
  | some c =>
    match c.phase with
    | .idle =>
      if c.op.writes then
        if s.writer = false ∧ s.readers = 0 then some { s with writer := true, calls := s.calls.set i { c with phase := .held } } else none
      else
        if s.writer = false then some { s with readers := s.readers + 1, calls := s.calls.set i { c with phase := .held } } else none
    | .held =>
      let p := c.op.access s.specs
      some { s with
        specs := p.1
        calls := s.calls.set i { c with phase := .did, res := p.2 }
        log := s.log ++ [(i, c.op)] }
    | .did =>
      if c.op.writes then some { s with writer := false, calls := s.calls.set i { c with phase := .out } }
      else some { s with readers := s.readers - 1, calls := s.calls.set i { c with phase := .out } }
    | .out => none

/-- The start: an empty map, a free lock, and calls that have not begun. -/
def Registry.start (ops : List RegOp) : Registry := ⟨false, 0, fun _ => none, ops.map fun op => ⟨op, .idle, none⟩, []⟩

/-- The states that are reached by steps of any calls in any order. -/
inductive Registry.Reach (s : Registry) : Registry → Prop where
  | refl : Reach s s
  | step {t u : Registry} (i : Nat) (h : Reach s t) (e : t.step i = some u) : Reach s u

end Go3mf
