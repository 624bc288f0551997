import Mathlib.Logic.Relation

/-!
# Goroutines that update a shared variable under a mutex

The concurrent pattern of the repository (core.go:244-260, validate.go:371-412, read.go:223-236):
a `sync.WaitGroup`, one goroutine per element of a list, each of which computes something from data nobody
writes and then, possibly, does `mu.Lock(); x = f(x); mu.Unlock()`.  The update is not atomic in the model: it
is a load of `x` followed by a store.  A schedule is any interleaving of the steps of the goroutines.  The
starting goroutine only spawns and waits; any of its own interleavings restricts those considered here.
-/

namespace Go3mf.Par

/-- Where a goroutine is. -/
inductive Phase (S : Type) where
  /-- not yet at `mu.Lock()` -/
  | idle
  /-- has the lock -/
  | holding
  /-- has read the shared variable -/
  | loaded (l : S)
  /-- has written the shared variable -/
  | stored
  /-- has released the lock and called `wg.Done()` -/
  | done

/-- A goroutine: its update of the shared variable, if any, and its phase. -/
abbrev Worker (S : Type) := Option (S → S) × Phase S

/-- A state: the goroutines, the holder of the mutex and the shared variable. -/
structure State (S : Type) where
  workers : List (Worker S)
  lock : Option Nat
  shared : S

/-- One step of the goroutine number `i`. -/
inductive Step {S : Type} : State S → State S → Prop
  | skip {s : State S} {i : Nat} : s.workers[i]? = some (none, .idle) →
      Step s { s with workers := s.workers.set i (none, .done) }
  | acquire {s : State S} {i : Nat} {f : S → S} : s.workers[i]? = some (some f, .idle) → s.lock = none →
      Step s { s with workers := s.workers.set i (some f, .holding), lock := some i }
  | load {s : State S} {i : Nat} {f : S → S} : s.workers[i]? = some (some f, .holding) →
      Step s { s with workers := s.workers.set i (some f, .loaded s.shared) }
  | store {s : State S} {i : Nat} {f : S → S} {l : S} : s.workers[i]? = some (some f, .loaded l) →
      Step s { s with workers := s.workers.set i (some f, .stored), shared := f l }
  | release {s : State S} {i : Nat} {f : S → S} : s.workers[i]? = some (some f, .stored) →
      Step s { s with workers := s.workers.set i (some f, .done), lock := none }

/-- The initial state. -/
def init {S : Type} (ops : List (Option (S → S))) (x : S) : State S := ⟨ops.map (·, .idle), none, x⟩

/-- `wg.Wait()` returns. -/
def Finished {S : Type} (s : State S) : Prop := ∀ (i : Nat) (w : Worker S), s.workers[i]? = some w → w.2 = .done

/-- `x` is a possible final value of the shared variable. -/
def Result {S : Type} (ops : List (Option (S → S))) (x y : S) : Prop :=
  ∃ s, Relation.ReflTransGen Step (init ops x) s ∧ Finished s ∧ s.shared = y

end Go3mf.Par
