import Verif.Model.Coherency
import Verif.Model.Par

/-!
# validate.go: `Model.ValidateCoherency`, with its goroutines
-/

namespace Go3mf

/-- The update of `errs` by the goroutine of the object number `i` of the root (validate.go:379-389) or of a
child model (validate.go:395-407); `none` if it does not touch `errs`. -/
def coherencyOp (wrapRes : Err → Err) (i : Nat) (o : Object) : Option (ErrVal → ErrVal) :=
  if o.isSolid then
    match o.mesh with
    | some mesh =>
      match mesh.validateCoherency with
      | some e => some fun errs =>
          errs.append [.err (wrapRes (wrapIndex b!"object" i (wrap b!"mesh" (.leaf (.sentinel e)))))]
      | none => none
    | none => none
  else none

/-- The goroutines of `Model.ValidateCoherency`. -/
def Model.coherencyOps (m : Model) : List (Option (ErrVal → ErrVal)) :=
  m.resources.objects.mapIdx (coherencyOp (wrap b!"resources")) ++
  m.childs.flatMap fun c => c.2.resources.objects.mapIdx (coherencyOp (wrapPath b!"resources" c.1))

/-- validate.go:409-412: what is returned once `errs` has its final value. -/
def coherencyReturn : ErrVal → ErrVal
  | .nil => .nil
  | .nilList => .nilList
  | .err e => .err (wrap b!"model" e)

/-- validate.go:370-414 `Model.ValidateCoherency`: `r` is a possible result. -/
def Model.ValidateCoherency (m : Model) (r : ErrVal) : Prop :=
  ∃ errs, Par.Result m.coherencyOps .nil errs ∧ r = coherencyReturn errs

end Go3mf
