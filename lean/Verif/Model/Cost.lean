import Verif.Model.Box
import Verif.Model.Validate

/-!
# The number of calls of the recursive functions

The functions of `Model/Box.lean` and `Model/Validate.lean` again, with a counter of the calls.
-/

namespace Go3mf

/-- core.go:424-431: the loop over the components, with the number of calls that it makes. -/
def componentsBoxCalls (rec : Object → Str → Option (Box × Nat)) (m : Model) (path : Str) :
    List Component → Box → Nat → Option (Box × Nat)
  | [], b, n => some (b, n)
  | c :: cs, b, n =>
    match m.findObject (c.objectPath path) c.objectID with
    | none => componentsBoxCalls rec m path cs b n
    | some obj =>
      match rec obj path with
      | none => none
      | some (cb, k) =>
        componentsBoxCalls rec m path cs (if cb.eq .zero then b else b.extend (c.transform.mulBox cb)) (n + k)

/-- core.go:416-433 `Object.boundingBox`, with the number of calls, this one included. -/
def Object.boxCalls (m : Model) : Nat → Object → Str → Option (Box × Nat)
  | 0, _, _ => none
  | fuel + 1, o, path =>
    match o.mesh with
    | some mesh => some (mesh.boundingBox, 1)
    | none =>
      match o.components with
      | none => some (.zero, 1)
      | some cs =>
        if cs.component.length = 0 then some (.zero, 1)
        else componentsBoxCalls (Object.boxCalls m fuel) m path cs.component .limit 1

/-- slices/validate.go:212-227: the loop over the components of `o`, with the number of calls. -/
def componentsPlanarCalls (rec : Object → Option (Bool × Nat)) (m : Model) (o : Object) (path : Str) (id : UInt32) :
    List Component → Nat → Option (Bool × Nat)
  | [], n => some (true, n)
  | c :: cs, n =>
    if c.objectID = id ∧ c.objectPath path = path ∧ c.transform.isTransform = true ∧ validTransform c.transform = false then
      some (false, n)
    else if c.objectID = o.id ∧ c.objectPath path = path then some (true, n)
    else match m.findObject (c.objectPath path) c.objectID with
      | none => componentsPlanarCalls rec m o path id cs n
      | some o1 =>
        match rec o1 with
        | none => none
        | some (false, k) => some (false, n + k)
        | some (true, k) => componentsPlanarCalls rec m o path id cs (n + k)

/-- slices/validate.go:208-229 `validateObjectTransforms`, with the number of calls, this one included. -/
def objectPlanarCalls (m : Model) (path : Str) (id : UInt32) : Nat → Object → Option (Bool × Nat)
  | 0, _ => none
  | fuel + 1, o =>
    match o.components with
    | none => some (true, 1)
    | some cs => componentsPlanarCalls (objectPlanarCalls m path id fuel) m o path id cs.component 1

end Go3mf
