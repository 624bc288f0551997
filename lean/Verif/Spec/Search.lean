import Verif.Spec.Rules

/-!
# What the validator of the slices extension walks through

For an object with a slice stack, in the part `p`, all items of the build and the components of their objects are visited.
Paths that are not given mean the part `p`, whatever the part in which the item or component is.
-/

namespace Go3mf
namespace Spec

/-- A component that tilts the object `id` of the part `p`. -/
def TiltsHere (p : Str) (id : UInt32) (c : Component) : Prop := c.objectID = id ∧ componentPart p c = p ∧ Tilted c.transform

/-- The object `x` is visited from `o`: it is that of a component of `o`, neither this component nor one before refers to
`o` itself, and no tilted use of the object `id` is found before. -/
def SearchStep (m : Model) (p : Str) (id : UInt32) (o x : Object) : Prop :=
  ∃ cs j c, o.components = some cs ∧ cs.component[j]? = some c ∧
    (∀ d ∈ cs.component.take (j + 1), ¬ (d.objectID = o.id ∧ componentPart p d = p) ∧ ¬ TiltsHere p id d) ∧
    (∀ d ∈ cs.component.take j, ∀ y, ObjectFound m (componentPart p d) d.objectID y → ¬ TiltedIn m p id y) ∧
    ObjectFound m (componentPart p c) c.objectID x

/-- The object `x` is visited from the build: it is that of an item, and no tilted use of the object `id` is found before. -/
def SearchStart (m : Model) (p : Str) (id : UInt32) (x : Object) : Prop :=
  ∃ j it, m.build.items[j]? = some it ∧
    (∀ d ∈ m.build.items.take (j + 1), ¬ (d.objectID = id ∧ itemPart p d = p ∧ Tilted d.transform)) ∧
    (∀ d ∈ m.build.items.take j, ∀ y, ObjectFound m (itemPart p d) d.objectID y → ¬ TiltedIn m p id y) ∧
    ObjectFound m (itemPart p it) it.objectID x

/-- From an item of the build, one can go on forever. -/
def Endless (m : Model) (p : Str) (id : UInt32) : Prop :=
  ∃ f : Nat → Object, SearchStart m p id (f 0) ∧ ∀ n, SearchStep m p id (f n) (f (n + 1))

/-- `rs` are the resources of the part `p`, which are validated. -/
def Validated (m : Model) (p : Str) (rs : Resources) : Prop :=
  (p = rootPath m ∧ rs = m.resources) ∨ ∃ c, (p, c) ∈ m.childs ∧ rs = c.resources

/-- The object `o` of the part `p` has a slice stack that exists, and the slices extension is in use. -/
def HasSlices (env : Env) (m : Model) (p : Str) (o : Object) : Prop :=
  Active env m .slices ∧ (∃ rs, Validated m p rs ∧ o ∈ rs.objects) ∧
    ∃ i res r, sliceAttr o.anyAttr = some (i, res) ∧ i ≠ 0 ∧ AssetFound m p i (.res (.sliceStack r))

end Spec
end Go3mf
