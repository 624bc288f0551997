import Verif.Model.Validate

/-!
# SetMissingUUIDs

`uuid.New` reads 16 bytes of a random source; `rnd k` are the bytes of the call number `k`, and the functions return the
number of the next call.  The child models are visited in the order of the association list, the code sorts their paths
(core.go:319); this changes only which random bytes an object gets.  Items, objects and components are pointers in the code;
as everywhere in the model they are taken to be different ones.
-/

namespace Go3mf

/-- Give the first group that `sel` selects a UUID if it has none; without such a group append one. -/
def fillAttr (sel : AttrGroup → Option Str) (put : Str → AttrGroup → AttrGroup) (new : Str → AttrGroup) (u : Str) (all : AnyAttr) :
    AnyAttr → AnyAttr × Bool
  | [] => (all ++ [new u], true)
  | g :: gs =>
    match sel g with
    | some v => if v = [] then (all ++ put u g :: gs, true) else (all ++ g :: gs, false)
    | none => fillAttr sel put new u (all ++ [g]) gs

def AttrGroup.itemUUID : AttrGroup → Option Str
  | .prodItem u _ => some u
  | _ => none

def AttrGroup.objectUUID : AttrGroup → Option Str
  | .prodObject u => some u
  | _ => none

def AttrGroup.componentUUID : AttrGroup → Option Str
  | .prodComponent u _ => some u
  | _ => none

/-- `ext.UUID = u` -/
def AttrGroup.setUUID (u : Str) : AttrGroup → AttrGroup
  | .prodItem _ p => .prodItem u p
  | .prodObject _ => .prodObject u
  | .prodComponent _ p => .prodComponent u p
  | g => g

section
variable (rnd : Nat → UUIDBytes)

/-- The number of the next call. -/
def after (k : Nat) (used : Bool) : Nat := if used then k + 1 else k

/-- production/production.go:134-141: an item. -/
def Item.setUUID (it : Item) (k : Nat) : Item × Nat :=
  let p := fillAttr AttrGroup.itemUUID AttrGroup.setUUID (fun u => .prodItem u []) (uuidNew (rnd k)) [] it.anyAttr
  ({ it with anyAttr := p.1 }, after k p.2)

/-- production/production.go:152-159: a component. -/
def Component.setUUID (c : Component) (k : Nat) : Component × Nat :=
  let p := fillAttr AttrGroup.componentUUID AttrGroup.setUUID (fun u => .prodComponent u []) (uuidNew (rnd k)) [] c.anyAttr
  ({ c with anyAttr := p.1 }, after k p.2)

/-- The elements of a list, one after the other. -/
def setAll {α : Type} (f : α → Nat → α × Nat) : List α → Nat → List α × Nat
  | [], k => ([], k)
  | a :: as, k => ((f a k).1 :: (setAll f as (f a k).2).1, (setAll f as (f a k).2).2)

/-- production/production.go:144-162: an object. -/
def Object.setUUID (o : Object) (k : Nat) : Object × Nat :=
  let p := fillAttr AttrGroup.objectUUID AttrGroup.setUUID .prodObject (uuidNew (rnd k)) [] o.anyAttr
  match o.components with
  | none => ({ o with anyAttr := p.1 }, after k p.2)
  | some cs =>
    let q := setAll (Component.setUUID rnd) cs.component (after k p.2)
    ({ o with anyAttr := p.1, components := some { cs with component := q.1 } }, q.2)

/-- core.go:318-334: the objects of a child model. -/
def setChild (c : Str × ChildModel) (k : Nat) : (Str × ChildModel) × Nat :=
  let p := setAll (Object.setUUID rnd) c.2.resources.objects k
  ((c.1, { c.2 with resources := { c.2.resources with objects := p.1 } }), p.2)

/-- production/production.go:130-132: the build. -/
def Build.setUUID (b : Build) (k : Nat) : Build × Nat :=
  match getBuildAttr b.anyAttr with
  | none => ({ b with anyAttr := b.anyAttr ++ [.prodBuild (uuidNew (rnd k))] }, k + 1)
  | some _ => (b, k)

/-- production/production.go:129-164 `SetMissingUUIDs`. -/
def Model.setMissingUUIDs (m : Model) : Model :=
  let b := m.build.setUUID rnd 0
  let items := setAll (Item.setUUID rnd) b.1.items b.2
  let childs := setAll (setChild rnd) m.childs items.2
  let objects := setAll (Object.setUUID rnd) m.resources.objects childs.2
  { m with
    build := { b.1 with items := items.1 }
    childs := childs.1
    resources := { m.resources with objects := objects.1 } }

end

end Go3mf
