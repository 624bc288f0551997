import Mathlib.Data.List.Sort
import Verif.Model.Types

/-!
# core.go: identifiers, lookup, walking, mesh builder, enumerations
-/

namespace Go3mf

/-! ## Identify -/

/-- `Identify` of the extension resources (materials/materials.go:125, 160, 181, 209, 238;
slices/slices.go:113). -/
def ExtRes.identify : ExtRes → UInt32
  | .colorGroup r => r.id
  | .texture2D r => r.id
  | .texture2DGroup r => r.id
  | .composite r => r.id
  | .multi r => r.id
  | .sliceStack r => r.id

/-- `Asset.Identify` (core.go:358, 554). -/
def Asset.identify : Asset → UInt32
  | .base r => r.id
  | .unknown id _ => id
  | .res r => r.identify

/-! ## UnusedID -/

/-- core.go:152-157: index of the first element that differs from its index, 0 if none. -/
def firstGap : Nat → List Nat → Nat
  | _, [] => 0
  | i, id :: ids => if id ≠ i then i else firstGap (i + 1) ids

/-- core.go:142-150: the slice `ids` before sorting (Go `int` is taken to be 64 bits). -/
def Resources.idList (rs : Resources) : List Nat :=
  0 :: (rs.assets.map (·.identify.toNat) ++ rs.objects.map (·.id.toNat))

/-- core.go:139-164 `Resources.UnusedID`.  `sort.Ints` is an insertion sort here. -/
def Resources.unusedID (rs : Resources) : UInt32 :=
  if rs.assets.length = 0 ∧ rs.objects.length = 0 then 1
  else
    let ids := rs.idList.insertionSort (· ≤ ·)
    let lowest := firstGap 0 ids
    let lowest := if lowest = 0 then ids.getLastD 0 + 1 else lowest
    UInt32.ofNat lowest

/-! ## Lookup -/

/-- core.go:167-174 `Resources.FindObject`. -/
def findObjectIn : List Object → UInt32 → Option Object
  | [], _ => none
  | o :: os, id => if o.id == id then some o else findObjectIn os id

/-- core.go:167-174 `Resources.FindObject`. -/
def Resources.findObject (rs : Resources) (id : UInt32) : Option Object := findObjectIn rs.objects id

/-- core.go:177-184 `Resources.FindAsset`. -/
def findAssetIn : List Asset → UInt32 → Option Asset
  | [], _ => none
  | a :: as, id => if a.identify == id then some a else findAssetIn as id

/-- core.go:177-184 `Resources.FindAsset`. -/
def Resources.findAsset (rs : Resources) (id : UInt32) : Option Asset := findAssetIn rs.assets id

/-- core.go:229-234 `Model.PathOrDefault`. -/
def Model.pathOrDefault (m : Model) : Str := if m.path = [] then defaultModelPath else m.path

/-- Go map lookup on the association list of `Model.childs`. -/
def lookupChild : List (Str × ChildModel) → Str → Option ChildModel
  | [], _ => none
  | (k, c) :: cs, p => if k = p then some c else lookupChild cs p

/-- core.go:264-272 `Model.FindResources`. -/
def Model.findResources (m : Model) (path : Str) : Option Resources :=
  if path = [] ∨ path = m.path ∨ (m.path = [] ∧ path = defaultModelPath) then some m.resources
  else match lookupChild m.childs path with
    | some c => some c.resources
    | none => none

/-- core.go:275-280 `Model.FindAsset`. -/
def Model.findAsset (m : Model) (path : Str) (id : UInt32) : Option Asset :=
  match m.findResources path with
  | some rs => rs.findAsset id
  | none => none

/-- core.go:283-288 `Model.FindObject`. -/
def Model.findObject (m : Model) (path : Str) (id : UInt32) : Option Object :=
  match m.findResources path with
  | some rs => rs.findObject id
  | none => none

/-! ## Walking -/

/-- `a <= b` in the order of `sort.Strings`. -/
def Str.le (a b : Str) : Bool := !Str.lt b a

/-- validate.go:17-27 `Model.sortedChilds`; the association list gives one possible iteration order of
the map. -/
def Model.sortedChilds (m : Model) : List Str :=
  (m.childs.map (·.1)).insertionSort (fun a b => Str.le a b = true)

/-- The loop `for _, r := range rs { if err := fn(path, r); err != nil { return err } }`, with the state
the visitor closes over made explicit. -/
def visitList {σ α ε : Type} (fn : σ → Str → α → σ × Option ε) (path : Str) : List α → σ → σ × Option ε
  | [], s => (s, none)
  | a :: as, s =>
    match fn s path a with
    | (s', some e) => (s', some e)
    | (s', none) => visitList fn path as s'

/-- core.go:297-304, 320-327: the loop over the sorted child paths. -/
def visitChilds {σ α ε : Type} (sel : Resources → List α) (m : Model)
    (fn : σ → Str → α → σ × Option ε) : List Str → σ → σ × Option ε
  | [], s => (s, none)
  | p :: ps, s =>
    match lookupChild m.childs p with
    | none => visitChilds sel m fn ps s
    | some c =>
      match visitList fn p (sel c.resources) s with
      | (s', some e) => (s', some e)
      | (s', none) => visitChilds sel m fn ps s'

/-- core.go:295-311 and 318-334: the common body of `WalkAssets` and `WalkObjects`. -/
def Model.walk {σ α ε : Type} (sel : Resources → List α) (m : Model)
    (fn : σ → Str → α → σ × Option ε) (s : σ) : σ × Option ε :=
  match visitChilds sel m fn m.sortedChilds s with
  | (s', some e) => (s', some e)
  | (s', none) => visitList fn [] (sel m.resources) s'

/-- core.go:295-311 `Model.WalkAssets`. -/
def Model.walkAssets {σ ε : Type} (m : Model) (fn : σ → Str → Asset → σ × Option ε) (s : σ) : σ × Option ε :=
  m.walk (·.assets) fn s

/-- core.go:318-334 `Model.WalkObjects`. -/
def Model.walkObjects {σ ε : Type} (m : Model) (fn : σ → Str → Object → σ × Option ε) (s : σ) : σ × Option ε :=
  m.walk (·.objects) fn s

/-! ## Object paths -/

/-- The `objectPather` interface (core.go:581): which attribute groups carry an object path
(production/production.go:92, 119). -/
def AttrGroup.objectPath : AttrGroup → Option Str
  | .prodItem _ p => some p
  | .prodComponent _ p => some p
  | _ => none

/-- core.go:384-394, 451-461: the first non-empty object path, else the default. -/
def AnyAttr.objectPath (dflt : Str) : AnyAttr → Str
  | [] => dflt
  | g :: gs =>
    match g.objectPath with
    | some p => if p ≠ [] then p else AnyAttr.objectPath dflt gs
    | none => AnyAttr.objectPath dflt gs

/-- core.go:384-394 `Item.ObjectPath`. -/
def Item.objectPath (i : Item) : Str := AnyAttr.objectPath [] i.anyAttr

/-- core.go:451-461 `Component.ObjectPath`. -/
def Component.objectPath (c : Component) (dflt : Str) : Str := AnyAttr.objectPath dflt c.anyAttr

/-! ## MeshBuilder -/

/-- core.go:513-521 `MeshBuilder`, abstracted over points `P` and quantisation cells `K`
(`newvec3IFromVec3`, math.go:45-52).  `tree` is the Go map `vectorTree` (math.go:57): the most recent
binding of a key is in front. -/
structure MeshBuilder (P K : Type) where
  conn : Bool
  vertices : List P
  tree : List (K × UInt32)

/-- Go map lookup, `vectorTree.FindVector` (math.go:65-68). -/
def treeFind {K : Type} [DecidableEq K] : List (K × UInt32) → K → Option UInt32
  | [], _ => none
  | (k, v) :: t, q => if k = q then some v else treeFind t q

/-- core.go:524-530 `NewMeshBuilder` on a mesh with the given vertices. -/
def MeshBuilder.new {P K : Type} (vertices : List P) : MeshBuilder P K := ⟨true, vertices, []⟩

/-- core.go:533-545 `MeshBuilder.AddVertex`; the index is `uint32(len) - 1`. -/
def MeshBuilder.addVertex {P K : Type} [DecidableEq K] (cell : P → K) (mb : MeshBuilder P K) (p : P) :
    MeshBuilder P K × UInt32 :=
  match (if mb.conn then treeFind mb.tree (cell p) else none) with
  | some i => (mb, i)
  | none =>
    let vs := mb.vertices ++ [p]
    let index := UInt32.ofNat vs.length - 1
    ({ mb with vertices := vs, tree := if mb.conn then (cell p, index) :: mb.tree else mb.tree }, index)

/-! ## Enumerations (spellings) -/

/-- core.go:59-68 `Units.String`. -/
def Units.str : Units → Str
  | .millimeter => b!"millimeter"
  | .micrometer => b!"micron"
  | .centimeter => b!"centimeter"
  | .inch => b!"inch"
  | .foot => b!"foot"
  | .meter => b!"meter"

/-- core.go:82-90 `ObjectType.String`. -/
def ObjectType.str : ObjectType → Str
  | .model => b!"model"
  | .other => b!"other"
  | .support => b!"support"
  | .solidSupport => b!"solidsupport"
  | .surface => b!"surface"

/-- A Go map literal lookup. -/
def mapGet {α : Type} : List (Str × α) → Str → Option α
  | [], _ => none
  | (k, v) :: t, s => if k = s then some v else mapGet t s

/-- core.go:569-579 `newUnits`. -/
def newUnits : Str → Option Units := mapGet
  [(b!"millimeter", .millimeter), (b!"micron", .micrometer), (b!"centimeter", .centimeter),
   (b!"inch", .inch), (b!"foot", .foot), (b!"meter", .meter)]

/-- core.go:558-567 `newObjectType`. -/
def newObjectType : Str → Option ObjectType := mapGet
  [(b!"model", .model), (b!"other", .other), (b!"support", .support),
   (b!"solidsupport", .solidSupport), (b!"surface", .surface)]

end Go3mf
