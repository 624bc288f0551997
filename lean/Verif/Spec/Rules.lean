import Verif.Spec.Conform
import Verif.Props.C18

/-!
# The rules that `Model.Validate` checks

One constructor per rule: what breaks it, where the error is located, and what the error says.  A location is a list of
levels, the innermost first, as in `errors.Error`.  The rules are those that the code checks, which are not exactly those
of the specifications of 3MF (C37 to C44).  Of `validate.go` and the validators of the extensions, nothing is used.
-/

namespace Go3mf
namespace Spec

/-- At a location there is an error. -/
abbrev Rule := List Level → Leaf → Prop

/-- A level without index. -/
def lvl (n : Str) : Level := ⟨n, -1⟩

/-- A level with index. -/
def nth (n : Str) (i : Nat) : Level := ⟨n, i⟩

/-- The object that a path and an identifier refer to: the first with the identifier. -/
def ObjectFound (m : Model) (p : Str) (id : UInt32) (o : Object) : Prop :=
  ∃ rs, PartAt m p rs ∧ IsFirst (·.id = id) rs.objects o

/-- The asset that a path and an identifier refer to. -/
def AssetFound (m : Model) (p : Str) (id : UInt32) (a : Asset) : Prop :=
  ∃ rs, PartAt m p rs ∧ IsFirst (·.identify = id) rs.assets a

/-- The path of the root part. -/
def rootPath (m : Model) : Str := if m.path = [] then b!"/3D/3dmodel.model" else m.path

/-! ## Core -/

/-- Metadata (C41). -/
inductive MetaRule (m : Model) (mds : List Metadata) : Rule
  | fault {i : Nat} {md : Metadata} {k : MetaFault} : mds[i]? = some md → k.Holds m (mds.take i) md →
      MetaRule m mds [nth b!"metadata" i] k.leaf

/-- Items of the build. -/
inductive ItemRule (m : Model) (it : Item) : Rule
  | id : it.objectID = 0 → ItemRule m it [] (.missingField b!"objectid")
  | missing : it.objectID ≠ 0 → (¬ ∃ o, ObjectFound m it.objectPath it.objectID o) →
      ItemRule m it [] (.sentinel .missingResource)
  | other {o : Object} : it.objectID ≠ 0 → ObjectFound m it.objectPath it.objectID o → o.type = .other →
      ItemRule m it [] (.sentinel .otherItem)
  | metadata {loc : List Level} {l : Leaf} : MetaRule m it.metadata.metadata loc l → ItemRule m it loc l

/-- Base materials. -/
inductive BaseRule (r : BaseMaterials) : Rule
  | id : r.id = 0 → BaseRule r [] (.sentinel .missingID)
  | empty : r.materials = [] → BaseRule r [] (.sentinel .emptyResourceProps)
  | name {j : Nat} {b : Base} : r.materials[j]? = some b → b.name = [] → BaseRule r [nth b!"base" j] (.missingField b!"name")
  | color {j : Nat} {b : Base} : r.materials[j]? = some b → b.color = ⟨0, 0, 0, 0⟩ →
      BaseRule r [nth b!"base" j] (.missingField b!"displaycolor")

/-- The properties of the triangle are those of the object. -/
def Inherits (o : Object) (t : Triangle) : Prop := t.pid = o.pid ∧ t.p1 = o.pindex ∧ t.p2 = o.pindex ∧ t.p3 = o.pindex

/-- Meshes of objects of the part `p`.  The number of vertices is counted modulo 2^32 (C38_large_false). -/
inductive MeshRule (m : Model) (p : Str) (o : Object) (mesh : Mesh) : Rule
  | vertices : o.type = .model ∨ o.type = .solidSupport → mesh.vertices.length < 3 →
      MeshRule m p o mesh [] (.sentinel .insufficientVertices)
  | triangles : o.type = .model ∨ o.type = .solidSupport → mesh.triangles.length < 4 → mesh.any = [] →
      MeshRule m p o mesh [] (.sentinel .insufficientTriangles)
  | repeated {i : Nat} {t : Triangle} : mesh.triangles[i]? = some t → ¬ [t.v1, t.v2, t.v3].Nodup →
      MeshRule m p o mesh [nth b!"triangle" i] (.sentinel .duplicatedIndices)
  | vertex {i : Nat} {t : Triangle} {v : UInt32} : mesh.triangles[i]? = some t → v ∈ [t.v1, t.v2, t.v3] →
      mesh.vertices.length % 2 ^ 32 ≤ v.toNat → MeshRule m p o mesh [nth b!"triangle" i] (.sentinel .indexOutOfBounds)
  | missing {i : Nat} {t : Triangle} : mesh.triangles[i]? = some t → t.pid ≠ 0 → ¬ Inherits o t →
      (¬ ∃ a, AssetFound m p t.pid a) → MeshRule m p o mesh [nth b!"triangle" i] (.sentinel .missingResource)
  | property {i : Nat} {t : Triangle} {a : Asset} {n : Nat} {x : UInt32} : mesh.triangles[i]? = some t → t.pid ≠ 0 →
      ¬ Inherits o t → AssetFound m p t.pid a → groupSize a = some n → x ∈ [t.p1, t.p2, t.p3] → n ≤ x.toNat →
      MeshRule m p o mesh [nth b!"triangle" i] (.sentinel .indexOutOfBounds)

/-- Components of an object of the part `p`. -/
inductive ComponentRule (m : Model) (p : Str) (o : Object) (c : Component) : Leaf → Prop
  | id : c.objectID = 0 → ComponentRule m p o c (.missingField b!"objectid")
  | missing : c.objectID ≠ 0 → (¬ ∃ x, ObjectFound m (componentPart p c) c.objectID x) →
      ComponentRule m p o c (.sentinel .missingResource)
  | recursion {x : Object} : c.objectID ≠ 0 → ObjectFound m (componentPart p c) c.objectID x → c.objectID = o.id →
      componentPart p c = p → ComponentRule m p o c (.sentinel .recursion)

/-- Objects of the part `p`. -/
inductive ObjectRule (m : Model) (p : Str) (o : Object) : Rule
  | id : o.id = 0 → ObjectRule m p o [] (.sentinel .missingID)
  | pid : o.pindex ≠ 0 → o.pid = 0 → ObjectRule m p o [] (.missingField b!"pid")
  | shape : o.mesh.isSome = o.components.isSome → ObjectRule m p o [] (.sentinel .invalidObject)
  | missing {mesh : Mesh} : o.mesh = some mesh → o.pid ≠ 0 → (¬ ∃ a, AssetFound m p o.pid a) →
      ObjectRule m p o [] (.sentinel .missingResource)
  | property {mesh : Mesh} {a : Asset} {n : Nat} : o.mesh = some mesh → o.pid ≠ 0 → AssetFound m p o.pid a →
      groupSize a = some n → n ≤ o.pindex.toNat → ObjectRule m p o [] (.sentinel .indexOutOfBounds)
  | mesh {mesh : Mesh} {loc : List Level} {l : Leaf} : o.mesh = some mesh → MeshRule m p o mesh loc l →
      ObjectRule m p o (loc ++ [lvl b!"mesh"]) l
  | componentsPid {cs : Components} : o.components = some cs → cs.component ≠ [] → o.pid ≠ 0 →
      ObjectRule m p o [] (.sentinel .componentsPID)
  | component {cs : Components} {j : Nat} {c : Component} {l : Leaf} : o.components = some cs → cs.component[j]? = some c →
      ComponentRule m p o c l → ObjectRule m p o [nth b!"component" j, lvl b!"components"] l

/-! ## Production -/

/-- The UUID of a build, of an object, of an item or a component (with the path). -/
def buildUUID (as : AnyAttr) : Option Str := as.findSome? fun | .prodBuild u => some u | _ => none
@[inherit_doc buildUUID] def objectUUID (as : AnyAttr) : Option Str := as.findSome? fun | .prodObject u => some u | _ => none
@[inherit_doc buildUUID] def itemUUID (as : AnyAttr) : Option (Str × Str) :=
  as.findSome? fun | .prodItem u p => some (u, p) | _ => none
@[inherit_doc buildUUID] def componentUUID (as : AnyAttr) : Option (Str × Str) :=
  as.findSome? fun | .prodComponent u p => some (u, p) | _ => none

/-- UUID and path of an item (`p` empty) or of a component of the part `p`. -/
inductive PathRule (m : Model) (p : Str) (u : Str × Str) : Leaf → Prop
  | missing : u.1 = [] → PathRule m p u (.missingField b!"UUID")
  | malformed : u.1 ≠ [] → ¬ IsUUIDLoose u.1 → PathRule m p u (.sentinel .uuid)
  | path : u.2 ≠ [] → ¬ IsRootPath m p → PathRule m p u (.sentinel .prodRefInNonRoot)

/-- Build and items. -/
inductive ProdBuildRule (m : Model) : Rule
  | missing : buildUUID m.build.anyAttr = none → ProdBuildRule m [lvl b!"build"] (.missingField b!"UUID")
  | malformed {u : Str} : buildUUID m.build.anyAttr = some u → ¬ IsUUIDLoose u → ProdBuildRule m [lvl b!"build"] (.sentinel .uuid)
  | noItem {i : Nat} {it : Item} : m.build.items[i]? = some it → itemUUID it.anyAttr = none →
      ProdBuildRule m [nth b!"item" i, lvl b!"build"] (.missingField b!"UUID")
  | item {i : Nat} {it : Item} {u : Str × Str} {l : Leaf} : m.build.items[i]? = some it → itemUUID it.anyAttr = some u →
      PathRule m [] u l → ProdBuildRule m [nth b!"item" i, lvl b!"build"] l

/-- Objects and components. -/
inductive ProdObjectRule (m : Model) (p : Str) (o : Object) : Rule
  | missing : objectUUID o.anyAttr = none → ProdObjectRule m p o [] (.missingField b!"UUID")
  | malformed {u : Str} : objectUUID o.anyAttr = some u → ¬ IsUUIDLoose u → ProdObjectRule m p o [] (.sentinel .uuid)
  | noComponent {cs : Components} {i : Nat} {c : Component} : o.components = some cs → cs.component[i]? = some c →
      componentUUID c.anyAttr = none →
      ProdObjectRule m p o [nth b!"component" i, lvl b!"components"] (.missingField b!"UUID")
  | component {cs : Components} {i : Nat} {c : Component} {u : Str × Str} {l : Leaf} : o.components = some cs →
      cs.component[i]? = some c → componentUUID c.anyAttr = some u → PathRule m p u l →
      ProdObjectRule m p o [nth b!"component" i, lvl b!"components"] l

/-! ## Materials -/

/-- The number of properties that an index in a layer of multi-properties is compared with. -/
def layerSize : Asset → Nat
  | .base r => r.materials.length
  | .res (.composite r) => r.composites.length
  | .res (.colorGroup r) => r.colors.length
  | _ => 0

/-- The layer refers to an asset of this size; a layer that refers to nothing has size 0. -/
def LayerSize (m : Model) (p : Str) (pid : UInt32) (n : Nat) : Prop :=
  (∃ a, AssetFound m p pid a ∧ layerSize a = n) ∨ ((¬ ∃ a, AssetFound m p pid a) ∧ n = 0)

/-- Base materials and composites: they must be the first layer. -/
def IsMaterial : Asset → Prop
  | .base _ => True
  | .res (.composite _) => True
  | _ => False

/-- Resources of the materials extension in the part `p`. -/
inductive MaterialRule (env : Env) (m : Model) (p : Str) : Asset → Rule
  | colorId {r : ColorGroup} : r.id = 0 → MaterialRule env m p (.res (.colorGroup r)) [] (.sentinel .missingID)
  | colorEmpty {r : ColorGroup} : r.colors = [] → MaterialRule env m p (.res (.colorGroup r)) [] (.sentinel .emptyResourceProps)
  | color {r : ColorGroup} {j : Nat} {c : RGBA} : r.colors[j]? = some c → c = ⟨0, 0, 0, 0⟩ →
      MaterialRule env m p (.res (.colorGroup r)) [nth b!"color" j] (.missingField b!"color")
  | coordsId {r : Texture2DGroup} : r.id = 0 → MaterialRule env m p (.res (.texture2DGroup r)) [] (.sentinel .missingID)
  | coordsNoTexture {r : Texture2DGroup} : r.textureID = 0 →
      MaterialRule env m p (.res (.texture2DGroup r)) [] (.missingField b!"texid")
  | coordsTexture {r : Texture2DGroup} : r.textureID ≠ 0 → (¬ ∃ t, AssetFound m p r.textureID (.res (.texture2D t))) →
      MaterialRule env m p (.res (.texture2DGroup r)) [] (.sentinel .textureReference)
  | coordsEmpty {r : Texture2DGroup} : r.coords = [] →
      MaterialRule env m p (.res (.texture2DGroup r)) [] (.sentinel .emptyResourceProps)
  | textureId {r : Texture2D} : r.id = 0 → MaterialRule env m p (.res (.texture2D r)) [] (.sentinel .missingID)
  | textureNoPath {r : Texture2D} : r.path = [] → MaterialRule env m p (.res (.texture2D r)) [] (.missingField b!"path")
  | texturePart {r : Texture2D} : r.path ≠ [] → (¬ ∃ a ∈ m.attachments, env.fold a.path = env.fold r.path) →
      MaterialRule env m p (.res (.texture2D r)) [] (.sentinel .missingTexturePart)
  | textureType {r : Texture2D} : r.contentType = .unset →
      MaterialRule env m p (.res (.texture2D r)) [] (.missingField b!"contenttype")
  | compositeId {r : CompositeMaterials} : r.id = 0 → MaterialRule env m p (.res (.composite r)) [] (.sentinel .missingID)
  | compositeNoBase {r : CompositeMaterials} : r.materialID = 0 →
      MaterialRule env m p (.res (.composite r)) [] (.missingField b!"matid")
  | compositeMissing {r : CompositeMaterials} : r.materialID ≠ 0 → (¬ ∃ a, AssetFound m p r.materialID a) →
      MaterialRule env m p (.res (.composite r)) [] (.sentinel .missingResource)
  | compositeBase {r : CompositeMaterials} {a : Asset} : r.materialID ≠ 0 → AssetFound m p r.materialID a →
      (∀ b, a ≠ .base b) → MaterialRule env m p (.res (.composite r)) [] (.sentinel .compositeBase)
  | compositeIndex {r : CompositeMaterials} {b : BaseMaterials} {i : UInt32} : r.materialID ≠ 0 →
      AssetFound m p r.materialID (.base b) → i ∈ r.indices → b.materials.length < i.toNat →
      MaterialRule env m p (.res (.composite r)) [] (.sentinel .indexOutOfBounds)
  | compositeNoIndex {r : CompositeMaterials} : r.indices = [] →
      MaterialRule env m p (.res (.composite r)) [] (.missingField b!"matindices")
  | compositeEmpty {r : CompositeMaterials} : r.composites = [] →
      MaterialRule env m p (.res (.composite r)) [] (.sentinel .emptyResourceProps)
  | multiId {r : MultiProperties} : r.id = 0 → MaterialRule env m p (.res (.multi r)) [] (.sentinel .missingID)
  | multiNoLayer {r : MultiProperties} : r.pids = [] → MaterialRule env m p (.res (.multi r)) [] (.missingField b!"pids")
  | multiBlend {r : MultiProperties} : r.pids.length ≤ r.blend.length →
      MaterialRule env m p (.res (.multi r)) [] (.sentinel .multiBlend)
  | multiEmpty {r : MultiProperties} : r.multis = [] → MaterialRule env m p (.res (.multi r)) [] (.sentinel .emptyResourceProps)
  | multiMissing {r : MultiProperties} {pid : UInt32} : pid ∈ r.pids → (¬ ∃ a, AssetFound m p pid a) →
      MaterialRule env m p (.res (.multi r)) [] (.sentinel .missingResource)
  | multiMaterial {r : MultiProperties} {j : Nat} {pid : UInt32} {a : Asset} : r.pids[j]? = some pid → j ≠ 0 →
      AssetFound m p pid a → IsMaterial a → MaterialRule env m p (.res (.multi r)) [] (.sentinel .materialMulti)
  | multiMulti {r q : MultiProperties} {pid : UInt32} : pid ∈ r.pids → AssetFound m p pid (.res (.multi q)) →
      MaterialRule env m p (.res (.multi r)) [] (.sentinel .multiRefMulti)
  | multiColors {r : MultiProperties} {i j : Nat} {pid pid' : UInt32} {g g' : ColorGroup} : i < j → r.pids[i]? = some pid →
      r.pids[j]? = some pid' → AssetFound m p pid (.res (.colorGroup g)) → AssetFound m p pid' (.res (.colorGroup g')) →
      MaterialRule env m p (.res (.multi r)) [] (.sentinel .multiColors)
  | multiIndex {r : MultiProperties} {j k n : Nat} {multi : List UInt32} {pid x : UInt32} : r.multis[j]? = some multi →
      r.pids[k]? = some pid → multi[k]? = some x → LayerSize m p pid n → n < x.toNat →
      MaterialRule env m p (.res (.multi r)) [nth b!"multi" j] (.sentinel .indexOutOfBounds)

/-! ## Slices -/

/-- The transform moves points out of the plane z = 0, or scales heights. -/
def Tilts (t : Matrix) : Prop :=
  ¬ (t.m2.eq .zero = true ∧ t.m6.eq .zero = true ∧ t.m8.eq .zero = true ∧ t.m9.eq .zero = true ∧ t.m10.eq .one = true)

/-- A transform is given, and it tilts. -/
def Tilted (t : Matrix) : Prop := t.isTransform = true ∧ Tilts t

/-- In the components of an object, the object `id` of the part `p` is used with a transform that tilts.  All paths are taken
relative to `p`.  A component that refers to the object with the same identifier ends the search (C44). -/
inductive TiltedIn (m : Model) (p : Str) (id : UInt32) : Object → Prop
  | here {o : Object} {cs : Components} {j : Nat} {c : Component} : o.components = some cs → cs.component[j]? = some c →
      (∀ d ∈ cs.component.take j, ¬ (d.objectID = o.id ∧ componentPart p d = p)) →
      c.objectID = id → componentPart p c = p → Tilted c.transform → TiltedIn m p id o
  | inside {o x : Object} {cs : Components} {j : Nat} {c : Component} : o.components = some cs → cs.component[j]? = some c →
      (∀ d ∈ cs.component.take (j + 1), ¬ (d.objectID = o.id ∧ componentPart p d = p)) →
      ObjectFound m (componentPart p c) c.objectID x → TiltedIn m p id x → TiltedIn m p id o

/-- The part that an item refers to, seen from the part `p`. -/
def itemPart (p : Str) (it : Item) : Str := if it.objectPath = [] then p else it.objectPath

/-- In the build, the object `id` of the part `p` is used with a transform that tilts. -/
inductive TiltedBuild (m : Model) (p : Str) (id : UInt32) : Prop
  | here {it : Item} : it ∈ m.build.items → it.objectID = id → itemPart p it = p → Tilted it.transform → TiltedBuild m p id
  | inside {it : Item} {x : Object} : it ∈ m.build.items → ObjectFound m (itemPart p it) it.objectID x → TiltedIn m p id x →
      TiltedBuild m p id

/-- A polygon does not end where it starts. -/
def OpenStack (r : SliceStack) : Prop :=
  ∃ s ∈ r.slices, ∃ q ∈ s.polygons, ∃ g, q.segments.getLast? = some g ∧ q.startV ≠ g.v2

/-- The same, in the stack or in one that it refers to. -/
def OpenBelow (m : Model) (r : SliceStack) : Prop :=
  OpenStack r ∨ ∃ ref ∈ r.refs, ∃ st, AssetFound m ref.path ref.sliceStackID (.res (.sliceStack st)) ∧ OpenStack st

/-- Stack and resolution of an object. -/
def sliceAttr (as : AnyAttr) : Option (UInt32 × MeshResolution) :=
  as.findSome? fun | .sliceObject i r => some (i, r) | _ => none

/-- The slices extension is required. -/
def SlicesRequired (m : Model) : Prop := ∃ e, m.extensions.find? (fun e => e.ns = nsSlices) = some e ∧ e.isRequired = true

/-- Objects of the part `p` with slices. -/
inductive SliceObjectRule (m : Model) (p : Str) (o : Object) : Rule
  | low {i : UInt32} : sliceAttr o.anyAttr = some (i, .low) → ¬ SlicesRequired m →
      SliceObjectRule m p o [] (.sentinel .sliceExtRequired)
  | id {res : MeshResolution} : sliceAttr o.anyAttr = some (0, res) → SliceObjectRule m p o [] (.missingField b!"slicestackid")
  | missing {i : UInt32} {res : MeshResolution} : sliceAttr o.anyAttr = some (i, res) → i ≠ 0 → (¬ ∃ a, AssetFound m p i a) →
      SliceObjectRule m p o [] (.sentinel .missingResource)
  | notStack {i : UInt32} {res : MeshResolution} {a : Asset} : sliceAttr o.anyAttr = some (i, res) → i ≠ 0 → AssetFound m p i a →
      (∀ r, a ≠ .res (.sliceStack r)) → SliceObjectRule m p o [] (.sentinel .nonSliceStack)
  | transform {i : UInt32} {res : MeshResolution} {r : SliceStack} : sliceAttr o.anyAttr = some (i, res) → i ≠ 0 →
      AssetFound m p i (.res (.sliceStack r)) → TiltedBuild m p o.id →
      SliceObjectRule m p o [] (.sentinel .sliceInvalidTransform)
  | closed {i : UInt32} {res : MeshResolution} {r : SliceStack} : sliceAttr o.anyAttr = some (i, res) → i ≠ 0 →
      AssetFound m p i (.res (.sliceStack r)) → o.type = .model ∨ o.type = .solidSupport → OpenBelow m r →
      SliceObjectRule m p o [] (.sentinel .slicePolygonNotClosed)

/-- The smallest float32, `-math.MaxFloat32`. -/
def lowest : F32 := (F32.mk false maxMag).neg

/-- The top of the last slice before. -/
def topBefore (ss : List Slice) : F32 := (ss.getLast?.map Slice.topZ).getD lowest

/-- The reference leads to the stack. -/
def RefersTo (m : Model) (p : Str) (r : SliceRef) (st : SliceStack) : Prop :=
  r.path ≠ [] ∧ r.path ≠ p ∧ r.sliceStackID ≠ 0 ∧ AssetFound m r.path r.sliceStackID (.res (.sliceStack st))

/-- The top of the last slice of the stacks that the references lead to. -/
inductive TopOfRefs (m : Model) (p : Str) : List SliceRef → F32 → Prop
  | nil : TopOfRefs m p [] lowest
  | stack {rs : List SliceRef} {r : SliceRef} {st : SliceStack} {s : Slice} : RefersTo m p r st → st.slices.getLast? = some s →
      TopOfRefs m p (rs ++ [r]) s.topZ
  | skip {rs : List SliceRef} {r : SliceRef} {z : F32} : (∀ st, RefersTo m p r st → st.slices = []) → TopOfRefs m p rs z →
      TopOfRefs m p (rs ++ [r]) z

/-- Slice stacks of the part `p`. -/
inductive StackRule (m : Model) (p : Str) (r : SliceStack) : Rule
  | both : (r.slices = [] ↔ r.refs = []) → StackRule m p r [] (.sentinel .slicesAndRefs)
  | refNoPath {i : Nat} {f : SliceRef} : r.refs[i]? = some f → f.path = [] →
      StackRule m p r [nth b!"sliceref" i] (.missingField b!"slicepath")
  | refSame {i : Nat} {f : SliceRef} : r.refs[i]? = some f → f.path ≠ [] → f.path = p →
      StackRule m p r [nth b!"sliceref" i] (.sentinel .sliceRefSamePart)
  | refId {i : Nat} {f : SliceRef} : r.refs[i]? = some f → f.sliceStackID = 0 →
      StackRule m p r [nth b!"sliceref" i] (.missingField b!"slicestackid")
  | refMissing {i : Nat} {f : SliceRef} : r.refs[i]? = some f → f.path ≠ [] → f.path ≠ p → f.sliceStackID ≠ 0 →
      (¬ ∃ a, AssetFound m f.path f.sliceStackID a) → StackRule m p r [nth b!"sliceref" i] (.sentinel .missingResource)
  | refNotStack {i : Nat} {f : SliceRef} {a : Asset} : r.refs[i]? = some f → f.path ≠ [] → f.path ≠ p → f.sliceStackID ≠ 0 →
      AssetFound m f.path f.sliceStackID a → (∀ st, a ≠ .res (.sliceStack st)) →
      StackRule m p r [nth b!"sliceref" i] (.sentinel .nonSliceStack)
  | refRef {i : Nat} {f : SliceRef} {st : SliceStack} : r.refs[i]? = some f → RefersTo m p f st → st.refs ≠ [] →
      StackRule m p r [nth b!"sliceref" i] (.sentinel .sliceRefRef)
  | refOrder {i : Nat} {f : SliceRef} {st : SliceStack} {s : Slice} {z : F32} : r.refs[i]? = some f → RefersTo m p f st →
      st.slices.head? = some s → TopOfRefs m p (r.refs.take i) z → s.topZ.le z = true →
      StackRule m p r [nth b!"sliceref" i] (.sentinel .sliceNoMonotonic)
  | noTop {j : Nat} {s : Slice} : r.slices[j]? = some s → s.topZ.eq .zero = true →
      StackRule m p r [nth b!"slice" j] (.missingField b!"ztop")
  | lowTop {j : Nat} {s : Slice} : r.slices[j]? = some s → s.topZ.eq .zero = false → s.topZ.lt r.bottomZ = true →
      StackRule m p r [nth b!"slice" j] (.sentinel .sliceSmallTopZ)
  | order {j : Nat} {s : Slice} : r.slices[j]? = some s → s.topZ.le (topBefore (r.slices.take j)) = true →
      StackRule m p r [nth b!"slice" j] (.sentinel .sliceNoMonotonic)
  | vertices {j : Nat} {s : Slice} : r.slices[j]? = some s → ¬ (s.polygons = [] ∧ s.vertices = []) → s.vertices.length < 2 →
      StackRule m p r [nth b!"slice" j] (.sentinel .sliceInsufficientVertices)
  | polygons {j : Nat} {s : Slice} : r.slices[j]? = some s → s.vertices ≠ [] → s.polygons = [] →
      StackRule m p r [nth b!"slice" j] (.sentinel .sliceInsufficientPolygons)
  | segments {j k : Nat} {s : Slice} {q : Polygon} : r.slices[j]? = some s → s.polygons[k]? = some q → q.segments = [] →
      StackRule m p r [nth b!"polygon" k, nth b!"slice" j] (.sentinel .sliceInsufficientSegments)

/-! ## Beam lattice -/

/-- The lattice of a mesh. -/
def latticeOf (es : List AnyElem) : Option BeamLattice := es.findSome? fun | .beamLattice b => some b | _ => none

/-- The mesh `id` that the lattice of the object `self` of the part `p` refers to.  If the object comes before the mesh, or
if the mesh does not exist, this is reported as a missing resource only if the object itself is found (C43). -/
inductive RefMeshRule (m : Model) (p : Str) (self id : UInt32) : Leaf → Prop
  | recursion : id = self → RefMeshRule m p self id (.sentinel .recursion)
  | missing {rs : Resources} {o : Object} : id ≠ self → PartAt m p rs → IsFirst (fun o => o.id = self ∨ o.id = id) rs.objects o →
      o.id = self → RefMeshRule m p self id (.sentinel .missingResource)
  | mesh {rs : Resources} {o : Object} : id ≠ self → PartAt m p rs → IsFirst (fun o => o.id = self ∨ o.id = id) rs.objects o →
      o.id = id → (∀ mesh, o.mesh = some mesh → o.type ≠ .model ∨ ∃ b, latticeOf mesh.any = some b) →
      RefMeshRule m p self id (.sentinel .latticeInvalidMesh)

/-- The lattice of the object `o` of the part `p`. -/
inductive LatticeRule (m : Model) (p : Str) (o : Object) (mesh : Mesh) (b : BeamLattice) : Rule
  | type : o.type ≠ .model → o.type ≠ .solidSupport → LatticeRule m p o mesh b [] (.sentinel .latticeObjType)
  | minLength : b.minLength.eq .zero = true → LatticeRule m p o mesh b [] (.missingField b!"minlength")
  | radius : b.radius.eq .zero = true → LatticeRule m p o mesh b [] (.missingField b!"radius")
  | clip : b.clipMode = .none → b.clippingMeshID = 0 → LatticeRule m p o mesh b [] (.sentinel .latticeClippedNoMesh)
  | clipMesh {l : Leaf} : b.clippingMeshID ≠ 0 → RefMeshRule m p o.id b.clippingMeshID l → LatticeRule m p o mesh b [] l
  | representation {l : Leaf} : b.representationMeshID ≠ 0 → RefMeshRule m p o.id b.representationMeshID l →
      LatticeRule m p o mesh b [] l
  | same {i : Nat} {x : Beam} : b.beams[i]? = some x → x.v1 = x.v2 →
      LatticeRule m p o mesh b [nth b!"beam" i] (.sentinel .latticeSameVertex)
  | vertex {i : Nat} {x : Beam} {v : UInt32} : b.beams[i]? = some x → x.v1 ≠ x.v2 → v ∈ [x.v1, x.v2] →
      mesh.vertices.length ≤ v.toNat → LatticeRule m p o mesh b [nth b!"beam" i] (.sentinel .indexOutOfBounds)
  | radii {i : Nat} {x : Beam} : b.beams[i]? = some x → x.r1.eq .zero = false → x.r1.eq b.radius = false → x.r1.eq x.r2 = false →
      LatticeRule m p o mesh b [nth b!"beam" i] (.sentinel .latticeBeamR2)
  | sets {i : Nat} {s : BeamSet} {x : UInt32} : b.beamSets[i]? = some s → x ∈ s.refs → s.refs.length ≤ x.toNat →
      LatticeRule m p o mesh b [nth b!"beamset" i] (.sentinel .indexOutOfBounds)

/-! ## Parts and the model -/

/-- The name space of an extension, and whether it is registered. -/
def nsOf : Ext → Str
  | .production => nsProduction
  | .slices => nsSlices
  | .beamlattice => nsBeam
  | .materials => nsMaterials
@[inherit_doc nsOf] def registered (env : Env) : Ext → Bool
  | .production => env.production
  | .slices => env.slices
  | .beamlattice => env.beamlattice
  | .materials => env.materials

/-- The extension is declared in the model and registered. -/
def Active (env : Env) (m : Model) (x : Ext) : Prop := registered env x = true ∧ ∃ e ∈ m.extensions, e.ns = nsOf x

/-- The XML name of a resource. -/
def assetName : Asset → Str
  | .base _ => b!"basematerials"
  | .res (.colorGroup _) => b!"colorgroup"
  | .res (.texture2D _) => b!"texture2d"
  | .res (.texture2DGroup _) => b!"texture2dgroup"
  | .res (.composite _) => b!"compositematerials"
  | .res (.multi _) => b!"multiproperties"
  | .res (.sliceStack _) => b!"slicestack"
  | .unknown _ (.start n _ :: _) => n.loc
  | .unknown _ _ => []

/-- The resources of the part `p`. -/
inductive PartRule (env : Env) (m : Model) (p : Str) (rs : Resources) : Rule
  | assetId {i : Nat} {a b : Asset} : rs.assets[i]? = some a → a.identify ≠ 0 → b ∈ rs.assets.take i → b.identify = a.identify →
      PartRule env m p rs [nth (assetName a) i] (.sentinel .duplicatedID)
  | base {i : Nat} {r : BaseMaterials} {loc : List Level} {l : Leaf} : rs.assets[i]? = some (.base r) → BaseRule r loc l →
      PartRule env m p rs (loc ++ [nth b!"basematerials" i]) l
  | materials {i : Nat} {a : Asset} {loc : List Level} {l : Leaf} : Active env m .materials → rs.assets[i]? = some a →
      MaterialRule env m p a loc l → PartRule env m p rs (loc ++ [nth (assetName a) i]) l
  | stack {i : Nat} {r : SliceStack} {loc : List Level} {l : Leaf} : Active env m .slices →
      rs.assets[i]? = some (.res (.sliceStack r)) → StackRule m p r loc l →
      PartRule env m p rs (loc ++ [nth b!"slicestack" i]) l
  | objectAssetId {i : Nat} {o : Object} {a : Asset} : rs.objects[i]? = some o → o.id ≠ 0 → a ∈ rs.assets → a.identify = o.id →
      PartRule env m p rs [nth b!"object" i] (.sentinel .duplicatedID)
  | objectId {i : Nat} {o x : Object} : rs.objects[i]? = some o → o.id ≠ 0 → x ∈ rs.objects.take i → x.id = o.id →
      PartRule env m p rs [nth b!"object" i] (.sentinel .duplicatedID)
  | object {i : Nat} {o : Object} {loc : List Level} {l : Leaf} : rs.objects[i]? = some o → ObjectRule m p o loc l →
      PartRule env m p rs (loc ++ [nth b!"object" i]) l
  | production {i : Nat} {o : Object} {loc : List Level} {l : Leaf} : Active env m .production → rs.objects[i]? = some o →
      ProdObjectRule m p o loc l → PartRule env m p rs (loc ++ [nth b!"object" i]) l
  | slices {i : Nat} {o : Object} {loc : List Level} {l : Leaf} : Active env m .slices → rs.objects[i]? = some o →
      SliceObjectRule m p o loc l → PartRule env m p rs (loc ++ [nth b!"object" i]) l
  | lattice {i : Nat} {o : Object} {mesh : Mesh} {b : BeamLattice} {loc : List Level} {l : Leaf} : Active env m .beamlattice →
      rs.objects[i]? = some o → o.mesh = some mesh → latticeOf mesh.any = some b → LatticeRule m p o mesh b loc l →
      PartRule env m p rs (loc ++ [lvl b!"beamlattice", lvl b!"mesh", nth b!"object" i]) l

/-- The model: location, error, and the path of the part in the error. -/
inductive ModelRule (env : Env) (m : Model) : List Level → Leaf → Str → Prop
  | packageRel {i : Nat} {r : Relationship} {s : Sentinel} : m.rootRelationships[i]? = some r →
      RelFault env m (m.rootRelationships.take i) r s →
      ModelRule env m [nth b!"relationship" i, lvl b!"model"] (.sentinel s) []
  | rel {i : Nat} {r : Relationship} {s : Sentinel} : m.relationships[i]? = some r → RelFault env m (m.relationships.take i) r s →
      ModelRule env m [nth b!"relationship" i, lvl b!"model"] (.sentinel s) (rootPath m)
  | childRel {p : Str} {c : ChildModel} {i : Nat} {r : Relationship} {s : Sentinel} : (p, c) ∈ m.childs → p ≠ rootPath m →
      c.relationships[i]? = some r → RelFault env m (c.relationships.take i) r s →
      ModelRule env m [nth b!"relationship" i, lvl b!"model"] (.sentinel s) p
  | childName {p : Str} {c : ChildModel} : (p, c) ∈ m.childs → p = rootPath m →
      ModelRule env m [lvl b!"model"] (.sentinel .opcDuplicatedModelName) []
  | extension {e : Extension} : e ∈ m.extensions → e.isRequired = true → (∀ x, e.ns = nsOf x → registered env x = false) →
      ModelRule env m [lvl b!"model"] (.sentinel .requiredExt) []
  | metadata {loc : List Level} {l : Leaf} : MetaRule m m.metadata loc l → ModelRule env m (loc ++ [lvl b!"model"]) l []
  | production {loc : List Level} {l : Leaf} : Active env m .production → ProdBuildRule m loc l →
      ModelRule env m (loc ++ [lvl b!"model"]) l []
  | child {p : Str} {c : ChildModel} {loc : List Level} {l : Leaf} : (p, c) ∈ m.childs → PartRule env m p c.resources loc l →
      ModelRule env m (loc ++ [lvl b!"resources", lvl b!"model"]) l p
  | root {loc : List Level} {l : Leaf} : PartRule env m (rootPath m) m.resources loc l →
      ModelRule env m (loc ++ [lvl b!"resources", lvl b!"model"]) l []
  | item {i : Nat} {it : Item} {loc : List Level} {l : Leaf} : m.build.items[i]? = some it → ItemRule m it loc l →
      ModelRule env m (loc ++ [nth b!"item" i, lvl b!"build", lvl b!"model"]) l []

end Spec
end Go3mf
