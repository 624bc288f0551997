import Mathlib.Data.List.Permutation
import Verif.Model.Matrix
import Verif.Model.CoherencyPar
import Verif.Model.ErrText
import Verif.Model.Enums
import Verif.Props.C09
import Verif.Props.C11
import Verif.Tests.Validate

/-!
# Tests of the repository: coherency, core types, mathematics, colours, UUIDs and lists of errors

The cases of core_test.go, math_test.go, spec/utils_test.go, uuid/uuid_test.go, errors/list_test.go, of the rest of validate_test.go and of
materials_test.go, slices_test.go, beamlattice_test.go, production_test.go.  Attributes of the test extension `fakeSpec` that hold a path
are replaced by the production attributes, the only ones in the repository that hold a path.
-/

namespace Go3mf.Tests

/-- validate_test.go:157-187 `TestObject_ValidateMesh`. -/
theorem coherency_mesh : 
    (Mesh.validateCoherency ⟨List.replicate 1 ⟨.zero, .zero, .zero⟩, [], List.replicate 3 ⟨0, 0, 0, 0, 0, 0, 0, []⟩, [], [], []⟩).isSome = true ∧
    (Mesh.validateCoherency ⟨List.replicate 3 ⟨.zero, .zero, .zero⟩, [], List.replicate 3 ⟨0, 0, 0, 0, 0, 0, 0, []⟩, [], [], []⟩).isSome = true ∧
    (Mesh.validateCoherency ⟨[⟨.zero, .zero, .zero⟩, ⟨.zero, .zero, .zero⟩, ⟨.zero, .zero, .zero⟩, ⟨.zero, .zero, .zero⟩], [], [⟨0, 1, 2, 0, 0, 0, 0, []⟩, ⟨0, 3, 1, 0, 0, 0, 0, []⟩, ⟨0, 2, 3, 0, 0, 0, 0, []⟩, ⟨1, 2, 3, 0, 0, 0, 0, []⟩], [], [], []⟩).isSome = true ∧
    (Mesh.validateCoherency ⟨[⟨.zero, .zero, .zero⟩, ⟨.zero, .zero, .zero⟩, ⟨.zero, .zero, .zero⟩, ⟨.zero, .zero, .zero⟩], [], [⟨0, 1, 2, 0, 0, 0, 0, []⟩, ⟨0, 3, 1, 0, 0, 0, 0, []⟩, ⟨0, 2, 3, 0, 0, 0, 0, []⟩, ⟨1, 3, 2, 0, 0, 0, 0, []⟩], [], [], []⟩).isSome = false := by
  decide +kernel

/-- The model of the case "empty". -/
def coherencyEmpty : Model :=
  Model.zero

/-- The model of the case "valid". -/
def coherencyValid : Model :=
  { Model.zero with resources := { Resources.zero with objects := [{ Object.zero with mesh := some ⟨[⟨.zero, .zero, .zero⟩, ⟨.zero, .zero, .zero⟩, ⟨.zero, .zero, .zero⟩, ⟨.zero, .zero, .zero⟩], [], [⟨0, 1, 2, 0, 0, 0, 0, []⟩, ⟨0, 3, 1, 0, 0, 0, 0, []⟩, ⟨0, 2, 3, 0, 0, 0, 0, []⟩, ⟨1, 3, 2, 0, 0, 0, 0, []⟩], [], [], []⟩ }] }, childs := [(b!"/other.model", { ChildModel.zero with resources := { Resources.zero with objects := [{ Object.zero with mesh := some ⟨[⟨.zero, .zero, .zero⟩, ⟨.zero, .zero, .zero⟩, ⟨.zero, .zero, .zero⟩, ⟨.zero, .zero, .zero⟩], [], [⟨0, 1, 2, 0, 0, 0, 0, []⟩, ⟨0, 3, 1, 0, 0, 0, 0, []⟩, ⟨0, 2, 3, 0, 0, 0, 0, []⟩, ⟨1, 3, 2, 0, 0, 0, 0, []⟩], [], [], []⟩ }] } })] }

/-- The model of the case "invalid". -/
def coherencyInvalid : Model :=
  { Model.zero with resources := { Resources.zero with objects := [{ Object.zero with mesh := some ⟨[⟨.zero, .zero, .zero⟩, ⟨.zero, .zero, .zero⟩, ⟨.zero, .zero, .zero⟩, ⟨.zero, .zero, .zero⟩], [], [⟨0, 1, 2, 0, 0, 0, 0, []⟩, ⟨0, 3, 1, 0, 0, 0, 0, []⟩, ⟨0, 2, 3, 0, 0, 0, 0, []⟩, ⟨1, 2, 3, 0, 0, 0, 0, []⟩], [], [], []⟩ }] }, childs := [(b!"/other.model", { ChildModel.zero with resources := { Resources.zero with objects := [{ Object.zero with mesh := some ⟨[⟨.zero, .zero, .zero⟩, ⟨.zero, .zero, .zero⟩, ⟨.zero, .zero, .zero⟩, ⟨.zero, .zero, .zero⟩], [], [⟨0, 1, 2, 0, 0, 0, 0, []⟩, ⟨0, 3, 1, 0, 0, 0, 0, []⟩, ⟨0, 2, 3, 0, 0, 0, 0, []⟩, ⟨1, 2, 3, 0, 0, 0, 0, []⟩], [], [], []⟩ }] } })] }

/-- Every error value that `ValidateCoherency` can return for a model of the tests. -/
theorem coherency_texts (m : Model) (hs : Spec.SmallMeshes m) (want : List Str) (hw : (Spec.coherencyErrors m).map Err.text = want) (r : ErrVal)
    (h : m.ValidateCoherency r) : ∃ l : List Err, (l.map Err.text).Perm want ∧ r = if l = [] then .nil else .err (.list l) := by
  obtain ⟨l, h1, h2⟩ := C09_result m hs r h
  exact ⟨l, hw ▸ h1.map _, h2⟩

/-- validate_test.go:189-241 `TestModel_ValidateCoherency`. -/
theorem coherency_empty (r : ErrVal) : coherencyEmpty.ValidateCoherency r → r = .nil :=
  fun h => (C09_nil_iff _ (by unfold Spec.SmallMeshes; decide +kernel) r h).2 (by decide +kernel)

/-- The case "valid". -/
theorem coherency_valid (r : ErrVal) : coherencyValid.ValidateCoherency r → r = .nil := by
  intro h
  obtain ⟨l, h1, rfl⟩ := coherency_texts coherencyValid (by unfold Spec.SmallMeshes; decide +kernel) [] (by decide +kernel) r h
  cases l with
  | nil => rfl
  | cons e l => simp at h1

/-- The case "invalid". -/
theorem coherency_invalid (r : ErrVal) : coherencyInvalid.ValidateCoherency r → ∃ l : List Err, r = .err (.list l) ∧ (l.map Err.text).Perm
    [b!"go3mf: Path: /other.model XPath: /model/resources/object[0]/mesh: " ++ Sentinel.meshConsistency.msg,
     b!"go3mf: XPath: /model/resources/object[0]/mesh: " ++ Sentinel.meshConsistency.msg] := by
  intro h
  obtain ⟨l, h1, rfl⟩ := coherency_texts coherencyInvalid (by unfold Spec.SmallMeshes; decide +kernel)
    [b!"go3mf: XPath: /model/resources/object[0]/mesh: " ++ Sentinel.meshConsistency.msg,
     b!"go3mf: Path: /other.model XPath: /model/resources/object[0]/mesh: " ++ Sentinel.meshConsistency.msg] (by decide +kernel) r h
  refine ⟨l, ?_, h1.trans (.swap ..)⟩
  rw [if_neg]
  rintro rfl
  simpa using h1.length_eq

/-- core_test.go:15-43 `TestResources_FindAsset`. -/
theorem core_Resources_FindAsset : let rs : Resources := { Resources.zero with assets := [(.base { BaseMaterials.zero with id := 0 }), (.base { BaseMaterials.zero with id := 1 })] };
    rs.findAsset 0 = some (.base { BaseMaterials.zero with id := 0 }) ∧
    rs.findAsset 1 = some (.base { BaseMaterials.zero with id := 1 }) ∧
    rs.findAsset 100 = none := by
  decide +kernel

/-- core_test.go:45-85 `TestModel_FindAsset`. -/
theorem core_Model_FindAsset : let m : Model := { Model.zero with path := b!"/3D/model.model", resources := { Resources.zero with assets := [(.base { BaseMaterials.zero with id := 0 }), (.base { BaseMaterials.zero with id := 1 })] }, childs := [(b!"/3D/other.model", { ChildModel.zero with resources := { Resources.zero with assets := [(.base { BaseMaterials.zero with id := 1 })] } })] };
    m.findAsset [] 0 = some (.base { BaseMaterials.zero with id := 0 }) ∧
    m.findAsset [] 1 = some (.base { BaseMaterials.zero with id := 1 }) ∧
    m.findAsset b!"/3D/model.model" 1 = some (.base { BaseMaterials.zero with id := 1 }) ∧
    m.findAsset b!"/3D/other.model" 1 = some (.base { BaseMaterials.zero with id := 1 }) ∧
    m.findAsset b!"/3D/model.model" 100 = none ∧
    m.findAsset b!"/3d.model" 1 = none := by
  decide +kernel

/-- core_test.go:87-127 `TestModel_FindObject`. -/
theorem core_Model_FindObject : let m : Model := { Model.zero with path := b!"/3D/model.model", resources := { Resources.zero with objects := [{ Object.zero with id := 0 }, { Object.zero with id := 1 }] }, childs := [(b!"/3D/other.model", { ChildModel.zero with resources := { Resources.zero with objects := [{ Object.zero with id := 1 }] } })] };
    m.findObject [] 0 = some { Object.zero with id := 0 } ∧
    m.findObject [] 1 = some { Object.zero with id := 1 } ∧
    m.findObject b!"/3D/model.model" 1 = some { Object.zero with id := 1 } ∧
    m.findObject b!"/3D/other.model" 1 = some { Object.zero with id := 1 } ∧
    m.findObject b!"/3D/model.model" 100 = none ∧
    m.findObject b!"/3d.model" 1 = none := by
  decide +kernel

/-- core_test.go:129-146 `TestBuildItem_HasTransform`. -/
theorem core_Item_HasTransform : 
    Item.zero.transform.isTransform = false ∧
    { Item.zero with transform := .identity }.transform.isTransform = false ∧
    { Item.zero with transform := ⟨(F32.ofBits 0x40000000), .zero, .zero, .zero, .zero, .one, .zero, .zero, .zero, .zero, .one, .zero, .zero, .zero, .zero, .one⟩ }.transform.isTransform = true := by
  decide +kernel

/-- core_test.go:148-165 `TestComponent_HasTransform`. -/
theorem core_Component_HasTransform : 
    Component.zero.transform.isTransform = false ∧
    { Component.zero with transform := .identity }.transform.isTransform = false ∧
    { Component.zero with transform := ⟨(F32.ofBits 0x40000000), .zero, .zero, .zero, .zero, .one, .zero, .zero, .zero, .zero, .one, .zero, .zero, .zero, .zero, .one⟩ }.transform.isTransform = true := by
  decide +kernel

/-- core_test.go:167-183 `TestBaseMaterials_Identify`. -/
theorem core_BaseMaterials_Identify : Asset.identify (.base { BaseMaterials.zero with id := 1 }) = 1 := by
  decide +kernel

/-- core_test.go:185-207 `TestResources_UnusedID`. -/
theorem core_Resources_UnusedID : 
    Resources.unusedID Resources.zero = 1 ∧
    Resources.unusedID { Resources.zero with assets := [.base ⟨2, [], []⟩] } = 1 ∧
    Resources.unusedID { Resources.zero with objects := [{ Object.zero with id := 2 }] } = 1 ∧
    Resources.unusedID { Resources.zero with assets := [.base ⟨1, [], []⟩] } = 2 ∧
    Resources.unusedID { Resources.zero with assets := [.base ⟨1, [], []⟩], objects := [{ Object.zero with id := 2 }] } = 3 ∧
    Resources.unusedID { Resources.zero with assets := [.base ⟨12, [], []⟩], objects := [{ Object.zero with id := 6 }, { Object.zero with id := 4 }, { Object.zero with id := 8 }, { Object.zero with id := 10 }, { Object.zero with id := 2 }] } = 1 := by
  decide +kernel

/-- core_test.go:209-227 `TestObjectType_String`. -/
theorem core_ObjectType_String : 
    ObjectType.str (.model : ObjectType) = b!"model" ∧
    ObjectType.str (.other : ObjectType) = b!"other" ∧
    ObjectType.str (.support : ObjectType) = b!"support" ∧
    ObjectType.str (.solidSupport : ObjectType) = b!"solidsupport" ∧
    ObjectType.str (.surface : ObjectType) = b!"surface" := by
  decide +kernel

/-- core_test.go:228-247 `TestUnits_String`. -/
theorem core_Units_String : 
    Units.str (.micrometer : Units) = b!"micron" ∧
    Units.str (.millimeter : Units) = b!"millimeter" ∧
    Units.str (.centimeter : Units) = b!"centimeter" ∧
    Units.str (.inch : Units) = b!"inch" ∧
    Units.str (.foot : Units) = b!"foot" ∧
    Units.str (.meter : Units) = b!"meter" := by
  decide +kernel

/-- core_test.go:275-298 `Test_newObjectType`. -/
theorem core_newObjectType : 
    newObjectType b!"model" = some .model ∧
    newObjectType b!"other" = some .other ∧
    newObjectType b!"support" = some .support ∧
    newObjectType b!"solidsupport" = some .solidSupport ∧
    newObjectType b!"surface" = some .surface := by
  decide +kernel

/-- core_test.go:300-326 `Test_newUnits`. -/
theorem core_newUnits : 
    newUnits b!"micron" = some .micrometer ∧
    newUnits b!"millimeter" = some .millimeter ∧
    newUnits b!"centimeter" = some .centimeter ∧
    newUnits b!"inch" = some .inch ∧
    newUnits b!"foot" = some .foot ∧
    newUnits b!"meter" = some .meter ∧
    newUnits [] = none ∧
    newUnits b!"other" = none := by
  decide +kernel

/-- core_test.go:249-273 `TestMeshBuilder_AddVertex`. -/
theorem core_MeshBuilder_AddVertex : 
    ((((MeshBuilder.new [] : MeshBuilder Point3D Vec3I).addVertex cellOf ⟨.one, (F32.ofBits 0x40000000), (F32.ofBits 0x40400000)⟩).1.addVertex cellOf ⟨.one, (F32.ofBits 0x40000000), (F32.ofBits 0x40400000)⟩).2 = 0) ∧
    ((⟨false, [⟨.zero, .zero, .zero⟩], []⟩ : MeshBuilder Point3D Vec3I).addVertex cellOf ⟨.one, (F32.ofBits 0x40000000), (F32.ofBits 0x40400000)⟩).2 = 1 := by
  decide +kernel

/-- core_test.go:328-349 `TestComponent_ObjectPath`. -/
theorem core_Component_ObjectPath : 
    Component.zero.objectPath b!"/other.model" = b!"/other.model" ∧
    { Component.zero with anyAttr := [.prodComponent [] []] }.objectPath b!"/other.model" = b!"/other.model" ∧
    { Component.zero with anyAttr := [.prodComponent [] b!"/3dmodel.model"] }.objectPath b!"/other.model" = b!"/3dmodel.model" := by
  decide +kernel

/-- core_test.go:351-368 `TestItem_ObjectPath`. -/
theorem core_Item_ObjectPath : 
    Item.zero.objectPath = [] ∧
    { Item.zero with anyAttr := [.prodItem [] []] }.objectPath = [] ∧
    { Item.zero with anyAttr := [.prodItem [] b!"/3dmodel.model"] }.objectPath = b!"/3dmodel.model" := by
  decide +kernel

/-- core_test.go:370-403 `TestModel_WalkAssets`. -/
theorem core_Model_WalkAssets : let m : Model := { Model.zero with childs := [(b!"/other.model", { ChildModel.zero with resources := { Resources.zero with assets := [(.base { BaseMaterials.zero with id := 1 })] } }), (b!"/a.model", { ChildModel.zero with resources := { Resources.zero with assets := [(.base { BaseMaterials.zero with id := 1 })] } })], resources := { Resources.zero with assets := [(.base { BaseMaterials.zero with id := 2 })] } };
    m.walkAssets (fun (l : List (Str × Asset)) p r => (l ++ [(p, r)], (none : Option Err))) [] |>.1 = [(b!"/a.model", (.base { BaseMaterials.zero with id := 1 })), (b!"/other.model", (.base { BaseMaterials.zero with id := 1 })), ([], (.base { BaseMaterials.zero with id := 2 }))] := by
  decide +kernel

/-- core_test.go:405-438 `TestModel_WalkObjects`. -/
theorem core_Model_WalkObjects : let m : Model := { Model.zero with childs := [(b!"/other.model", { ChildModel.zero with resources := { Resources.zero with objects := [{ Object.zero with id := 1 }] } }), (b!"/a.model", { ChildModel.zero with resources := { Resources.zero with objects := [{ Object.zero with id := 1 }] } })], resources := { Resources.zero with objects := [{ Object.zero with id := 2 }] } };
    m.walkObjects (fun (l : List (Str × Object)) p r => (l ++ [(p, r)], (none : Option Err))) [] |>.1 = [(b!"/a.model", { Object.zero with id := 1 }), (b!"/other.model", { Object.zero with id := 1 }), ([], { Object.zero with id := 2 })] := by
  decide +kernel

/-- core_test.go:440-456 `TestMesh_BoundingBox`. -/
theorem core_Mesh_BoundingBox : 
    Mesh.zero.boundingBox = .zero ∧
    { Mesh.zero with vertices := [⟨.one, .one, .one⟩, ⟨(F32.ofBits 0x40000000), (F32.ofBits 0x40000000), (F32.ofBits 0x40000000)⟩, ⟨(F32.ofBits 0xBF800000), .zero, (F32.ofBits 0x40400000)⟩] }.boundingBox = ⟨⟨(F32.ofBits 0xBF800000), .zero, .one⟩, ⟨(F32.ofBits 0x40000000), (F32.ofBits 0x40000000), (F32.ofBits 0x40400000)⟩⟩ := by
  decide +kernel

/-- The box one item contributes, with at most `n` nested calls; the outer option: do they suffice. -/
def itemBox (m : Model) (n : Nat) (it : Item) : Option (Option Box) :=
  match m.findObject it.objectPath it.objectID with
  | none => some none
  | some o =>
    match o.boxFuel m n it.objectPath with
    | none => none
    | some b => some (if b.eq .zero then none else some (it.transform.mulBox b))

theorem itemBox_op {m : Model} {n : Nat} {it : Item} {v : Option Box} (h : itemBox m n it = some v) :
    it.BoxOp m (v.map fun v b => Box.extend b v) := by
  unfold itemBox at h
  split at h
  next ho => cases h; exact .missing ho
  next o ho =>
    split at h
    · cases h
    next b hb =>
      cases h
      split
      next hz => exact .empty ho ⟨n, hb⟩ hz
      next hz => exact .extend ho ⟨n, hb⟩ (by simpa using hz)

theorem itemBox_ops {m : Model} {n : Nat} : ∀ (its : List Item) (vs : List (Option Box)), its.map (itemBox m n) = vs.map some →
    List.Forall₂ (Item.BoxOp m) its (vs.map fun v => v.map fun v b => Box.extend b v)
  | [], [], _ => .nil
  | it :: its, v :: vs, h => by
    simp only [List.map_cons, List.cons.injEq] at h
    exact .cons (itemBox_op h.1) (itemBox_ops its vs h.2)
  | [], _ :: _, h => by simp at h
  | _ :: _, [], h => by simp at h

/-- Every box that `BoundingBox` can return is the union, in some order, of the boxes of the items. -/
theorem model_box_perm {m : Model} {n : Nat} (vs : List (Option Box)) (hne : m.build.items.length ≠ 0) (h : m.build.items.map (itemBox m n) = vs.map some) (r : Box)
    (hr : m.BoundingBox r) : ∃ ws ∈ (vs.filterMap id).permutations', r = ws.foldl Box.extend .limit := by
  obtain ⟨ops, vs', ws, h1, h2, h3, h4, -⟩ := model_box_fold hr hne
  have := forall₂_unique (fun it f g h h' => BoxOp_unique (it := it) h h') h1 (itemBox_ops _ _ h)
  subst this
  have hinj : Function.Injective (fun (v b : Box) => Box.extend b v) := by
    intro v v' hv
    have := congrFun hv ⟨⟨.nan, .nan, .nan⟩, ⟨.nan, .nan, .nan⟩⟩
    simpa only [extend_nan] using this
  have e : (vs.map fun v => v.map fun v b => Box.extend b v).filterMap id = (vs.filterMap id).map fun v b => Box.extend b v := by
    clear h h1 h2 h3 h4
    induction vs with
    | nil => rfl
    | cons v vs ih => cases v <;> simpa using ih
  rw [e] at h2
  have := List.map_injective_iff.2 hinj h2
  subst this
  exact ⟨ws, List.mem_permutations'.2 h3, h4⟩

/-- The model of case 0. -/
def boxEmpty : Model :=
  Model.zero

/-- The model of case 1. -/
def boxBase : Model :=
  { Model.zero with resources := { Resources.zero with objects := [{ Object.zero with id := 1, mesh := some ⟨[⟨(F32.ofBits 0x41200000), (F32.ofBits 0x41A00000), (F32.ofBits 0x41F00000)⟩], [], [], [], [], []⟩ }, { Object.zero with id := 2, components := some ⟨[{ Component.zero with objectID := 1, transform := (Matrix.identity.translate (F32.ofBits 0x42C80000) (F32.ofBits 0x42C80000) (F32.ofBits 0x42C80000)) }, { Component.zero with objectID := 10 }], []⟩ }] }, build := { Build.zero with items := [{ Item.zero with objectID := 1, transform := .identity }, { Item.zero with objectID := 2 }, { Item.zero with objectID := 3 }] } }

/-- The model of case 2. -/
def boxNonRoot : Model :=
  { Model.zero with resources := Resources.zero, build := { Build.zero with items := [{ Item.zero with objectID := 2, transform := .identity, anyAttr := [(.prodComponent [] b!"/other.model")] }] }, childs := [(b!"/other.model", { ChildModel.zero with resources := { Resources.zero with objects := [{ Object.zero with id := 1, mesh := some ⟨[⟨.zero, (F32.ofBits 0x41200000), (F32.ofBits 0x41A00000)⟩, ⟨(F32.ofBits 0x42C80000), (F32.ofBits 0x42DC0000), (F32.ofBits 0x42F00000)⟩], [], [], [], [], []⟩ }, { Object.zero with id := 2, components := some ⟨[{ Component.zero with objectID := 1, transform := (Matrix.identity.translate (F32.ofBits 0x41200000) (F32.ofBits 0x41200000) (F32.ofBits 0x41200000)) }, { Component.zero with objectID := 10 }], []⟩ }] } })] }

/-- The model of case 3. -/
def boxTree : Model :=
  { Model.zero with resources := Resources.zero, build := { Build.zero with items := [{ Item.zero with objectID := 2, transform := .identity, anyAttr := [(.prodComponent [] b!"/other.model")] }] }, childs := [(b!"/leaf.model", { ChildModel.zero with resources := { Resources.zero with objects := [{ Object.zero with id := 1, mesh := some ⟨[⟨.zero, (F32.ofBits 0x41200000), (F32.ofBits 0x41A00000)⟩, ⟨(F32.ofBits 0x42C80000), (F32.ofBits 0x42DC0000), (F32.ofBits 0x42F00000)⟩], [], [], [], [], []⟩ }] } }), (b!"/another.model", { ChildModel.zero with resources := { Resources.zero with objects := [{ Object.zero with id := 2, components := some ⟨[{ Component.zero with objectID := 1, transform := (Matrix.identity.translate (F32.ofBits 0x40E00000) (F32.ofBits 0x40E00000) (F32.ofBits 0x40E00000)), anyAttr := [(.prodComponent [] b!"/leaf.model")] }], []⟩ }] } }), (b!"/other.model", { ChildModel.zero with resources := { Resources.zero with objects := [{ Object.zero with id := 2, components := some ⟨[{ Component.zero with objectID := 2, transform := (Matrix.identity.translate (F32.ofBits 0x40400000) (F32.ofBits 0x40400000) (F32.ofBits 0x40400000)), anyAttr := [(.prodComponent [] b!"/another.model")] }], []⟩ }] } })] }

/-- core_test.go:458-537 `TestModel_BoundingBox`. -/
theorem core_Model_BoundingBox_empty (r : Box) : boxEmpty.BoundingBox r → r = .zero := fun h => by
  rw [Model.BoundingBox, if_pos (by rfl)] at h; exact h

/-- The case "Base". -/
theorem core_Model_BoundingBox_base (r : Box) : boxBase.BoundingBox r → r = ⟨⟨(F32.ofBits 0x41200000), (F32.ofBits 0x41A00000), (F32.ofBits 0x41F00000)⟩, ⟨(F32.ofBits 0x42DC0000), (F32.ofBits 0x42F00000), (F32.ofBits 0x43020000)⟩⟩ := by
  intro h
  obtain ⟨ws, h1, rfl⟩ := model_box_perm (n := 5) [some ⟨⟨(F32.ofBits 0x41200000), (F32.ofBits 0x41A00000), (F32.ofBits 0x41F00000)⟩, ⟨(F32.ofBits 0x41200000), (F32.ofBits 0x41A00000), (F32.ofBits 0x41F00000)⟩⟩, some ⟨⟨(F32.ofBits 0x42DC0000), (F32.ofBits 0x42F00000), (F32.ofBits 0x43020000)⟩, ⟨(F32.ofBits 0x42DC0000), (F32.ofBits 0x42F00000), (F32.ofBits 0x43020000)⟩⟩, none] (by decide +kernel) (by decide +kernel) r h
  clear h
  revert ws
  decide +kernel

/-- The case "NonRoot". -/
theorem core_Model_BoundingBox_nonroot (r : Box) : boxNonRoot.BoundingBox r → r = ⟨⟨(F32.ofBits 0x41200000), (F32.ofBits 0x41A00000), (F32.ofBits 0x41F00000)⟩, ⟨(F32.ofBits 0x42DC0000), (F32.ofBits 0x42F00000), (F32.ofBits 0x43020000)⟩⟩ := by
  intro h
  obtain ⟨ws, h1, rfl⟩ := model_box_perm (n := 5) [some ⟨⟨(F32.ofBits 0x41200000), (F32.ofBits 0x41A00000), (F32.ofBits 0x41F00000)⟩, ⟨(F32.ofBits 0x42DC0000), (F32.ofBits 0x42F00000), (F32.ofBits 0x43020000)⟩⟩] (by decide +kernel) (by decide +kernel) r h
  clear h
  revert ws
  decide +kernel

/-- The case "Tree". -/
theorem core_Model_BoundingBox_tree (r : Box) : boxTree.BoundingBox r → r = ⟨⟨(F32.ofBits 0x41200000), (F32.ofBits 0x41A00000), (F32.ofBits 0x41F00000)⟩, ⟨(F32.ofBits 0x42DC0000), (F32.ofBits 0x42F00000), (F32.ofBits 0x43020000)⟩⟩ := by
  intro h
  obtain ⟨ws, h1, rfl⟩ := model_box_perm (n := 5) [some ⟨⟨(F32.ofBits 0x41200000), (F32.ofBits 0x41A00000), (F32.ofBits 0x41F00000)⟩, ⟨(F32.ofBits 0x42DC0000), (F32.ofBits 0x42F00000), (F32.ofBits 0x43020000)⟩⟩] (by decide +kernel) (by decide +kernel) r h
  clear h
  revert ws
  decide +kernel

/-- math_test.go:45-63 `Test_newvec3IFromVec3`. -/
theorem math_newvec3IFromVec3 : cellOf ⟨(F32.ofBits 0x3F99999A), (F32.ofBits 0x40133333), (F32.ofBits 0x4059999A)⟩ = ⟨1200000, 2300000, 3400000⟩ := by
  decide +kernel

/-- math_test.go:65-94 `Test_vectorTree_AddFindVector`. -/
theorem math_vectorTree_AddFindVector : 
    VectorTree.findVector (VectorTree.addVector ([] : VectorTree) ⟨(F32.ofBits 0x461C4133), (F32.ofBits 0x469C4066), .one⟩ 2) ⟨(F32.ofBits 0x461C4133), (F32.ofBits 0x469C4066), .one⟩ = some 2 ∧
    VectorTree.findVector (VectorTree.addVector (VectorTree.addVector ([] : VectorTree) ⟨(F32.ofBits 0x461C4133), (F32.ofBits 0x469C4066), .one⟩ 2) ⟨(F32.ofBits 0x461C4133), (F32.ofBits 0x469C4066), .one⟩ 4) ⟨(F32.ofBits 0x461C4133), (F32.ofBits 0x469C4066), .one⟩ = some 4 ∧
    VectorTree.findVector (VectorTree.addVector (VectorTree.addVector (VectorTree.addVector ([] : VectorTree) ⟨(F32.ofBits 0x461C4133), (F32.ofBits 0x469C4066), .one⟩ 2) ⟨(F32.ofBits 0x461C4133), (F32.ofBits 0x469C4066), .one⟩ 4) ⟨(F32.ofBits 0x40000000), .one, (F32.ofBits 0x4059999A)⟩ 5) ⟨(F32.ofBits 0x40000000), .one, (F32.ofBits 0x4059999A)⟩ = some 5 ∧
    VectorTree.findVector (VectorTree.addVector (VectorTree.addVector (VectorTree.addVector (VectorTree.addVector ([] : VectorTree) ⟨(F32.ofBits 0x461C4133), (F32.ofBits 0x469C4066), .one⟩ 2) ⟨(F32.ofBits 0x461C4133), (F32.ofBits 0x469C4066), .one⟩ 4) ⟨(F32.ofBits 0x40000000), .one, (F32.ofBits 0x4059999A)⟩ 5) ⟨(F32.ofBits 0x40000000), .one, (F32.ofBits 0x4059999A)⟩ 1) ⟨(F32.ofBits 0x40000000), .one, (F32.ofBits 0x4059999A)⟩ = some 1 := by
  decide +kernel

/-- math_test.go:96-115 `Test_vectorTree_RemoveVector`; the test only checks that nothing panics. -/
theorem math_vectorTree_RemoveVector : let t := VectorTree.addVector [] ⟨.one, (F32.ofBits 0x40000000), (F32.ofBits 0x40A9999A)⟩ 1;
    VectorTree.removeVector t ⟨(F32.ofBits 0x40000000), (F32.ofBits 0x40400000), (F32.ofBits 0x40800000)⟩ = t ∧
    VectorTree.removeVector (VectorTree.removeVector t ⟨(F32.ofBits 0x40000000), (F32.ofBits 0x40400000), (F32.ofBits 0x40800000)⟩) ⟨.one, (F32.ofBits 0x40000000), (F32.ofBits 0x40A9999A)⟩ = [] := by
  decide +kernel

/-- math_test.go:117-136 `TestMatrix_Mul`. -/
theorem math_Matrix_Mul : Matrix.identity.mul .identity = .identity := by
  decide +kernel

/-- math_test.go:138-156 `TestMatrix_String`. -/
theorem math_Matrix_String : Matrix.str ⟨(F32.ofBits 0x3F8FCD36), (F32.ofBits 0x4007E69B), (F32.ofBits 0x4047E69B), (F32.ofBits 0x4083F34D), (F32.ofBits 0x40A3F34D), (F32.ofBits 0x40C3F34D), (F32.ofBits 0x40E3F34D), (F32.ofBits 0x4101F9A7), (F32.ofBits 0x4111F9A7), (F32.ofBits 0x4121F9A7), (F32.ofBits 0x4131F9A7), (F32.ofBits 0x4141F9A7), (F32.ofBits 0x4151F9A7), (F32.ofBits 0x4161F9A7), (F32.ofBits 0x4171F9A7), (F32.ofBits 0x4180FCD3)⟩ = b!"1.123 2.123 3.123 5.123 6.123 7.123 9.123 10.123 11.123 13.123 14.123 15.123" := by
  decide +kernel

/-- math_test.go:158-181 `TestMatrix_Translate`. -/
theorem math_Matrix_Translate : 
    Matrix.translate ⟨.zero, .zero, .zero, .zero, .zero, .zero, .zero, .zero, .zero, .zero, .zero, .zero, .zero, .zero, .zero, .zero⟩ .zero .zero .zero = ⟨.zero, .zero, .zero, .zero, .zero, .zero, .zero, .zero, .zero, .zero, .zero, .zero, .zero, .zero, .zero, .zero⟩ ∧
    Matrix.translate .identity .one (F32.ofBits 0x40000000) (F32.ofBits 0x40400000) = ⟨.one, .zero, .zero, .zero, .zero, .one, .zero, .zero, .zero, .zero, .one, .zero, .one, (F32.ofBits 0x40000000), (F32.ofBits 0x40400000), .one⟩ ∧
    Matrix.translate ⟨.zero, .zero, .zero, .zero, .zero, .zero, .zero, .zero, .zero, .zero, .zero, .zero, .one, (F32.ofBits 0x40000000), (F32.ofBits 0x40400000), .zero⟩ .one (F32.ofBits 0x40000000) (F32.ofBits 0x40400000) = ⟨.zero, .zero, .zero, .zero, .zero, .zero, .zero, .zero, .zero, .zero, .zero, .zero, (F32.ofBits 0x40000000), (F32.ofBits 0x40800000), (F32.ofBits 0x40C00000), .zero⟩ := by
  decide +kernel

/-- math_test.go:183-205 `TestMatrix_Mul3D`. -/
theorem math_Matrix_Mul3D : 
    Matrix.mul3D ⟨.zero, .zero, .zero, .zero, .zero, .zero, .zero, .zero, .zero, .zero, .zero, .zero, .zero, .zero, .zero, .zero⟩ ⟨.zero, .zero, .zero⟩ = ⟨.zero, .zero, .zero⟩ ∧
    Matrix.mul3D .identity ⟨.zero, .zero, .zero⟩ = ⟨.zero, .zero, .zero⟩ ∧
    Matrix.mul3D .identity ⟨.one, (F32.ofBits 0x40000000), (F32.ofBits 0x40400000)⟩ = ⟨.one, (F32.ofBits 0x40000000), (F32.ofBits 0x40400000)⟩ ∧
    Matrix.mul3D (Matrix.identity.translate .one (F32.ofBits 0x40000000) (F32.ofBits 0x40400000)) ⟨.zero, .zero, .zero⟩ = ⟨.one, (F32.ofBits 0x40000000), (F32.ofBits 0x40400000)⟩ := by
  decide +kernel

/-- math_test.go:207-229 `TestMatrix_Mul2D`. -/
theorem math_Matrix_Mul2D : 
    Matrix.mul2D ⟨.zero, .zero, .zero, .zero, .zero, .zero, .zero, .zero, .zero, .zero, .zero, .zero, .zero, .zero, .zero, .zero⟩ ⟨.zero, .zero⟩ = ⟨.zero, .zero⟩ ∧
    Matrix.mul2D .identity ⟨.zero, .zero⟩ = ⟨.zero, .zero⟩ ∧
    Matrix.mul2D .identity ⟨.one, (F32.ofBits 0x40000000)⟩ = ⟨.one, (F32.ofBits 0x40000000)⟩ ∧
    Matrix.mul2D (Matrix.identity.translate .one (F32.ofBits 0x40000000) .zero) ⟨.zero, .zero⟩ = ⟨.one, (F32.ofBits 0x40000000)⟩ := by
  decide +kernel

/-- math_test.go:231-261 `Test_pairMatch_AddMatch`. -/
theorem math_pairMatch_AddMatch : 
    PairMatch.check (PairMatch.add ([] : PairMatch) 1 1 2) 1 1 = some 2 ∧
    PairMatch.check (PairMatch.add (PairMatch.add ([] : PairMatch) 1 1 2) 1 1 4) 1 1 = some 4 ∧
    PairMatch.check (PairMatch.add (PairMatch.add (PairMatch.add ([] : PairMatch) 1 1 2) 1 1 4) 2 1 5) 2 1 = some 5 ∧
    PairMatch.check (PairMatch.add (PairMatch.add (PairMatch.add (PairMatch.add ([] : PairMatch) 1 1 2) 1 1 4) 2 1 5) 2 1 1) 2 1 = some 1 := by
  decide +kernel

/-- math_test.go:263-284 `Test_newPairEntry`. -/
theorem math_newPairEntry : 
    newPairEntry 1 1 = (1, 1) ∧
    newPairEntry 2 1 = (1, 2) ∧
    newPairEntry 1 2 = (1, 2) := by
  decide +kernel

/-- math_test.go:286-308 `TestBox_extendPoint`. -/
theorem math_Box_extendPoint : 
    Box.extendPoint ⟨⟨.zero, .zero, .zero⟩, ⟨.zero, .zero, .zero⟩⟩ ⟨.zero, .zero, .zero⟩ = ⟨⟨.zero, .zero, .zero⟩, ⟨.zero, .zero, .zero⟩⟩ ∧
    Box.extendPoint ⟨⟨.one, .one, .one⟩, ⟨(F32.ofBits 0x40000000), (F32.ofBits 0x40000000), (F32.ofBits 0x40000000)⟩⟩ ⟨.one, .one, (F32.ofBits 0x40000000)⟩ = ⟨⟨.one, .one, .one⟩, ⟨(F32.ofBits 0x40000000), (F32.ofBits 0x40000000), (F32.ofBits 0x40000000)⟩⟩ ∧
    Box.extendPoint ⟨⟨.one, .one, .one⟩, ⟨(F32.ofBits 0x40000000), (F32.ofBits 0x40000000), (F32.ofBits 0x40000000)⟩⟩ ⟨(F32.ofBits 0xBF800000), .zero, (F32.ofBits 0x40800000)⟩ = ⟨⟨(F32.ofBits 0xBF800000), .zero, .one⟩, ⟨(F32.ofBits 0x40000000), (F32.ofBits 0x40000000), (F32.ofBits 0x40800000)⟩⟩ := by
  decide +kernel

/-- math_test.go:310-351 `TestBox_extend`. -/
theorem math_Box_extend : 
    Box.extend ⟨⟨.zero, .zero, .zero⟩, ⟨.zero, .zero, .zero⟩⟩ ⟨⟨.zero, .zero, .zero⟩, ⟨.zero, .zero, .zero⟩⟩ = ⟨⟨.zero, .zero, .zero⟩, ⟨.zero, .zero, .zero⟩⟩ ∧
    Box.extend ⟨⟨.one, .one, .one⟩, ⟨(F32.ofBits 0x40000000), (F32.ofBits 0x40000000), (F32.ofBits 0x40000000)⟩⟩ ⟨⟨.one, .one, .one⟩, ⟨(F32.ofBits 0x40000000), (F32.ofBits 0x40000000), (F32.ofBits 0x40000000)⟩⟩ = ⟨⟨.one, .one, .one⟩, ⟨(F32.ofBits 0x40000000), (F32.ofBits 0x40000000), (F32.ofBits 0x40000000)⟩⟩ ∧
    Box.extend ⟨⟨.one, .one, .one⟩, ⟨(F32.ofBits 0x40000000), (F32.ofBits 0x40000000), (F32.ofBits 0x40000000)⟩⟩ ⟨⟨(F32.ofBits 0x3F8CCCCD), (F32.ofBits 0x3F8CCCCD), (F32.ofBits 0x3F8CCCCD)⟩, ⟨(F32.ofBits 0x3FF33333), (F32.ofBits 0x3FF33333), (F32.ofBits 0x3FF33333)⟩⟩ = ⟨⟨.one, .one, .one⟩, ⟨(F32.ofBits 0x40000000), (F32.ofBits 0x40000000), (F32.ofBits 0x40000000)⟩⟩ ∧
    Box.extend ⟨⟨.one, .one, .one⟩, ⟨(F32.ofBits 0x40000000), (F32.ofBits 0x40000000), (F32.ofBits 0x40000000)⟩⟩ ⟨⟨(F32.ofBits 0xBF800000), (F32.ofBits 0xBF800000), (F32.ofBits 0xBF800000)⟩, ⟨(F32.ofBits 0x40400000), (F32.ofBits 0x40400000), (F32.ofBits 0x40400000)⟩⟩ = ⟨⟨(F32.ofBits 0xBF800000), (F32.ofBits 0xBF800000), (F32.ofBits 0xBF800000)⟩, ⟨(F32.ofBits 0x40400000), (F32.ofBits 0x40400000), (F32.ofBits 0x40400000)⟩⟩ := by
  decide +kernel

/-- math_test.go:353-379 `TestMatrix_MulBox`. -/
theorem math_Matrix_MulBox : 
    Matrix.mulBox .identity ⟨⟨.zero, .zero, .zero⟩, ⟨.zero, .zero, .zero⟩⟩ = ⟨⟨.zero, .zero, .zero⟩, ⟨.zero, .zero, .zero⟩⟩ ∧
    Matrix.mulBox ⟨(F32.ofBits 0xC0000000), .zero, .zero, .zero, .zero, (F32.ofBits 0x40000000), .zero, .zero, .zero, .zero, (F32.ofBits 0x40000000), .zero, .zero, .zero, .zero, .one⟩ ⟨⟨.one, .one, .one⟩, ⟨(F32.ofBits 0x40000000), (F32.ofBits 0x40000000), (F32.ofBits 0x40000000)⟩⟩ = ⟨⟨(F32.ofBits 0xC0800000), (F32.ofBits 0x40000000), (F32.ofBits 0x40000000)⟩, ⟨(F32.ofBits 0xC0000000), (F32.ofBits 0x40800000), (F32.ofBits 0x40800000)⟩⟩ := by
  decide +kernel

/-- spec/utils_test.go:12-44 `TestReadRGBA`. -/
theorem spec_ReadRGBA : 
    parseRGBA [] = (⟨0, 0, 0, 0⟩, true) ∧
    parseRGBA b!"101010" = (⟨0, 0, 0, 0⟩, true) ∧
    parseRGBA b!"10101010" = (⟨0, 0, 0, 0⟩, true) ∧
    parseRGBA b!"#€0101010" = (⟨0, 0, 0, 0⟩, true) ∧
    parseRGBA b!"#T0101010" = (⟨0, 16, 16, 16⟩, true) ∧
    parseRGBA b!"#112233" = (⟨17, 34, 51, 255⟩, false) ∧
    parseRGBA b!"#ff0033" = (⟨255, 0, 51, 255⟩, false) ∧
    parseRGBA b!"#000233ff" = (⟨0, 2, 51, 255⟩, false) ∧
    parseRGBA b!"#ff0233AB" = (⟨255, 2, 51, 171⟩, false) := by
  decide +kernel

/-- spec/utils_test.go:46-65 `TestFormatRGBA`. -/
theorem spec_FormatRGBA : 
    formatRGBA ⟨200, 250, 60, 80⟩ = b!"#c8fa3c50" ∧
    formatRGBA ⟨255, 0, 0, 255⟩ = b!"#ff0000" ∧
    formatRGBA ⟨0, 255, 0, 255⟩ = b!"#00ff00" ∧
    formatRGBA ⟨0, 0, 255, 255⟩ = b!"#0000ff" ∧
    formatRGBA ⟨0, 0, 0, 0⟩ = b!"#00000000" := by
  decide +kernel

/-- spec/utils_test.go:67-91 `TestParseMatrix`. -/
theorem spec_ParseMatrix : 
    (parseMatrix []).getD .zero = .zero ∧
    (parseMatrix b!"1 1 1 1 1 1 1 1 1 1 1").getD .zero = .zero ∧
    (parseMatrix b!"1 1 1 1 1 1 1 1 1 1 1 1 1").getD .zero = .zero ∧
    (parseMatrix b!"1 1 a 1 1 1 1 1 1 1 1 1").getD .zero = .zero ∧
    (parseMatrix b!"1 1 1 1 1 1 1 1 1 1 1 1").getD .zero = ⟨.one, .one, .one, .zero, .one, .one, .one, .zero, .one, .one, .one, .zero, .one, .one, .one, .one⟩ ∧
    (parseMatrix b!"0 1 2 10 11 12 20 21 22 30 31 32").getD .zero = ⟨.zero, .one, (F32.ofBits 0x40000000), .zero, (F32.ofBits 0x41200000), (F32.ofBits 0x41300000), (F32.ofBits 0x41400000), .zero, (F32.ofBits 0x41A00000), (F32.ofBits 0x41A80000), (F32.ofBits 0x41B00000), .zero, (F32.ofBits 0x41F00000), (F32.ofBits 0x41F80000), (F32.ofBits 0x42000000), .one⟩ := by
  decide +kernel

/-- uuid/uuid_test.go:95-99 `TestValidate`. -/
theorem uuid_Validate : 
    uuidValid b!"f47ac10b-58cc-0372-8567-0e02b2c3d479" = true ∧
    uuidValid b!"f47ac10b-58cc-1372-8567-0e02b2c3d479" = true ∧
    uuidValid b!"f47ac10b-58cc-2372-8567-0e02b2c3d479" = true ∧
    uuidValid b!"f47ac10b-58cc-3372-8567-0e02b2c3d479" = true ∧
    uuidValid b!"f47ac10b-58cc-4372-8567-0e02b2c3d479" = true ∧
    uuidValid b!"f47ac10b-58cc-5372-8567-0e02b2c3d479" = true ∧
    uuidValid b!"f47ac10b-58cc-6372-8567-0e02b2c3d479" = true ∧
    uuidValid b!"f47ac10b-58cc-7372-8567-0e02b2c3d479" = true ∧
    uuidValid b!"f47ac10b-58cc-8372-8567-0e02b2c3d479" = true ∧
    uuidValid b!"f47ac10b-58cc-9372-8567-0e02b2c3d479" = true ∧
    uuidValid b!"f47ac10b-58cc-a372-8567-0e02b2c3d479" = true ∧
    uuidValid b!"f47ac10b-58cc-b372-8567-0e02b2c3d479" = true ∧
    uuidValid b!"f47ac10b-58cc-c372-8567-0e02b2c3d479" = true ∧
    uuidValid b!"f47ac10b-58cc-d372-8567-0e02b2c3d479" = true ∧
    uuidValid b!"f47ac10b-58cc-e372-8567-0e02b2c3d479" = true ∧
    uuidValid b!"f47ac10b-58cc-f372-8567-0e02b2c3d479" = true ∧
    uuidValid b!"urn:uuid:f47ac10b-58cc-4372-0567-0e02b2c3d479" = true ∧
    uuidValid b!"URN:UUID:f47ac10b-58cc-4372-0567-0e02b2c3d479" = true ∧
    uuidValid b!"f47ac10b-58cc-4372-0567-0e02b2c3d479" = true ∧
    uuidValid b!"f47ac10b-58cc-4372-1567-0e02b2c3d479" = true ∧
    uuidValid b!"f47ac10b-58cc-4372-2567-0e02b2c3d479" = true ∧
    uuidValid b!"f47ac10b-58cc-4372-3567-0e02b2c3d479" = true ∧
    uuidValid b!"f47ac10b-58cc-4372-4567-0e02b2c3d479" = true ∧
    uuidValid b!"f47ac10b-58cc-4372-5567-0e02b2c3d479" = true ∧
    uuidValid b!"f47ac10b-58cc-4372-6567-0e02b2c3d479" = true ∧
    uuidValid b!"f47ac10b-58cc-4372-7567-0e02b2c3d479" = true ∧
    uuidValid b!"f47ac10b-58cc-4372-8567-0e02b2c3d479" = true ∧
    uuidValid b!"f47ac10b-58cc-4372-9567-0e02b2c3d479" = true ∧
    uuidValid b!"f47ac10b-58cc-4372-a567-0e02b2c3d479" = true ∧
    uuidValid b!"f47ac10b-58cc-4372-b567-0e02b2c3d479" = true ∧
    uuidValid b!"f47ac10b-58cc-4372-c567-0e02b2c3d479" = true ∧
    uuidValid b!"f47ac10b-58cc-4372-d567-0e02b2c3d479" = true ∧
    uuidValid b!"f47ac10b-58cc-4372-e567-0e02b2c3d479" = true ∧
    uuidValid b!"f47ac10b-58cc-4372-f567-0e02b2c3d479" = true ∧
    uuidValid b!"UR1:UUID:f47ac10b-58cc-4372-0567-0e02b2c3d479" = false ∧
    uuidValid b!"f47ac10b158cc-5372-a567-0e02b2c3d479" = false ∧
    uuidValid b!"f47ac10b-58cc25372-a567-0e02b2c3d479" = false ∧
    uuidValid b!"f47ac10b-58cc-53723a567-0e02b2c3d479" = false ∧
    uuidValid b!"f47ac10b-58cc-5372-a56740e02b2c3d479" = false ∧
    uuidValid b!"f47ac10b-58cc-5372-a567-0e02-2c3d479" = false ∧
    uuidValid b!"g47ac10b-58cc-4372-a567-0e02b2c3d479" = false ∧
    uuidValid b!"{f47ac10b-58cc-0372-8567-0e02b2c3d479}" = true ∧
    uuidValid b!"{f47ac10b-58cc-0372-8567-0e02b2c3d479" = false ∧
    uuidValid b!"f47ac10b-58cc-0372-8567-0e02b2c3d479}" = false ∧
    uuidValid b!"f47ac10b58cc037285670e02b2c3d479" = true ∧
    uuidValid b!"f47ac10b58cc037285670e02b2c3d47Z" = false ∧
    uuidValid b!"f47ac10b58cc037285670e02b2c3d4790" = false ∧
    uuidValid b!"f47ac10b58cc037285670e02b2c3d47" = false := by
  decide +kernel

/-- errors/list_test.go:13-51 `TestList_Error_nil`, `TestList_Error_single`, `TestList_Error_multiple`. -/
theorem list_Error : 
    ErrVal.nilList.text = some [] ∧
    (ErrVal.err (.list [.leaf (.other b!"foo")])).text = some b!"1 error occurred:\n\t* foo\n" ∧
    (ErrVal.err (.list [.leaf (.other b!"foo"), .leaf (.other b!"bar")])).text = some b!"2 errors occurred:\n\t* foo\n\t* bar\n" := by
  decide +kernel

/-- `len(result.(*List).Errors)`: `none` if the value is not a list, `some none` if reading `Errors` of a nil list panics. -/
def listLen : ErrVal → Option Nat
  | .err (.list l) => some l.length
  | _ => none

/-- errors/list_test.go:53-144 `TestAppend_Error`, `TestAppend_NilError`, `TestAppend_ErrsEmpty`, `TestAppend_ErrsWithNil`, `TestAppend_NilErrorArg`,
`TestAppend_NilErrorIfaceArg`, `TestAppend_NonError`, `TestAppend_NonError_Error`. -/
theorem list_Append : 
    listLen (ErrVal.append (.err (.list [.leaf (.other b!"foo")])) [(.err (.leaf (.other b!"bar")))]) = some 2 ∧
    listLen (ErrVal.append (.err (.list [])) [(.err (.leaf (.other b!"bar")))]) = some 1 ∧
    listLen (ErrVal.append .nilList [(.err (.leaf (.other b!"baz")))]) = some 1 ∧
    listLen (ErrVal.append (.err (.list [.leaf (.other b!"foo")])) [ErrVal.append .nil [(.err (.leaf (.other b!"foo"))), (.err (.leaf (.other b!"bar")))]]) = some 3 ∧
    listLen (ErrVal.append .nil [(.err (.leaf (.other b!"bar")))]) = some 1 ∧
    (ErrVal.append .nil []).nonNil = false ∧
    (match ErrVal.append .nilList [.nil] with | .nilList => true | _ => false) = true ∧
    listLen (ErrVal.append .nil [.nilList]) = some 0 ∧
    (ErrVal.append .nil [.nil]).nonNil = false ∧
    listLen (ErrVal.append (.err (.leaf (.other b!"foo"))) [(.err (.leaf (.other b!"bar")))]) = some 2 ∧
    listLen (ErrVal.append (.err (.leaf (.other b!"foo"))) [ErrVal.append .nil [(.err (.leaf (.other b!"bar")))]]) = some 2 := by
  decide +kernel

/-- materials/materials_test.go:136-151 `TestTexture2DType_String`. -/
theorem ext_Texture2DType_String : 
    Texture2DType.str (.png : Texture2DType) = b!"image/png" ∧
    Texture2DType.str (.jpeg : Texture2DType) = b!"image/jpeg" := by
  decide +kernel

/-- materials/materials_test.go:297-318 `Test_newTexture2DType`. -/
theorem ext_newTexture2DType : 
    newTexture2DType b!"image/png" = some .png ∧
    newTexture2DType b!"image/jpeg" = some .jpeg ∧
    newTexture2DType [] = none := by
  decide +kernel

/-- materials/materials_test.go:153-168 `TestBlendMethod_String`. -/
theorem ext_BlendMethod_String : 
    BlendMethod.str (.mix : BlendMethod) = b!"mix" ∧
    BlendMethod.str (.multiply : BlendMethod) = b!"multiply" := by
  decide +kernel

/-- materials/materials_test.go:225-246 `Test_newBlendMethod`. -/
theorem ext_newBlendMethod : 
    newBlendMethod b!"mix" = some .mix ∧
    newBlendMethod b!"multiply" = some .multiply ∧
    newBlendMethod b!"empty" = none := by
  decide +kernel

/-- materials/materials_test.go:170-187 `TestTileStyle_String`. -/
theorem ext_TileStyle_String : 
    TileStyle.str (.wrap : TileStyle) = b!"wrap" ∧
    TileStyle.str (.mirror : TileStyle) = b!"mirror" ∧
    TileStyle.str (.clamp : TileStyle) = b!"clamp" ∧
    TileStyle.str (.none : TileStyle) = b!"none" := by
  decide +kernel

/-- materials/materials_test.go:272-295 `Test_newTileStyle`. -/
theorem ext_newTileStyle : 
    newTileStyle b!"wrap" = some .wrap ∧
    newTileStyle b!"mirror" = some .mirror ∧
    newTileStyle b!"clamp" = some .clamp ∧
    newTileStyle b!"none" = some .none ∧
    newTileStyle b!"empty" = none := by
  decide +kernel

/-- materials/materials_test.go:189-205 `TestTextureFilter_String`. -/
theorem ext_TextureFilter_String : 
    TextureFilter.str (.auto : TextureFilter) = b!"auto" ∧
    TextureFilter.str (.linear : TextureFilter) = b!"linear" ∧
    TextureFilter.str (.nearest : TextureFilter) = b!"nearest" := by
  decide +kernel

/-- materials/materials_test.go:248-270 `Test_newTextureFilter`. -/
theorem ext_newTextureFilter : 
    newTextureFilter b!"auto" = some .auto ∧
    newTextureFilter b!"linear" = some .linear ∧
    newTextureFilter b!"nearest" = some .nearest ∧
    newTextureFilter b!"empty" = none := by
  decide +kernel

/-- slices/slices_test.go:37-52 `TestMeshResolution_String`. -/
theorem ext_MeshResolution_String : 
    MeshResolution.str (.full : MeshResolution) = b!"fullres" ∧
    MeshResolution.str (.low : MeshResolution) = b!"lowres" := by
  decide +kernel

/-- slices/slices_test.go:54-74 `Test_newMeshResolution`. -/
theorem ext_newMeshResolution : 
    newMeshResolution b!"fullres" = some .full ∧
    newMeshResolution b!"lowres" = some .low := by
  decide +kernel

/-- beamlattice/beamlattice_test.go:19-35 `TestCapMode_String`. -/
theorem ext_CapMode_String : 
    CapMode.str (.sphere : CapMode) = b!"sphere" ∧
    CapMode.str (.hemisphere : CapMode) = b!"hemisphere" ∧
    CapMode.str (.butt : CapMode) = b!"butt" := by
  decide +kernel

/-- beamlattice/beamlattice_test.go:37-59 `Test_newCapMode`. -/
theorem ext_newCapMode : 
    newCapMode b!"sphere" = some .sphere ∧
    newCapMode b!"hemisphere" = some .hemisphere ∧
    newCapMode b!"butt" = some .butt ∧
    newCapMode b!"empty" = none := by
  decide +kernel

/-- beamlattice/beamlattice_test.go:85-101 `TestClipMode_String`. -/
theorem ext_ClipMode_String : 
    ClipMode.str (.none : ClipMode) = b!"none" ∧
    ClipMode.str (.inside : ClipMode) = b!"inside" ∧
    ClipMode.str (.outside : ClipMode) = b!"outside" := by
  decide +kernel

/-- beamlattice/beamlattice_test.go:61-83 `Test_newClipMode`. -/
theorem ext_newClipMode : 
    newClipMode b!"none" = some .none ∧
    newClipMode b!"inside" = some .inside ∧
    newClipMode b!"outside" = some .outside ∧
    newClipMode b!"empty" = none := by
  decide +kernel

end Go3mf.Tests
