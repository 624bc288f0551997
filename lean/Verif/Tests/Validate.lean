import Verif.Model.Validate
import Verif.Model.Coherency
import Verif.Model.CoherencyPar
import Verif.Tests.Ext

/-!
# Tests of the repository: validation

validate_test.go and the files of the same name of the extensions, with the same models and the same expected texts of errors.
The test extension `fakeSpec` of validate_test.go is not modelled: its attributes and the one error it reports are left out.
-/

namespace Go3mf.Tests

/-- The texts of the errors of `Validate` with one extension registered. -/
def validateErrs (env : Env) (m : Model) : Option (List Str) :=
  (m.validateFuel env 64).map fun es => es.map Err.text

/-- validate_test.go:18-155 `TestValidate`, case "empty". -/
theorem core_validate_empty : validateErrs noExt
      Model.zero = some
      [] := by
  decide +kernel

/-- validate_test.go:18-155 `TestValidate`, case "rels". -/
theorem core_validate_rels : validateErrs noExt
      { Model.zero with attachments := [⟨[], b!"/a.png", []⟩], relationships := [⟨[], [], []⟩, ⟨b!"/.png", [], []⟩, ⟨b!"/a.png", [], []⟩, ⟨b!"a.png", [], []⟩, ⟨b!"/b.png", [], []⟩, ⟨b!"/a.png", [], []⟩, ⟨b!"/a.png", b!"http://schemas.microsoft.com/3dmanufacturing/2013/01/printticket", []⟩, ⟨b!"/a.png", b!"http://schemas.microsoft.com/3dmanufacturing/2013/01/printticket", []⟩] } = some
      [b!"go3mf: Path: /3D/3dmodel.model XPath: /model/relationship[0]: part name MUST conform to the syntax specified in the OPC specification",
       b!"go3mf: Path: /3D/3dmodel.model XPath: /model/relationship[1]: part name MUST conform to the syntax specified in the OPC specification",
       b!"go3mf: Path: /3D/3dmodel.model XPath: /model/relationship[3]: part name MUST conform to the syntax specified in the OPC specification",
       b!"go3mf: Path: /3D/3dmodel.model XPath: /model/relationship[4]: relationship target part MUST be included in the 3MF document",
       b!"go3mf: Path: /3D/3dmodel.model XPath: /model/relationship[5]: there MUST NOT be more than one relationship of a given type from one part to a second part",
       b!"go3mf: Path: /3D/3dmodel.model XPath: /model/relationship[6]: part MUST use an appropriate content type specified",
       b!"go3mf: Path: /3D/3dmodel.model XPath: /model/relationship[7]: there MUST NOT be more than one relationship of a given type from one part to a second part",
       b!"go3mf: Path: /3D/3dmodel.model XPath: /model/relationship[7]: part MUST use an appropriate content type specified",
       b!"go3mf: Path: /3D/3dmodel.model XPath: /model/relationship[7]: each model part MUST attach no more than one PrintTicket"] := by
  decide +kernel

/-- validate_test.go:18-155 `TestValidate`, case "namespaces". -/
theorem core_validate_namespaces : validateErrs noExt
      { Model.zero with extensions := [⟨b!"fake", b!"f", true⟩] } = some
      [b!"go3mf: XPath: /model: unsupported required extension"] := by
  decide +kernel

/-- validate_test.go:18-155 `TestValidate`, case "metadata". -/
theorem core_validate_metadata : validateErrs noExt
      { Model.zero with extensions := [⟨b!"fake", b!"f", false⟩], metadata := [⟨⟨b!"fake", b!"issue"⟩, [], [], false⟩, ⟨⟨b!"f", b!"issue"⟩, [], [], false⟩, ⟨⟨b!"fake", b!"issue"⟩, [], [], false⟩, ⟨⟨[], b!"issue"⟩, [], [], false⟩, ⟨⟨[], []⟩, [], [], false⟩] } = some
      [b!"go3mf: XPath: /model/metadata[1]: namespace MUST be declared on the model",
       b!"go3mf: XPath: /model/metadata[2]: names MUST NOT be duplicated",
       b!"go3mf: XPath: /model/metadata[3]: names without a namespace MUST be restricted to predefined values",
       b!"go3mf: XPath: /model/metadata[4]: required field 'name' is not set"] := by
  decide +kernel

/-- validate_test.go:18-155 `TestValidate`, case "build". -/
theorem core_validate_build : validateErrs noExt
      { Model.zero with resources := { Resources.zero with assets := [.base ⟨1, [⟨b!"a", ⟨0, 0, 0, 1⟩, []⟩], []⟩], objects := [{ Object.zero with id := 2, type := .other, mesh := some ⟨[⟨.zero, .zero, .zero⟩, ⟨.zero, .zero, .zero⟩, ⟨.zero, .zero, .zero⟩, ⟨.zero, .zero, .zero⟩], [], [⟨0, 1, 2, 0, 0, 0, 0, []⟩, ⟨0, 3, 1, 0, 0, 0, 0, []⟩, ⟨0, 2, 3, 0, 0, 0, 0, []⟩, ⟨1, 3, 2, 0, 0, 0, 0, []⟩], [], [], []⟩ }] }, build := { Build.zero with items := [Item.zero, { Item.zero with objectID := 2 }, { Item.zero with objectID := 100 }, { Item.zero with objectID := 1, metadata := ⟨[⟨⟨[], b!"issue"⟩, [], [], false⟩], []⟩ }], anyAttr := [] } } = some
      [b!"go3mf: XPath: /model/build/item[0]: required field 'objectid' is not set",
       b!"go3mf: XPath: /model/build/item[1]: MUST NOT reference objects of type other",
       b!"go3mf: XPath: /model/build/item[2]: resource MUST be defined prior to referencing",
       b!"go3mf: XPath: /model/build/item[3]: resource MUST be defined prior to referencing",
       b!"go3mf: XPath: /model/build/item[3]/metadata[0]: names without a namespace MUST be restricted to predefined values"] := by
  decide +kernel

/-- validate_test.go:18-155 `TestValidate`, case "childs". -/
theorem core_validate_childs : validateErrs noExt
      { Model.zero with childs := [(b!"/3D/3dmodel.model", ChildModel.zero), (b!"/a.model", { ChildModel.zero with resources := { Resources.zero with objects := [Object.zero] }, relationships := List.replicate 1 ⟨[], [], []⟩ })] } = some
      [b!"go3mf: XPath: /model: model part names MUST be unique",
       b!"go3mf: Path: /a.model XPath: /model/relationship[0]: part name MUST conform to the syntax specified in the OPC specification",
       b!"go3mf: Path: /a.model XPath: /model/resources/object[0]: resource ID MUST be greater than zero",
       b!"go3mf: Path: /a.model XPath: /model/resources/object[0]: MUST contain a mesh or components"] := by
  decide +kernel

/-- validate_test.go:18-155 `TestValidate`, case "assets". -/
theorem core_validate_assets : validateErrs noExt
      { Model.zero with resources := { Resources.zero with assets := [.base ⟨0, [⟨[], ⟨0, 0, 0, 0⟩, []⟩], []⟩, .base ⟨1, [⟨b!"a", ⟨0, 0, 0, 1⟩, []⟩], []⟩, .base ⟨1, [], []⟩] } } = some
      [b!"go3mf: XPath: /model/resources/basematerials[0]: resource ID MUST be greater than zero",
       b!"go3mf: XPath: /model/resources/basematerials[0]/base[0]: required field 'name' is not set",
       b!"go3mf: XPath: /model/resources/basematerials[0]/base[0]: required field 'displaycolor' is not set",
       b!"go3mf: XPath: /model/resources/basematerials[2]: IDs MUST be unique among all resources under same Model",
       b!"go3mf: XPath: /model/resources/basematerials[2]: resource properties MUST NOT be empty"] := by
  decide +kernel

/-- validate_test.go:18-155 `TestValidate`, case "objects". -/
theorem core_validate_objects : validateErrs noExt
      { Model.zero with resources := { Resources.zero with assets := [.base ⟨1, [⟨b!"a", ⟨0, 0, 0, 1⟩, []⟩, ⟨b!"b", ⟨0, 0, 0, 1⟩, []⟩], []⟩, .base ⟨5, [⟨b!"a", ⟨0, 0, 0, 1⟩, []⟩, ⟨b!"b", ⟨0, 0, 0, 1⟩, []⟩], []⟩], objects := [Object.zero, { Object.zero with id := 1, pindex := 1, mesh := some ⟨[], [], [], [], [], []⟩, components := some ⟨[{ Component.zero with objectID := 1 }], []⟩ }, { Object.zero with id := 2, mesh := some ⟨[⟨.zero, .zero, .zero⟩, ⟨.zero, .zero, .zero⟩, ⟨.zero, .zero, .zero⟩, ⟨.zero, .zero, .zero⟩], [], [⟨0, 1, 2, 0, 0, 0, 0, []⟩, ⟨0, 3, 1, 0, 0, 0, 0, []⟩, ⟨0, 2, 3, 0, 0, 0, 0, []⟩, ⟨1, 3, 2, 0, 0, 0, 0, []⟩], [], [], []⟩ }, { Object.zero with id := 3, pid := 5, components := some ⟨[{ Component.zero with objectID := 3 }, { Component.zero with objectID := 2 }, Component.zero, { Component.zero with objectID := 5 }, { Component.zero with objectID := 100 }], []⟩ }, { Object.zero with id := 4, pid := 100, mesh := some ⟨List.replicate 2 ⟨.zero, .zero, .zero⟩, [], List.replicate 3 ⟨0, 0, 0, 0, 0, 0, 0, []⟩, [], [], []⟩ }, { Object.zero with id := 6, pid := 5, pindex := 2, mesh := some ⟨[⟨.zero, .zero, .zero⟩, ⟨.zero, .zero, .zero⟩, ⟨.zero, .zero, .zero⟩, ⟨.zero, .zero, .zero⟩], [], [⟨0, 1, 2, 5, 2, 0, 0, []⟩, ⟨0, 1, 4, 5, 2, 2, 2, []⟩, ⟨0, 2, 3, 5, 1, 1, 0, []⟩, ⟨1, 2, 3, 100, 0, 0, 0, []⟩], [], [], []⟩ }] } } = some
      [b!"go3mf: XPath: /model/resources/object[0]: resource ID MUST be greater than zero",
       b!"go3mf: XPath: /model/resources/object[0]: MUST contain a mesh or components",
       b!"go3mf: XPath: /model/resources/object[1]: IDs MUST be unique among all resources under same Model",
       b!"go3mf: XPath: /model/resources/object[1]: required field 'pid' is not set",
       b!"go3mf: XPath: /model/resources/object[1]: MUST contain a mesh or components",
       b!"go3mf: XPath: /model/resources/object[1]/mesh: mesh MUST contain at least 3 vertices to form a solid body",
       b!"go3mf: XPath: /model/resources/object[1]/mesh: mesh MUST contain at least 4 triangles to form a solid body",
       b!"go3mf: XPath: /model/resources/object[1]/components/component[0]: MUST NOT contain recursive references",
       b!"go3mf: XPath: /model/resources/object[3]: MUST NOT assign pid to objects that contain components",
       b!"go3mf: XPath: /model/resources/object[3]/components/component[0]: MUST NOT contain recursive references",
       b!"go3mf: XPath: /model/resources/object[3]/components/component[2]: required field 'objectid' is not set",
       b!"go3mf: XPath: /model/resources/object[3]/components/component[3]: resource MUST be defined prior to referencing",
       b!"go3mf: XPath: /model/resources/object[3]/components/component[4]: resource MUST be defined prior to referencing",
       b!"go3mf: XPath: /model/resources/object[4]: resource MUST be defined prior to referencing",
       b!"go3mf: XPath: /model/resources/object[4]/mesh: mesh MUST contain at least 3 vertices to form a solid body",
       b!"go3mf: XPath: /model/resources/object[4]/mesh: mesh MUST contain at least 4 triangles to form a solid body",
       b!"go3mf: XPath: /model/resources/object[4]/mesh/triangle[0]: indices v1, v2 and v3 MUST be distinct",
       b!"go3mf: XPath: /model/resources/object[4]/mesh/triangle[1]: indices v1, v2 and v3 MUST be distinct",
       b!"go3mf: XPath: /model/resources/object[4]/mesh/triangle[2]: indices v1, v2 and v3 MUST be distinct",
       b!"go3mf: XPath: /model/resources/object[5]: index is bigger than referenced slice",
       b!"go3mf: XPath: /model/resources/object[5]/mesh/triangle[0]: index is bigger than referenced slice",
       b!"go3mf: XPath: /model/resources/object[5]/mesh/triangle[1]: index is bigger than referenced slice",
       b!"go3mf: XPath: /model/resources/object[5]/mesh/triangle[3]: resource MUST be defined prior to referencing"] := by
  decide +kernel

/-- slices/validate_test.go:17-188 `TestValidate`, case "extRequired". -/
theorem slices_validate_extRequired : validateErrs (onlyExt .slices)
      { Model.zero with resources := { Resources.zero with assets := [.res (.sliceStack ⟨1, .zero, [⟨.one, [], []⟩], []⟩)], objects := [{ Object.zero with id := 2, anyAttr := [.sliceObject 1 .low] }] }, extensions := [⟨b!"http://schemas.microsoft.com/3dmanufacturing/slice/2015/07", b!"s", true⟩], anyAttr := [.sliceObject 10 .full] } = some
      [b!"go3mf: XPath: /model/resources/object[0]: MUST contain a mesh or components"] := by
  decide +kernel

/-- slices/validate_test.go:17-188 `TestValidate`, case "child". -/
theorem slices_validate_child : validateErrs (onlyExt .slices)
      { { Model.zero with childs := [(b!"/other.model", { ChildModel.zero with resources := { Resources.zero with assets := [.res (.sliceStack ⟨1, .zero, [], []⟩)] } }), (b!"/that.model", { ChildModel.zero with resources := { Resources.zero with assets := [.res (.sliceStack ⟨2, .zero, [], []⟩)] } })] } with extensions := [⟨nsSlices, b!"s", false⟩] } = some
      [b!"go3mf: Path: /other.model XPath: /model/resources/slicestack[0]: may either contain slices or refs, but they MUST NOT contain both element types",
       b!"go3mf: Path: /that.model XPath: /model/resources/slicestack[0]: may either contain slices or refs, but they MUST NOT contain both element types"] := by
  decide +kernel

/-- slices/validate_test.go:17-188 `TestValidate`, case "slicestack". -/
theorem slices_validate_slicestack : validateErrs (onlyExt .slices)
      { { Model.zero with resources := { Resources.zero with assets := [.res (.sliceStack ⟨1, .one, [⟨.zero, [], []⟩, ⟨(F32.ofBits 0x3F000000), List.replicate 1 ⟨.zero, .zero⟩, []⟩, ⟨(F32.ofBits 0x3FC00000), List.replicate 2 ⟨.zero, .zero⟩, [⟨0, []⟩, ⟨0, [⟨0, 0, 0, 0⟩]⟩]⟩, ⟨(F32.ofBits 0x3FC00000), [], []⟩, ⟨(F32.ofBits 0x3FB33333), [], []⟩], []⟩)] } } with extensions := [⟨nsSlices, b!"s", false⟩] } = some
      [b!"go3mf: XPath: /model/resources/slicestack[0]/slice[0]: required field 'ztop' is not set",
       b!"go3mf: XPath: /model/resources/slicestack[0]/slice[1]: slice ztop is smaller than stack zbottom",
       b!"go3mf: XPath: /model/resources/slicestack[0]/slice[1]: slice MUST contain at least 2 vertices",
       b!"go3mf: XPath: /model/resources/slicestack[0]/slice[1]: slice MUST contain at least 1 polygon",
       b!"go3mf: XPath: /model/resources/slicestack[0]/slice[2]/polygon[0]: slice polygon MUST contain at least 1 segment",
       b!"go3mf: XPath: /model/resources/slicestack[0]/slice[3]: the first ztop in the next slicestack MUST be greater than the last ztop in the previous slicestack",
       b!"go3mf: XPath: /model/resources/slicestack[0]/slice[4]: the first ztop in the next slicestack MUST be greater than the last ztop in the previous slicestack"] := by
  decide +kernel

/-- slices/validate_test.go:17-188 `TestValidate`, case "sliceref". -/
theorem slices_validate_sliceref : validateErrs (onlyExt .slices)
      { { Model.zero with resources := { Resources.zero with assets := [.res (.sliceStack ⟨1, .zero, [⟨.one, [], []⟩, ⟨(F32.ofBits 0x40000000), [], []⟩], []⟩), .res (.sliceStack ⟨3, .zero, [], [⟨0, []⟩, ⟨1, b!"/3D/3dmodel.model"⟩, ⟨1, b!"/other.model"⟩, ⟨2, b!"/that.model"⟩, ⟨3, b!"/that.model"⟩, ⟨1, b!"/that.model"⟩, ⟨4, b!"/that.model"⟩]⟩)] }, childs := [(b!"/that.model", { ChildModel.zero with resources := { Resources.zero with assets := [.res (.sliceStack ⟨1, .zero, [⟨.one, [], []⟩, ⟨(F32.ofBits 0x40000000), [], []⟩], []⟩), .res (.sliceStack ⟨2, .zero, [], [⟨1, b!"/3D/3dmodel.model"⟩]⟩), .base ⟨3, [⟨b!"a", ⟨1, 0, 0, 0⟩, []⟩], []⟩, .res (.sliceStack ⟨4, .zero, [⟨(F32.ofBits 0x3FC00000), [], []⟩], []⟩)] } })] } with extensions := [⟨nsSlices, b!"s", false⟩] } = some
      [b!"go3mf: XPath: /model/resources/slicestack[1]/sliceref[0]: required field 'slicepath' is not set",
       b!"go3mf: XPath: /model/resources/slicestack[1]/sliceref[0]: required field 'slicestackid' is not set",
       b!"go3mf: XPath: /model/resources/slicestack[1]/sliceref[1]: the path of the referenced slice stack MUST be different than the path of the original slice stack",
       b!"go3mf: XPath: /model/resources/slicestack[1]/sliceref[2]: resource MUST be defined prior to referencing",
       b!"go3mf: XPath: /model/resources/slicestack[1]/sliceref[3]: a referenced slice stack MUST NOT contain any further sliceref elements",
       b!"go3mf: XPath: /model/resources/slicestack[1]/sliceref[4]: slicestackid MUST reference a slice stack resource",
       b!"go3mf: XPath: /model/resources/slicestack[1]/sliceref[6]: the first ztop in the next slicestack MUST be greater than the last ztop in the previous slicestack"] := by
  decide +kernel

/-- slices/validate_test.go:17-188 `TestValidate`, case "info". -/
theorem slices_validate_info : validateErrs (onlyExt .slices)
      { { Model.zero with resources := { Resources.zero with assets := [.res (.sliceStack ⟨3, .zero, [⟨.one, [⟨.zero, .zero⟩, ⟨.zero, .zero⟩, ⟨.zero, .zero⟩], [⟨1, [⟨2, 0, 0, 0⟩]⟩]⟩], []⟩), .base ⟨6, [⟨b!"a", ⟨1, 0, 0, 0⟩, []⟩], []⟩, .res (.sliceStack ⟨9, .zero, [], [⟨1, b!"/that.model"⟩]⟩), .res (.sliceStack ⟨11, .zero, [⟨.one, [⟨.zero, .zero⟩, ⟨.zero, .zero⟩, ⟨.zero, .zero⟩], [⟨1, [⟨2, 0, 0, 0⟩, ⟨1, 0, 0, 0⟩]⟩]⟩], []⟩)], objects := [{ Object.zero with id := 1, mesh := some ⟨[], [], [], [], [], []⟩, anyAttr := [.sliceObject 1 .full] }, { Object.zero with id := 2, type := .support, components := some ⟨[{ Component.zero with objectID := 1 }], []⟩, anyAttr := [.sliceObject 3 .low] }, { Object.zero with id := 4, components := some ⟨[{ Component.zero with objectID := 10, transform := ⟨(F32.ofBits 0x40000000), (F32.ofBits 0x40400000), .zero, .zero, .one, (F32.ofBits 0x40400000), .zero, .zero, .zero, .zero, (F32.ofBits 0x40000000), .zero, (F32.ofBits 0x40000000), (F32.ofBits 0x40400000), (F32.ofBits 0x40800000), .one⟩ }], []⟩, anyAttr := [.sliceObject 0 .full] }, { Object.zero with id := 5, components := some ⟨[{ Component.zero with objectID := 12 }], []⟩, anyAttr := [.sliceObject 6 .full] }, { Object.zero with id := 7, components := some ⟨[{ Component.zero with objectID := 1 }, { Component.zero with objectID := 4 }], []⟩, anyAttr := [.sliceObject 9 .full] }, { Object.zero with id := 10, type := .solidSupport, components := some ⟨[{ Component.zero with objectID := 1 }], []⟩, anyAttr := [.sliceObject 3 .full] }, { Object.zero with id := 12, components := some ⟨[{ Component.zero with objectID := 7, transform := ⟨(F32.ofBits 0x40000000), (F32.ofBits 0x40400000), .zero, .zero, .one, (F32.ofBits 0x40400000), .one, .zero, .zero, .zero, .one, .zero, (F32.ofBits 0x40000000), (F32.ofBits 0x40400000), (F32.ofBits 0x40800000), .one⟩ }, { Component.zero with objectID := 12 }, { Component.zero with objectID := 5 }], []⟩, anyAttr := [.sliceObject 11 .full] }] }, build := { Build.zero with items := [{ Item.zero with objectID := 7 }, { Item.zero with objectID := 2 }, { Item.zero with objectID := 2, transform := .identity }, { Item.zero with objectID := 2, transform := ⟨(F32.ofBits 0x40000000), (F32.ofBits 0x40400000), .zero, .zero, .one, (F32.ofBits 0x40400000), .zero, .zero, .zero, .zero, .one, .zero, (F32.ofBits 0x40000000), (F32.ofBits 0x40400000), (F32.ofBits 0x40800000), .one⟩ }, { Item.zero with objectID := 2, transform := ⟨(F32.ofBits 0x40000000), (F32.ofBits 0x40400000), .one, .zero, .one, (F32.ofBits 0x40400000), .zero, .zero, .zero, .zero, .one, .zero, (F32.ofBits 0x40000000), (F32.ofBits 0x40400000), (F32.ofBits 0x40800000), .one⟩ }, { Item.zero with objectID := 4 }, { Item.zero with objectID := 12 }] }, childs := [(b!"/that.model", { ChildModel.zero with resources := { Resources.zero with assets := [.res (.sliceStack ⟨1, .zero, [⟨.one, [⟨.zero, .zero⟩, ⟨.zero, .zero⟩, ⟨.zero, .zero⟩], [⟨1, [⟨2, 0, 0, 0⟩]⟩]⟩], []⟩)] } })] } with extensions := [⟨nsSlices, b!"s", false⟩] } = some
      [b!"go3mf: XPath: /model/resources/object[0]/mesh: mesh MUST contain at least 3 vertices to form a solid body",
       b!"go3mf: XPath: /model/resources/object[0]/mesh: mesh MUST contain at least 4 triangles to form a solid body",
       b!"go3mf: XPath: /model/resources/object[0]: resource MUST be defined prior to referencing",
       b!"go3mf: XPath: /model/resources/object[1]: any transform applied to an object that references a slice stack MUST be planar",
       b!"go3mf: XPath: /model/resources/object[1]: a 3MF package which uses low resolution objects MUST enlist the slice extension as required",
       b!"go3mf: XPath: /model/resources/object[2]: required field 'slicestackid' is not set",
       b!"go3mf: XPath: /model/resources/object[3]: slicestackid MUST reference a slice stack resource",
       b!"go3mf: XPath: /model/resources/object[4]: any transform applied to an object that references a slice stack MUST be planar",
       b!"go3mf: XPath: /model/resources/object[4]: objects with type 'model' and 'solidsupport' MUST not reference slices with open polygons",
       b!"go3mf: XPath: /model/resources/object[5]: any transform applied to an object that references a slice stack MUST be planar",
       b!"go3mf: XPath: /model/resources/object[5]: objects with type 'model' and 'solidsupport' MUST not reference slices with open polygons",
       b!"go3mf: XPath: /model/resources/object[6]/components/component[1]: MUST NOT contain recursive references"] := by
  decide +kernel

/-- materials/validate_test.go:16-132 `TestValidate`, case "child". -/
theorem materials_validate_child : validateErrs (onlyExt .materials)
      { { Model.zero with childs := [(b!"/other.model", { ChildModel.zero with resources := { Resources.zero with assets := [.res (.colorGroup ⟨1, []⟩)] } }), (b!"/that.model", { ChildModel.zero with resources := { Resources.zero with assets := [.res (.multi ⟨2, [], [], []⟩)] } })] } with extensions := [⟨nsMaterials, b!"m", false⟩] } = some
      [b!"go3mf: Path: /other.model XPath: /model/resources/colorgroup[0]: resource properties MUST NOT be empty",
       b!"go3mf: Path: /that.model XPath: /model/resources/multiproperties[0]: required field 'pids' is not set",
       b!"go3mf: Path: /that.model XPath: /model/resources/multiproperties[0]: there MUST NOT be more blendmethods than layers – 1",
       b!"go3mf: Path: /that.model XPath: /model/resources/multiproperties[0]: resource properties MUST NOT be empty"] := by
  decide +kernel

/-- materials/validate_test.go:16-132 `TestValidate`, case "multi". -/
theorem materials_validate_multi : validateErrs (onlyExt .materials)
      { { Model.zero with resources := { Resources.zero with assets := [.res (.multi ⟨4, [], [], []⟩), .res (.multi ⟨5, [4, 100], [], [[]]⟩), .base ⟨1, [⟨b!"a", ⟨1, 0, 0, 0⟩, []⟩, ⟨b!"b", ⟨0, 1, 0, 0⟩, []⟩], []⟩, .res (.colorGroup ⟨6, [⟨1, 0, 0, 0⟩, ⟨2, 3, 4, 5⟩]⟩), .res (.composite ⟨3, 1, [0, 1], [[.one, (F32.ofBits 0x40000000)]]⟩), .res (.multi ⟨2, [1, 6], [], [[1, 0]]⟩), .res (.multi ⟨7, [1, 6], [], [[1, 3]]⟩), .res (.multi ⟨8, [6, 1, 6], [], [[]]⟩), .res (.multi ⟨9, [1, 3], [], [[]]⟩)] } } with extensions := [⟨nsMaterials, b!"m", false⟩] } = some
      [b!"go3mf: XPath: /model/resources/multiproperties[0]: required field 'pids' is not set",
       b!"go3mf: XPath: /model/resources/multiproperties[0]: there MUST NOT be more blendmethods than layers – 1",
       b!"go3mf: XPath: /model/resources/multiproperties[0]: resource properties MUST NOT be empty",
       b!"go3mf: XPath: /model/resources/multiproperties[1]: the pids list MUST NOT contain any references to a multiproperties",
       b!"go3mf: XPath: /model/resources/multiproperties[1]: resource MUST be defined prior to referencing",
       b!"go3mf: XPath: /model/resources/multiproperties[6]/multi[0]: index is bigger than referenced slice",
       b!"go3mf: XPath: /model/resources/multiproperties[7]: a material, if included, MUST be positioned as the first layer",
       b!"go3mf: XPath: /model/resources/multiproperties[7]: the pids list MUST NOT contain more than one reference to a colorgroup",
       b!"go3mf: XPath: /model/resources/multiproperties[8]: a material, if included, MUST be positioned as the first layer"] := by
  decide +kernel

/-- materials/validate_test.go:16-132 `TestValidate`, case "missingTextPart". -/
theorem materials_validate_missingTextPart : validateErrs (onlyExt .materials)
      { { Model.zero with resources := { Resources.zero with assets := [.res (.texture2D ⟨1, [], .unset, .wrap, .wrap, .auto⟩), .res (.texture2D ⟨2, b!"/a.png", .png, .wrap, .wrap, .auto⟩)] } } with extensions := [⟨nsMaterials, b!"m", false⟩] } = some
      [b!"go3mf: XPath: /model/resources/texture2d[0]: required field 'path' is not set",
       b!"go3mf: XPath: /model/resources/texture2d[0]: required field 'contenttype' is not set",
       b!"go3mf: XPath: /model/resources/texture2d[1]: texture part MUST be added as an attachment"] := by
  decide +kernel

/-- materials/validate_test.go:16-132 `TestValidate`, case "textureGroup". -/
theorem materials_validate_textureGroup : validateErrs (onlyExt .materials)
      { { Model.zero with resources := { Resources.zero with assets := [.res (.texture2D ⟨1, b!"/a.png", .png, .wrap, .wrap, .auto⟩), .res (.texture2DGroup ⟨2, 0, []⟩), .res (.texture2DGroup ⟨3, 1, [⟨.zero, .zero⟩]⟩), .res (.texture2DGroup ⟨4, 2, [⟨.zero, .zero⟩]⟩), .res (.texture2DGroup ⟨5, 100, [⟨.zero, .zero⟩]⟩)] }, attachments := [⟨[], b!"/a.png", []⟩] } with extensions := [⟨nsMaterials, b!"m", false⟩] } = some
      [b!"go3mf: XPath: /model/resources/texture2dgroup[1]: required field 'texid' is not set",
       b!"go3mf: XPath: /model/resources/texture2dgroup[1]: resource properties MUST NOT be empty",
       b!"go3mf: XPath: /model/resources/texture2dgroup[3]: MUST reference to a texture resource",
       b!"go3mf: XPath: /model/resources/texture2dgroup[4]: MUST reference to a texture resource"] := by
  decide +kernel

/-- materials/validate_test.go:16-132 `TestValidate`, case "colorGroup". -/
theorem materials_validate_colorGroup : validateErrs (onlyExt .materials)
      { { Model.zero with resources := { Resources.zero with assets := [.res (.colorGroup ⟨1, []⟩), .res (.colorGroup ⟨2, [⟨1, 0, 0, 0⟩, ⟨2, 3, 4, 5⟩]⟩), .res (.colorGroup ⟨3, [⟨1, 0, 0, 0⟩, ⟨0, 0, 0, 0⟩]⟩)] } } with extensions := [⟨nsMaterials, b!"m", false⟩] } = some
      [b!"go3mf: XPath: /model/resources/colorgroup[0]: resource properties MUST NOT be empty",
       b!"go3mf: XPath: /model/resources/colorgroup[2]/color[1]: required field 'color' is not set"] := by
  decide +kernel

/-- materials/validate_test.go:16-132 `TestValidate`, case "composite". -/
theorem materials_validate_composite : validateErrs (onlyExt .materials)
      { { Model.zero with resources := { Resources.zero with assets := [.base ⟨1, [⟨b!"a", ⟨1, 0, 0, 0⟩, []⟩, ⟨b!"b", ⟨0, 1, 0, 0⟩, []⟩], []⟩, .res (.composite ⟨2, 0, [], []⟩), .res (.composite ⟨3, 1, [0, 1], [[.one, (F32.ofBits 0x40000000)]]⟩), .res (.composite ⟨4, 1, [100, 100], [[.one, (F32.ofBits 0x40000000)]]⟩), .res (.composite ⟨5, 2, [0, 1], [[.one, (F32.ofBits 0x40000000)]]⟩), .res (.composite ⟨6, 100, [0, 1], [[.one, (F32.ofBits 0x40000000)]]⟩)] } } with extensions := [⟨nsMaterials, b!"m", false⟩] } = some
      [b!"go3mf: XPath: /model/resources/compositematerials[1]: required field 'matid' is not set",
       b!"go3mf: XPath: /model/resources/compositematerials[1]: required field 'matindices' is not set",
       b!"go3mf: XPath: /model/resources/compositematerials[1]: resource properties MUST NOT be empty",
       b!"go3mf: XPath: /model/resources/compositematerials[3]: index is bigger than referenced slice",
       b!"go3mf: XPath: /model/resources/compositematerials[4]: MUST reference to a basematerials group",
       b!"go3mf: XPath: /model/resources/compositematerials[5]: resource MUST be defined prior to referencing"] := by
  decide +kernel

/-- beamlattice/validate_test.go:16-109 `TestValidate`, case "error in child". -/
theorem beamlattice_validate_error_in_child : validateErrs (onlyExt .beamlattice)
      { { Model.zero with childs := [(b!"/other.model", { ChildModel.zero with resources := { Resources.zero with objects := [{ Object.zero with id := 1, mesh := some ⟨[], [], [], [], [], [.beamLattice ⟨.none, 0, 0, [], [], .zero, .zero, .sphere⟩]⟩ }] } })] } with extensions := [⟨nsBeam, b!"b", false⟩] } = some
      [b!"go3mf: Path: /other.model XPath: /model/resources/object[0]/mesh: mesh MUST contain at least 3 vertices to form a solid body",
       b!"go3mf: Path: /other.model XPath: /model/resources/object[0]/mesh/beamlattice: required field 'minlength' is not set",
       b!"go3mf: Path: /other.model XPath: /model/resources/object[0]/mesh/beamlattice: required field 'radius' is not set",
       b!"go3mf: Path: /other.model XPath: /model/resources/object[0]/mesh/beamlattice: if clipping mode is not equal to none, a clippingmesh resource MUST be specified"] := by
  decide +kernel

/-- beamlattice/validate_test.go:16-109 `TestValidate`, case "object without beamlattice". -/
theorem beamlattice_validate_object_without_beamlattice : validateErrs (onlyExt .beamlattice)
      { { Model.zero with resources := { Resources.zero with objects := [{ Object.zero with id := 1, mesh := some ⟨[], [], [], [], [], []⟩ }] } } with extensions := [⟨nsBeam, b!"b", false⟩] } = some
      [b!"go3mf: XPath: /model/resources/object[0]/mesh: mesh MUST contain at least 3 vertices to form a solid body",
       b!"go3mf: XPath: /model/resources/object[0]/mesh: mesh MUST contain at least 4 triangles to form a solid body"] := by
  decide +kernel

/-- beamlattice/validate_test.go:16-109 `TestValidate`, case "object with components". -/
theorem beamlattice_validate_object_with_components : validateErrs (onlyExt .beamlattice)
      { { Model.zero with resources := { Resources.zero with objects := [{ Object.zero with id := 1, components := some ⟨[{ Component.zero with objectID := 2 }], []⟩ }] } } with extensions := [⟨nsBeam, b!"b", false⟩] } = some
      [b!"go3mf: XPath: /model/resources/object[0]/components/component[0]: resource MUST be defined prior to referencing"] := by
  decide +kernel

/-- beamlattice/validate_test.go:16-109 `TestValidate`, case "object incorret type". -/
theorem beamlattice_validate_object_incorret_type : validateErrs (onlyExt .beamlattice)
      { { Model.zero with resources := { Resources.zero with objects := [{ Object.zero with id := 1, type := .other, mesh := some ⟨[], [], [], [], [], [.beamLattice ⟨.inside, 0, 0, [], [], .one, .one, .sphere⟩]⟩ }, { Object.zero with id := 2, type := .surface, mesh := some ⟨[], [], [], [], [], [.beamLattice ⟨.inside, 0, 0, [], [], .one, .one, .sphere⟩]⟩ }, { Object.zero with id := 3, type := .support, mesh := some ⟨[], [], [], [], [], [.beamLattice ⟨.inside, 0, 0, [], [], .one, .one, .sphere⟩]⟩ }] } } with extensions := [⟨nsBeam, b!"b", false⟩] } = some
      [b!"go3mf: XPath: /model/resources/object[0]/mesh/beamlattice: MUST only be added to a mesh object of type model or solidsupport",
       b!"go3mf: XPath: /model/resources/object[1]/mesh/beamlattice: MUST only be added to a mesh object of type model or solidsupport",
       b!"go3mf: XPath: /model/resources/object[2]/mesh/beamlattice: MUST only be added to a mesh object of type model or solidsupport"] := by
  decide +kernel

/-- beamlattice/validate_test.go:16-109 `TestValidate`, case "incorrect mesh references". -/
theorem beamlattice_validate_incorrect_mesh_references : validateErrs (onlyExt .beamlattice)
      { { Model.zero with resources := { Resources.zero with objects := [{ Object.zero with id := 1, mesh := some ⟨[⟨.zero, .zero, .zero⟩, ⟨.zero, .zero, .zero⟩, ⟨.zero, .zero, .zero⟩], [], [], [], [], [.tokens []]⟩ }, { Object.zero with id := 2, mesh := some ⟨[⟨.zero, .zero, .zero⟩, ⟨.zero, .zero, .zero⟩, ⟨.zero, .zero, .zero⟩], [], [], [], [], [.beamLattice ⟨.none, 100, 2, [], [], .one, .one, .sphere⟩]⟩ }, { Object.zero with id := 3, mesh := some ⟨[⟨.zero, .zero, .zero⟩, ⟨.zero, .zero, .zero⟩, ⟨.zero, .zero, .zero⟩], [], [], [], [], [.beamLattice ⟨.none, 1, 2, [], [], .one, .one, .sphere⟩]⟩ }] } } with extensions := [⟨nsBeam, b!"b", false⟩] } = some
      [b!"go3mf: XPath: /model/resources/object[1]/mesh/beamlattice: resource MUST be defined prior to referencing",
       b!"go3mf: XPath: /model/resources/object[1]/mesh/beamlattice: MUST NOT contain recursive references",
       b!"go3mf: XPath: /model/resources/object[2]/mesh/beamlattice: the clippingmesh and representationmesh MUST be a mesh object of type model and MUST NOT contain a beamlattice"] := by
  decide +kernel

/-- beamlattice/validate_test.go:16-109 `TestValidate`, case "incorrect beams". -/
theorem beamlattice_validate_incorrect_beams : validateErrs (onlyExt .beamlattice)
      { { Model.zero with resources := { Resources.zero with objects := [{ Object.zero with id := 2, mesh := some ⟨[⟨.zero, .zero, .zero⟩, ⟨.zero, .zero, .zero⟩, ⟨.zero, .zero, .zero⟩], [], [], [], [], [.beamLattice ⟨.inside, 0, 0, [⟨0, 0, .zero, .zero, .sphere, .sphere⟩, ⟨1, 1, (F32.ofBits 0x3F000000), .zero, .sphere, .sphere⟩, ⟨1, 3, .zero, .zero, .sphere, .sphere⟩], [], .one, .one, .sphere⟩]⟩ }] } } with extensions := [⟨nsBeam, b!"b", false⟩] } = some
      [b!"go3mf: XPath: /model/resources/object[0]/mesh/beamlattice/beam[0]: a beam MUST consist of two distinct vertex indices",
       b!"go3mf: XPath: /model/resources/object[0]/mesh/beamlattice/beam[1]: a beam MUST consist of two distinct vertex indices",
       b!"go3mf: XPath: /model/resources/object[0]/mesh/beamlattice/beam[1]: r2 MUST not be defined, if r1 is not defined",
       b!"go3mf: XPath: /model/resources/object[0]/mesh/beamlattice/beam[2]: index is bigger than referenced slice"] := by
  decide +kernel

/-- beamlattice/validate_test.go:16-109 `TestValidate`, case "incorrect beamseat". -/
theorem beamlattice_validate_incorrect_beamseat : validateErrs (onlyExt .beamlattice)
      { { Model.zero with resources := { Resources.zero with objects := [{ Object.zero with id := 2, mesh := some ⟨[⟨.zero, .zero, .zero⟩, ⟨.zero, .zero, .zero⟩, ⟨.zero, .zero, .zero⟩], [], [], [], [], [.beamLattice ⟨.inside, 0, 0, [⟨1, 2, .zero, .zero, .sphere, .sphere⟩], [⟨[0, 2, 3], [], []⟩], .one, .one, .sphere⟩]⟩ }] } } with extensions := [⟨nsBeam, b!"b", false⟩] } = some
      [b!"go3mf: XPath: /model/resources/object[0]/mesh/beamlattice/beamset[0]: index is bigger than referenced slice"] := by
  decide +kernel

/-- production/validate_test.go:16-108 `TestValidate`, case "buildNoUUID". -/
theorem production_validate_buildNoUUID : validateErrs (onlyExt .production)
      { { Model.zero with build := Build.zero } with extensions := [⟨nsProduction, b!"p", true⟩] } = some
      [b!"go3mf: XPath: /model/build: required field 'UUID' is not set"] := by
  decide +kernel

/-- production/validate_test.go:16-108 `TestValidate`, case "buildEmptyUUID". -/
theorem production_validate_buildEmptyUUID : validateErrs (onlyExt .production)
      { { Model.zero with build := { Build.zero with anyAttr := [.prodBuild []] } } with extensions := [⟨nsProduction, b!"p", true⟩] } = some
      [b!"go3mf: XPath: /model/build: UUID MUST be any of the four UUID variants described in IETF RFC 4122"] := by
  decide +kernel

/-- production/validate_test.go:16-108 `TestValidate`, case "buildNonValidUUID". -/
theorem production_validate_buildNonValidUUID : validateErrs (onlyExt .production)
      { { Model.zero with build := { Build.zero with anyAttr := [.prodBuild b!"a-b-c-d"] } } with extensions := [⟨nsProduction, b!"p", true⟩] } = some
      [b!"go3mf: XPath: /model/build: UUID MUST be any of the four UUID variants described in IETF RFC 4122"] := by
  decide +kernel

/-- production/validate_test.go:16-108 `TestValidate`, case "extReq". -/
theorem production_validate_extReq : validateErrs (onlyExt .production)
      { { Model.zero with resources := { Resources.zero with objects := [{ Object.zero with id := 5, components := some ⟨[{ Component.zero with objectID := 1, anyAttr := [.prodComponent b!"f47ac10b-58cc-0372-8567-0e02b2c3d480" b!"/other.model"] }], []⟩, anyAttr := [.prodObject b!"f47ac10b-58cc-0372-8567-0e02b2c3d481"] }] }, build := { Build.zero with items := [{ Item.zero with objectID := 1, anyAttr := [.prodItem b!"f47ac10b-58cc-0372-8567-0e02b2c3d478" b!"/other.model"] }], anyAttr := [.prodBuild b!"f47ac10b-58cc-0372-8567-0e02b2c3d479"] }, childs := [(b!"/other.model", { ChildModel.zero with resources := { Resources.zero with objects := [{ Object.zero with id := 1, mesh := some ⟨[⟨.zero, .zero, .zero⟩, ⟨.zero, .zero, .zero⟩, ⟨.zero, .zero, .zero⟩, ⟨.zero, .zero, .zero⟩], [], [⟨0, 1, 2, 0, 0, 0, 0, []⟩, ⟨0, 3, 1, 0, 0, 0, 0, []⟩, ⟨0, 2, 3, 0, 0, 0, 0, []⟩, ⟨1, 3, 2, 0, 0, 0, 0, []⟩], [], [], []⟩ }] } })] } with extensions := [⟨nsProduction, b!"p", true⟩] } = some
      [b!"go3mf: Path: /other.model XPath: /model/resources/object[0]: required field 'UUID' is not set"] := by
  decide +kernel

/-- production/validate_test.go:16-108 `TestValidate`, case "items". -/
theorem production_validate_items : validateErrs (onlyExt .production)
      { { Model.zero with resources := { Resources.zero with objects := [{ Object.zero with id := 1, mesh := some ⟨[⟨.zero, .zero, .zero⟩, ⟨.zero, .zero, .zero⟩, ⟨.zero, .zero, .zero⟩, ⟨.zero, .zero, .zero⟩], [], [⟨0, 1, 2, 0, 0, 0, 0, []⟩, ⟨0, 3, 1, 0, 0, 0, 0, []⟩, ⟨0, 2, 3, 0, 0, 0, 0, []⟩, ⟨1, 3, 2, 0, 0, 0, 0, []⟩], [], [], []⟩ }] }, build := { Build.zero with items := [{ Item.zero with objectID := 1, anyAttr := [.prodItem b!"f47ac10b-58cc-0372-8567-0e02b2c3d478" b!"/other.model"] }, { Item.zero with objectID := 1 }, { Item.zero with objectID := 1, anyAttr := [.prodItem [] []] }, { Item.zero with objectID := 1, anyAttr := [.prodItem b!"a-b-c-d" []] }], anyAttr := [.prodBuild b!"f47ac10b-58cc-0372-8567-0e02b2c3d479"] }, childs := [(b!"/other.model", { ChildModel.zero with resources := { Resources.zero with objects := [{ Object.zero with id := 1, mesh := some ⟨[⟨.zero, .zero, .zero⟩, ⟨.zero, .zero, .zero⟩, ⟨.zero, .zero, .zero⟩, ⟨.zero, .zero, .zero⟩], [], [⟨0, 1, 2, 0, 0, 0, 0, []⟩, ⟨0, 3, 1, 0, 0, 0, 0, []⟩, ⟨0, 2, 3, 0, 0, 0, 0, []⟩, ⟨1, 3, 2, 0, 0, 0, 0, []⟩], [], [], []⟩ }] } })] } with extensions := [⟨nsProduction, b!"p", true⟩] } = some
      [b!"go3mf: XPath: /model/build/item[1]: required field 'UUID' is not set",
       b!"go3mf: XPath: /model/build/item[2]: required field 'UUID' is not set",
       b!"go3mf: XPath: /model/build/item[3]: UUID MUST be any of the four UUID variants described in IETF RFC 4122",
       b!"go3mf: Path: /other.model XPath: /model/resources/object[0]: required field 'UUID' is not set",
       b!"go3mf: XPath: /model/resources/object[0]: required field 'UUID' is not set"] := by
  decide +kernel

/-- production/validate_test.go:16-108 `TestValidate`, case "components". -/
theorem production_validate_components : validateErrs (onlyExt .production)
      { { Model.zero with resources := { Resources.zero with objects := [{ Object.zero with id := 2, mesh := some ⟨[⟨.zero, .zero, .zero⟩, ⟨.zero, .zero, .zero⟩, ⟨.zero, .zero, .zero⟩, ⟨.zero, .zero, .zero⟩], [], [⟨0, 1, 2, 0, 0, 0, 0, []⟩, ⟨0, 3, 1, 0, 0, 0, 0, []⟩, ⟨0, 2, 3, 0, 0, 0, 0, []⟩, ⟨1, 3, 2, 0, 0, 0, 0, []⟩], [], [], []⟩, anyAttr := [.prodObject b!"a-b-c-d"] }, { Object.zero with id := 3, components := some ⟨[{ Component.zero with objectID := 2, anyAttr := [.prodComponent [] []] }, { Component.zero with objectID := 2, anyAttr := [.prodComponent b!"a-b-c-d" []] }, { Component.zero with objectID := 2 }], []⟩, anyAttr := [.prodObject b!"f47ac10b-58cc-0372-8567-0e02b2c3d483"] }] }, build := { Build.zero with anyAttr := [.prodBuild b!"f47ac10b-58cc-0372-8567-0e02b2c3d479"] } } with extensions := [⟨nsProduction, b!"p", true⟩] } = some
      [b!"go3mf: XPath: /model/resources/object[0]: UUID MUST be any of the four UUID variants described in IETF RFC 4122",
       b!"go3mf: XPath: /model/resources/object[1]/components/component[0]: required field 'UUID' is not set",
       b!"go3mf: XPath: /model/resources/object[1]/components/component[1]: UUID MUST be any of the four UUID variants described in IETF RFC 4122",
       b!"go3mf: XPath: /model/resources/object[1]/components/component[2]: required field 'UUID' is not set"] := by
  decide +kernel

/-- production/validate_test.go:16-108 `TestValidate`, case "child". -/
theorem production_validate_child : validateErrs (onlyExt .production)
      { { Model.zero with build := { Build.zero with anyAttr := [.prodBuild b!"f47ac10b-58cc-0372-8567-0e02b2c3d479"] }, childs := [(b!"/b.model", { ChildModel.zero with resources := { Resources.zero with objects := [{ Object.zero with id := 1, mesh := some ⟨[⟨.zero, .zero, .zero⟩, ⟨.zero, .zero, .zero⟩, ⟨.zero, .zero, .zero⟩, ⟨.zero, .zero, .zero⟩], [], [⟨0, 1, 2, 0, 0, 0, 0, []⟩, ⟨0, 3, 1, 0, 0, 0, 0, []⟩, ⟨0, 2, 3, 0, 0, 0, 0, []⟩, ⟨1, 3, 2, 0, 0, 0, 0, []⟩], [], [], []⟩ }] } }), (b!"/other.model", { ChildModel.zero with resources := { Resources.zero with objects := [{ Object.zero with id := 2, components := some ⟨[{ Component.zero with objectID := 1, anyAttr := [.prodComponent [] b!"/b.model"] }], []⟩ }] } })] } with extensions := [⟨nsProduction, b!"p", true⟩] } = some
      [b!"go3mf: Path: /b.model XPath: /model/resources/object[0]: required field 'UUID' is not set",
       b!"go3mf: Path: /other.model XPath: /model/resources/object[0]: required field 'UUID' is not set",
       b!"go3mf: Path: /other.model XPath: /model/resources/object[0]/components/component[0]: required field 'UUID' is not set",
       b!"go3mf: Path: /other.model XPath: /model/resources/object[0]/components/component[0]: non-root model file components MUST only reference objects in the same model file"] := by
  decide +kernel

end Go3mf.Tests
