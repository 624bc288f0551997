import Verif.Model.Stl
import Verif.Model.Production
import Verif.Props.C55
import Verif.Tests.Core

/-!
# Tests of the repository: writing, packages and STL files

The cases of encoder_test.go, opc_test.go, the rest of materials_test.go, slices_test.go and production_test.go and the tests of
importer/stl.  The test extension `fakeSpec` is not modelled: its attributes and its asset are left out.  The library
github.com/qmuntal/opc is replaced by `simpleOpc` and `stored`, which do what the expected values of the tests show of it.
-/

namespace Go3mf.Tests

/-- encoder_test.go:47-115: the model of `TestMarshalModel`. -/
def marshalWant : Model :=
  { Model.zero with path := b!"/3D/3dmodel.model", language := b!"en-US", units := .millimeter, thumbnail := b!"/thumbnail.png", resources := { Resources.zero with assets := [.unknown 0 [.start ⟨b!"http://dummy.com/foo", b!"fooname"⟩ [⟨⟨[], b!"n1"⟩, b!"v1"⟩], .start ⟨b!"http://dummy.com/foo", b!"child"⟩ [], .stop ⟨b!"http://dummy.com/foo", b!"child"⟩, .stop ⟨b!"http://dummy.com/foo", b!"fooname"⟩], .base ⟨5, [⟨b!"Blue PLA", ⟨0, 0, 255, 255⟩, [.unknown b!"http://dummy.com/foo" [⟨⟨b!"http://dummy.com/foo", b!"fooname"⟩, b!"foo6"⟩]]⟩, ⟨b!"Red ABS", ⟨255, 0, 0, 255⟩, []⟩], [.unknown b!"http://dummy.com/foo" [⟨⟨b!"http://dummy.com/foo", b!"fooname"⟩, b!"foo2"⟩]]⟩], objects := [{ Object.zero with id := 8, name := b!"Box 1", partNumber := b!"11111111-1111-1111-1111-111111111111", thumbnail := b!"/a.png", pid := 1, pindex := 1, type := .model, mesh := some ⟨[⟨.zero, .zero, .zero⟩, ⟨(F32.ofBits 0x42C80000), .zero, .zero⟩, ⟨(F32.ofBits 0x42C80000), (F32.ofBits 0x42C80000), .zero⟩, ⟨.zero, (F32.ofBits 0x42C80000), .zero⟩, ⟨.zero, .zero, (F32.ofBits 0x42C80000)⟩, ⟨(F32.ofBits 0x42C80000), .zero, (F32.ofBits 0x42C80000)⟩, ⟨(F32.ofBits 0x42C80000), (F32.ofBits 0x42C80000), (F32.ofBits 0x42C80000)⟩, ⟨.zero, (F32.ofBits 0x42C80000), (F32.ofBits 0x42C80000)⟩], [], [⟨3, 2, 1, 5, 0, 0, 0, []⟩, ⟨1, 0, 3, 5, 0, 0, 0, []⟩, ⟨4, 5, 6, 5, 1, 1, 1, []⟩, ⟨6, 7, 4, 5, 1, 1, 1, []⟩, ⟨0, 1, 5, 5, 0, 1, 2, []⟩, ⟨5, 4, 0, 5, 3, 0, 2, []⟩, ⟨1, 2, 6, 5, 0, 1, 2, []⟩, ⟨6, 5, 1, 5, 2, 1, 3, []⟩, ⟨2, 3, 7, 5, 0, 0, 0, []⟩, ⟨7, 6, 2, 5, 0, 0, 0, []⟩, ⟨3, 0, 4, 5, 0, 0, 0, []⟩, ⟨4, 7, 3, 5, 0, 0, 0, []⟩], [], [], [.tokens [.start ⟨b!"http://dummy.com/foo", b!"fooname"⟩ [], .stop ⟨b!"http://dummy.com/foo", b!"fooname"⟩]]⟩, anyAttr := [.unknown b!"http://dummy.com/foo" [⟨⟨b!"http://dummy.com/foo", b!"fooname"⟩, b!"foo3"⟩]] }, { Object.zero with id := 20, type := .support, metadata := ⟨[⟨⟨b!"qm", b!"CustomMetadata3"⟩, b!"1", b!"xs:boolean", false⟩, ⟨⟨b!"qm", b!"CustomMetadata4"⟩, b!"2", b!"xs:boolean", false⟩], []⟩, components := some ⟨[{ Component.zero with objectID := 8, transform := ⟨(F32.ofBits 0x40400000), .zero, .zero, .zero, .zero, .one, .zero, .zero, .zero, .zero, (F32.ofBits 0x40000000), .zero, (F32.ofBits 0xC284CCCD), (F32.ofBits 0xC2AE3333), (F32.ofBits 0x410CCCCD), .one⟩, anyAttr := [.unknown b!"http://dummy.com/foo" [⟨⟨b!"http://dummy.com/foo", b!"fooname"⟩, b!"foo8"⟩]] }], []⟩ }] }, build := { Build.zero with items := [{ Item.zero with objectID := 20, transform := ⟨.one, .zero, .zero, .zero, .zero, (F32.ofBits 0x40000000), .zero, .zero, .zero, .zero, (F32.ofBits 0x40400000), .zero, (F32.ofBits 0xC284CCCD), (F32.ofBits 0xC2AE3333), (F32.ofBits 0x410CCCCD), .one⟩, partNumber := b!"bob", metadata := ⟨[⟨⟨b!"qm", b!"CustomMetadata3"⟩, b!"1", b!"xs:boolean", false⟩], []⟩ }, { Item.zero with objectID := 21, anyAttr := [.unknown b!"http://dummy.com/foo" [⟨⟨b!"http://dummy.com/foo", b!"fooname"⟩, b!"foo5"⟩]] }], anyAttr := [.unknown b!"http://dummy.com/foo" [⟨⟨b!"http://dummy.com/foo", b!"fooname"⟩, b!"foo4"⟩, ⟨⟨b!"http://dummy.com/foo", b!"fooname"⟩, b!"foo6"⟩]] }, extensions := [⟨b!"http://dummy.com/fake_ext", b!"qm", true⟩, ⟨b!"http://dummy.com/foo", b!"foo", false⟩], metadata := [⟨⟨[], b!"Application"⟩, b!"go3mf app", [], false⟩, ⟨⟨b!"qm", b!"CustomMetadata1"⟩, b!"CE8A91FB-C44E-4F00-B634-BAA411465F6A", b!"xs:string", true⟩], any := [.tokens [.start ⟨b!"http://dummy.com/foo", b!"fooname"⟩ [], .stop ⟨b!"http://dummy.com/foo", b!"fooname"⟩]], anyAttr := [.unknown b!"http://dummy.com/foo" [⟨⟨b!"http://dummy.com/foo", b!"fooname"⟩, b!"foo1"⟩]] }

/-- encoder_test.go:45-136 `TestMarshalModel`. -/
theorem encoder_MarshalModel : 
    (unmarshalModel noExt (fun _ t => t) (marshalModel marshalWant) { Model.zero with path := marshalWant.path }).map (fun p => (p.1, DecodeResult.good p.2)) =
      some (marshalWant, true) := by
  decide +kernel

/-- `NormalizePartName` and `ResolveRelationship` of names without dots, and a writer that refuses to write a part twice. -/
def simpleOpc : Opc where
  norm p := if p.head? = some 47 then p else 47 :: p
  resolve s p := if p.head? = some 47 then p else (s.reverse.dropWhile (· ≠ 47)).reverse ++ p
  accepts names name _ := decide (name ∉ names)

/-- The library numbers the relationships that have no ID. -/
def stored (rels : List Relationship) : List Relationship :=
  rels.mapIdx fun i r => if r.id = [] then { r with id := b!"rId" ++ natDigits i } else r

/-- `NewEncoder(buff).Encode` and `NewDecoder(...).Decode` of what it wrote, the child models one after the other. -/
def saveLoad (m : Model) (gs : List Nat) : Option (Model × Bool) :=
  (encodePkg simpleOpc 4 m (m.childs.map (·.1)) m.childs).bind fun pk =>
    (decodeSeq ⟨noExt, true, fun _ _ t => t⟩ simpleOpc
      ⟨stored pk.rels, (reopen pk).files.map fun f => { f with rels := stored f.rels }⟩ gs).map fun x =>
        (x.1, match x.2 with
          | .root r => DecodeResult.good r
          | _ => false)

/-- encoder_test.go:138-169 `TestEncoder_writeAttachements`. -/
theorem encoder_writeAttachements : 
    (writeAttachments simpleOpc [] []).isNone = false ∧
    (writeAttachments ⟨id, fun _ p => p, fun _ _ _ => false⟩ [⟨[], [], []⟩] []).isNone = true ∧
    (writeAttachments simpleOpc [⟨[], [], []⟩] []).isNone = false := by
  decide +kernel

/-- encoder_test.go:187-254 `TestEncoder_Encode_Normalize`, case "empty". -/
theorem encoder_Normalize_empty : saveLoad
      Model.zero [] = some
      ({ Model.zero with path := defaultModelPath }, true) := by
  decide +kernel

/-- encoder_test.go:187-254 `TestEncoder_Encode_Normalize`, case "withAttrs". -/
theorem encoder_Normalize_withAttrs : saveLoad
      { Model.zero with path := b!"a/other.ml", thumbnail := b!"/Metadata/thumbnail.png", attachments := [⟨b!"fake", b!"Metadata/thumbnail.png", b!"image/png"⟩] } [] = some
      ({ Model.zero with path := b!"/a/other.ml", units := .millimeter, thumbnail := b!"/Metadata/thumbnail.png", attachments := [⟨b!"fake", b!"/Metadata/thumbnail.png", b!"image/png"⟩], rootRelationships := [⟨b!"/Metadata/thumbnail.png", relThumbnail, b!"rId1"⟩] }, true) := by
  decide +kernel

/-- encoder_test.go:187-254 `TestEncoder_Encode_Normalize`, case "withRootRel". -/
theorem encoder_Normalize_withRootRel : saveLoad
      { Model.zero with attachments := [⟨b!"other", b!"/3D/Metadata/pt.xml", b!"application/vnd.ms-printing.printticket+xml"⟩, ⟨b!"fake", b!"/Metadata/thumbnail.png", b!"image/png"⟩], rootRelationships := [⟨b!"Metadata/thumbnail.png", relThumbnail, b!"2"⟩, ⟨b!"Metadata/thumbnail.png", relThumbnail, b!"2"⟩] } [] = some
      ({ Model.zero with path := defaultModelPath, attachments := [⟨b!"fake", b!"/Metadata/thumbnail.png", b!"image/png"⟩], rootRelationships := [⟨b!"Metadata/thumbnail.png", relThumbnail, b!"2"⟩] }, true) := by
  decide +kernel

/-- encoder_test.go:187-254 `TestEncoder_Encode_Normalize`, case "withChildModel". -/
theorem encoder_Normalize_withChildModel : saveLoad
      { Model.zero with childs := [(b!"empty.model", ChildModel.zero), (b!"/other.model", { ChildModel.zero with relationships := [⟨b!"/3D/Metadata/pt.xml", b!"http://schemas.microsoft.com/3dmanufacturing/2013/01/printticket", b!"1"⟩] })] } (List.replicate 19 0 ++ List.replicate 19 1) = some
      ({ Model.zero with path := defaultModelPath, childs := [(b!"/3D/empty.model", ChildModel.zero), (b!"/other.model", ChildModel.zero)] }, true) := by
  decide +kernel

/-- The model of the case. -/
def roundtrip_empty : Model :=
  Model.zero

/-- encoder_test.go:256-313 `TestEncoder_Encode_Roundtrip`, case "empty". -/
theorem encoder_Roundtrip_empty : saveLoad
      roundtrip_empty [] = some
      ({ roundtrip_empty with path := roundtrip_empty.pathOrDefault }, true) := by
  decide +kernel

/-- The model of the case. -/
def roundtrip_withAttrs : Model :=
  { Model.zero with path := b!"/a/other.ml", language := b!"un", units := .foot, thumbnail := b!"/thumb.png" }

/-- encoder_test.go:256-313 `TestEncoder_Encode_Roundtrip`, case "withAttrs". -/
theorem encoder_Roundtrip_withAttrs : saveLoad
      roundtrip_withAttrs [] = some
      ({ roundtrip_withAttrs with path := roundtrip_withAttrs.pathOrDefault }, true) := by
  decide +kernel

/-- The model of the case. -/
def roundtrip_withMetdata : Model :=
  { Model.zero with metadata := [⟨⟨[], b!"a"⟩, b!"b", b!"tp", true⟩, ⟨⟨[], b!"ab"⟩, b!"bb", b!"tpb", false⟩] }

/-- encoder_test.go:256-313 `TestEncoder_Encode_Roundtrip`, case "withMetdata". -/
theorem encoder_Roundtrip_withMetdata : saveLoad
      roundtrip_withMetdata [] = some
      ({ roundtrip_withMetdata with path := roundtrip_withMetdata.pathOrDefault }, true) := by
  decide +kernel

/-- The model of the case. -/
def roundtrip_withRootRel : Model :=
  { Model.zero with attachments := [⟨b!"other", b!"/3D/Metadata/pt.xml", b!"application/vnd.ms-printing.printticket+xml"⟩, ⟨b!"fake", b!"/Metadata/thumbnail.png", b!"image/png"⟩], rootRelationships := [⟨b!"/3D/Metadata/pt.xml", b!"http://schemas.microsoft.com/3dmanufacturing/2013/01/printticket", b!"1"⟩, ⟨b!"/Metadata/thumbnail.png", b!"http://schemas.openxmlformats.org/package/2006/relationships/metadata/thumbnail", b!"2"⟩] }

/-- encoder_test.go:256-313 `TestEncoder_Encode_Roundtrip`, case "withRootRel". -/
theorem encoder_Roundtrip_withRootRel : saveLoad
      roundtrip_withRootRel [] = some
      ({ roundtrip_withRootRel with path := roundtrip_withRootRel.pathOrDefault }, true) := by
  decide +kernel

/-- The model of the case. -/
def roundtrip_withChildModel : Model :=
  { Model.zero with attachments := [⟨b!"other", b!"/3D/Metadata/pt.xml", b!"application/vnd.ms-printing.printticket+xml"⟩], childs := [(b!"/empty.model", ChildModel.zero), (b!"/other.model", { ChildModel.zero with relationships := [⟨b!"/3D/Metadata/pt.xml", b!"http://schemas.microsoft.com/3dmanufacturing/2013/01/printticket", b!"1"⟩] })] }

/-- encoder_test.go:256-313 `TestEncoder_Encode_Roundtrip`, case "withChildModel". -/
theorem encoder_Roundtrip_withChildModel : saveLoad
      roundtrip_withChildModel (List.replicate 19 0 ++ List.replicate 19 1) = some
      ({ roundtrip_withChildModel with path := roundtrip_withChildModel.pathOrDefault }, true) := by
  decide +kernel

/-- opc_test.go:75-97 `Test_opcReader_FindFileFromName`. -/
theorem opc_FindFileFromName : let pk : InPkg := ⟨[], [mockFile b!"/a.xml" [], mockFile b!"/b.xml" []]⟩;
    pk.find simpleOpc b!"/" b!"/a.xml" = some (mockFile b!"/a.xml" []) ∧
    pk.find simpleOpc b!"/" b!"/b.xml" = some (mockFile b!"/b.xml" []) ∧
    pk.find simpleOpc b!"/" b!"/c.xml" = none := by
  decide +kernel

/-- opc_test.go:116-138 `Test_opcWriter_AddRelationship`. -/
theorem opc_AddRelationship : opcAddRel [] ⟨b!"fake_uri", b!"fake_type", b!"id_1"⟩ = [⟨b!"fake_uri", b!"fake_type", b!"id_1"⟩] := by
  decide +kernel

/-- materials/materials_test.go:30-46, 82-134 and 207-223, slices/slices_test.go:19-35: the tests of `Identify`. -/
theorem ext_Identify : 
    Asset.identify (.res (.texture2D ⟨1, [], .png, .wrap, .wrap, .auto⟩)) = 1 ∧
    Asset.identify (.res (.texture2DGroup ⟨1, 0, []⟩)) = 1 ∧
    Asset.identify (.res (.colorGroup ⟨1, []⟩)) = 1 ∧
    Asset.identify (.res (.composite ⟨1, 0, [], []⟩)) = 1 ∧
    Asset.identify (.res (.multi ⟨1, [], [], []⟩)) = 1 ∧
    Asset.identify (.res (.sliceStack ⟨1, .zero, [], []⟩)) = 1 := by
  decide +kernel

/-- materials/materials_test.go:320-390: the tests of `Len`. -/
theorem ext_Len : 
    Asset.len (.res (.colorGroup ⟨0, []⟩)) = some 0 ∧
    Asset.len (.res (.colorGroup ⟨0, List.replicate 3 ⟨0, 0, 0, 0⟩⟩)) = some 3 ∧
    Asset.len (.res (.composite ⟨0, 0, [], []⟩)) = some 0 ∧
    Asset.len (.res (.composite ⟨0, 0, [], List.replicate 3 []⟩)) = some 3 ∧
    Asset.len (.res (.multi ⟨0, [], [], []⟩)) = some 0 ∧
    Asset.len (.res (.multi ⟨0, [], [], List.replicate 3 []⟩)) = some 3 ∧
    Asset.len (.res (.texture2DGroup ⟨0, 0, []⟩)) = some 0 ∧
    Asset.len (.res (.texture2DGroup ⟨0, 0, List.replicate 3 ⟨.zero, .zero⟩⟩)) = some 3 := by
  decide +kernel

/-- production/production_test.go:18-51 `TestComponentAttr_ObjectPath`, `TestItemAttr_ObjectPath`. -/
theorem production_ObjectPath : 
    AttrGroup.objectPath (.prodComponent [] []) = some [] ∧
    AttrGroup.objectPath (.prodComponent [] b!"/a.model") = some b!"/a.model" ∧
    AttrGroup.objectPath (.prodItem [] []) = some [] ∧
    AttrGroup.objectPath (.prodItem [] b!"/a.model") = some b!"/a.model" := by
  decide +kernel

/-- production/production_test.go:53-77 `TestSetMissingUUIDs`, for any source of random bytes. -/
theorem production_SetMissingUUIDs : ∀ rnd : Nat → List UInt8,
    let m := Model.setMissingUUIDs rnd { Model.zero with
      path := b!"/3D/3dmodel.model"
      resources := { Resources.zero with objects := [{ Object.zero with id := 20, components := some { Components.zero with component := [{ Component.zero with objectID := 8 }] } }] }
      build := { Build.zero with items := [{ Item.zero with objectID := 20 }, { Item.zero with objectID := 8 }] } };
    m.build.anyAttr.length ≠ 0 ∧ m.build.items.map (fun i => i.anyAttr.length ≠ 0) = [True, True] ∧
    m.resources.objects.map (fun o => (o.anyAttr.length ≠ 0, o.components.map fun c => c.component.map fun c => c.anyAttr.length ≠ 0)) = [(True, some [True])] := by
  intro rnd; simp [Model.setMissingUUIDs, Build.setUUID, setAll, Item.setUUID, Object.setUUID, Component.setUUID, fillAttr, getBuildAttr, Model.zero, Build.zero, Item.zero, Object.zero, Component.zero, Components.zero, Resources.zero]

/-- importer/stl/ascii_test.go:51-93 `createASCIITriangle`. -/
def stlAscii : Str := b!"solid \n  \t\tfacet normal 0 0 0\n    \t\touter loop\n      \t\t\tvertex -20.0 -20.0 0.0\n      \t\t\tvertex 20.0 -20.0 0.0\n      \t\t\tvertex 0.0019989014 0.0019989014 39.998\n    \t\tendloop\n  \t\tendfacet\n  \t\tfacet normal 0 0 0\n\t\t\touter loop\n\t\t\tvertex -20.0 20.0 0.0\n\t\t\tvertex 20.0 -20.0 0.0\n\t\t\tvertex -20.0 -20.0 0.0\n\t\t\tendloop\n\t\tendfacet\n\t\tfacet normal 0 0 0\n\t\t\touter loop\n\t\t\tvertex -20.0 -20.0 0.0\n\t\t\tvertex 0.0 0.0019989014 39.998\n\t\t\tvertex -20.0 20.0 0.0\n\t\t\tendloop\n\t\tendfacet\n\t\tfacet normal 0 0 0\n\t\t\touter loop\n\t\t\tvertex 20.0 -20.0 0.0\n\t\t\tvertex 20.0 20.0 0.0\n\t\t\tvertex 0.0019989014 0.0019989014 39.998\n\t\t\tendloop\n\t\tendfacet\n\t\tfacet normal 0 0 0\n\t\t\touter loop\n\t\t\tvertex 20.0 20.0 0.0\n\t\t\tvertex -20.0 20.0 0.0\n\t\t\tvertex 0.0019989014 0.0019989014 39.998\n\t\t\tendloop\n\t\tendfacet\n\t\tfacet normal 0 0 0\n\t\t\touter loop\n\t\t\tvertex 20.0 20.0 0.0\n\t\t\tvertex 20.0 -20.0 0.0\n\t\t\tvertex -20.0 20.0 0.0\n\t\t\tendloop\n\t\tendfacet\n\tendsolid"

/-- importer/stl/binary_test.go:77-229 `createBinaryTriangle`. -/
def stlBinary : Str :=
  [0, 0, 0, 0, 0, 0, 0, 0, 0, 0, 0, 0, 0, 0, 0, 0, 0, 0, 0, 0, 0, 0, 0, 0, 0, 0, 0, 0, 0, 0, 0, 0,
   0, 0, 0, 0, 0, 0, 0, 0, 0, 0, 0, 0, 0, 0, 0, 0, 0, 0, 0, 0, 0, 0, 0, 0, 0, 0, 0, 0, 0, 0, 0, 0,
   0, 0, 0, 0, 0, 0, 0, 0, 0, 0, 0, 0, 0, 0, 0, 0, 6, 0, 0, 0, 0, 0, 0, 0, 107, 247, 100, 191, 53, 0, 229, 62,
   0, 0, 160, 193, 0, 0, 160, 193, 0, 0, 0, 0, 0, 0, 160, 65, 0, 0, 160, 193, 0, 0, 0, 0, 0, 0, 3, 59, 0, 0, 3, 59,
   244, 253, 31, 66, 0, 0, 0, 0, 0, 0, 0, 0, 0, 0, 0, 0, 128, 191, 0, 0, 160, 193, 0, 0, 160, 65, 0, 0, 0, 0, 0, 0,
   160, 65, 0, 0, 160, 193, 0, 0, 0, 0, 0, 0, 160, 193, 0, 0, 160, 193, 0, 0, 0, 0, 0, 0, 107, 247, 100, 191, 0, 0, 0, 0,
   53, 0, 229, 62, 0, 0, 160, 193, 0, 0, 160, 193, 0, 0, 0, 0, 0, 0, 3, 0, 59, 0, 3, 59, 244, 253, 31, 66, 0, 0, 160, 193,
   0, 0, 160, 65, 0, 0, 0, 0, 0, 0, 196, 0, 0, 0, 0, 0, 0, 128, 215, 246, 228, 62, 0, 0, 160, 65, 0, 0, 160, 193, 0, 0,
   0, 0, 0, 0, 160, 65, 0, 0, 160, 65, 0, 0, 0, 0, 0, 0, 3, 59, 0, 0, 3, 59, 244, 253, 31, 66, 0, 0, 0, 0, 0, 0,
   196, 249, 100, 63, 215, 246, 228, 62, 0, 0, 160, 65, 0, 0, 160, 65, 0, 0, 0, 0, 0, 0, 160, 193, 0, 0, 160, 65, 0, 0, 0, 0,
   0, 0, 3, 59, 0, 0, 3, 59, 244, 253, 31, 66, 0, 0, 0, 249, 100, 128, 0, 0, 0, 128, 0, 0, 128, 191, 0, 0, 160, 65, 0, 0,
   160, 65, 0, 0, 0, 0, 0, 0, 160, 65, 0, 0, 160, 193, 0, 0, 0, 0, 0, 0, 160, 193, 0, 0, 160, 65, 0, 0, 0, 0, 0, 0]

/-- importer/stl/binary_test.go:55-75: the mesh of `createMeshTriangle`. -/
def stlWant : Mesh :=
  { Mesh.zero with
    vertices := [⟨(F32.ofBits 0xC1A00000), (F32.ofBits 0xC1A00000), .zero⟩, ⟨(F32.ofBits 0x41A00000), (F32.ofBits 0xC1A00000), .zero⟩, ⟨(F32.ofBits 0x3B030000), (F32.ofBits 0x3B030000), (F32.ofBits 0x421FFDF4)⟩, ⟨(F32.ofBits 0xC1A00000), (F32.ofBits 0x41A00000), .zero⟩, ⟨.zero, (F32.ofBits 0x3B030000), (F32.ofBits 0x421FFDF4)⟩, ⟨(F32.ofBits 0x41A00000), (F32.ofBits 0x41A00000), .zero⟩]
    triangles := [⟨0, 1, 2, 0, 0, 0, 0, []⟩, ⟨3, 1, 0, 0, 0, 0, 0, []⟩, ⟨0, 4, 3, 0, 0, 0, 0, []⟩, ⟨1, 5, 2, 0, 0, 0, 0, []⟩, ⟨5, 3, 2, 0, 0, 0, 0, []⟩, ⟨5, 1, 3, 0, 0, 0, 0, []⟩] }

/-- `deep.Equal` with five decimals (ascii_test.go:16) of two meshes. -/
def meshNear (a b : Mesh) : Bool :=
  decide (a.triangles = b.triangles) && decide ((a.vertices.map fun v => [v.x, v.y, v.z].map (F32.format 5)) = b.vertices.map fun v => [v.x, v.y, v.z].map (F32.format 5)) &&
    decide ({ a with vertices := [], triangles := [] } = { b with vertices := [], triangles := [] })

/-- The mesh and whether there is an error. -/
def stlResult (r : Stl.Mesh × Option Stl.Error) : Mesh × Bool := (r.1.mesh, r.2.isSome)

/-- importer/stl/ascii_test.go:15-49 `Test_asciiDecoder_decode`. -/
theorem stl_ascii : 
    stlResult (Stl.asciiDecode (fun _ => false) 1 ⟨[], true⟩) = (Mesh.zero, false) ∧
    stlResult (Stl.asciiDecode (fun _ => false) 1 ⟨stlAscii, true⟩) = (stlWant, false) ∧
    (stlResult (Stl.asciiDecode (fun _ => true) 1 ⟨stlAscii, true⟩)).2 = true := by
  decide +kernel

/-- importer/stl/binary_test.go:15-49 `Test_binaryDecoder_decode`. -/
theorem stl_binary : 
    (stlResult (Stl.binaryDecode (fun _ => false) 1 ⟨stlBinary, true⟩)).2 = false ∧
    meshNear (stlResult (Stl.binaryDecode (fun _ => false) 1 ⟨stlBinary, true⟩)).1 stlWant = true ∧
    (stlResult (Stl.binaryDecode (fun _ => true) 1 ⟨stlBinary, true⟩)).2 = true ∧
    (stlResult (Stl.binaryDecode (fun _ => false) 1 ⟨[], true⟩)).2 = true ∧
    (stlResult (Stl.binaryDecode (fun _ => false) 1 ⟨List.replicate 80 0, true⟩)).2 = true ∧
    (stlResult (Stl.binaryDecode (fun _ => false) 1 ⟨stlBinary.take 100, true⟩)).2 = true := by
  decide +kernel

/-- importer/stl/decoder_test.go:36-70 `TestDecoder_Decode`. -/
theorem stl_Decode : 
    (Stl.decode (fun _ => false) ⟨[], true⟩ .zero).map (fun p => p.2.isSome) = some true ∧
    (Stl.decode (fun _ => false) ⟨(b!"solid" ++ stlBinary.drop 5), true⟩ .zero).map (fun p => (p.2.isSome, p.1.resources.objects.map fun o => (o.mesh.map fun m => meshNear m stlWant, decide ({ o with mesh := none } = { Object.zero with id := 1 })))) = some (false, [(some true, true)]) ∧
    (Stl.decode (fun _ => false) ⟨stlAscii, true⟩ .zero).map (fun p => (p.2.isSome, p.1.resources.objects.map fun o => (o.mesh.map fun m => meshNear m stlWant, decide ({ o with mesh := none } = { Object.zero with id := 1 })))) = some (false, [(some true, true)]) := by
  decide +kernel

end Go3mf.Tests
