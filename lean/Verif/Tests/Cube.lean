import Verif.Tests.Encode

/-!
# Tests of the repository: the packages under testdata

The packages that read_test.go and encoder_test.go open, unzipped: the bytes of their model parts, lexed by the model of encoding/xml.
-/

namespace Go3mf.Tests

/-- testdata/cube.3mf: `_rels/.rels`, and `3D/3dmodel.model` with its bytes, stray character included. -/
def cubePkg : InPkg :=
  ⟨[⟨b!"/3D/3dmodel.model", relModel, b!"rel0"⟩],
    [⟨defaultModelPath, contentTypeModel, [], some (b!"<?xml version=\"1.0\" encoding=\"utf-8\" standalone=\"no\"?>\r\n<model xmlns=\"http://schemas.microsoft.com/3dmanufacturing/core/2015/02\" requiredextensions=\"\" unit=\"millimeter\" xml:lang=\"en-US\">`\r\n    <resources>\r\n        <object id=\"1\" name=\"Cube\">\r\n            <mesh>\r\n                <vertices>\r\n                    <vertex x=\"100.000\" y=\"100.000\" z=\"100.000\"/>\r\n                    <vertex x=\"100.000\" y=\"0.000\" z=\"100.000\"/>\r\n                    <vertex x=\"100.000\" y=\"100.000\" z=\"0.000\"/>\r\n                    <vertex x=\"0.000\" y=\"100.000\" z=\"0.000\"/>\r\n                    <vertex x=\"100.000\" y=\"0.000\" z=\"0.000\"/>\r\n                    <vertex x=\"0.000\" y=\"0.000\" z=\"0.000\"/>\r\n                    <vertex x=\"0.000\" y=\"0.000\" z=\"100.000\"/>\r\n                    <vertex x=\"0.000\" y=\"100.000\" z=\"100.000\"/>\r\n                </vertices>\r\n                <triangles>\r\n                    <triangle v1=\"0\" v2=\"1\" v3=\"2\"/>\r\n                    <triangle v1=\"3\" v2=\"0\" v3=\"2\"/>\r\n                    <triangle v1=\"4\" v2=\"3\" v3=\"2\"/>\r\n                    <triangle v1=\"5\" v2=\"3\" v3=\"4\"/>\r\n                    <triangle v1=\"4\" v2=\"6\" v3=\"5\"/>\r\n                    <triangle v1=\"6\" v2=\"7\" v3=\"5\"/>\r\n                    <triangle v1=\"7\" v2=\"6\" v3=\"0\"/>\r\n                    <triangle v1=\"1\" v2=\"6\" v3=\"4\"/>\r\n                    <triangle v1=\"5\" v2=\"7\" v3=\"3\"/>\r\n                    <triangle v1=\"7\" v2=\"0\" v3=\"3\"/>\r\n                    <triangle v1=\"2\" v2=\"1\" v3=\"4\"/>\r\n                    <triangle v1=\"0\" v2=\"6\" v3=\"1\"/>\r\n                </triangles>\r\n            </mesh>\r\n        </object>\r\n    </resources>\r\n    <build>\r\n        <item objectid=\"1\" transform=\"1.0000 0.0000 0.0000 0.0000 1.0000 0.0000 0.0000 0.0000 1.0000 30 30 50\"/>\r\n    </build>\r\n</model>\r\n", .eof)⟩]⟩

/-- read_test.go:762-782: the model `TestOpenReader` expects. -/
def cubeWant : Model :=
  { Model.zero with path := b!"/3D/3dmodel.model", language := b!"en-US", resources := { Resources.zero with objects := [{ Object.zero with id := 1, name := b!"Cube", mesh := some ⟨[⟨(F32.ofBits 0x42C80000), (F32.ofBits 0x42C80000), (F32.ofBits 0x42C80000)⟩, ⟨(F32.ofBits 0x42C80000), .zero, (F32.ofBits 0x42C80000)⟩, ⟨(F32.ofBits 0x42C80000), (F32.ofBits 0x42C80000), .zero⟩, ⟨.zero, (F32.ofBits 0x42C80000), .zero⟩, ⟨(F32.ofBits 0x42C80000), .zero, .zero⟩, ⟨.zero, .zero, .zero⟩, ⟨.zero, .zero, (F32.ofBits 0x42C80000)⟩, ⟨.zero, (F32.ofBits 0x42C80000), (F32.ofBits 0x42C80000)⟩], [], [⟨0, 1, 2, 0, 0, 0, 0, []⟩, ⟨3, 0, 2, 0, 0, 0, 0, []⟩, ⟨4, 3, 2, 0, 0, 0, 0, []⟩, ⟨5, 3, 4, 0, 0, 0, 0, []⟩, ⟨4, 6, 5, 0, 0, 0, 0, []⟩, ⟨6, 7, 5, 0, 0, 0, 0, []⟩, ⟨7, 6, 0, 0, 0, 0, 0, []⟩, ⟨1, 6, 4, 0, 0, 0, 0, []⟩, ⟨5, 7, 3, 0, 0, 0, 0, []⟩, ⟨7, 0, 3, 0, 0, 0, 0, []⟩, ⟨2, 1, 4, 0, 0, 0, 0, []⟩, ⟨0, 6, 1, 0, 0, 0, 0, []⟩], [], [], []⟩ }] }, build := { Build.zero with items := [{ Item.zero with objectID := 1, transform := ⟨.one, .zero, .zero, .zero, .zero, .one, .zero, .zero, .zero, .zero, .one, .zero, (F32.ofBits 0x41F00000), (F32.ofBits 0x41F00000), (F32.ofBits 0x42480000), .one⟩ }] } }

/-- read_test.go:749-792 `TestOpenReader`, the reading: both in strict mode and out of it. -/
theorem cube_decode : ∀ strict : Bool,
    (decodeSeq ⟨noExt, strict, fun _ _ t => t⟩ simpleOpc cubePkg []).map (fun x => (x.1, match x.2 with
      | .root r => DecodeResult.good r
      | _ => false)) = some (cubeWant, true) := by
  decide +kernel

/-- read_test.go:749-792 `TestOpenReader`, the validation. -/
theorem cube_validate : validateErrs noExt cubeWant = some [] := by
  decide +kernel

/-- The cube saved again and read again. -/
theorem cube_roundtrip : saveLoad cubeWant [] = some (cubeWant, true) := by
  decide +kernel

/-- testdata/super_boogoku_tiny.3mf with its relationships and its model part.  The meshes, of 21442 vertices and 43520 triangles, are cut down to three
vertices each, and the images are a few bytes. -/
def booPkg : InPkg :=
  ⟨[⟨b!"/3D/3dmodel.model", relModel, b!"rel0"⟩, ⟨b!"/Metadata/thumbnail.png", relThumbnail, b!"rel1"⟩],
    [⟨defaultModelPath, contentTypeModel, [⟨b!"/Thumbnails/super_boo.png", b!"http://schemas.microsoft.com/3dmanufacturing/2013/01/3dtexture", b!"rel2"⟩, ⟨b!"/Thumbnails/goku_ss.png", b!"http://schemas.microsoft.com/3dmanufacturing/2013/01/3dtexture", b!"rel3"⟩], some (b!"<?xml version=\"1.0\" encoding=\"utf-8\"?>\r\n<model xmlns=\"http://schemas.microsoft.com/3dmanufacturing/core/2015/02\" unit=\"millimeter\" xml:lang=\"en-US\" xmlns:m=\"http://schemas.microsoft.com/3dmanufacturing/material/2015/02\" xmlns:p=\"http://schemas.microsoft.com/3dmanufacturing/production/2015/06\" xmlns:l=\"http://schemas.autodesk.com/dmg/loadcase/2016/08\" xmlns:t=\"http://schemas.autodesk.com/dmg/tetrahedron/2017/01\" xmlns:b=\"http://schemas.microsoft.com/3dmanufacturing/beamlattice/2017/02\" xmlns:bt=\"http://schemas.autodesk.com/dmg/beamlatticetag/2017/02\" xmlns:s=\"http://schemas.microsoft.com/3dmanufacturing/slice/2015/07\">\r\n\t<resources>\r\n\t\t<object id=\"1\" name=\"super_boo\" type=\"model\" thumbnail=\"/Thumbnails/super_boo.png\" p:UUID=\"03735237-3bf3-4d59-8811-27930515684b\">\r\n\t\t\t<mesh>\r\n\t\t\t\t<vertices>\r\n\t\t\t\t\t<vertex x=\"293.15168\" y=\"211.04888\" z=\"97.30190\" />\r\n\t\t\t\t\t<vertex x=\"293.43140\" y=\"210.34102\" z=\"96.61167\" />\r\n\t\t\t\t\t<vertex x=\"293.45160\" y=\"209.89524\" z=\"96.41711\" /></vertices>\r\n\t\t\t\t<triangles></triangles>\r\n\t\t\t</mesh>\r\n\t\t</object>\r\n\t\t<object id=\"2\" name=\"goku_ss\" type=\"model\" thumbnail=\"/Thumbnails/goku_ss.png\" p:UUID=\"5975300b-cf4f-438c-adab-7de7d6ad0eb2\">\r\n\t\t\t<mesh>\r\n\t\t\t\t<vertices>\r\n\t\t\t\t\t<vertex x=\"205.66530\" y=\"174.72498\" z=\"37.90364\" />\r\n\t\t\t\t\t<vertex x=\"204.20504\" y=\"175.74598\" z=\"37.39778\" />\r\n\t\t\t\t\t<vertex x=\"206.21700\" y=\"175.29242\" z=\"38.10133\" /></vertices>\r\n\t\t\t\t<triangles></triangles>\r\n\t\t\t</mesh>\r\n\t\t</object>\r\n\t</resources>\r\n\t<build p:UUID=\"833d1568-9e1d-452a-a12d-13490db1a2e6\">\r\n\t\t<item objectid=\"1\" p:UUID=\"85ddb9b7-affb-423c-b7a4-93f856c41d53\" />\r\n\t\t<item objectid=\"2\" p:UUID=\"a4bb8b68-7b82-4faa-a8c0-cbe43fa9459b\" />\r\n\t</build>\r\n</model>\r\n", .eof)⟩,
      ⟨b!"/Metadata/thumbnail.png", b!"image/png", [], some (b!"thumbnail", .eof)⟩,
      ⟨b!"/Thumbnails/super_boo.png", b!"image/png", [], some (b!"super_boo", .eof)⟩,
      ⟨b!"/Thumbnails/goku_ss.png", b!"image/png", [], some (b!"goku_ss", .eof)⟩]⟩

/-- encoder_test.go:315-383 `TestEncoder_Relationship`: the package is read, saved, and read again. -/
theorem encoder_Relationship :
    ((decodeSeq ⟨noExt, true, fun _ _ t => t⟩ simpleOpc booPkg []).bind fun x => (saveLoad x.1 []).map fun y => (y.1.relationships, y.2)) =
      some ([⟨b!"/Thumbnails/super_boo.png", b!"http://schemas.microsoft.com/3dmanufacturing/2013/01/3dtexture", b!"rel2"⟩, ⟨b!"/Thumbnails/goku_ss.png", b!"http://schemas.microsoft.com/3dmanufacturing/2013/01/3dtexture", b!"rel3"⟩], true) := by
  decide +kernel

end Go3mf.Tests
