import Verif.Model.Encode
import Verif.Tests.Read

/-!
# Tests of the repository: decoding and encoding of the extensions

decoder_test.go and encoder_test.go of the packages slices, materials, beamlattice and production, with the same input and the
same expected result.
-/

namespace Go3mf.Tests

/-- Only one extension is registered. -/
def onlyExt : Ext → Env
  | .production => ⟨id, true, false, false, false⟩
  | .slices => ⟨id, false, true, false, false⟩
  | .beamlattice => ⟨id, false, false, true, false⟩
  | .materials => ⟨id, false, false, false, true⟩

/-- `UnmarshalModel` of a model that has only a path: the model and whether there is no error. -/
def unmarshal (e : Ext) (data : Str) : Option (Model × Bool) :=
  (unmarshalModel (onlyExt e) (fun _ t => t) data { Model.zero with path := defaultModelPath }).map fun p =>
    (p.1, DecodeResult.good p.2)

/-- The texts of the list of errors of `UnmarshalModel`. -/
def unmarshalErrs (e : Ext) (data : Str) : Option (List Str) :=
  (unmarshalModel (onlyExt e) (fun _ t => t) data { Model.zero with path := defaultModelPath }).map fun p =>
    match p.2 with
    | .list es => es.map Err.text
    | _ => []

/-- The document of `TestDecode`, slices/decoder_test.go:46. -/
def slicesDoc : Str := b!"\n\t<model xmlns=\"http://schemas.microsoft.com/3dmanufacturing/core/2015/02\" xmlns:s=\"http://schemas.microsoft.com/3dmanufacturing/slice/2015/07\">\n\t\t<resources>\n\t\t\t<s:other />\n\t\t\t<s:slicestack id=\"3\" zbottom=\"1\">\n\t\t\t\t<s:slice ztop=\"0\">\n\t\t\t\t\t<s:vertices>\n\t\t\t\t\t\t<s:vertex x=\"1.01\" y=\"1.02\" /> <s:vertex x=\"9.03\" y=\"1.04\" /> <s:vertex x=\"9.05\" y=\"9.06\" /> <s:vertex x=\"1.07\" y=\"9.08\" />\n\t\t\t\t\t</s:vertices>\n\t\t\t\t\t<s:polygon startv=\"0\">\n\t\t\t\t\t\t<s:segment v2=\"1\" pid=\"1\" p1=\"2\" p2=\"3\"></s:segment> <s:segment v2=\"2\" pid=\"1\" p1=\"2\" p2=\"2\"></s:segment> <s:segment v2=\"3\"></s:segment> <s:segment v2=\"0\"></s:segment>\n\t\t\t\t\t</s:polygon>\n\t\t\t\t</s:slice>\n\t\t\t\t<s:slice ztop=\"0.1\">\n\t\t\t\t\t<s:vertices>\n\t\t\t\t\t\t<s:vertex x=\"1.01\" y=\"1.02\" /> <s:vertex x=\"9.03\" y=\"1.04\" /> <s:vertex x=\"9.05\" y=\"9.06\" /> <s:vertex x=\"1.07\" y=\"9.08\" />\n\t\t\t\t\t</s:vertices>\n\t\t\t\t\t<s:polygon startv=\"0\"> \n\t\t\t\t\t\t<s:segment v2=\"2\"></s:segment> <s:segment v2=\"1\"></s:segment> <s:segment v2=\"3\"></s:segment> <s:segment v2=\"0\"></s:segment>\n\t\t\t\t\t</s:polygon>\n\t\t\t\t</s:slice>\n\t\t\t</s:slicestack>\n\t\t\t<s:slicestack id=\"7\" zbottom=\"1.1\">\n\t\t\t\t<s:sliceref slicestackid=\"10\" slicepath=\"/2D/2Dmodel.model\" />\n\t\t\t</s:slicestack>\n\t\t\t<object id=\"8\" name=\"Box 1\" s:meshresolution=\"lowres\" s:slicestackid=\"3\" type=\"model\">\n\t\t\t\t<mesh>\n\t\t\t\t\t<vertices>\n\t\t\t\t\t</vertices>\n\t\t\t\t\t<triangles>\n\t\t\t\t\t</triangles>\n\t\t\t\t</mesh>\n\t\t\t</object>\n\t\t</resources>\n\t\t<build>\n\t\t</build>\n\t</model>"

/-- The model expected by `TestDecode`. -/
def slicesWant : Model :=
  { Model.zero with
    path := b!"/3D/3dmodel.model"
    extensions := [⟨nsSlices, b!"s", false⟩]
    resources := ⟨[.res (.sliceStack ⟨3, .one, [⟨.zero, [⟨(F32.ofBits 0x3F8147AE), (F32.ofBits 0x3F828F5C)⟩, ⟨(F32.ofBits 0x41107AE1), (F32.ofBits 0x3F851EB8)⟩, ⟨(F32.ofBits 0x4110CCCD), (F32.ofBits 0x4110F5C3)⟩, ⟨(F32.ofBits 0x3F88F5C3), (F32.ofBits 0x411147AE)⟩], [⟨0, [⟨1, 1, 2, 3⟩, ⟨2, 1, 2, 2⟩, ⟨3, 0, 0, 0⟩, ⟨0, 0, 0, 0⟩]⟩]⟩, ⟨(F32.ofBits 0x3DCCCCCD), [⟨(F32.ofBits 0x3F8147AE), (F32.ofBits 0x3F828F5C)⟩, ⟨(F32.ofBits 0x41107AE1), (F32.ofBits 0x3F851EB8)⟩, ⟨(F32.ofBits 0x4110CCCD), (F32.ofBits 0x4110F5C3)⟩, ⟨(F32.ofBits 0x3F88F5C3), (F32.ofBits 0x411147AE)⟩], [⟨0, [⟨2, 0, 0, 0⟩, ⟨1, 0, 0, 0⟩, ⟨3, 0, 0, 0⟩, ⟨0, 0, 0, 0⟩]⟩]⟩], []⟩), .res (.sliceStack ⟨7, (F32.ofBits 0x3F8CCCCD), [], [⟨10, b!"/2D/2Dmodel.model"⟩]⟩)], [{ Object.zero with
      id := 8
      name := b!"Box 1"
      mesh := some Mesh.zero
      anyAttr := [.sliceObject 3 .low] }], []⟩ }

/-- slices/decoder_test.go:16-94 `TestDecode`. -/
theorem slices_decode : unmarshal .slices slicesDoc = some (slicesWant, true) := by
  decide +kernel

/-- The document of `TestDecode_warns`, slices/decoder_test.go:111. -/
def slicesWarnDoc : Str := b!"\n\t\t<model xmlns=\"http://schemas.microsoft.com/3dmanufacturing/core/2015/02\" xmlns:s=\"http://schemas.microsoft.com/3dmanufacturing/slice/2015/07\">\n\t\t<resources>\n\t\t\t<s:slicestack id=\"a\" zbottom=\"a\">\n\t\t\t\t<s:slice>\n\t\t\t\t\t<s:vertices>\n\t\t\t\t\t\t<s:vertex x=\"a\" y=\"1.02\" /> <s:vertex x=\"9.03\" y=\"b\" /> <s:vertex x=\"9.05\" y=\"9.06\" /> <s:vertex x=\"1.07\" y=\"9.08\" />\n\t\t\t\t\t</s:vertices>\n\t\t\t\t\t<s:polygon startv=\"50\">\n\t\t\t\t\t\t<s:segment v2=\"1\"/>\n\t\t\t\t\t\t<s:segment v2=\"100\"/>\n\t\t\t\t\t</s:polygon>\n\t\t\t\t</s:slice>\n\t\t\t\t<s:slice ztop=\"a\">\n\t\t\t\t\t<s:vertices>\n\t\t\t\t\t\t<s:vertex x=\"1.01\" y=\"1.02\" /> <s:vertex x=\"9.03\" y=\"1.04\" /> <s:vertex x=\"9.05\" y=\"9.06\" /> <s:vertex x=\"1.07\" y=\"9.08\" />\n\t\t\t\t\t</s:vertices>\n\t\t\t\t\t<s:polygon startv=\"a\"> \n\t\t\t\t\t\t<s:segment v2=\"1\"></s:segment> <s:segment v2=\"a\"></s:segment> <s:segment v2=\"3\"></s:segment> <s:segment v2=\"0\"></s:segment>\n\t\t\t\t\t</s:polygon>\n\t\t\t\t</s:slice>\n\t\t\t\t<s:sliceref slicestackid=\"a\" slicepath=\"/3D/3dmodel.model\" />\n\t\t\t</s:slicestack>\n\t\t\t<s:slicestack id=\"7\" zbottom=\"1.1\">\n\t\t\t\t<s:sliceref slicepath=\"/2D/2Dmodel.model\" />\n\t\t\t</s:slicestack>\n\t\t\t<object id=\"8\" name=\"Box 1\" s:meshresolution=\"invalid\" s:slicestackid=\"a\">\n\t\t\t\t<mesh>\n\t\t\t\t\t<vertices>\n\t\t\t\t\t\t<vertex x=\"0\" y=\"0\" z=\"0\" />\n\t\t\t\t\t\t<vertex x=\"100.00000\" y=\"0\" z=\"0\" />\n\t\t\t\t\t\t<vertex x=\"100.00000\" y=\"100.00000\" z=\"0\" />\n\t\t\t\t\t\t<vertex x=\"0\" y=\"100.00000\" z=\"0\" />\n\t\t\t\t\t\t<vertex x=\"0\" y=\"0\" z=\"100.00000\" />\n\t\t\t\t\t\t<vertex x=\"100.00000\" y=\"0\" z=\"100.00000\" />\n\t\t\t\t\t\t<vertex x=\"100.00000\" y=\"100.00000\" z=\"100.00000\" />\n\t\t\t\t\t\t<vertex x=\"0\" y=\"100.00000\" z=\"100.00000\" />\n\t\t\t\t\t</vertices>\n\t\t\t\t\t<triangles>\n\t\t\t\t\t\t<triangle v1=\"2\" v2=\"3\" v3=\"1\" />\n\t\t\t\t\t\t<triangle v1=\"3\" v2=\"2\" v3=\"1\" />\n\t\t\t\t\t\t<triangle v1=\"3\" v2=\"2\" v3=\"1\" />\n\t\t\t\t\t\t<triangle v1=\"1\" v2=\"0\" v3=\"3\" />\n\t\t\t\t\t\t<triangle v1=\"4\" v2=\"5\" v3=\"6\" />\n\t\t\t\t\t\t<triangle v1=\"6\" v2=\"7\" v3=\"4\" />\n\t\t\t\t\t\t<triangle v1=\"0\" v2=\"1\" v3=\"5\" />\n\t\t\t\t\t\t<triangle v1=\"5\" v2=\"4\" v3=\"0\" />\n\t\t\t\t\t\t<triangle v1=\"1\" v2=\"2\" v3=\"6\" />\n\t\t\t\t\t\t<triangle v1=\"6\" v2=\"5\" v3=\"1\" />\n\t\t\t\t\t\t<triangle v1=\"2\" v2=\"3\" v3=\"7\" />\n\t\t\t\t\t\t<triangle v1=\"7\" v2=\"6\" v3=\"2\" />\n\t\t\t\t\t\t<triangle v1=\"3\" v2=\"0\" v3=\"4\" />\n\t\t\t\t\t\t<triangle v1=\"4\" v2=\"7\" v3=\"3\" />\n\t\t\t\t\t</triangles>\n\t\t\t\t</mesh>\n\t\t\t</object>\n\t\t</resources>\n\t\t<build>\n\t\t</build>\n\t\t</model>\n\t\t"

/-- slices/decoder_test.go:96-187 `TestDecode_warns`. -/
theorem slices_decode_warns : unmarshalErrs .slices slicesWarnDoc = some
      [b!"go3mf: XPath: /model/resources/slicestack[0]: error parsing required attribute 'id'",
       b!"go3mf: XPath: /model/resources/slicestack[0]: error parsing optional attribute 'zbottom'",
       b!"go3mf: XPath: /model/resources/slicestack[0]/slice[0]/vertices/vertex[0]: error parsing required attribute 'x'",
       b!"go3mf: XPath: /model/resources/slicestack[0]/slice[0]/vertices/vertex[1]: error parsing required attribute 'y'",
       b!"go3mf: XPath: /model/resources/slicestack[0]/slice[1]: error parsing required attribute 'ztop'",
       b!"go3mf: XPath: /model/resources/slicestack[0]/slice[1]/polygon[0]: error parsing required attribute 'startv'",
       b!"go3mf: XPath: /model/resources/slicestack[0]/slice[1]/polygon[0]/segment[1]: error parsing required attribute 'v2'",
       b!"go3mf: XPath: /model/resources/slicestack[0]/sliceref[0]: error parsing required attribute 'slicestackid'",
       b!"go3mf: XPath: /model/resources/object[0]: error parsing optional attribute 'meshresolution'",
       b!"go3mf: XPath: /model/resources/object[0]: error parsing required attribute 'slicestackid'"] := by
  decide +kernel

/-- The model of `TestMarshalModel`. -/
def slicesModel : Model :=
  { Model.zero with
    path := b!"/3D/3dmodel.model"
    extensions := [⟨nsSlices, b!"s", false⟩]
    resources := ⟨[.base ⟨10, [⟨b!"a", ⟨1, 0, 0, 0⟩, []⟩, ⟨b!"b", ⟨1, 0, 0, 0⟩, []⟩], []⟩, .res (.sliceStack ⟨3, .one, [⟨.zero, [⟨(F32.ofBits 0x3F8147AE), (F32.ofBits 0x3F828F5C)⟩, ⟨(F32.ofBits 0x41107AE1), (F32.ofBits 0x3F851EB8)⟩, ⟨(F32.ofBits 0x4110CCCD), (F32.ofBits 0x4110F5C3)⟩, ⟨(F32.ofBits 0x3F88F5C3), (F32.ofBits 0x411147AE)⟩], [⟨0, [⟨1, 10, 0, 0⟩, ⟨2, 10, 0, 1⟩, ⟨3, 0, 0, 0⟩, ⟨0, 0, 0, 0⟩]⟩]⟩, ⟨(F32.ofBits 0x3DCCCCCD), [⟨(F32.ofBits 0x3F8147AE), (F32.ofBits 0x3F828F5C)⟩, ⟨(F32.ofBits 0x41107AE1), (F32.ofBits 0x3F851EB8)⟩, ⟨(F32.ofBits 0x4110CCCD), (F32.ofBits 0x4110F5C3)⟩, ⟨(F32.ofBits 0x3F88F5C3), (F32.ofBits 0x411147AE)⟩], [⟨1, [⟨2, 0, 0, 0⟩, ⟨1, 0, 0, 0⟩, ⟨3, 0, 0, 0⟩, ⟨0, 0, 0, 0⟩]⟩]⟩], []⟩), .res (.sliceStack ⟨7, (F32.ofBits 0x3F8CCCCD), [], [⟨10, b!"/2D/2dmodel.model"⟩]⟩)], [{ Object.zero with
      id := 8
      name := b!"Box 1"
      mesh := some Mesh.zero
      anyAttr := [.sliceObject 3 .low] }], []⟩ }

/-- slices/encoder_test.go:15-62 `TestMarshalModel`. -/
theorem slices_marshal : unmarshal .slices (marshalModel slicesModel) = some (slicesModel, true) := by
  decide +kernel

/-- The document of `TestDecode`, materials/decoder_test.go:29. -/
def materialsDoc : Str := b!"\n\t<model xmlns=\"http://schemas.microsoft.com/3dmanufacturing/core/2015/02\" xmlns:m=\"http://schemas.microsoft.com/3dmanufacturing/material/2015/02\">\n\t\t<resources>\n\t\t\t<m:texture2d id=\"6\" path=\"/3D/Texture/msLogo.png\" contenttype=\"image/png\" tilestyleu=\"wrap\" tilestylev=\"mirror\" filter=\"auto\" />\n\t\t\t<m:colorgroup id=\"1\">\n\t\t\t\t<m:color color=\"#FFFFFF\" /> <m:color color=\"#000000\" /> <m:color color=\"#1AB567\" /> <m:color color=\"#DF045A\" />\n\t\t\t</m:colorgroup>\n\t\t\t<m:texture2dgroup id=\"2\" texid=\"6\">\n\t\t\t\t<m:tex2coord u=\"0.3\" v=\"0.5\" /> <m:tex2coord u=\"0.3\" v=\"0.8\" />\t<m:tex2coord u=\"0.5\" v=\"0.8\" />\t<m:tex2coord u=\"0.5\" v=\"0.5\" />\n\t\t\t</m:texture2dgroup>\n\t\t\t<m:compositematerials id=\"4\" matid=\"5\" matindices=\"1 2\">\n\t\t\t\t<m:composite values=\"0.5 0.5\"/>\n\t\t\t\t<m:composite values=\"0.2 0.8\"/>\n\t\t\t</m:compositematerials>\n\t\t\t<m:multiproperties id=\"9\" pids=\"5 2\" blendmethods=\"multiply\">\n\t\t\t\t<m:multi pindices=\"0 0\" />\n\t\t\t\t<m:multi pindices=\"1 0\" />\n\t\t\t\t<m:multi pindices=\"2 3\" />\n\t\t\t</m:multiproperties>\n\t\t</resources>\n\t\t<build>\n\t\t</build>\n\t</model>"

/-- The model expected by `TestDecode`. -/
def materialsWant : Model :=
  { Model.zero with
    path := b!"/3D/3dmodel.model"
    extensions := [⟨nsMaterials, b!"m", false⟩]
    resources := ⟨[.res (.texture2D ⟨6, b!"/3D/Texture/msLogo.png", .png, .wrap, .mirror, .auto⟩), .res (.colorGroup ⟨1, [⟨255, 255, 255, 255⟩, ⟨0, 0, 0, 255⟩, ⟨26, 181, 103, 255⟩, ⟨223, 4, 90, 255⟩]⟩), .res (.texture2DGroup ⟨2, 6, [⟨(F32.ofBits 0x3E99999A), (F32.ofBits 0x3F000000)⟩, ⟨(F32.ofBits 0x3E99999A), (F32.ofBits 0x3F4CCCCD)⟩, ⟨(F32.ofBits 0x3F000000), (F32.ofBits 0x3F4CCCCD)⟩, ⟨(F32.ofBits 0x3F000000), (F32.ofBits 0x3F000000)⟩]⟩), .res (.composite ⟨4, 5, [1, 2], [[(F32.ofBits 0x3F000000), (F32.ofBits 0x3F000000)], [(F32.ofBits 0x3E4CCCCD), (F32.ofBits 0x3F4CCCCD)]]⟩), .res (.multi ⟨9, [5, 2], [.multiply], [[0, 0], [1, 0], [2, 3]]⟩)], [], []⟩ }

/-- materials/decoder_test.go:16-62 `TestDecode`. -/
theorem materials_decode : unmarshal .materials materialsDoc = some (materialsWant, true) := by
  decide +kernel

/-- The document of `TestDecode_warns`, materials/decoder_test.go:77. -/
def materialsWarnDoc : Str := b!"\n\t<model xmlns=\"http://schemas.microsoft.com/3dmanufacturing/core/2015/02\" xmlns:m=\"http://schemas.microsoft.com/3dmanufacturing/material/2015/02\">\n\t\t<resources>\n\t\t\t<m:texture2d id=\"6\" qm:mq=\"other\" path=\"/3D/Texture/msLogo.png\" contenttype=\"image/png\" tilestyleu=\"wrap\" tilestylev=\"mirror\" filter=\"auto\" />\n\t\t\t<m:texture2d id=\"b\" contenttype=\"image/png\" tilestyleu=\"wrap\" tilestylev=\"mirror\" filter=\"auto\" />\n\t\t\t<m:colorgroup id=\"1\">\n\t\t\t\t<m:color color=\"#FFFFF\" /> <m:color color=\"#000000\" /> <m:color color=\"#1AB567\" /> <m:color color=\"#DF045A\" />\n\t\t\t</m:colorgroup>\n\t\t\t<m:texture2dgroup qm:mq=\"other\" id=\"2\" texid=\"a\">\n\t\t\t\t<m:tex2coord qm:mq=\"other\" u=\"b\" v=\"0.5\" /> <m:tex2coord u=\"0.3\" v=\"c\" />\t<m:tex2coord u=\"0.5\" v=\"0.8\" />\t<m:tex2coord u=\"0.5\" v=\"0.5\" />\n\t\t\t</m:texture2dgroup>\n\t\t\t<m:compositematerials id=\"4\" matid=\"a\" qm:mq=\"other\">\n\t\t\t\t<m:composite/>\n\t\t\t\t<m:composite values=\"a 0.8\"/>\n\t\t\t</m:compositematerials>\n\t\t\t<m:multiproperties id=\"9\" qm:mq=\"other\" pids=\"a 2\">\n\t\t\t\t<m:multi />\n\t\t\t</m:multiproperties>\n\t\t\t<m:multiproperties id=\"19\" />\n\t\t\t<object id=\"8\" name=\"Box 1\" pid=\"5\" pindex=\"0\" type=\"model\">\n\t\t\t\t<mesh>\n\t\t\t\t\t<vertices>\n\t\t\t\t\t\t<vertex x=\"0\" y=\"0\" z=\"0\" />\n\t\t\t\t\t\t<vertex x=\"100.00000\" y=\"0\" z=\"0\" />\n\t\t\t\t\t\t<vertex x=\"100.00000\" y=\"100.00000\" z=\"0\" />\n\t\t\t\t\t\t<vertex x=\"0\" y=\"100.00000\" z=\"0\" />\n\t\t\t\t\t\t<vertex x=\"0\" y=\"0\" z=\"100.00000\" />\n\t\t\t\t\t\t<vertex x=\"100.00000\" y=\"0\" z=\"100.00000\" />\n\t\t\t\t\t\t<vertex x=\"100.00000\" y=\"100.00000\" z=\"100.00000\" />\n\t\t\t\t\t\t<vertex x=\"0\" y=\"100.00000\" z=\"100.00000\" />\n\t\t\t\t\t</vertices>\n\t\t\t\t\t<triangles>\n\t\t\t\t\t\t<triangle v1=\"2\" v2=\"3\" v3=\"1\" />\n\t\t\t\t\t\t<triangle v1=\"3\" v2=\"2\" v3=\"1\" />\n\t\t\t\t\t\t<triangle v1=\"3\" v2=\"2\" v3=\"1\" />\n\t\t\t\t\t\t<triangle v1=\"1\" v2=\"0\" v3=\"3\" />\n\t\t\t\t\t\t<triangle v1=\"4\" v2=\"5\" v3=\"6\" p1=\"1\" />\n\t\t\t\t\t\t<triangle v1=\"6\" v2=\"7\" v3=\"4\" pid=\"5\" p1=\"1\" />\n\t\t\t\t\t\t<triangle v1=\"0\" v2=\"1\" v3=\"5\" pid=\"2\" p1=\"0\" p2=\"1\" p3=\"2\"/>\n\t\t\t\t\t\t<triangle v1=\"5\" v2=\"4\" v3=\"0\" pid=\"2\" p1=\"3\" p2=\"0\" p3=\"2\"/>\n\t\t\t\t\t\t<triangle v1=\"1\" v2=\"2\" v3=\"6\" pid=\"1\" p1=\"0\" p2=\"1\" p3=\"2\"/>\n\t\t\t\t\t\t<triangle v1=\"6\" v2=\"5\" v3=\"1\" pid=\"1\" p1=\"2\" p2=\"1\" p3=\"3\"/>\n\t\t\t\t\t\t<triangle v1=\"2\" v2=\"3\" v3=\"7\" />\n\t\t\t\t\t\t<triangle v1=\"7\" v2=\"6\" v3=\"2\" />\n\t\t\t\t\t\t<triangle v1=\"3\" v2=\"0\" v3=\"4\" />\n\t\t\t\t\t\t<triangle v1=\"4\" v2=\"7\" v3=\"3\" />\n\t\t\t\t\t</triangles>\n\t\t\t\t</mesh>\n\t\t\t</object>\n\t\t</resources>\n\t\t<build>\n\t\t</build>\n\t</model>"

/-- materials/decoder_test.go:64-144 `TestDecode_warns`. -/
theorem materials_decode_warns : unmarshalErrs .materials materialsWarnDoc = some
      [b!"go3mf: XPath: /model/resources/texture2d[1]: error parsing required attribute 'id'",
       b!"go3mf: XPath: /model/resources/colorgroup[2]/color[0]: error parsing required attribute 'color'",
       b!"go3mf: XPath: /model/resources/texture2dgroup[3]: error parsing required attribute 'texid'",
       b!"go3mf: XPath: /model/resources/texture2dgroup[3]/tex2coord[0]: error parsing required attribute 'u'",
       b!"go3mf: XPath: /model/resources/texture2dgroup[3]/tex2coord[1]: error parsing required attribute 'v'",
       b!"go3mf: XPath: /model/resources/compositematerials[4]: error parsing required attribute 'matid'",
       b!"go3mf: XPath: /model/resources/compositematerials[4]/composite[1]: error parsing required attribute 'values'",
       b!"go3mf: XPath: /model/resources/multiproperties[5]: error parsing required attribute 'pids'"] := by
  decide +kernel

/-- materials/encoder_test.go:14-39 `TestMarshalModel`. -/
theorem materials_marshal : unmarshal .materials (marshalModel materialsWant) = some (materialsWant, true) := by
  decide +kernel

/-- The document of `TestDecode`, beamlattice/decoder_test.go:63. -/
def beamlatticeDoc : Str := b!"\n\t\t<model xmlns=\"http://schemas.microsoft.com/3dmanufacturing/core/2015/02\" xmlns:b=\"http://schemas.microsoft.com/3dmanufacturing/beamlattice/2017/02\">\n\t\t<resources>\n\t\t\t<object id=\"15\" name=\"Box\" type=\"model\">\n\t\t\t\t<mesh>\n\t\t\t\t\t<vertices>\n\t\t\t\t\t\t<vertex x=\"45.00000\" y=\"55.00000\" z=\"55.00000\"/>\n\t\t\t\t\t\t<vertex x=\"45.00000\" y=\"45.00000\" z=\"55.00000\"/>\n\t\t\t\t\t\t<vertex x=\"45.00000\" y=\"55.00000\" z=\"45.00000\"/>\n\t\t\t\t\t\t<vertex x=\"45.00000\" y=\"45.00000\" z=\"45.00000\"/>\n\t\t\t\t\t\t<vertex x=\"55.00000\" y=\"55.00000\" z=\"45.00000\"/>\n\t\t\t\t\t\t<vertex x=\"55.00000\" y=\"55.00000\" z=\"55.00000\"/>\n\t\t\t\t\t\t<vertex x=\"55.00000\" y=\"45.00000\" z=\"55.00000\"/>\n\t\t\t\t\t\t<vertex x=\"55.00000\" y=\"45.00000\" z=\"45.00000\"/>\n\t\t\t\t\t</vertices>\n\t\t\t\t\t<b:other/>\n\t\t\t\t\t<b:beamlattice radius=\"1\" minlength=\"0.0001\" cap=\"hemisphere\" clippingmode=\"inside\" clippingmesh=\"8\" representationmesh=\"8\">\n\t\t\t\t\t\t<b:beams>\n\t\t\t\t\t\t\t<b:beam v1=\"0\" v2=\"1\" r1=\"1.50000\" r2=\"1.60000\" cap1=\"sphere\" cap2=\"butt\"/>\n\t\t\t\t\t\t\t<b:beam v1=\"2\" v2=\"0\" r1=\"3.00000\" r2=\"1.50000\" cap1=\"sphere\"/>\n\t\t\t\t\t\t\t<b:beam v1=\"1\" v2=\"3\" r1=\"1.60000\" r2=\"3.00000\"/>\n\t\t\t\t\t\t\t<b:beam v1=\"3\" v2=\"2\" />\n\t\t\t\t\t\t\t<b:beam v1=\"2\" v2=\"4\" r1=\"3.00000\" r2=\"2.00000\"/>\n\t\t\t\t\t\t\t<b:beam v1=\"4\" v2=\"5\" r1=\"2.00000\"/>\n\t\t\t\t\t\t\t<b:beam v1=\"5\" v2=\"6\" r1=\"2.00000\"/>\n\t\t\t\t\t\t\t<b:beam v1=\"7\" v2=\"6\" r1=\"2.00000\"/>\n\t\t\t\t\t\t\t<b:beam v1=\"1\" v2=\"6\" r1=\"1.60000\" r2=\"2.00000\"/>\n\t\t\t\t\t\t\t<b:beam v1=\"7\" v2=\"4\" r1=\"2.00000\"/>\n\t\t\t\t\t\t\t<b:beam v1=\"7\" v2=\"3\" r1=\"2.00000\" r2=\"3.00000\"/>\n\t\t\t\t\t\t\t<b:beam v1=\"0\" v2=\"5\" r1=\"1.50000\" r2=\"2.00000\" cap2=\"butt\"/>\n\t\t\t\t\t\t</b:beams>\n\t\t\t\t\t\t<b:beamsets>\n\t\t\t\t\t\t\t<b:beamset name=\"test\" identifier=\"set_id\">\n\t\t\t\t\t\t\t\t<b:ref index=\"1\"/>\n\t\t\t\t\t\t\t</b:beamset>\n\t\t\t\t\t\t</b:beamsets>\n\t\t\t\t\t</b:beamlattice>\n\t\t\t\t</mesh>\n\t\t\t</object>\n\t\t</resources>\n\t\t<build>\n\t\t</build>\n\t\t</model>\n\t\t"

/-- The model expected by `TestDecode`. -/
def beamlatticeWant : Model :=
  { Model.zero with
    path := b!"/3D/3dmodel.model"
    extensions := [⟨nsBeam, b!"b", false⟩]
    resources := ⟨[], [{ Object.zero with
      id := 15
      name := b!"Box"
      mesh := some ⟨[⟨(F32.ofBits 0x42340000), (F32.ofBits 0x425C0000), (F32.ofBits 0x425C0000)⟩, ⟨(F32.ofBits 0x42340000), (F32.ofBits 0x42340000), (F32.ofBits 0x425C0000)⟩, ⟨(F32.ofBits 0x42340000), (F32.ofBits 0x425C0000), (F32.ofBits 0x42340000)⟩, ⟨(F32.ofBits 0x42340000), (F32.ofBits 0x42340000), (F32.ofBits 0x42340000)⟩, ⟨(F32.ofBits 0x425C0000), (F32.ofBits 0x425C0000), (F32.ofBits 0x42340000)⟩, ⟨(F32.ofBits 0x425C0000), (F32.ofBits 0x425C0000), (F32.ofBits 0x425C0000)⟩, ⟨(F32.ofBits 0x425C0000), (F32.ofBits 0x42340000), (F32.ofBits 0x425C0000)⟩, ⟨(F32.ofBits 0x425C0000), (F32.ofBits 0x42340000), (F32.ofBits 0x42340000)⟩], [], [], [], [], [.beamLattice ⟨.inside, 8, 8, [⟨0, 1, (F32.ofBits 0x3FC00000), (F32.ofBits 0x3FCCCCCD), .sphere, .butt⟩, ⟨2, 0, (F32.ofBits 0x40400000), (F32.ofBits 0x3FC00000), .sphere, .hemisphere⟩, ⟨1, 3, (F32.ofBits 0x3FCCCCCD), (F32.ofBits 0x40400000), .hemisphere, .hemisphere⟩, ⟨3, 2, .one, .one, .hemisphere, .hemisphere⟩, ⟨2, 4, (F32.ofBits 0x40400000), (F32.ofBits 0x40000000), .hemisphere, .hemisphere⟩, ⟨4, 5, (F32.ofBits 0x40000000), (F32.ofBits 0x40000000), .hemisphere, .hemisphere⟩, ⟨5, 6, (F32.ofBits 0x40000000), (F32.ofBits 0x40000000), .hemisphere, .hemisphere⟩, ⟨7, 6, (F32.ofBits 0x40000000), (F32.ofBits 0x40000000), .hemisphere, .hemisphere⟩, ⟨1, 6, (F32.ofBits 0x3FCCCCCD), (F32.ofBits 0x40000000), .hemisphere, .hemisphere⟩, ⟨7, 4, (F32.ofBits 0x40000000), (F32.ofBits 0x40000000), .hemisphere, .hemisphere⟩, ⟨7, 3, (F32.ofBits 0x40000000), (F32.ofBits 0x40400000), .hemisphere, .hemisphere⟩, ⟨0, 5, (F32.ofBits 0x3FC00000), (F32.ofBits 0x40000000), .hemisphere, .butt⟩], [⟨[1], b!"test", b!"set_id"⟩], (F32.ofBits 0x38D1B717), .one, .hemisphere⟩]⟩ }], []⟩ }

/-- beamlattice/decoder_test.go:16-118 `TestDecode`. -/
theorem beamlattice_decode : unmarshal .beamlattice beamlatticeDoc = some (beamlatticeWant, true) := by
  decide +kernel

/-- The document of `TestDecode_warns`, beamlattice/decoder_test.go:136. -/
def beamlatticeWarnDoc : Str := b!"\n\t\t<model xmlns=\"http://schemas.microsoft.com/3dmanufacturing/core/2015/02\" xmlns:b=\"http://schemas.microsoft.com/3dmanufacturing/beamlattice/2017/02\">\n\t\t<resources>\n\t\t\t<object id=\"15\" name=\"Box\" type=\"model\">\n\t\t\t\t<mesh>\n\t\t\t\t\t<vertices>\n\t\t\t\t\t\t<vertex x=\"45.00000\" y=\"55.00000\" z=\"55.00000\"/>\n\t\t\t\t\t\t<vertex x=\"45.00000\" y=\"45.00000\" z=\"55.00000\"/>\n\t\t\t\t\t\t<vertex x=\"45.00000\" y=\"55.00000\" z=\"45.00000\"/>\n\t\t\t\t\t\t<vertex x=\"45.00000\" y=\"45.00000\" z=\"45.00000\"/>\n\t\t\t\t\t\t<vertex x=\"55.00000\" y=\"55.00000\" z=\"45.00000\"/>\n\t\t\t\t\t\t<vertex x=\"55.00000\" y=\"55.00000\" z=\"55.00000\"/>\n\t\t\t\t\t\t<vertex x=\"55.00000\" y=\"45.00000\" z=\"55.00000\"/>\n\t\t\t\t\t\t<vertex x=\"55.00000\" y=\"45.00000\" z=\"45.00000\"/>\n\t\t\t\t\t</vertices>\n\t\t\t\t\t<b:beamlattice />\n\t\t\t\t\t<b:beamlattice qm:mq=\"other\" radius=\"a\" minlength=\"b\" cap=\"invalid\" clippingmode=\"invalid2\" clippingmesh=\"c\" representationmesh=\"d\">\n\t\t\t\t\t\t<b:beams>\n\t\t\t\t\t\t\t<b:beam qm:mq=\"other\" v1=\"0\" v2=\"1\" r1=\"a\" r2=\"b\" cap1=\"sphere\" cap2=\"butt\"/>\n\t\t\t\t\t\t\t<b:beam v1=\"2\" v2=\"0\" r1=\"3.00000\" r2=\"1.50000\" cap1=\"sphere\"/>\n\t\t\t\t\t\t\t<b:beam v1=\"1\" v2=\"b\" r1=\"1.60000\" r2=\"3.00000\"/>\n\t\t\t\t\t\t\t<b:beam v1=\"a\" v2=\"2\" />\n\t\t\t\t\t\t\t<b:beam />\n\t\t\t\t\t\t\t<b:beam v1=\"2\" v2=\"4\" r1=\"3.00000\" r2=\"2.00000\"/>\n\t\t\t\t\t\t\t<b:beam v1=\"4\" v2=\"5\" r1=\"2.00000\"/>\n\t\t\t\t\t\t\t<b:beam v1=\"5\" v2=\"6\" r1=\"2.00000\"/>\n\t\t\t\t\t\t\t<b:beam v1=\"7\" v2=\"6\" r1=\"2.00000\"/>\n\t\t\t\t\t\t\t<b:beam v1=\"1\" v2=\"6\" r1=\"1.60000\" r2=\"2.00000\"/>\n\t\t\t\t\t\t\t<b:beam v1=\"7\" v2=\"4\" r1=\"2.00000\"/>\n\t\t\t\t\t\t\t<b:beam v1=\"7\" v2=\"3\" r1=\"2.00000\" r2=\"3.00000\"/>\n\t\t\t\t\t\t\t<b:beam v1=\"0\" v2=\"5\" r1=\"1.50000\" r2=\"2.00000\" cap2=\"butt\"/>\n\t\t\t\t\t\t</b:beams>\n\t\t\t\t\t\t<b:beamsets>\n\t\t\t\t\t\t\t<b:beamset qm:mq=\"other\" name=\"test\" identifier=\"set_id\">\n\t\t\t\t\t\t\t\t<b:ref index=\"1\"/>\n\t\t\t\t\t\t\t\t<b:ref />\n\t\t\t\t\t\t\t\t<b:ref index=\"a\"/>\n\t\t\t\t\t\t\t</b:beamset>\n\t\t\t\t\t\t</b:beamsets>\n\t\t\t\t\t</b:beamlattice>\n\t\t\t\t</mesh>\n\t\t\t</object>\n\t\t</resources>\n\t\t<build>\n\t\t</build>\n\t\t</model>\n\t\t"

/-- beamlattice/decoder_test.go:120-198 `TestDecode_warns`. -/
theorem beamlattice_decode_warns : unmarshalErrs .beamlattice beamlatticeWarnDoc = some
      [b!"go3mf: XPath: /model/resources/object[0]/mesh/beamlattice: error parsing required attribute 'radius'",
       b!"go3mf: XPath: /model/resources/object[0]/mesh/beamlattice: error parsing required attribute 'minlength'",
       b!"go3mf: XPath: /model/resources/object[0]/mesh/beamlattice: error parsing optional attribute 'cap'",
       b!"go3mf: XPath: /model/resources/object[0]/mesh/beamlattice: error parsing optional attribute 'clippingmode'",
       b!"go3mf: XPath: /model/resources/object[0]/mesh/beamlattice: error parsing optional attribute 'clippingmesh'",
       b!"go3mf: XPath: /model/resources/object[0]/mesh/beamlattice: error parsing optional attribute 'representationmesh'",
       b!"go3mf: XPath: /model/resources/object[0]/mesh/beamlattice/beams/beam[0]: error parsing optional attribute 'r1'",
       b!"go3mf: XPath: /model/resources/object[0]/mesh/beamlattice/beams/beam[0]: error parsing optional attribute 'r2'",
       b!"go3mf: XPath: /model/resources/object[0]/mesh/beamlattice/beams/beam[2]: error parsing required attribute 'v2'",
       b!"go3mf: XPath: /model/resources/object[0]/mesh/beamlattice/beams/beam[3]: error parsing required attribute 'v1'",
       b!"go3mf: XPath: /model/resources/object[0]/mesh/beamlattice/beamsets/beamset[0]/ref[2]: error parsing required attribute 'index'"] := by
  decide +kernel

/-- beamlattice/encoder_test.go:14-75 `TestMarshalModel`. -/
theorem beamlattice_marshal : unmarshal .beamlattice (marshalModel beamlatticeWant) = some (beamlatticeWant, true) := by
  decide +kernel

/-- The document of `TestDecode`, production/decoder_test.go:46. -/
def productionDoc : Str := b!"\n\t\t<model xmlns=\"http://schemas.microsoft.com/3dmanufacturing/core/2015/02\" xmlns:p=\"http://schemas.microsoft.com/3dmanufacturing/production/2015/06\"\n\t\trequiredextensions=\"p\">\n\t\t<resources>\n\t\t\t<object id=\"20\" p:UUID=\"cb828680-8895-4e08-a1fc-be63e033df15\">\n\t\t\t\t<components>\n\t\t\t\t\t<component objectid=\"8\" p:UUID=\"cb828680-8895-4e08-a1fc-be63e033df16\" p:path=\"/3D/other.model\" transform=\"3 0 0 0 1 0 0 0 2 -66.4 -87.1 8.8\"/>\n\t\t\t\t</components>\n\t\t\t</object>\n\t\t</resources>\n\t\t<build p:UUID=\"e9e25302-6428-402e-8633-cc95528d0ed3\">\n\t\t\t<item objectid=\"20\" p:UUID=\"e9e25302-6428-402e-8633-cc95528d0ed2\" transform=\"1 0 0 0 2 0 0 0 3 -66.4 -87.1 8.8\" />\n\t\t\t<item objectid=\"8\" p:UUID=\"e9e25302-6428-402e-8633-cc95528d0ed4\" p:path=\"/3D/other.model\" />\n\t\t</build>\n\t\t</model>\n\t\t"

/-- The model expected by `TestDecode`. -/
def productionWant : Model :=
  { Model.zero with
    path := b!"/3D/3dmodel.model"
    extensions := [⟨nsProduction, b!"p", true⟩]
    resources := ⟨[], [{ Object.zero with
      id := 20
      anyAttr := [.prodObject b!"cb828680-8895-4e08-a1fc-be63e033df15"]
      components := some ⟨[⟨8, ⟨(F32.ofBits 0x40400000), .zero, .zero, .zero, .zero, .one, .zero, .zero, .zero, .zero, (F32.ofBits 0x40000000), .zero, (F32.ofBits 0xC284CCCD), (F32.ofBits 0xC2AE3333), (F32.ofBits 0x410CCCCD), .one⟩, [.prodComponent b!"cb828680-8895-4e08-a1fc-be63e033df16" b!"/3D/other.model"]⟩], []⟩ }], []⟩
    build := ⟨[⟨20, ⟨.one, .zero, .zero, .zero, .zero, (F32.ofBits 0x40000000), .zero, .zero, .zero, .zero, (F32.ofBits 0x40400000), .zero, (F32.ofBits 0xC284CCCD), (F32.ofBits 0xC2AE3333), (F32.ofBits 0x410CCCCD), .one⟩, [], ⟨[], []⟩, [.prodItem b!"e9e25302-6428-402e-8633-cc95528d0ed2" []]⟩, ⟨8, .zero, [], ⟨[], []⟩, [.prodItem b!"e9e25302-6428-402e-8633-cc95528d0ed4" b!"/3D/other.model"]⟩], [.prodBuild b!"e9e25302-6428-402e-8633-cc95528d0ed3"]⟩ }

/-- production/decoder_test.go:16-72 `TestDecode`. -/
theorem production_decode : unmarshal .production productionDoc = some (productionWant, true) := by
  decide +kernel

/-- The document of `TestDecode_warns`, production/decoder_test.go:83. -/
def productionWarnDoc : Str := b!"\n\t\t<model \n\t\t\txmlns=\"http://schemas.microsoft.com/3dmanufacturing/core/2015/02\" xmlns:p=\"http://schemas.microsoft.com/3dmanufacturing/production/2015/06\"\n\t\t\trequiredextensions=\"p\">\n\t\t<resources>\n\t\t\t<object id=\"22\" p:UUID=\"cb828680-8895-4e08-a1fc-be63e033df15\" />\n\t\t\t<object id=\"20\" p:UUID=\"cb8286808895-4e08-a1fc-be63e033df15\">\n\t\t\t\t<components>\n\t\t\t\t\t<component objectid=\"8\" p:path=\"/2d/2d.model\" p:UUID=\"cb8286808895-4e08-a1fc-be63e033df16\"/>\n\t\t\t\t\t<component objectid=\"5\" p:UUID=\"cb828680-8895-4e08-a1fc-be63e033df16\"/>\n\t\t\t\t</components>\n\t\t\t</object>\n\t\t</resources>\n\t\t<build p:UUID=\"e9e25302-6428-402e-8633ed2\">\n\t\t\t<item partnumber=\"bob\" objectid=\"20\" p:UUID=\"invalid-uuid\" />\n\t\t\t<item objectid=\"8\" p:path=\"/3D/other.model\"/>\n\t\t\t<item objectid=\"5\" p:UUID=\"e9e25302-6428-402e-8633-cc95528d0ed4\"/>\n\t\t</build>\n\t\t</model>"

/-- production/decoder_test.go:74-117 `TestDecode_warns`. -/
theorem production_decode_warns : unmarshalErrs .production productionWarnDoc = some
      [b!"go3mf: XPath: /model/resources/object[1]: error parsing required attribute 'UUID'",
       b!"go3mf: XPath: /model/resources/object[1]/components/component[0]: error parsing required attribute 'UUID'",
       b!"go3mf: XPath: /model/build: error parsing required attribute 'UUID'",
       b!"go3mf: XPath: /model/build/item[0]: error parsing required attribute 'UUID'"] := by
  decide +kernel

/-- The model of `TestMarshalModel`. -/
def productionModel : Model :=
  { Model.zero with
    path := b!"/3D/3dmodel.model"
    extensions := [⟨nsProduction, b!"p", true⟩]
    resources := ⟨[], [{ Object.zero with
      id := 20
      anyAttr := [.prodObject b!"cb828680-8895-4e08-a1fc-be63e033df15"]
      components := some ⟨[⟨8, .zero, [.prodComponent b!"cb828680-8895-4e08-a1fc-be63e033df16" b!"/3D/other.model"]⟩], []⟩ }], []⟩
    build := ⟨[⟨20, .zero, [], ⟨[], []⟩, [.prodItem b!"e9e25302-6428-402e-8633-cc95528d0ed2" []]⟩, ⟨8, .zero, [], ⟨[], []⟩, [.prodItem b!"e9e25302-6428-402e-8633-cc95528d0ed4" b!"/3D/other.model"]⟩], [.prodBuild b!"e9e25302-6428-402e-8633-cc95528d0ed3"]⟩ }

/-- production/encoder_test.go:14-53 `TestMarshalModel`. -/
theorem production_marshal : unmarshal .production (marshalModel productionModel) = some (productionModel, true) := by
  decide +kernel

end Go3mf.Tests
