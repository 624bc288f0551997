import Verif.Model.Children
import Verif.Model.ErrText

/-!
# Tests of the repository: read_test.go

The cases of the tests that come with the code, with the same input and the same expected result, run by the model.
-/

namespace Go3mf.Tests

/-- No extension is registered. -/
def noExt : Env := ⟨id, false, false, false, false⟩

/-- A model and the result of decoding a root part. -/
def decodeRoot (env : Env) (strict : Bool) (m : Model) (data : Str) : Option (Model × DecodeResult) :=
  decodeEvents ⟨env, true, fun _ t => t⟩ strict (fun _ => false) m defaultModelPath (lex .eof (.new data)).1 (lex .eof (.new data)).2

/-- read_test.go:432-498: the document of `TestDecoder_processRootModel`. -/
def rootDoc : Str := b!"<model unit=\"millimeter\" xml:lang=\"en-US\" xmlns=\"http://schemas.microsoft.com/3dmanufacturing/core/2015/02\" xmlns:qm=\"http://dummy.com/fake_ext\" xmlns:foo=\"http://dummy.com/foo\" requiredextensions=\"qm\" foo:fooname=\"fooval\" thumbnail=\"/thumbnail.png\" >\n\n\t\t<resources foo:fooname=\"fooval3\">\n\t\t\t<basematerials id=\"5\" foo:fooname=\"fooval7\">\n\t\t\t\t<base name=\"Blue PLA\" displaycolor=\"#0000FF\" />\n\t\t\t\t<base name=\"Red ABS\" displaycolor=\"#FF0000\" foo:fooname=\"fooval8\" />\n\t\t\t</basematerials>\n\t\t\t<object id=\"8\" name=\"Box 1\" pid=\"5\" pindex=\"0\" thumbnail=\"/a.png\" partnumber=\"11111111-1111-1111-1111-111111111111\" type=\"model\">\n\t\t\t\t<mesh foo:fooname=\"fooval9\">\n\t\t\t\t\t<vertices foo:fooname=\"fooval10\">\n\t\t\t\t\t\t<vertex x=\"0\" y=\"0\" z=\"0\" foo:fooname=\"f1\"/>\n\t\t\t\t\t\t<vertex x=\"100.00000\" y=\"0\" z=\"0\" />\n\t\t\t\t\t\t<vertex x=\"100.00000\" y=\"100.00000\" z=\"0\" />\n\t\t\t\t\t\t<vertex x=\"0\" y=\"100.00000\" z=\"0\" />\n\t\t\t\t\t\t<vertex x=\"0\" y=\"0\" z=\"100.00000\" />\n\t\t\t\t\t\t<vertex x=\"100.00000\" y=\"0\" z=\"100.00000\" />\n\t\t\t\t\t\t<vertex x=\"100.00000\" y=\"100.00000\" z=\"100.00000\" />\n\t\t\t\t\t\t<vertex x=\"0\" y=\"100.00000\" z=\"100.00000\" />\n\t\t\t\t\t</vertices>\n\t\t\t\t\t<triangles foo:fooname=\"fooval11\">\n\t\t\t\t\t\t<triangle v1=\"3\" v2=\"2\" v3=\"1\" foo:fooname=\"t1\" />\n\t\t\t\t\t\t<triangle v1=\"1\" v2=\"0\" v3=\"3\" />\n\t\t\t\t\t\t<triangle v1=\"4\" v2=\"5\" v3=\"6\" p1=\"1\" />\n\t\t\t\t\t\t<triangle v1=\"6\" v2=\"7\" v3=\"4\" pid=\"5\" p1=\"1\" />\n\t\t\t\t\t\t<triangle v1=\"0\" v2=\"1\" v3=\"5\" pid=\"5\" p1=\"0\" p2=\"1\" p3=\"2\"/>\n\t\t\t\t\t\t<triangle v1=\"5\" v2=\"4\" v3=\"0\" pid=\"5\" p1=\"3\" p2=\"0\" p3=\"2\"/>\n\t\t\t\t\t\t<triangle v1=\"1\" v2=\"2\" v3=\"6\" pid=\"5\" p1=\"0\" p2=\"1\" p3=\"2\"/>\n\t\t\t\t\t\t<triangle v1=\"6\" v2=\"5\" v3=\"1\" pid=\"5\" p1=\"2\" p2=\"1\" p3=\"3\"/>\n\t\t\t\t\t\t<triangle v1=\"2\" v2=\"3\" v3=\"7\" />\n\t\t\t\t\t\t<triangle v1=\"7\" v2=\"6\" v3=\"2\" />\n\t\t\t\t\t\t<triangle v1=\"3\" v2=\"0\" v3=\"4\" />\n\t\t\t\t\t\t<triangle v1=\"4\" v2=\"7\" v3=\"3\" />\n\t\t\t\t\t</triangles>\n\t\t\t\t\t<foo:fake/>\n\t\t\t\t</mesh>\n\t\t\t</object>\n\t\t\t<object id=\"20\" type=\"support\" foo:fooname=\"fooval6\">\n\t\t\t\t<metadatagroup foo:fooname=\"fooval12\">\n\t\t\t\t\t<metadata name=\"qm:CustomMetadata3\" type=\"xs:boolean\">1</metadata>\n\t\t\t\t\t<metadata name=\"qm:CustomMetadata4\" type=\"xs:boolean\">2</metadata>\n\t\t\t\t</metadatagroup>\n\t\t\t\t<components foo:fooname=\"fooval4\">\n\t\t\t\t\t<component objectid=\"8\" transform=\"3 0 0 0 1 0 0 0 2 -66.4 -87.1 8.8\" foo:fooname=\"fooval5\"/>\n\t\t\t\t</components>\n\t\t\t</object>\n\t\t\t<foo:resources id=\"50\" name=\"test\">\n\t\t\t\t<foo:resource val=\"1\">\n\t\t\t\t\t<foo:subresource val=\"2\"/>\n\t\t\t\t</foo:resource>\n\t\t\t</foo:resources>\n\t\t</resources>\n\t\t<build foo:fooname=\"fooval1\">\n\t\t\t<item partnumber=\"bob\" objectid=\"20\" transform=\"1 0 0 0 2 0 0 0 3 -66.4 -87.1 8.8\" foo:fooname=\"fooval2\">\n\t\t\t\t<metadatagroup foo:fooname=\"fooval13\">\n\t\t\t\t\t<metadata name=\"qm:CustomMetadata3\" type=\"xs:boolean\">1</metadata>\n\t\t\t\t</metadatagroup>\n\t\t\t</item>\n\t\t</build>\n\t\t<metadata name=\"Application\">go3mf app</metadata>\n\t\t<metadata name=\"qm:CustomMetadata1\" type=\"xs:string\" preserve=\"1\">CE8A91FB-C44E-4F00-B634-BAA411465F6A</metadata>\n\t\t<other />\n\t\t<foo:other />\n\t\t<foo:other1 a=\"2\">\n\t\t\t<foo:child1 />\n\t\t</foo:other1>\n\t\t\n</model>\n"

/-- read_test.go:334-367 `meshRes`. -/
def rootMesh : Object :=
  { Object.zero with
    id := 8
    name := b!"Box 1"
    thumbnail := b!"/a.png"
    pid := 5
    partNumber := b!"11111111-1111-1111-1111-111111111111"
    mesh := some ⟨[⟨.zero, .zero, .zero⟩, ⟨(F32.ofBits 0x42C80000), .zero, .zero⟩, ⟨(F32.ofBits 0x42C80000), (F32.ofBits 0x42C80000), .zero⟩, ⟨.zero, (F32.ofBits 0x42C80000), .zero⟩, ⟨.zero, .zero, (F32.ofBits 0x42C80000)⟩, ⟨(F32.ofBits 0x42C80000), .zero, (F32.ofBits 0x42C80000)⟩, ⟨(F32.ofBits 0x42C80000), (F32.ofBits 0x42C80000), (F32.ofBits 0x42C80000)⟩, ⟨.zero, (F32.ofBits 0x42C80000), (F32.ofBits 0x42C80000)⟩], [(.unknown b!"http://dummy.com/foo" [⟨⟨b!"http://dummy.com/foo", b!"fooname"⟩, b!"fooval10"⟩])], [⟨3, 2, 1, 5, 0, 0, 0, [(.unknown b!"http://dummy.com/foo" [⟨⟨b!"http://dummy.com/foo", b!"fooname"⟩, b!"t1"⟩])]⟩, ⟨1, 0, 3, 5, 0, 0, 0, []⟩, ⟨4, 5, 6, 5, 1, 1, 1, []⟩, ⟨6, 7, 4, 5, 1, 1, 1, []⟩, ⟨0, 1, 5, 5, 0, 1, 2, []⟩, ⟨5, 4, 0, 5, 3, 0, 2, []⟩, ⟨1, 2, 6, 5, 0, 1, 2, []⟩, ⟨6, 5, 1, 5, 2, 1, 3, []⟩, ⟨2, 3, 7, 5, 0, 0, 0, []⟩, ⟨7, 6, 2, 5, 0, 0, 0, []⟩, ⟨3, 0, 4, 5, 0, 0, 0, []⟩, ⟨4, 7, 3, 5, 0, 0, 0, []⟩], [(.unknown b!"http://dummy.com/foo" [⟨⟨b!"http://dummy.com/foo", b!"fooname"⟩, b!"fooval11"⟩])], [(.unknown b!"http://dummy.com/foo" [⟨⟨b!"http://dummy.com/foo", b!"fooname"⟩, b!"fooval9"⟩])], [(.tokens [.start ⟨b!"http://dummy.com/foo", b!"fake"⟩ [], .stop ⟨b!"http://dummy.com/foo", b!"fake"⟩])]⟩ }

/-- read_test.go:369-386 `components`. -/
def rootComponents : Object :=
  { Object.zero with
    id := 20
    type := .support
    anyAttr := [(.unknown b!"http://dummy.com/foo" [⟨⟨b!"http://dummy.com/foo", b!"fooname"⟩, b!"fooval6"⟩])]
    metadata := ⟨[⟨⟨b!"qm", b!"CustomMetadata3"⟩, b!"1", b!"xs:boolean", false⟩, ⟨⟨b!"qm", b!"CustomMetadata4"⟩, b!"2", b!"xs:boolean", false⟩], [(.unknown b!"http://dummy.com/foo" [⟨⟨b!"http://dummy.com/foo", b!"fooname"⟩, b!"fooval12"⟩])]⟩
    components := some ⟨[⟨8, ⟨(F32.ofBits 0x40400000), .zero, .zero, .zero, .zero, .one, .zero, .zero, .zero, .zero, (F32.ofBits 0x40000000), .zero, (F32.ofBits 0xC284CCCD), (F32.ofBits 0xC2AE3333), (F32.ofBits 0x410CCCCD), .one⟩, [(.unknown b!"http://dummy.com/foo" [⟨⟨b!"http://dummy.com/foo", b!"fooname"⟩, b!"fooval5"⟩])]⟩], [(.unknown b!"http://dummy.com/foo" [⟨⟨b!"http://dummy.com/foo", b!"fooname"⟩, b!"fooval4"⟩])]⟩ }

/-- read_test.go:388-431 `want`. -/
def rootWant : Model :=
  { Model.zero with
    language := b!"en-US"
    path := b!"/3D/3dmodel.model"
    thumbnail := b!"/thumbnail.png"
    extensions := [⟨b!"http://dummy.com/fake_ext", b!"qm", true⟩, ⟨b!"http://dummy.com/foo", b!"foo", false⟩]
    resources := ⟨[(.base ⟨5, [⟨b!"Blue PLA", ⟨0, 0, 255, 255⟩, []⟩, ⟨b!"Red ABS", ⟨255, 0, 0, 255⟩, [(.unknown b!"http://dummy.com/foo" [⟨⟨b!"http://dummy.com/foo", b!"fooname"⟩, b!"fooval8"⟩])]⟩], [(.unknown b!"http://dummy.com/foo" [⟨⟨b!"http://dummy.com/foo", b!"fooname"⟩, b!"fooval7"⟩])]⟩), .unknown 50 [.start ⟨b!"http://dummy.com/foo", b!"resources"⟩ [⟨⟨[], b!"id"⟩, b!"50"⟩, ⟨⟨[], b!"name"⟩, b!"test"⟩], .start ⟨b!"http://dummy.com/foo", b!"resource"⟩ [⟨⟨[], b!"val"⟩, b!"1"⟩], .start ⟨b!"http://dummy.com/foo", b!"subresource"⟩ [⟨⟨[], b!"val"⟩, b!"2"⟩], .stop ⟨b!"http://dummy.com/foo", b!"subresource"⟩, .stop ⟨b!"http://dummy.com/foo", b!"resource"⟩, .stop ⟨b!"http://dummy.com/foo", b!"resources"⟩]], [rootMesh, rootComponents], [(.unknown b!"http://dummy.com/foo" [⟨⟨b!"http://dummy.com/foo", b!"fooname"⟩, b!"fooval3"⟩])]⟩
    build := ⟨[⟨20, ⟨.one, .zero, .zero, .zero, .zero, (F32.ofBits 0x40000000), .zero, .zero, .zero, .zero, (F32.ofBits 0x40400000), .zero, (F32.ofBits 0xC284CCCD), (F32.ofBits 0xC2AE3333), (F32.ofBits 0x410CCCCD), .one⟩, b!"bob", ⟨[⟨⟨b!"qm", b!"CustomMetadata3"⟩, b!"1", b!"xs:boolean", false⟩], [(.unknown b!"http://dummy.com/foo" [⟨⟨b!"http://dummy.com/foo", b!"fooname"⟩, b!"fooval13"⟩])]⟩, [(.unknown b!"http://dummy.com/foo" [⟨⟨b!"http://dummy.com/foo", b!"fooname"⟩, b!"fooval2"⟩])]⟩], [(.unknown b!"http://dummy.com/foo" [⟨⟨b!"http://dummy.com/foo", b!"fooname"⟩, b!"fooval1"⟩])]⟩
    anyAttr := [(.unknown b!"http://dummy.com/foo" [⟨⟨b!"http://dummy.com/foo", b!"fooname"⟩, b!"fooval"⟩])]
    any := [(.tokens [.start ⟨b!"http://dummy.com/foo", b!"other"⟩ [], .stop ⟨b!"http://dummy.com/foo", b!"other"⟩]), (.tokens [.start ⟨b!"http://dummy.com/foo", b!"other1"⟩ [⟨⟨[], b!"a"⟩, b!"2"⟩], .start ⟨b!"http://dummy.com/foo", b!"child1"⟩ [], .stop ⟨b!"http://dummy.com/foo", b!"child1"⟩, .stop ⟨b!"http://dummy.com/foo", b!"other1"⟩])]
    metadata := [⟨⟨[], b!"Application"⟩, b!"go3mf app", [], false⟩, ⟨⟨b!"qm", b!"CustomMetadata1"⟩, b!"CE8A91FB-C44E-4F00-B634-BAA411465F6A", b!"xs:string", true⟩] }

/-- Without the text between the elements. -/
def noChars (ts : List Token) : List Token :=
  ts.filter fun t => match t with
    | .chars _ => false
    | _ => true

/-- Without the text inside elements of unknown namespaces. -/
def noUnknownText (m : Model) : Model :=
  { m with
    any := m.any.map fun x => match x with
      | .tokens ts => .tokens (noChars ts)
      | x => x
    resources := { m.resources with
      assets := m.resources.assets.map fun x => match x with
        | .unknown i ts => .unknown i (noChars ts)
        | x => x } }

/-- The result is no error. -/
def DecodeResult.good : DecodeResult → Bool
  | .ok => true
  | _ => false

/-- read_test.go:328-520 `TestDecoder_processRootModel`.  The value expected there has no text in elements of unknown namespaces.
The white space between their children is text that read.go:123-129 keeps, so it is left out here on the side of the model. -/
theorem read_processRootModel :
    (decodeRoot noExt true { Model.zero with path := defaultModelPath } rootDoc).map
      (fun p => (noUnknownText p.1, DecodeResult.good p.2)) = some (rootWant, true) := by
  decide +kernel

/-- read_test.go:211-253 `newMockPackage`: a file is always found if it is there. -/
def mockOpc : Opc := ⟨id, fun s p => if s = b!"/" then b!"/a.model" else p, fun _ _ _ => true⟩

/-- read_test.go:170-181 `newMockFile`. -/
def mockFile (name : Str) (rels : List Relationship) : InFile := ⟨name, [], rels, some ([], .eof)⟩

/-- read_test.go:211-218 `newMockPackage`. -/
def mockPkg (rels : List Relationship) (other : List InFile) : InPkg :=
  ⟨[⟨defaultModelPath, relModel, []⟩], mockFile b!"/a.model" rels :: other⟩

/-- read_test.go:254-307 `TestDecoder_processOPC`. -/
theorem read_processOPC :
    -- noRoot
    (processOPC noExt mockOpc ⟨[⟨defaultModelPath, relModel, []⟩], []⟩ .zero).isNone = true ∧
    -- noRels
    (processOPC noExt mockOpc (mockPkg [] []) .zero).map (·.1) = some { Model.zero with path := b!"/a.model" } ∧
    -- withThumb, withPrintTicket, withExtRel
    (∀ p ∈ [(relThumbnail, b!"/a.png"), (b!"http://schemas.microsoft.com/3dmanufacturing/2013/01/printticket", b!"/pc.png"), (b!"fake_type", b!"/other.png")],
      (processOPC noExt mockOpc (mockPkg [⟨p.2, p.1, []⟩] [mockFile p.2 []]) .zero).map (·.1) =
        some { Model.zero with
          path := b!"/a.model"
          relationships := [⟨p.2, p.1, []⟩]
          attachments := [⟨[], p.2, []⟩] }) ∧
    -- withOtherRel
    (processOPC noExt mockOpc (mockPkg [⟨b!"/a.png", b!"other", []⟩] []) .zero).map (·.1) =
      some { Model.zero with path := b!"/a.model" } ∧
    -- withModelAttachment
    (processOPC noExt mockOpc (mockPkg [⟨b!"/other.model", relModel, []⟩] [mockFile b!"/other.model" []]) .zero).map (·.1) =
      some { Model.zero with
        path := b!"/a.model"
        childs := [(b!"/other.model", .zero)] } := by
  decide +kernel

/-- Does decoding a root part give an error? -/
def rootFails (done : Bool) (m : Model) (path data : Str) : Option Bool :=
  (decodeEvents ⟨noExt, true, fun _ t => t⟩ false (fun _ => done) m path (lex .eof (.new data)).1 (lex .eof (.new data)).2).map
    fun p => !DecodeResult.good p.2

/-- read_test.go:309-326 `TestDecoder_processRootModel_Fail`. -/
theorem read_processRootModel_Fail :
    -- errOpen
    ((processRoot ⟨noExt, false, fun _ _ t => t⟩ (fun _ => false) .zero ⟨b!"/a.model", [], [], none⟩).map
      fun p => match p.2 with
        | .root r => DecodeResult.good r
        | _ => false) = some false ∧
    -- invalidUnits
    rootFails false .zero defaultModelPath b!"<model unit=\"other\" xml:lang=\"en-US\" xmlns=\"http://schemas.microsoft.com/3dmanufacturing/core/2015/02\" xmlns:qm=\"http://dummy.com/fake_ext\" xmlns:foo=\"http://dummy.com/foo\" requiredextensions=\"qm\" foo:fooname=\"fooval\" >\n</model>\n" = some true := by
  decide +kernel

/-- The child model after decoding a part that is not the root. -/
def decodeChild (path data : Str) : Option (Option ChildModel × Bool) :=
  (decodeEvents ⟨noExt, false, fun _ t => t⟩ false (fun _ => false)
    { Model.zero with childs := [(b!"/3D/other.model", .zero), (b!"/3D/new.model", .zero)] } path
    (lex .eof (.new data)).1 (lex .eof (.new data)).2).map fun p => (lookupChild p.1.childs path, DecodeResult.good p.2)

/-- read_test.go:522-569 `TestDecoder_processNonRootModels`, one part after the other. -/
theorem read_processNonRootModels :
    decodeChild b!"/3D/new.model" b!"<model unit=\"millimeter\" xml:lang=\"en-US\" xmlns=\"http://schemas.microsoft.com/3dmanufacturing/core/2015/02\" xmlns:qm=\"http://dummy.com/fake_ext\" xmlns:foo=\"http://dummy.com/foo\" requiredextensions=\"qm\" foo:fooname=\"fooval\" thumbnail=\"/thumbnail.png\" >\n\n\t\t\t\t<resources>\n\t\t\t\t\t<basematerials id=\"5\">\n\t\t\t\t\t\t<base name=\"Blue PLA\" displaycolor=\"#0000FF\" />\n\t\t\t\t\t\t<base name=\"Red ABS\" displaycolor=\"#FF0000\" />\n\t\t\t\t\t</basematerials>\n\t\t\t\t</resources>\n\t\t\t\n</model>\n" = some (some { ChildModel.zero with
        resources := ⟨[.base ⟨5, [⟨b!"Blue PLA", ⟨0, 0, 255, 255⟩, []⟩, ⟨b!"Red ABS", ⟨255, 0, 0, 255⟩, []⟩], []⟩], [], []⟩ }, true) ∧
    decodeChild b!"/3D/other.model" b!"<model unit=\"millimeter\" xml:lang=\"en-US\" xmlns=\"http://schemas.microsoft.com/3dmanufacturing/core/2015/02\" xmlns:qm=\"http://dummy.com/fake_ext\" xmlns:foo=\"http://dummy.com/foo\" requiredextensions=\"qm\" foo:fooname=\"fooval\" thumbnail=\"/thumbnail.png\" >\n\n\t\t\t\t<resources>\n\t\t\t\t\t<basematerials id=\"6\" />\n\t\t\t\t</resources>\n\t\t\t\n</model>\n" = some (some { ChildModel.zero with
        resources := ⟨[.base ⟨6, [], []⟩], [], []⟩ }, true) := by
  decide +kernel

/-- read_test.go:571-588 `TestDecoder_Decode`: the root that is decoded. -/
theorem read_Decode :
    ((processOPC noExt mockOpc (mockPkg [⟨b!"/a.xml", b!"b", []⟩] []) .zero).bind fun p =>
      (processRoot ⟨noExt, false, fun _ _ t => t⟩ (fun _ => false) p.1 p.2.1).map fun q =>
        (p.2.2, match q.2 with
          | .root r => DecodeResult.good r
          | _ => false)) = some ([], true) := by
  decide +kernel

/-- read_test.go:590-624 `Test_modelFile_Decode`. -/
theorem read_modelFile_Decode :
    -- nochild
    rootFails false .zero [] b!"\n\t\t\t<a></a>\n\t\t\t<b></b>\n\t\t" = some false ∧
    -- eof
    rootFails false .zero [] b!"\n\t\t\t<model xmlns=\"http://schemas.microsoft.com/3dmanufacturing/core/2015/02\">\n\t\t\t\t<build></build>\n\t\t" = some true ∧
    -- canceled
    rootFails true .zero [] b!"\n\t\t\t<model xmlns=\"http://schemas.microsoft.com/3dmanufacturing/core/2015/02\">\n\t\t\t\t<build></build>\n\t\t\t</model>\n\t\t" = some true := by
  decide +kernel

/-- read_test.go:667-727: the document of `TestDecoder_processRootModel_warns`. -/
def warnDoc : Str := b!"\n\t\t<model xmlns=\"http://schemas.microsoft.com/3dmanufacturing/core/2015/02\" \n\t\txmlns:qm=\"http://dummy.com/fake_ext\" requiredextensions=\"qm other\">\n\t\t<resources>\n\t\t\t<basematerials>\n\t\t\t\t<base name=\"Blue PLA\" displaycolor=\"0000FF\" />\n\t\t\t\t<base />\n\t\t\t</basematerials>\n\t\t\t<basematerials id=\"a\"/>\n\t\t\t<basematerials id=\"5\">\n\t\t\t\t<base name=\"Blue PLA\" displaycolor=\"#0000FF\" />\n\t\t\t\t<base name=\"Red ABS\" displaycolor=\"#FF0000\" />\n\t\t\t</basematerials>\t\t\t\n\t\t\t<object id=\"8\" name=\"Box 1\" pid=\"5\" pindex=\"0\" partnumber=\"11111111-1111-1111-1111-111111111111\" type=\"model\">\n\t\t\t\t<mesh>\n\t\t\t\t\t<vertices>\n\t\t\t\t\t\t<vertex x=\"0\" y=\"0\" z=\"0\" />\n\t\t\t\t\t\t<vertex x=\"100.00000\" y=\"0\" z=\"0\" />\n\t\t\t\t\t\t<vertex x=\"100.00000\" y=\"100.00000\" z=\"0\" />\n\t\t\t\t\t\t<vertex x=\"0\" y=\"100.00000\" z=\"0\" />\n\t\t\t\t\t\t<vertex x=\"0\" y=\"0\" z=\"100.00000\" />\n\t\t\t\t\t\t<vertex x=\"100.00000\" y=\"0\" z=\"100.00000\" />\n\t\t\t\t\t\t<vertex x=\"100.00000\" y=\"100.00000\" z=\"100.00000\" />\n\t\t\t\t\t\t<vertex x=\"0\" y=\"100.00000\" z=\"100.00000\" />\n\t\t\t\t\t\t<vertex x=\"a\" y=\"100.00000\" z=\"100.00000\" />\n\t\t\t\t\t</vertices>\n\t\t\t\t\t<triangles>\n\t\t\t\t\t\t<triangle v1=\"2\" v2=\"2\" v3=\"1\" />\n\t\t\t\t\t\t<triangle v1=\"30\" v2=\"2\" v3=\"1\" />\n\t\t\t\t\t\t<triangle v1=\"3\" v2=\"2\" v3=\"1\" />\n\t\t\t\t\t\t<triangle v1=\"1\" v2=\"0\" v3=\"3\" />\n\t\t\t\t\t\t<triangle v1=\"4\" v2=\"5\" v3=\"6\" p1=\"1\" />\n\t\t\t\t\t\t<triangle v1=\"6\" v2=\"7\" v3=\"4\" pid=\"5\" p1=\"1\" />\n\t\t\t\t\t\t<triangle v1=\"0\" v2=\"1\" v3=\"5\" pid=\"2\" p1=\"0\" p2=\"1\" p3=\"2\"/>\n\t\t\t\t\t\t<triangle v1=\"5\" v2=\"4\" v3=\"0\" pid=\"2\" p1=\"3\" p2=\"0\" p3=\"2\"/>\n\t\t\t\t\t\t<triangle v1=\"1\" v2=\"2\" v3=\"6\" pid=\"1\" p1=\"0\" p2=\"1\" p3=\"2\"/>\n\t\t\t\t\t\t<triangle v1=\"6\" v2=\"5\" v3=\"1\" pid=\"1\" p1=\"2\" p2=\"1\" p3=\"3\"/>\n\t\t\t\t\t\t<triangle v1=\"2\" v2=\"3\" v3=\"7\" />\n\t\t\t\t\t\t<triangle v1=\"7\" v2=\"6\" v3=\"2\" />\n\t\t\t\t\t\t<triangle v1=\"3\" v2=\"0\" v3=\"4\" />\n\t\t\t\t\t\t<triangle v1=\"a\" v2=\"7\" v3=\"3\" />\n\t\t\t\t\t</triangles>\n\t\t\t\t</mesh>\n\t\t\t</object>\n\t\t\t<object id=\"22\" pid=\"a\" pindex=\"a\" type=\"invalid\" />\n\t\t\t<object id=\"20\" pid=\"3\" type=\"other\">\n\t\t\t\t<components>\n\t\t\t\t\t<component objectid=\"8\" transform=\"0 0 0 1 0 0 0 2 -66.4 -87.1 8.8\"/>\n\t\t\t\t\t<component objectid=\"a\"/>\n\t\t\t\t</components>\n\t\t\t</object>\n\t\t</resources>\n\t\t<build>\n\t\t\t<item partnumber=\"bob\" objectid=\"20\" transform=\"1 0 0 0 2 0 0 0 3 -66.4 -87.1\" />\n\t\t\t<item objectid=\"8\"/>\n\t\t\t<item objectid=\"5\"/>\n\t\t\t<item objectid=\"a\"/>\n\t\t</build>\n\t\t<metadata name=\"Application\">go3mf app</metadata>\n\t\t<metadata name=\"qm:CustomMetadata1\" type=\"xs:string\" preserve=\"1\">CE8A91FB-C44E-4F00-B634-BAA411465F6A</metadata>\n\t\t<metadata name=\"unknown:CustomMetadata1\" type=\"xs:string\" preserve=\"1\">CE8A91FB-C44E-4F00-B634-BAA411465F6A</metadata>\n\t\t<other />\n\t\t</model>\n\t\t\n"

/-- read_test.go:650-747 `TestDecoder_processRootModel_warns`: the texts of the errors.  The texts of `ParseAttrError` are those of
errors/errors.go:138-144. -/
theorem read_processRootModel_warns :
    (decodeRoot noExt false { Model.zero with
        extensions := [⟨b!"http://dummy.com/fake_ext", b!"qm", true⟩]
        path := defaultModelPath } warnDoc).map
      (fun p => match p.2 with
        | .list es => es.map Err.text
        | _ => []) = some
      [b!"go3mf: XPath: /model/resources/basematerials[0]/base[0]: error parsing required attribute 'displaycolor'",
       b!"go3mf: XPath: /model/resources/basematerials[1]: error parsing required attribute 'id'",
       b!"go3mf: XPath: /model/resources/object[0]/mesh/vertices/vertex[8]: error parsing required attribute 'x'",
       b!"go3mf: XPath: /model/resources/object[0]/mesh/triangles/triangle[13]: error parsing required attribute 'v1'",
       b!"go3mf: XPath: /model/resources/object[1]: error parsing optional attribute 'pid'",
       b!"go3mf: XPath: /model/resources/object[1]: error parsing optional attribute 'pindex'",
       b!"go3mf: XPath: /model/resources/object[1]: error parsing optional attribute 'type'",
       b!"go3mf: XPath: /model/resources/object[2]/components/component[0]: error parsing optional attribute 'transform'",
       b!"go3mf: XPath: /model/resources/object[2]/components/component[1]: error parsing required attribute 'objectid'",
       b!"go3mf: XPath: /model/build/item[0]: error parsing optional attribute 'transform'",
       b!"go3mf: XPath: /model/build/item[3]: error parsing required attribute 'objectid'"] := by
  decide +kernel

end Go3mf.Tests
