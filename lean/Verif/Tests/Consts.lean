import Verif.Model.ErrText
import Verif.Model.Printer
import Verif.Tests.Encode

/-!
# The constants of the repository

The messages of the package-level errors and the constant strings, copied from the source by a program.
-/

namespace Go3mf.Tests

/-- errors/errors.go:15-38, slices/slices.go:30-41, materials/materials.go:35-41, beamlattice/beamlattice.go:23-27,
production/production.go:24-25. -/
theorem const_messages :
    Sentinel.msg .missingID = b!"resource ID MUST be greater than zero" ∧
    Sentinel.msg .duplicatedID = b!"IDs MUST be unique among all resources under same Model" ∧
    Sentinel.msg .missingResource = b!"resource MUST be defined prior to referencing" ∧
    Sentinel.msg .duplicatedIndices = b!"indices v1, v2 and v3 MUST be distinct" ∧
    Sentinel.msg .indexOutOfBounds = b!"index is bigger than referenced slice" ∧
    Sentinel.msg .insufficientVertices = b!"mesh MUST contain at least 3 vertices to form a solid body" ∧
    Sentinel.msg .insufficientTriangles = b!"mesh MUST contain at least 4 triangles to form a solid body" ∧
    Sentinel.msg .componentsPID = b!"MUST NOT assign pid to objects that contain components" ∧
    Sentinel.msg .opcPartName = b!"part name MUST conform to the syntax specified in the OPC specification" ∧
    Sentinel.msg .opcRelTarget = b!"relationship target part MUST be included in the 3MF document" ∧
    Sentinel.msg .opcDuplicatedRel = b!"there MUST NOT be more than one relationship of a given type from one part to a second part" ∧
    Sentinel.msg .opcContentType = b!"part MUST use an appropriate content type specified" ∧
    Sentinel.msg .opcDuplicatedTicket = b!"each model part MUST attach no more than one PrintTicket" ∧
    Sentinel.msg .opcDuplicatedModelName = b!"model part names MUST be unique" ∧
    Sentinel.msg .metadataName = b!"names without a namespace MUST be restricted to predefined values" ∧
    Sentinel.msg .metadataNamespace = b!"namespace MUST be declared on the model" ∧
    Sentinel.msg .metadataDuplicated = b!"names MUST NOT be duplicated" ∧
    Sentinel.msg .otherItem = b!"MUST NOT reference objects of type other" ∧
    Sentinel.msg .nonObject = b!"MUST NOT reference non-object resources" ∧
    Sentinel.msg .requiredExt = b!"unsupported required extension" ∧
    Sentinel.msg .emptyResourceProps = b!"resource properties MUST NOT be empty" ∧
    Sentinel.msg .recursion = b!"MUST NOT contain recursive references" ∧
    Sentinel.msg .invalidObject = b!"MUST contain a mesh or components" ∧
    Sentinel.msg .meshConsistency = b!"mesh has non-manifold edges without consistent triangle orientation" ∧
    Sentinel.msg .sliceExtRequired = b!"a 3MF package which uses low resolution objects MUST enlist the slice extension as required" ∧
    Sentinel.msg .nonSliceStack = b!"slicestackid MUST reference a slice stack resource" ∧
    Sentinel.msg .slicesAndRefs = b!"may either contain slices or refs, but they MUST NOT contain both element types" ∧
    Sentinel.msg .sliceRefSamePart = b!"the path of the referenced slice stack MUST be different than the path of the original slice stack" ∧
    Sentinel.msg .sliceRefRef = b!"a referenced slice stack MUST NOT contain any further sliceref elements" ∧
    Sentinel.msg .sliceSmallTopZ = b!"slice ztop is smaller than stack zbottom" ∧
    Sentinel.msg .sliceNoMonotonic = b!"the first ztop in the next slicestack MUST be greater than the last ztop in the previous slicestack" ∧
    Sentinel.msg .sliceInsufficientVertices = b!"slice MUST contain at least 2 vertices" ∧
    Sentinel.msg .sliceInsufficientPolygons = b!"slice MUST contain at least 1 polygon" ∧
    Sentinel.msg .sliceInsufficientSegments = b!"slice polygon MUST contain at least 1 segment" ∧
    Sentinel.msg .slicePolygonNotClosed = b!"objects with type 'model' and 'solidsupport' MUST not reference slices with open polygons" ∧
    Sentinel.msg .sliceInvalidTransform = b!"any transform applied to an object that references a slice stack MUST be planar" ∧
    Sentinel.msg .multiBlend = b!"there MUST NOT be more blendmethods than layers – 1" ∧
    Sentinel.msg .materialMulti = b!"a material, if included, MUST be positioned as the first layer" ∧
    Sentinel.msg .multiRefMulti = b!"the pids list MUST NOT contain any references to a multiproperties" ∧
    Sentinel.msg .multiColors = b!"the pids list MUST NOT contain more than one reference to a colorgroup" ∧
    Sentinel.msg .textureReference = b!"MUST reference to a texture resource" ∧
    Sentinel.msg .compositeBase = b!"MUST reference to a basematerials group" ∧
    Sentinel.msg .missingTexturePart = b!"texture part MUST be added as an attachment" ∧
    Sentinel.msg .latticeObjType = b!"MUST only be added to a mesh object of type model or solidsupport" ∧
    Sentinel.msg .latticeClippedNoMesh = b!"if clipping mode is not equal to none, a clippingmesh resource MUST be specified" ∧
    Sentinel.msg .latticeInvalidMesh = b!"the clippingmesh and representationmesh MUST be a mesh object of type model and MUST NOT contain a beamlattice" ∧
    Sentinel.msg .latticeSameVertex = b!"a beam MUST consist of two distinct vertex indices" ∧
    Sentinel.msg .latticeBeamR2 = b!"r2 MUST not be defined, if r1 is not defined" ∧
    Sentinel.msg .uuid = b!"UUID MUST be any of the four UUID variants described in IETF RFC 4122" ∧
    Sentinel.msg .prodRefInNonRoot = b!"non-root model file components MUST only reference objects in the same model file" := by
  refine ⟨?_, ?_, ?_, ?_, ?_, ?_, ?_, ?_, ?_, ?_, ?_, ?_, ?_, ?_, ?_, ?_, ?_, ?_, ?_, ?_, ?_, ?_, ?_, ?_, ?_, ?_, ?_, ?_, ?_, ?_, ?_, ?_, ?_, ?_, ?_, ?_, ?_, ?_, ?_, ?_, ?_, ?_, ?_, ?_, ?_, ?_, ?_, ?_, ?_, ?_⟩ <;> decide +kernel

/-- The constants of core.go and of the extensions, and `Header` of encoding/xml. -/
theorem const_strings :
    nsCore = b!"http://schemas.microsoft.com/3dmanufacturing/core/2015/02" ∧
    nsProduction = b!"http://schemas.microsoft.com/3dmanufacturing/production/2015/06" ∧
    nsSlices = b!"http://schemas.microsoft.com/3dmanufacturing/slice/2015/07" ∧
    nsBeam = b!"http://schemas.microsoft.com/3dmanufacturing/beamlattice/2017/02" ∧
    nsMaterials = b!"http://schemas.microsoft.com/3dmanufacturing/material/2015/02" ∧
    relModel = b!"http://schemas.microsoft.com/3dmanufacturing/2013/01/3dmodel" ∧
    relThumbnail = b!"http://schemas.openxmlformats.org/package/2006/relationships/metadata/thumbnail" ∧
    relPrintTicket = b!"http://schemas.microsoft.com/3dmanufacturing/2013/01/printticket" ∧
    defaultModelPath = b!"/3D/3dmodel.model" ∧
    contentTypeModel = b!"application/vnd.ms-package.3dmanufacturing-3dmodel+xml" ∧
    contentTypePrintTicket = b!"application/vnd.ms-printing.printticket+xml" ∧
    relTexture = b!"http://schemas.microsoft.com/3dmanufacturing/2013/01/3dtexture" ∧
    xmlHeader = b!"<?xml version=\"1.0\" encoding=\"UTF-8\"?>\n" := by
  decide +kernel

end Go3mf.Tests
