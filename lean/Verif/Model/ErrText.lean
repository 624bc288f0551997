import Verif.Model.Errors

/-!
# errors/errors.go and errors/list.go: the texts of errors
-/

namespace Go3mf

/-- The messages of the package-level error values (errors/errors.go:15-38, slices/slices.go:30-41,
materials/materials.go:35-41, beamlattice/beamlattice.go:23-27, production/production.go:24-25). -/
def Sentinel.msg : Sentinel → Str
  | .missingID => b!"resource ID MUST be greater than zero"
  | .duplicatedID => b!"IDs MUST be unique among all resources under same Model"
  | .missingResource => b!"resource MUST be defined prior to referencing"
  | .duplicatedIndices => b!"indices v1, v2 and v3 MUST be distinct"
  | .indexOutOfBounds => b!"index is bigger than referenced slice"
  | .insufficientVertices => b!"mesh MUST contain at least 3 vertices to form a solid body"
  | .insufficientTriangles => b!"mesh MUST contain at least 4 triangles to form a solid body"
  | .componentsPID => b!"MUST NOT assign pid to objects that contain components"
  | .opcPartName => b!"part name MUST conform to the syntax specified in the OPC specification"
  | .opcRelTarget => b!"relationship target part MUST be included in the 3MF document"
  | .opcDuplicatedRel => b!"there MUST NOT be more than one relationship of a given type from one part to a second part"
  | .opcContentType => b!"part MUST use an appropriate content type specified"
  | .opcDuplicatedTicket => b!"each model part MUST attach no more than one PrintTicket"
  | .opcDuplicatedModelName => b!"model part names MUST be unique"
  | .metadataName => b!"names without a namespace MUST be restricted to predefined values"
  | .metadataNamespace => b!"namespace MUST be declared on the model"
  | .metadataDuplicated => b!"names MUST NOT be duplicated"
  | .otherItem => b!"MUST NOT reference objects of type other"
  | .nonObject => b!"MUST NOT reference non-object resources"
  | .requiredExt => b!"unsupported required extension"
  | .emptyResourceProps => b!"resource properties MUST NOT be empty"
  | .recursion => b!"MUST NOT contain recursive references"
  | .invalidObject => b!"MUST contain a mesh or components"
  | .meshConsistency => b!"mesh has non-manifold edges without consistent triangle orientation"
  | .sliceExtRequired => b!"a 3MF package which uses low resolution objects MUST enlist the slice extension as required"
  | .nonSliceStack => b!"slicestackid MUST reference a slice stack resource"
  | .slicesAndRefs => b!"may either contain slices or refs, but they MUST NOT contain both element types"
  | .sliceRefSamePart =>
    b!"the path of the referenced slice stack MUST be different than the path of the original slice stack"
  | .sliceRefRef => b!"a referenced slice stack MUST NOT contain any further sliceref elements"
  | .sliceSmallTopZ => b!"slice ztop is smaller than stack zbottom"
  | .sliceNoMonotonic =>
    b!"the first ztop in the next slicestack MUST be greater than the last ztop in the previous slicestack"
  | .sliceInsufficientVertices => b!"slice MUST contain at least 2 vertices"
  | .sliceInsufficientPolygons => b!"slice MUST contain at least 1 polygon"
  | .sliceInsufficientSegments => b!"slice polygon MUST contain at least 1 segment"
  | .slicePolygonNotClosed =>
    b!"objects with type 'model' and 'solidsupport' MUST not reference slices with open polygons"
  | .sliceInvalidTransform => b!"any transform applied to an object that references a slice stack MUST be planar"
  | .multiBlend => b!"there MUST NOT be more blendmethods than layers – 1"
  | .materialMulti => b!"a material, if included, MUST be positioned as the first layer"
  | .multiRefMulti => b!"the pids list MUST NOT contain any references to a multiproperties"
  | .multiColors => b!"the pids list MUST NOT contain more than one reference to a colorgroup"
  | .textureReference => b!"MUST reference to a texture resource"
  | .compositeBase => b!"MUST reference to a basematerials group"
  | .missingTexturePart => b!"texture part MUST be added as an attachment"
  | .latticeObjType => b!"MUST only be added to a mesh object of type model or solidsupport"
  | .latticeClippedNoMesh => b!"if clipping mode is not equal to none, a clippingmesh resource MUST be specified"
  | .latticeInvalidMesh =>
    b!"the clippingmesh and representationmesh MUST be a mesh object of type model and MUST NOT contain a beamlattice"
  | .latticeSameVertex => b!"a beam MUST consist of two distinct vertex indices"
  | .latticeBeamR2 => b!"r2 MUST not be defined, if r1 is not defined"
  | .uuid => b!"UUID MUST be any of the four UUID variants described in IETF RFC 4122"
  | .prodRefInNonRoot => b!"non-root model file components MUST only reference objects in the same model file"

/-- `Error()` of an error that is neither `*Error` nor `*List`: errors/errors.go:125-127 `MissingFieldError.Error` and
errors/errors.go:138-144 `ParseAttrError.Error`. -/
def Leaf.text : Leaf → Str
  | .sentinel s => s.msg
  | .missingField n => b!"required field '" ++ n ++ b!"' is not set"
  | .parseAttr n r => b!"error parsing " ++ (if r then b!"required" else b!"optional") ++ b!" attribute '" ++ n ++ b!"'"
  | .other m => m

/-- errors/errors.go:110-115 `Error.Error`. -/
def wrappedText (target : List Level) (err path : Str) : Str :=
  if path = [] then b!"go3mf: XPath: " ++ xpath target ++ b!": " ++ err
  else b!"go3mf: Path: " ++ path ++ b!" XPath: " ++ xpath target ++ b!": " ++ err

/-- errors/list.go:103-116 `listFormatFunc`, of the texts of the errors. -/
def listFormat : List Str → Str
  | [e] => b!"1 error occurred:\n\t* " ++ e ++ b!"\n"
  | es => natDigits es.length ++ b!" errors occurred:\n\t" ++ Str.join b!"\n\t" (es.map fun e => b!"* " ++ e) ++ b!"\n"

mutual
/-- The method `Error` of an error. -/
def Err.text : Err → Str
  | .leaf l => l.text
  | .wrapped t e p => wrappedText t e.text p
  | .list es => listFormat (Err.texts es)
/-- The texts of the elements. -/
def Err.texts : List Err → List Str
  | [] => []
  | e :: es => e.text :: Err.texts es
end

/-- The method `Error` of an error value; errors/list.go:38-43 `List.Error` is empty for a nil list.  A nil error has no
methods. -/
def ErrVal.text : ErrVal → Option Str
  | .nil => none
  | .nilList => some []
  | .err e => some e.text

/-- errors/list.go:17-22 `List.Len`; `none` is the nil list. -/
def errListLen : Option (List Err) → Nat
  | none => 0
  | some l => l.length

/-- errors/list.go:24-29 `List.Less`; `none` if an index is out of range (a panic). -/
def errListLess (l : Option (List Err)) (i j : Nat) : Option Bool :=
  match l with
  | none => some false
  | some l =>
    match l[i]?, l[j]? with
    | some a, some b => some (Str.lt a.text b.text)
    | _, _ => none

/-- errors/list.go:31-36 `List.Swap`; `none` if an index is out of range (a panic). -/
def errListSwap (l : Option (List Err)) (i j : Nat) : Option (Option (List Err)) :=
  match l with
  | none => some none
  | some l =>
    match l[i]?, l[j]? with
    | some a, some b => some (some ((l.set i b).set j a))
    | _, _ => none

end Go3mf
