import Verif.Model.Num

/-!
# Data types of the model

Go structs of `core.go`, `math.go`, `spec/`, and of the four built-in extensions.  Pointers to values
are modelled by the values; a nil pointer is `none`.  Enumerations are inductive types: the values of the
underlying integer type that are not declared constants are not modelled.
-/

namespace Go3mf

/-- `xml.Name` (encoding/xml). -/
structure Name where
  space : Str
  loc : Str
  deriving DecidableEq, Repr

/-- `xml.Attr` and `spec.XMLAttr` (spec/spec.go:61-64). -/
structure Attr where
  name : Name
  value : Str
  deriving DecidableEq, Repr

/-- The `xml.Token` kinds stored in `spec.UnknownTokens` (spec/unknown.go:31-33). -/
inductive Token where
  | start (name : Name) (attrs : List Attr)
  | stop (name : Name)
  | chars (text : Str)
  deriving DecidableEq, Repr

/-! ## Constants -/

/-- core.go:18 `Namespace`. -/
def nsCore : Str := b!"http://schemas.microsoft.com/3dmanufacturing/core/2015/02"
/-- production/production.go:15 `Namespace`. -/
def nsProduction : Str := b!"http://schemas.microsoft.com/3dmanufacturing/production/2015/06"
/-- slices/slices.go:15 `Namespace`. -/
def nsSlices : Str := b!"http://schemas.microsoft.com/3dmanufacturing/slice/2015/07"
/-- beamlattice/beamlattice.go:14 `Namespace`. -/
def nsBeam : Str := b!"http://schemas.microsoft.com/3dmanufacturing/beamlattice/2017/02"
/-- materials/materials.go:17 `Namespace`. -/
def nsMaterials : Str := b!"http://schemas.microsoft.com/3dmanufacturing/material/2015/02"
/-- core.go:586 `nsXML`, internal/xml/xml.go:161 `xmlURL`, internal/xml/printer.go:9. -/
def nsXML : Str := b!"http://www.w3.org/XML/1998/namespace"

/-- core.go:20 `RelType3DModel`. -/
def relModel : Str := b!"http://schemas.microsoft.com/3dmanufacturing/2013/01/3dmodel"
/-- core.go:22 `RelTypeThumbnail`. -/
def relThumbnail : Str := b!"http://schemas.openxmlformats.org/package/2006/relationships/metadata/thumbnail"
/-- core.go:24 `RelTypePrintTicket`. -/
def relPrintTicket : Str := b!"http://schemas.microsoft.com/3dmanufacturing/2013/01/printticket"
/-- core.go:29 `DefaultModelPath`. -/
def defaultModelPath : Str := b!"/3D/3dmodel.model"
/-- core.go:40 `ContentType3DModel`. -/
def contentTypeModel : Str := b!"application/vnd.ms-package.3dmanufacturing-3dmodel+xml"
/-- core.go:42 `ContentTypePrintTicket`. -/
def contentTypePrintTicket : Str := b!"application/vnd.ms-printing.printticket+xml"
/-- materials/materials.go:19 `RelTypeTexture3D`. -/
def relTexture : Str := b!"http://schemas.microsoft.com/3dmanufacturing/2013/01/3dtexture"

/-! ## Enumerations -/

/-- core.go:47-57. -/
inductive Units where
  | millimeter | micrometer | centimeter | inch | foot | meter
  deriving DecidableEq, Repr

/-- core.go:71-80. -/
inductive ObjectType where
  | model | other | support | solidSupport | surface
  deriving DecidableEq, Repr

/-- slices/slices.go:74-80. -/
inductive MeshResolution where
  | full | low
  deriving DecidableEq, Repr

/-- beamlattice/beamlattice.go:37-45. -/
inductive ClipMode where
  | none | inside | outside
  deriving DecidableEq, Repr

/-- beamlattice/beamlattice.go:64-72. -/
inductive CapMode where
  | sphere | hemisphere | butt
  deriving DecidableEq, Repr

/-- materials/materials.go:45-52; `unset` is the zero value (the declared constants start at 1). -/
inductive Texture2DType where
  | unset | png | jpeg
  deriving DecidableEq, Repr

/-- materials/materials.go:61-70. -/
inductive TileStyle where
  | wrap | mirror | clamp | none
  deriving DecidableEq, Repr

/-- materials/materials.go:81-89. -/
inductive TextureFilter where
  | auto | linear | nearest
  deriving DecidableEq, Repr

/-- materials/materials.go:99-106. -/
inductive BlendMethod where
  | mix | multiply
  deriving DecidableEq, Repr

/-! ## Geometry -/

/-- math.go:76 `Point2D`. -/
structure Point2D where
  x : F32
  y : F32
  deriving DecidableEq

/-- math.go:89 `Point3D`. -/
structure Point3D where
  x : F32
  y : F32
  z : F32
  deriving DecidableEq

/-- math.go:109 `Matrix [16]float32`, row major. -/
structure Matrix where
  m0 : F32
  m1 : F32
  m2 : F32
  m3 : F32
  m4 : F32
  m5 : F32
  m6 : F32
  m7 : F32
  m8 : F32
  m9 : F32
  m10 : F32
  m11 : F32
  m12 : F32
  m13 : F32
  m14 : F32
  m15 : F32
  deriving DecidableEq

/-- `Matrix{}`. -/
def Matrix.zero : Matrix :=
  ⟨.zero, .zero, .zero, .zero, .zero, .zero, .zero, .zero, .zero, .zero, .zero, .zero, .zero, .zero, .zero, .zero⟩

/-- math.go:121-123 `Identity`. -/
def Matrix.identity : Matrix :=
  ⟨.one, .zero, .zero, .zero, .zero, .one, .zero, .zero, .zero, .zero, .one, .zero, .zero, .zero, .zero, .one⟩

/-- Go `==` on `Matrix`: element-wise float32 equality. -/
def Matrix.eq (a b : Matrix) : Bool :=
  a.m0.eq b.m0 && a.m1.eq b.m1 && a.m2.eq b.m2 && a.m3.eq b.m3 &&
  a.m4.eq b.m4 && a.m5.eq b.m5 && a.m6.eq b.m6 && a.m7.eq b.m7 &&
  a.m8.eq b.m8 && a.m9.eq b.m9 && a.m10.eq b.m10 && a.m11.eq b.m11 &&
  a.m12.eq b.m12 && a.m13.eq b.m13 && a.m14.eq b.m14 && a.m15.eq b.m15

/-- core.go:397-399, 464-466 `HasTransform`. -/
def Matrix.isTransform (m : Matrix) : Bool := !m.eq .zero && !m.eq .identity

/-- `color.RGBA`. -/
structure RGBA where
  r : UInt8
  g : UInt8
  b : UInt8
  a : UInt8
  deriving DecidableEq, Repr

/-! ## Attribute groups (`spec.AttrGroup`) -/

/-- The implementations of `spec.AttrGroup` in the repository. -/
inductive AttrGroup where
  /-- spec/unknown.go:10-13 `UnknownAttrs`. -/
  | unknown (space : Str) (attrs : List Attr)
  /-- production/production.go:41-43 `BuildAttr`. -/
  | prodBuild (uuid : Str)
  /-- production/production.go:75-78 `ItemAttr`. -/
  | prodItem (uuid path : Str)
  /-- production/production.go:58-60 `ObjectAttr`. -/
  | prodObject (uuid : Str)
  /-- production/production.go:102-105 `ComponentAttr`. -/
  | prodComponent (uuid path : Str)
  /-- slices/slices.go:132-135 `ObjectAttr`. -/
  | sliceObject (sliceStackID : UInt32) (res : MeshResolution)
  deriving DecidableEq

/-- spec/spec.go:84 `AnyAttr`. -/
abbrev AnyAttr := List AttrGroup

/-! ## Extension resources -/

/-- materials/materials.go:170-173 `ColorGroup`. -/
structure ColorGroup where
  id : UInt32
  colors : List RGBA
  deriving DecidableEq

/-- materials/materials.go:115-122 `Texture2D`. -/
structure Texture2D where
  id : UInt32
  path : Str
  contentType : Texture2DType
  tileU : TileStyle
  tileV : TileStyle
  filter : TextureFilter
  deriving DecidableEq

/-- materials/materials.go:148-152 `Texture2DGroup`, with `TextureCoord` (135) as `Point2D`. -/
structure Texture2DGroup where
  id : UInt32
  textureID : UInt32
  coords : List Point2D
  deriving DecidableEq

/-- materials/materials.go:196-201 `CompositeMaterials`; a `Composite` (191-193) is its list of values. -/
structure CompositeMaterials where
  id : UInt32
  materialID : UInt32
  indices : List UInt32
  composites : List (List F32)
  deriving DecidableEq

/-- materials/materials.go:225-230 `MultiProperties`; a `Multi` (219-221) is its list of indices. -/
structure MultiProperties where
  id : UInt32
  pids : List UInt32
  blend : List BlendMethod
  multis : List (List UInt32)
  deriving DecidableEq

/-- slices/slices.go:47-52 `Segment`. -/
structure Segment where
  v2 : UInt32
  pid : UInt32
  p1 : UInt32
  p2 : UInt32
  deriving DecidableEq

/-- slices/slices.go:57-60 `Polygon`. -/
structure Polygon where
  startV : UInt32
  segments : List Segment
  deriving DecidableEq

/-- slices/slices.go:63-71 `Slice`. -/
structure Slice where
  topZ : F32
  vertices : List Point2D
  polygons : List Polygon
  deriving DecidableEq

/-- slices/slices.go:98-101 `SliceRef`. -/
structure SliceRef where
  sliceStackID : UInt32
  path : Str
  deriving DecidableEq

/-- slices/slices.go:105-110 `SliceStack`. -/
structure SliceStack where
  id : UInt32
  bottomZ : F32
  slices : List Slice
  refs : List SliceRef
  deriving DecidableEq

/-- beamlattice/beamlattice.go:126-130 `Beam`. -/
structure Beam where
  v1 : UInt32
  v2 : UInt32
  r1 : F32
  r2 : F32
  cap1 : CapMode
  cap2 : CapMode
  deriving DecidableEq

/-- beamlattice/beamlattice.go:119-123 `BeamSet`. -/
structure BeamSet where
  refs : List UInt32
  name : Str
  identifier : Str
  deriving DecidableEq

/-- beamlattice/beamlattice.go:91-107 `BeamLattice`. -/
structure BeamLattice where
  clipMode : ClipMode
  clippingMeshID : UInt32
  representationMeshID : UInt32
  beams : List Beam
  beamSets : List BeamSet
  minLength : F32
  radius : F32
  capMode : CapMode
  deriving DecidableEq

/-- The elements decoded by the built-in extensions that are both `Asset` and `spec.Marshaler`. -/
inductive ExtRes where
  | colorGroup (r : ColorGroup)
  | texture2D (r : Texture2D)
  | texture2DGroup (r : Texture2DGroup)
  | composite (r : CompositeMaterials)
  | multi (r : MultiProperties)
  | sliceStack (r : SliceStack)
  deriving DecidableEq

/-- Elements of `spec.Any` (spec/spec.go:122): what `NewElementDecoder` of the registered specs and the
unknown-element decoder can produce. -/
inductive AnyElem where
  | tokens (ts : List Token)
  | res (r : ExtRes)
  | beamLattice (b : BeamLattice)
  deriving DecidableEq

/-! ## Core structs -/

/-- core.go:339-343 `Base`. -/
structure Base where
  name : Str
  color : RGBA
  anyAttr : AnyAttr
  deriving DecidableEq

/-- core.go:346-350 `BaseMaterials`. -/
structure BaseMaterials where
  id : UInt32
  materials : List Base
  anyAttr : AnyAttr
  deriving DecidableEq

/-- core.go:93-96 `Asset`; implementations outside the repository are not modelled. -/
inductive Asset where
  | base (r : BaseMaterials)
  /-- core.go:549-552 `UnknownAsset`. -/
  | unknown (id : UInt32) (ts : List Token)
  | res (r : ExtRes)
  deriving DecidableEq

/-- core.go:100-105 `Metadata`. -/
structure Metadata where
  name : Name
  value : Str
  type : Str
  preserve : Bool
  deriving DecidableEq

/-- core.go:367-370 `MetadataGroup`. -/
structure MetadataGroup where
  metadata : List Metadata
  anyAttr : AnyAttr
  deriving DecidableEq

/-- core.go:373-379 `Item`. -/
structure Item where
  objectID : UInt32
  transform : Matrix
  partNumber : Str
  metadata : MetadataGroup
  anyAttr : AnyAttr
  deriving DecidableEq

/-- core.go:442-446 `Component`. -/
structure Component where
  objectID : UInt32
  transform : Matrix
  anyAttr : AnyAttr
  deriving DecidableEq

/-- core.go:436-439 `Components`. -/
structure Components where
  component : List Component
  anyAttr : AnyAttr
  deriving DecidableEq

/-- core.go:471-476 `Triangle`. -/
structure Triangle where
  v1 : UInt32
  v2 : UInt32
  v3 : UInt32
  pid : UInt32
  p1 : UInt32
  p2 : UInt32
  p3 : UInt32
  anyAttr : AnyAttr
  deriving DecidableEq

/-- core.go:482-497 `Mesh`, `Vertices`, `Triangles`. -/
structure Mesh where
  vertices : List Point3D
  verticesAttr : AnyAttr
  triangles : List Triangle
  trianglesAttr : AnyAttr
  anyAttr : AnyAttr
  any : List AnyElem
  deriving DecidableEq

/-- core.go:402-414 `Object`. -/
structure Object where
  id : UInt32
  name : Str
  partNumber : Str
  thumbnail : Str
  pid : UInt32
  pindex : UInt32
  type : ObjectType
  metadata : MetadataGroup
  mesh : Option Mesh
  components : Option Components
  anyAttr : AnyAttr
  deriving DecidableEq

/-- core.go:132-136 `Resources`. -/
structure Resources where
  assets : List Asset
  objects : List Object
  anyAttr : AnyAttr
  deriving DecidableEq

/-- core.go:125-128 `Build`. -/
structure Build where
  items : List Item
  anyAttr : AnyAttr
  deriving DecidableEq

/-- core.go:108-112 `Attachment`; the stream is its content. -/
structure Attachment where
  stream : Str
  path : Str
  contentType : Str
  deriving DecidableEq

/-- core.go:118-122 `Relationship`. -/
structure Relationship where
  path : Str
  type : Str
  id : Str
  deriving DecidableEq

/-- core.go:186-190 `Extension`. -/
structure Extension where
  ns : Str
  localName : Str
  isRequired : Bool
  deriving DecidableEq

/-- core.go:198-202 `ChildModel`. -/
structure ChildModel where
  resources : Resources
  relationships : List Relationship
  any : List AnyElem
  deriving DecidableEq

/-- core.go:211-226 `Model`.  `childs` is a Go map: an association list whose keys are distinct (see
`Model.WF`), the order of which is irrelevant. -/
structure Model where
  path : Str
  language : Str
  units : Units
  thumbnail : Str
  resources : Resources
  build : Build
  attachments : List Attachment
  extensions : List Extension
  metadata : List Metadata
  childs : List (Str × ChildModel)
  rootRelationships : List Relationship
  relationships : List Relationship
  any : List AnyElem
  anyAttr : AnyAttr
  deriving DecidableEq

/-- A Go map has one entry per key. -/
def Model.WF (m : Model) : Prop := (m.childs.map (·.1)).Nodup

instance (m : Model) : Decidable m.WF := inferInstanceAs (Decidable (List.Nodup _))

/-! ### Zero values -/

def RGBA.zero : RGBA := ⟨0, 0, 0, 0⟩
def MetadataGroup.zero : MetadataGroup := ⟨[], []⟩
def Mesh.zero : Mesh := ⟨[], [], [], [], [], []⟩
def Components.zero : Components := ⟨[], []⟩
def Object.zero : Object := ⟨0, [], [], [], 0, 0, .model, .zero, none, none, []⟩
def Item.zero : Item := ⟨0, .zero, [], .zero, []⟩
def Component.zero : Component := ⟨0, .zero, []⟩
def Resources.zero : Resources := ⟨[], [], []⟩
def Build.zero : Build := ⟨[], []⟩
def ChildModel.zero : ChildModel := ⟨.zero, [], []⟩
def BaseMaterials.zero : BaseMaterials := ⟨0, [], []⟩
def Metadata.zero : Metadata := ⟨⟨[], []⟩, [], [], false⟩
def Triangle.zero : Triangle := ⟨0, 0, 0, 0, 0, 0, 0, []⟩
def Model.zero : Model := ⟨[], [], .millimeter, [], .zero, .zero, [], [], [], [], [], [], [], []⟩

end Go3mf
