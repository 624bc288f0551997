import Verif.Model.Validate
import Verif.Model.Text
import Verif.Model.Enums

/-!
# Decoding of attributes

The `Start` methods return an error built by `errs = specerr.Append(errs, err)` from nil and errors that are neither
`*Error` nor `*List`; the model represents it by the list of these errors (see `C14_validators`).  `none` stands for a
panic.
-/

namespace Go3mf

/-! ## Values -/

/-- A `ParseUint` of an attribute: the value, and the error if there is one. -/
def uintAttr (required : Bool) (a : Attr) : UInt32 × List Leaf :=
  (parseUintVal a.value,
    match parseUint a.value with
    | .ok _ => []
    | .error _ => [.parseAttr a.name.loc required])

/-- A `ParseFloat` of an attribute: the value, and the error if there is one. -/
def floatAttr (required : Bool) (a : Attr) : F32 × List Leaf :=
  (parseFloatVal a.value,
    match parseFloat a.value with
    | .ok _ => []
    | .error _ => [.parseAttr a.name.loc required])

/-- A look-up in a table: the zero value and an error if the key is missing. -/
def enumAttr {α : Type} (x : Option α) (zero : α) (a : Attr) : α × List Leaf :=
  match x with
  | some v => (v, [])
  | none => (zero, [.parseAttr a.name.loc false])

/-- `spec.ParseMatrix` of an attribute. -/
def matrixAttr (a : Attr) : Matrix × List Leaf := enumAttr (parseMatrix a.value) .zero a

/-- `spec.ParseRGBA` of an attribute. -/
def colorAttr (a : Attr) : RGBA × List Leaf :=
  ((parseRGBA a.value).1, if (parseRGBA a.value).2 then [.parseAttr a.name.loc true] else [])

/-- A list of `ParseUint`s of the fields of an attribute. -/
def uintsAttr (a : Attr) : List UInt32 × List Leaf :=
  ((fields a.value).map parseUintVal,
    (fields a.value).flatMap fun f => match parseUint f with
      | .ok _ => []
      | .error _ => [.parseAttr a.name.loc true])

/-- A list of `ParseFloat`s of the fields of an attribute. -/
def floatsAttr (a : Attr) : List F32 × List Leaf :=
  ((fields a.value).map parseFloatVal,
    (fields a.value).flatMap fun f => match parseFloat f with
      | .ok _ => []
      | .error _ => [.parseAttr a.name.loc true])

/-- `strconv.ParseBool`, false on error. -/
def parseBool (s : Str) : Bool := [b!"1", b!"t", b!"T", b!"TRUE", b!"true", b!"True"].contains s

/-- `bytes.IndexByte(s, ':')` and the parts before and after. -/
def cutColon : Str → Option (Str × Str)
  | [] => none
  | b :: s => if b = 58 then some ([], s) else (cutColon s).map fun p => (b :: p.1, p.2)

/-! ## Loops -/

/-- The loop of a `Start` method over the attributes. -/
def attrFold {σ : Type} (f : σ → Attr → Option (σ × List Leaf)) : σ → List Attr → Option (σ × List Leaf)
  | s, [] => some (s, [])
  | s, a :: as =>
    match f s a with
    | none => none
    | some (s', e) =>
      match attrFold f s' as with
      | none => none
      | some (s'', e') => some (s'', e ++ e')

/-- The loop of a `Start` method that cannot panic. -/
def attrLoop {σ : Type} (f : σ → Attr → σ × List Leaf) : σ → List Attr → σ × List Leaf
  | s, [] => (s, [])
  | s, a :: as => ((attrLoop f (f s a).1 as).1, (f s a).2 ++ (attrLoop f (f s a).1 as).2)

/-! ## Attribute groups -/

/-- `Namespace` of the attribute groups (spec/unknown.go:15-17, production/production.go:45, 62, 80, 107,
slices/slices.go:137). -/
def AttrGroup.ns : AttrGroup → Str
  | .unknown space _ => space
  | .prodBuild _ => nsProduction
  | .prodItem _ _ => nsProduction
  | .prodObject _ => nsProduction
  | .prodComponent _ _ => nsProduction
  | .sliceObject _ _ => nsSlices

/-- `Unmarshal3MFAttr` (spec/unknown.go:24-27, production/decoder.go:35-77, slices/decoder.go:32-48). -/
def AttrGroup.unmarshal (g : AttrGroup) (a : Attr) : AttrGroup × List Leaf :=
  match g with
  | .unknown space attrs => (.unknown space (attrs ++ [a]), [])
  | .prodBuild u =>
    if a.name.loc = b!"UUID" then
      if uuidValid a.value then (.prodBuild a.value, []) else (.prodBuild u, [.parseAttr a.name.loc true])
    else (.prodBuild u, [])
  | .prodItem u p =>
    if a.name.loc = b!"UUID" then
      if uuidValid a.value then (.prodItem a.value p, []) else (.prodItem u p, [.parseAttr a.name.loc true])
    else if a.name.loc = b!"path" then (.prodItem u a.value, [])
    else (.prodItem u p, [])
  | .prodObject u =>
    if a.name.loc = b!"UUID" then
      if uuidValid a.value then (.prodObject a.value, []) else (.prodObject u, [.parseAttr a.name.loc true])
    else (.prodObject u, [])
  | .prodComponent u p =>
    if a.name.loc = b!"UUID" then
      if uuidValid a.value then (.prodComponent a.value p, [])
      else (.prodComponent u p, [.parseAttr a.name.loc true])
    else if a.name.loc = b!"path" then (.prodComponent u a.value, [])
    else (.prodComponent u p, [])
  | .sliceObject i r =>
    if a.name.loc = b!"slicestackid" then
      match parseUint a.value with
      | .ok v => (.sliceObject v r, [])
      | .error _ => (.sliceObject i r, [.parseAttr a.name.loc true])
    else if a.name.loc = b!"meshresolution" then
      match newMeshResolution a.value with
      | some v => (.sliceObject i v, [])
      | none => (.sliceObject i r, [.parseAttr a.name.loc false])
    else (.sliceObject i r, [])

/-- spec/spec.go:105-112 `NewAttrGroup` for a parent in the core name space, with production/decoder.go:19-34,
slices/decoder.go:22-30, materials/decoder.go:15-17 and beamlattice/decoder.go:14-16; `none` is a nil interface. -/
def newAttrGroup (env : Env) (parent space : Str) : Option AttrGroup :=
  match env.load space with
  | none => some (.unknown space [])
  | some .production =>
    if parent = b!"build" then some (.prodBuild [])
    else if parent = b!"item" then some (.prodItem [] [])
    else if parent = b!"object" then some (.prodObject [])
    else if parent = b!"component" then some (.prodComponent [] [])
    else none
  | some .slices => if parent = b!"object" then some (.sliceObject 0 .full) else none
  | some .materials => none
  | some .beamlattice => none

/-- spec/spec.go:86-93 `AnyAttr.Get` followed by `Unmarshal3MFAttr` on the group found; `none` if there is none. -/
def anyUpdate (a : Attr) : AnyAttr → Option (AnyAttr × List Leaf)
  | [] => none
  | g :: gs =>
    if g.ns = a.name.space then some ((g.unmarshal a).1 :: gs, (g.unmarshal a).2)
    else (anyUpdate a gs).map fun p => (g :: p.1, p.2)

/-- The treatment of an extension attribute (for example decoder.go:101-106); calling a method of a nil interface
panics. -/
def anyAttrAdd (env : Env) (parent : Str) (any : AnyAttr) (a : Attr) : Option (AnyAttr × List Leaf) :=
  match anyUpdate a any with
  | some r => some r
  | none =>
    match newAttrGroup env parent a.name.space with
    | none => none
    | some g => some (any ++ [(g.unmarshal a).1], (g.unmarshal a).2)

/-! ## Core elements -/

/-- The state of decoder.go:53-86: the model and `requiredExts`. -/
abbrev ModelAttrs := Model × List Str

/-- decoder.go:58-74 and decoder.go:88-109 `noCoreAttribute`: an attribute of the root element. -/
def modelAttr (env : Env) (s : ModelAttrs) (a : Attr) : Option (ModelAttrs × List Leaf) :=
  if a.name.space = [] then
    if a.name.loc = b!"unit" then
      let v := enumAttr (newUnits a.value) .millimeter a
      some (({ s.1 with units := v.1 }, s.2), v.2)
    else if a.name.loc = b!"thumbnail" then some (({ s.1 with thumbnail := a.value }, s.2), [])
    else if a.name.loc = b!"requiredextensions" then some ((s.1, fields a.value), [])
    else some (s, [])
  else if a.name.space = nsXML then
    if a.name.loc = b!"lang" then some (({ s.1 with language := a.value }, s.2), []) else some (s, [])
  else if a.name.space = b!"xmlns" then
    some (({ s.1 with extensions := s.1.extensions ++ [⟨a.value, a.name.loc, false⟩] }, s.2), [])
  else
    match anyAttrAdd env b!"model" s.1.anyAttr a with
    | none => none
    | some (any, e) => some (({ s.1 with anyAttr := any }, s.2), e)

/-- decoder.go:76-84: the first extension with the local name becomes required. -/
def markRequired (loc : Str) : List Extension → List Extension
  | [] => []
  | x :: xs => if x.localName = loc then { x with isRequired := true } :: xs else x :: markRequired loc xs

/-- decoder.go:53-86 `Start` of `modelDecoder`, for the root model. -/
def modelStart (env : Env) (m : Model) (attrs : List Attr) : Option (Model × List Leaf) :=
  match attrFold (modelAttr env) (m, []) attrs with
  | none => none
  | some ((m', req), e) => some ({ m' with extensions := req.foldl (fun xs l => markRequired l xs) m'.extensions }, e)

/-- decoder.go:145-152 `namespace`: is there an extension with the local name? -/
def hasPrefix (exts : List Extension) (loc : Str) : Bool := exts.any fun x => x.localName = loc

/-- decoder.go:154-178: an attribute of a `metadata` element. -/
def metadataAttr (exts : List Extension) (md : Metadata) (a : Attr) : Metadata :=
  if a.name.space ≠ [] then md
  else if a.name.loc = b!"name" then
    match cutColon a.value with
    | none => { md with name := ⟨[], a.value⟩ }
    | some (p, l) => if hasPrefix exts p then { md with name := ⟨p, l⟩ } else { md with name := ⟨[], a.value⟩ }
  else if a.name.loc = b!"type" then { md with type := a.value }
  else if a.name.loc = b!"preserve" then { md with preserve := parseBool a.value }
  else md

/-- decoder.go:251-269 `parseCoreAttr` of an item. -/
def itemCore (i : Item) (a : Attr) : Item × List Leaf :=
  if a.name.loc = b!"objectid" then ({ i with objectID := (uintAttr true a).1 }, (uintAttr true a).2)
  else if a.name.loc = b!"partnumber" then ({ i with partNumber := a.value }, [])
  else if a.name.loc = b!"transform" then ({ i with transform := (matrixAttr a).1 }, (matrixAttr a).2)
  else (i, [])

/-- decoder.go:234-249: an attribute of an item. -/
def itemAttr (env : Env) (i : Item) (a : Attr) : Option (Item × List Leaf) :=
  if a.name.space = [] then some (itemCore i a)
  else (anyAttrAdd env b!"item" i.anyAttr a).map fun p => ({ i with anyAttr := p.1 }, p.2)

/-- decoder.go:333-355: an attribute of a group of base materials. -/
def baseMaterialsAttr (env : Env) (r : BaseMaterials) (a : Attr) : Option (BaseMaterials × List Leaf) :=
  if a.name.space = [] then
    if a.name.loc = b!"id" then some ({ r with id := (uintAttr true a).1 }, (uintAttr true a).2) else some (r, [])
  else (anyAttrAdd env b!"basematerials" r.anyAttr a).map fun p => ({ r with anyAttr := p.1 }, p.2)

/-- decoder.go:362-390: an attribute of a base material. -/
def baseAttr (env : Env) (r : Base) (a : Attr) : Option (Base × List Leaf) :=
  if a.name.space = [] then
    if a.name.loc = b!"name" then some ({ r with name := a.value }, [])
    else if a.name.loc = b!"displaycolor" then some ({ r with color := (colorAttr a).1 }, (colorAttr a).2)
    else some (r, [])
  else (anyAttrAdd env b!"base" r.anyAttr a).map fun p => ({ r with anyAttr := p.1 }, p.2)

/-- decoder.go:464-488: an attribute of a vertex. -/
def vertexAttr (p : Point3D) (a : Attr) : Point3D × List Leaf :=
  if a.name.space ≠ [] then (p, [])
  else
    (if a.name.loc = b!"x" then { p with x := (floatAttr true a).1 }
     else if a.name.loc = b!"y" then { p with y := (floatAttr true a).1 }
     else if a.name.loc = b!"z" then { p with z := (floatAttr true a).1 }
     else p, (floatAttr true a).2)

/-- The local variables of decoder.go:531-536. -/
structure TriangleVars where
  v1 : UInt32 := 0
  v2 : UInt32 := 0
  v3 : UInt32 := 0
  pid : Option UInt32 := none
  p1 : Option UInt32 := none
  p2 : Option UInt32 := none
  p3 : Option UInt32 := none
  anyAttr : AnyAttr := []

/-- decoder.go:538-577: an attribute of a triangle. -/
def triangleAttr (env : Env) (t : TriangleVars) (a : Attr) : Option (TriangleVars × List Leaf) :=
  if a.name.space = [] then
    let opt := uintAttr false a
    let req := uintAttr true a
    if a.name.loc = b!"v1" then some ({ t with v1 := req.1 }, req.2)
    else if a.name.loc = b!"v2" then some ({ t with v2 := req.1 }, req.2)
    else if a.name.loc = b!"v3" then some ({ t with v3 := req.1 }, req.2)
    else if a.name.loc = b!"pid" then some ({ t with pid := some opt.1 }, opt.2)
    else if a.name.loc = b!"p1" then some ({ t with p1 := some opt.1 }, opt.2)
    else if a.name.loc = b!"p2" then some ({ t with p2 := some opt.1 }, opt.2)
    else if a.name.loc = b!"p3" then some ({ t with p3 := some opt.1 }, opt.2)
    else some (t, req.2)
  else (anyAttrAdd env b!"triangle" t.anyAttr a).map fun p => ({ t with anyAttr := p.1 }, p.2)

/-- decoder.go:579-585 with decoder.go:589-594 `applyDefault`. -/
def TriangleVars.triangle (t : TriangleVars) (pid pindex : UInt32) : Triangle :=
  let p1 := t.p1.getD pindex
  { v1 := t.v1, v2 := t.v2, v3 := t.v3, pid := t.pid.getD pid, p1 := p1, p2 := t.p2.getD p1, p3 := t.p3.getD p1,
    anyAttr := t.anyAttr }

/-- decoder.go:640-674 `parseCoreAttr` of an object. -/
def objectCore (o : Object) (a : Attr) : Object × List Leaf :=
  if a.name.loc = b!"id" then ({ o with id := (uintAttr true a).1 }, (uintAttr true a).2)
  else if a.name.loc = b!"type" then
    let v := enumAttr (newObjectType a.value) .model a
    ({ o with type := v.1 }, v.2)
  else if a.name.loc = b!"thumbnail" then ({ o with thumbnail := a.value }, [])
  else if a.name.loc = b!"name" then ({ o with name := a.value }, [])
  else if a.name.loc = b!"partnumber" then ({ o with partNumber := a.value }, [])
  else if a.name.loc = b!"pid" then ({ o with pid := (uintAttr false a).1 }, (uintAttr false a).2)
  else if a.name.loc = b!"pindex" then ({ o with pindex := (uintAttr false a).1 }, (uintAttr false a).2)
  else (o, [])

/-- decoder.go:607-622: an attribute of an object. -/
def objectAttr (env : Env) (o : Object) (a : Attr) : Option (Object × List Leaf) :=
  if a.name.space = [] then some (objectCore o a)
  else (anyAttrAdd env b!"object" o.anyAttr a).map fun p => ({ o with anyAttr := p.1 }, p.2)

/-- decoder.go:712-743: an attribute of a component. -/
def componentAttr (env : Env) (c : Component) (a : Attr) : Option (Component × List Leaf) :=
  if a.name.space = [] then
    if a.name.loc = b!"objectid" then some ({ c with objectID := (uintAttr true a).1 }, (uintAttr true a).2)
    else if a.name.loc = b!"transform" then some ({ c with transform := (matrixAttr a).1 }, (matrixAttr a).2)
    else some (c, [])
  else (anyAttrAdd env b!"component" c.anyAttr a).map fun p => ({ c with anyAttr := p.1 }, p.2)

/-- The first attribute `id` without name space (decoder.go:775-784, materials/decoder.go:58-67). -/
def firstID (attrs : List Attr) : Option Attr := attrs.find? fun a => a.name.space = [] ∧ a.name.loc = b!"id"

/-! ## Materials -/

/-- materials/decoder.go:98-120: an attribute of a texture coordinate. -/
def coordAttr (p : Point2D) (a : Attr) : Point2D × List Leaf :=
  if a.name.space ≠ [] then (p, [])
  else
    (if a.name.loc = b!"u" then { p with x := (floatAttr true a).1 }
     else if a.name.loc = b!"v" then { p with y := (floatAttr true a).1 }
     else p, (floatAttr true a).2)

/-- materials/decoder.go:140-163: an attribute of a texture coordinate group. -/
def texture2DGroupAttr (r : Texture2DGroup) (a : Attr) : Texture2DGroup × List Leaf :=
  if a.name.space ≠ [] then (r, [])
  else if a.name.loc = b!"id" then ({ r with id := (uintAttr true a).1 }, (uintAttr true a).2)
  else if a.name.loc = b!"texid" then ({ r with textureID := (uintAttr true a).1 }, (uintAttr true a).2)
  else (r, [])

/-- materials/decoder.go:174-200: an attribute of a texture. -/
def texture2DAttr (r : Texture2D) (a : Attr) : Texture2D × List Leaf :=
  if a.name.space ≠ [] then (r, [])
  else if a.name.loc = b!"id" then ({ r with id := (uintAttr true a).1 }, (uintAttr true a).2)
  else if a.name.loc = b!"path" then ({ r with path := a.value }, [])
  else if a.name.loc = b!"contenttype" then ({ r with contentType := (newTexture2DType a.value).getD .unset }, [])
  else if a.name.loc = b!"tilestyleu" then ({ r with tileU := (newTileStyle a.value).getD .wrap }, [])
  else if a.name.loc = b!"tilestylev" then ({ r with tileV := (newTileStyle a.value).getD .wrap }, [])
  else if a.name.loc = b!"filter" then ({ r with filter := (newTextureFilter a.value).getD .auto }, [])
  else (r, [])

/-- materials/decoder.go:220-251: an attribute of a group of composite materials. -/
def compositeMaterialsAttr (r : CompositeMaterials) (a : Attr) : CompositeMaterials × List Leaf :=
  if a.name.space ≠ [] then (r, [])
  else if a.name.loc = b!"id" then ({ r with id := (uintAttr true a).1 }, (uintAttr true a).2)
  else if a.name.loc = b!"matid" then ({ r with materialID := (uintAttr true a).1 }, (uintAttr true a).2)
  else if a.name.loc = b!"matindices" then ({ r with indices := r.indices ++ (uintsAttr a).1 }, (uintsAttr a).2)
  else (r, [])

/-- materials/decoder.go:258-276: an attribute of a composite. -/
def compositeAttr (r : List F32) (a : Attr) : List F32 × List Leaf :=
  if a.name.space = [] ∧ a.name.loc = b!"values" then (r ++ (floatsAttr a).1, (floatsAttr a).2) else (r, [])

/-- materials/decoder.go:296-326: an attribute of a group of multi-properties. -/
def multiPropertiesAttr (r : MultiProperties) (a : Attr) : MultiProperties × List Leaf :=
  if a.name.space ≠ [] then (r, [])
  else if a.name.loc = b!"id" then ({ r with id := (uintAttr true a).1 }, (uintAttr true a).2)
  else if a.name.loc = b!"blendmethods" then
    ({ r with blend := r.blend ++ (fields a.value).map fun f => (newBlendMethod f).getD .mix }, [])
  else if a.name.loc = b!"pids" then ({ r with pids := r.pids ++ (uintsAttr a).1 }, (uintsAttr a).2)
  else (r, [])

/-- materials/decoder.go:333-351: an attribute of a multi-property. -/
def multiAttr (r : List UInt32) (a : Attr) : List UInt32 × List Leaf :=
  if a.name.space = [] ∧ a.name.loc = b!"pindices" then (r ++ (uintsAttr a).1, (uintsAttr a).2) else (r, [])

/-! ## Slices

The name spaces of the attributes are not looked at. -/

/-- slices/decoder.go:72-91: an attribute of a slice stack. -/
def sliceStackAttr (r : SliceStack) (a : Attr) : SliceStack × List Leaf :=
  if a.name.loc = b!"id" then ({ r with id := (uintAttr true a).1 }, (uintAttr true a).2)
  else if a.name.loc = b!"zbottom" then ({ r with bottomZ := (floatAttr false a).1 }, (floatAttr false a).2)
  else (r, [])

/-- slices/decoder.go:98-119: an attribute of a slice reference. -/
def sliceRefAttr (r : SliceRef) (a : Attr) : SliceRef × List Leaf :=
  if a.name.loc = b!"slicestackid" then ({ r with sliceStackID := (uintAttr true a).1 }, (uintAttr true a).2)
  else if a.name.loc = b!"slicepath" then ({ r with path := a.value }, [])
  else (r, [])

/-- slices/decoder.go:187-206: an attribute of a vertex. -/
def pVertexAttr (p : Point2D) (a : Attr) : Point2D × List Leaf :=
  (if a.name.loc = b!"x" then { p with x := (floatAttr true a).1 }
   else if a.name.loc = b!"y" then { p with y := (floatAttr true a).1 }
   else p, (floatAttr true a).2)

/-- The local variables of slices/decoder.go:246-250. -/
structure SegmentVars where
  seg : Segment := ⟨0, 0, 0, 0⟩
  hasP1 : Bool := false
  hasP2 : Bool := false

/-- slices/decoder.go:267-269. -/
def SegmentVars.fill (s : SegmentVars) : SegmentVars :=
  if s.hasP1 && !s.hasP2 then { s with seg := { s.seg with p2 := s.seg.p1 } } else s

/-- slices/decoder.go:251-273: an attribute of a segment. -/
def segmentAttr (s : SegmentVars) (a : Attr) : SegmentVars × List Leaf :=
  let opt := uintAttr false a
  let req := uintAttr true a
  if a.name.loc = b!"v2" then (({ s with seg := { s.seg with v2 := req.1 } } : SegmentVars).fill, req.2)
  else if a.name.loc = b!"pid" then (({ s with seg := { s.seg with pid := opt.1 } } : SegmentVars).fill, opt.2)
  else if a.name.loc = b!"p1" then
    (({ s with seg := { s.seg with p1 := opt.1 }, hasP1 := true } : SegmentVars).fill, opt.2)
  else if a.name.loc = b!"p2" then
    (({ s with seg := { s.seg with p2 := opt.1 }, hasP2 := true } : SegmentVars).fill, opt.2)
  else (s.fill, opt.2)

/-! ## Beam lattice -/

/-- beamlattice/decoder.go:34-80: an attribute of a beam lattice. -/
def beamLatticeAttr (r : BeamLattice) (a : Attr) : BeamLattice × List Leaf :=
  if a.name.space ≠ [] then (r, [])
  else if a.name.loc = b!"radius" then ({ r with radius := (floatAttr true a).1 }, (floatAttr true a).2)
  else if a.name.loc = b!"minlength" ∨ a.name.loc = b!"precision" then
    ({ r with minLength := (floatAttr true a).1 }, (floatAttr true a).2)
  else if a.name.loc = b!"clippingmode" ∨ a.name.loc = b!"clipping" then
    let v := enumAttr (newClipMode a.value) .none a
    ({ r with clipMode := v.1 }, v.2)
  else if a.name.loc = b!"clippingmesh" then ({ r with clippingMeshID := (uintAttr false a).1 }, (uintAttr false a).2)
  else if a.name.loc = b!"representationmesh" then
    ({ r with representationMeshID := (uintAttr false a).1 }, (uintAttr false a).2)
  else if a.name.loc = b!"cap" then
    let v := enumAttr (newCapMode a.value) .sphere a
    ({ r with capMode := v.1 }, v.2)
  else (r, [])

/-- The local variables of beamlattice/decoder.go:120-124. -/
structure BeamVars where
  v1 : UInt32 := 0
  v2 : UInt32 := 0
  r1 : F32 := .zero
  r2 : F32 := .zero
  cap1 : Option CapMode := none
  cap2 : Option CapMode := none

/-- beamlattice/decoder.go:125-167: an attribute of a beam.  An unknown cap mode stores the zero value, which is replaced
by the default afterwards unless an earlier attribute was a known cap mode. -/
def beamAttr (r : BeamVars) (a : Attr) : BeamVars × List Leaf :=
  if a.name.space ≠ [] then (r, [])
  else if a.name.loc = b!"v1" then ({ r with v1 := (uintAttr true a).1 }, (uintAttr true a).2)
  else if a.name.loc = b!"v2" then ({ r with v2 := (uintAttr true a).1 }, (uintAttr true a).2)
  else if a.name.loc = b!"r1" then ({ r with r1 := (floatAttr false a).1 }, (floatAttr false a).2)
  else if a.name.loc = b!"r2" then ({ r with r2 := (floatAttr false a).1 }, (floatAttr false a).2)
  else if a.name.loc = b!"cap1" then
    match newCapMode a.value with
    | some v => ({ r with cap1 := some v }, [])
    | none => ({ r with cap1 := r.cap1.map fun _ => .sphere }, [])
  else if a.name.loc = b!"cap2" then
    match newCapMode a.value with
    | some v => ({ r with cap2 := some v }, [])
    | none => ({ r with cap2 := r.cap2.map fun _ => .sphere }, [])
  else (r, [])

/-- beamlattice/decoder.go:168-180: the defaults. -/
def BeamVars.beam (b : BeamVars) (radius : F32) (cap : CapMode) : Beam :=
  let r1 := if b.r1.eq .zero then radius else b.r1
  ⟨b.v1, b.v2, r1, if b.r2.eq .zero then r1 else b.r2, b.cap1.getD cap, b.cap2.getD cap⟩

/-- beamlattice/decoder.go:208-222: an attribute of a beam set. -/
def beamSetAttr (r : BeamSet) (a : Attr) : BeamSet :=
  if a.name.space ≠ [] then r
  else if a.name.loc = b!"name" then { r with name := a.value }
  else if a.name.loc = b!"identifier" then { r with identifier := a.value }
  else r

end Go3mf
