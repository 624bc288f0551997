import Verif.Model.Core
import Verif.Model.Errors
import Verif.Model.Text

/-!
# validate.go and the validators of the extensions

A validator returns the list of the errors it appends to `errs`, the empty list being nil (see
`C14_validators`); `Wrap…` on such a value wraps each element.  Of the concurrent use of the registry only the
look-up is modelled.  The recursion of the slices validator is bounded by `fuel`: `none` means that it does not
suffice.
-/

namespace Go3mf

/-- The environment of a validation: which of the built-in extensions are registered (spec/spec.go:19-40), and the
equivalence of `strings.EqualFold`, given by a function that is equal on two strings exactly if these are equal under
Unicode case folding. -/
structure Env where
  fold : Str → Str
  production : Bool
  slices : Bool
  beamlattice : Bool
  materials : Bool

/-- `strings.EqualFold`. -/
def Env.equalFold (env : Env) (a b : Str) : Bool := env.fold a == env.fold b

/-- The built-in extensions. -/
inductive Ext where
  | production | slices | beamlattice | materials
  deriving DecidableEq

/-- spec/spec.go:25-41 `Load`, `LoadValidator`: the four built-in specs all implement `ValidateSpec`; other specs are
not modelled. -/
def Env.load (env : Env) (ns : Str) : Option Ext :=
  if ns = nsProduction ∧ env.production then some .production
  else if ns = nsSlices ∧ env.slices then some .slices
  else if ns = nsBeam ∧ env.beamlattice then some .beamlattice
  else if ns = nsMaterials ∧ env.materials then some .materials
  else none

/-- A package-level error. -/
def Err.of (s : Sentinel) : Err := .leaf (.sentinel s)

/-- errors/errors.go:117-119 `NewMissingFieldError`. -/
def Err.missingField (name : Str) : Err := .leaf (.missingField name)

/-- A loop `for i, x := range l` that appends the errors of each element. -/
def errsIdx {α : Type} (f : Nat → α → List Err) (l : List α) : List Err := (l.mapIdx f).flatten

/-! ## Relationships -/

/-- validate.go:360-367 `findAttachment`. -/
def findAttachment (env : Env) : List Attachment → Str → Option Attachment
  | [], _ => none
  | a :: as, path => if env.equalFold a.path path then some a else findAttachment env as path

/-- validate.go:326: the path of a relationship is not a part name. -/
def badPartName (p : Str) : Bool := p.isEmpty || p.head? != some 0x2f || Str.contains b!"/." p

/-- validate.go:325-350: the loop, from index `i`, with `visitedParts` and `hasPrintTicket`. -/
def relationshipErrs (env : Env) (m : Model) : Nat → List (Str × Str) → Bool → List Relationship → List Err
  | _, _, _, [] => []
  | i, visited, hasTicket, r :: rs =>
    let found := findAttachment env m.attachments r.path
    let e1 :=
      if badPartName r.path then [wrapIndex b!"relationship" i (.of .opcPartName)]
      else (if found = none then [wrapIndex b!"relationship" i (.of .opcRelTarget)] else []) ++
        (if (r.path, r.type) ∈ visited then [wrapIndex b!"relationship" i (.of .opcDuplicatedRel)] else [])
    let visited' := if badPartName r.path then visited else (r.path, r.type) :: visited
    let e2 :=
      match found with
      | none => []
      | some a =>
        if r.type = relPrintTicket then
          (if a.contentType ≠ contentTypePrintTicket then [wrapIndex b!"relationship" i (.of .opcContentType)] else []) ++
          (if hasTicket then [wrapIndex b!"relationship" i (.of .opcDuplicatedTicket)] else [])
        else []
    let hasTicket' := hasTicket || (r.type = relPrintTicket && found.isSome)
    e1 ++ e2 ++ relationshipErrs env m (i + 1) visited' hasTicket' rs

/-- validate.go:351-357: `err.Path = path` on a `*errors.Error`. -/
def setPath (path : Str) : Err → Err
  | .wrapped t e _ => .wrapped t e path
  | e => e

/-- validate.go:320-358 `validateRelationship`. -/
def validateRelationship (env : Env) (m : Model) (rels : List Relationship) (path : Str) : List Err :=
  let errs := relationshipErrs env m 0 [] false rels
  if path ≠ [] then errs.map (setPath path) else errs

/-- validate.go:309-318 `Model.validateNamespaces`. -/
def Model.validateNamespaces (env : Env) (m : Model) : List Err :=
  if m.extensions.any fun e => e.isRequired && (env.load e.ns).isNone then [.of .requiredExt] else []

/-! ## Metadata -/

/-- validate.go:101-104 `allowedMetadataNames`. -/
def allowedMetadataNames : List Str :=
  [b!"application", b!"copyright", b!"creationdate", b!"description", b!"designer", b!"licenseterms", b!"modificationdate",
   b!"rating", b!"title"]

/-- `strings.ToLower`, as far as the comparison with an ASCII string can tell: besides the ASCII capitals only U+0130 and
U+212A have an ASCII lower case; other characters that are not ASCII remain so. -/
def lowerName : Str → Str
  | [] => []
  | 0xc4 :: 0xb0 :: s => 0x69 :: lowerName s
  | 0xe2 :: 0x84 :: 0xaa :: s => 0x6b :: lowerName s
  | c :: s => asciiLower c :: lowerName s

/-- `sort.SearchStrings` on a sorted slice: the first index whose element is at least `x`. -/
def searchStrings (a : List Str) (x : Str) : Nat := a.findIdx fun y => !Str.lt y x

/-- validate.go:106-130 `Metadata.validate`. -/
def Metadata.validate (m : Model) (md : Metadata) : List Err :=
  if md.name.loc = [] then [.missingField b!"name"]
  else if md.name.space = [] then
    let nm := lowerName md.name.loc
    if allowedMetadataNames[searchStrings allowedMetadataNames nm]? ≠ some nm then [.of .metadataName] else []
  else if m.extensions.any fun e => e.ns = md.name.space then []
  else [.of .metadataNamespace]

/-- validate.go:135-142: the loop, from index `i`, with the names already seen. -/
def metadataErrs (m : Model) : Nat → List Name → List Metadata → List Err
  | _, _, [] => []
  | i, seen, md :: mds =>
    (md.validate m).map (wrapIndex b!"metadata" i) ++
    (if md.name ∈ seen then [wrapIndex b!"metadata" i (.of .metadataDuplicated)] else []) ++
    metadataErrs m (i + 1) (md.name :: seen) mds

/-- validate.go:132-144 `checkMetadadata`. -/
def checkMetadata (m : Model) (mds : List Metadata) : List Err := metadataErrs m 0 [] mds

/-! ## Build -/

/-- validate.go:75-88 `Item.validate`. -/
def Item.validate (m : Model) (it : Item) : List Err :=
  (if it.objectID = 0 then [.missingField b!"objectid"]
   else match m.findObject it.objectPath it.objectID with
    | some o => if o.type = .other then [.of .otherItem] else []
    | none => [.of .missingResource]) ++
  checkMetadata m it.metadata.metadata

/-- validate.go:90-99 `Build.validate`. -/
def Build.validate (m : Model) (b : Build) : List Err :=
  errsIdx (fun i it => (it.validate m).map (wrapIndex b!"item" i)) b.items

/-! ## Resources -/

/-- validate.go:147-164 `BaseMaterials.Validate`. -/
def BaseMaterials.validate (r : BaseMaterials) : List Err :=
  (if r.id = 0 then [.of .missingID] else []) ++
  (if r.materials.length = 0 then [.of .emptyResourceProps] else []) ++
  errsIdx (fun j b =>
    (if b.name = [] then [wrapIndex b!"base" j (.missingField b!"name")] else []) ++
    (if b.color = .zero then [wrapIndex b!"base" j (.missingField b!"displaycolor")] else [])) r.materials

/-- `XMLName().Local` of an asset (core.go:363; materials/materials.go:130, 165, 186, 214, 243; slices/slices.go:118;
spec/unknown.go:36-42). -/
def Asset.xmlLocal : Asset → Str
  | .base _ => b!"basematerials"
  | .unknown _ ts =>
    match ts.head? with
    | some (.start n _) => n.loc
    | _ => []
  | .res (.colorGroup _) => b!"colorgroup"
  | .res (.texture2D _) => b!"texture2d"
  | .res (.texture2DGroup _) => b!"texture2dgroup"
  | .res (.composite _) => b!"compositematerials"
  | .res (.multi _) => b!"multiproperties"
  | .res (.sliceStack _) => b!"slicestack"

/-- spec/spec.go:80-82 `PropertyGroup`: `Len` of the assets that have it (core.go:353; materials/materials.go:155, 176,
204, 233). -/
def Asset.len : Asset → Option Nat
  | .base r => some r.materials.length
  | .res (.texture2DGroup r) => some r.coords.length
  | .res (.colorGroup r) => some r.colors.length
  | .res (.composite r) => some r.composites.length
  | .res (.multi r) => some r.multis.length
  | _ => none

/-- validate.go:263-286: the errors of the triangle number `i`. -/
def Triangle.validate (res : Resources) (o : Object) (nodeCount : UInt32) (i : Nat) (t : Triangle) : List Err :=
  (if t.v1 = t.v2 ∨ t.v1 = t.v3 ∨ t.v2 = t.v3 then [wrapIndex b!"triangle" i (.of .duplicatedIndices)] else []) ++
  (if t.v1 ≥ nodeCount ∨ t.v2 ≥ nodeCount ∨ t.v3 ≥ nodeCount then [wrapIndex b!"triangle" i (.of .indexOutOfBounds)] else []) ++
  (if t.pid = 0 then []
   else if t.pid = o.pid ∧ t.p1 = o.pindex ∧ t.p2 = o.pindex ∧ t.p3 = o.pindex then []
   else match res.findAsset t.pid with
    | some a =>
      match a.len with
      | some l =>
        if t.p1.toNat ≥ l ∨ t.p2.toNat ≥ l ∨ t.p3.toNat ≥ l then [wrapIndex b!"triangle" i (.of .indexOutOfBounds)] else []
      | none => []
    | none => [wrapIndex b!"triangle" i (.of .missingResource)])

/-- validate.go:249-288 `Object.validateMesh`. -/
def Object.validateMesh (res : Resources) (o : Object) (mesh : Mesh) : List Err :=
  (if o.type = .model ∨ o.type = .solidSupport then
    (if mesh.vertices.length < 3 then [.of .insufficientVertices] else []) ++
    (if mesh.triangles.length ≤ 3 ∧ mesh.any.length = 0 then [.of .insufficientTriangles] else [])
   else []) ++
  errsIdx (Triangle.validate res o (UInt32.ofNat mesh.vertices.length)) mesh.triangles

/-- validate.go:290-307 `Object.validateComponents`. -/
def Object.validateComponents (m : Model) (path : Str) (o : Object) (cs : List Component) : List Err :=
  (errsIdx (fun j (c : Component) =>
    if c.objectID = 0 then [wrapIndex b!"component" j (.missingField b!"objectid")]
    else match m.findObject (c.objectPath path) c.objectID with
      | some ref =>
        if ref.id = o.id ∧ c.objectPath path = path then [wrapIndex b!"component" j (.of .recursion)] else []
      | none => [wrapIndex b!"component" j (.of .missingResource)]) cs).map (wrap b!"components")

/-- validate.go:207-240: `Object.Validate` without the extensions.  `res` is never nil there: the path is that of the
root or of a child model. -/
def Object.validateCore (m : Model) (path : Str) (o : Object) : List Err :=
  let res := (m.findResources path).getD .zero
  (if o.id = 0 then [.of .missingID] else []) ++
  (if o.pindex ≠ 0 ∧ o.pid = 0 then [.missingField b!"pid"] else []) ++
  (if (o.mesh.isSome ∧ o.components.isSome) ∨ (o.mesh.isNone ∧ o.components.isNone) then [.of .invalidObject] else []) ++
  (match o.mesh with
    | some mesh =>
      (if o.pid ≠ 0 then
        match res.findAsset o.pid with
        | some a =>
          match a.len with
          | some l => if o.pindex.toNat ≥ l then [.of .indexOutOfBounds] else []
          | none => []
        | none => [.of .missingResource]
       else []) ++
      (o.validateMesh res mesh).map (wrap b!"mesh")
    | none => []) ++
  (match o.components with
    | some cs =>
      if cs.component.length > 0 then
        (if o.pid ≠ 0 then [.of .componentsPID] else []) ++ o.validateComponents m path cs.component
      else []
    | none => [])

/-! ## Production -/

/-- production/production.go:47-54 `GetBuildAttr`: the UUID. -/
def getBuildAttr : AnyAttr → Option Str
  | [] => none
  | .prodBuild u :: _ => some u
  | _ :: as => getBuildAttr as

/-- production/production.go:64-71 `GetObjectAttr`: the UUID. -/
def getObjectAttr : AnyAttr → Option Str
  | [] => none
  | .prodObject u :: _ => some u
  | _ :: as => getObjectAttr as

/-- production/production.go:82-89 `GetItemAttr`: UUID and path. -/
def getItemAttr : AnyAttr → Option (Str × Str)
  | [] => none
  | .prodItem u p :: _ => some (u, p)
  | _ :: as => getItemAttr as

/-- production/production.go:109-116 `GetComponentAttr`: UUID and path. -/
def getComponentAttr : AnyAttr → Option (Str × Str)
  | [] => none
  | .prodComponent u p :: _ => some (u, p)
  | _ :: as => getComponentAttr as

/-- production/validate.go:78-93 `validatePathUUID`. -/
def validatePathUUID (m : Model) (path : Str) (u : Str × Str) : List Err :=
  (if u.1 = [] then [.missingField b!"UUID"] else if uuidValid u.1 then [] else [.of .uuid]) ++
  (if u.2 ≠ [] then if path = [] ∨ path = m.pathOrDefault then [] else [.of .prodRefInNonRoot] else [])

/-- production/validate.go:27-48 `validateModel`. -/
def prodValidateModel (m : Model) : List Err :=
  (match getBuildAttr m.build.anyAttr with
    | none => [wrap b!"build" (.missingField b!"UUID")]
    | some u => if uuidValid u then [] else [wrap b!"build" (.of .uuid)]) ++
  errsIdx (fun i (it : Item) =>
    (match getItemAttr it.anyAttr with
      | some p => validatePathUUID m [] p
      | none => [.missingField b!"UUID"]).map fun e => wrap b!"build" (wrapIndex b!"item" i e)) m.build.items

/-- production/validate.go:50-76 `validateObject`. -/
def prodValidateObject (m : Model) (path : Str) (o : Object) : List Err :=
  (match getObjectAttr o.anyAttr with
    | none => [.missingField b!"UUID"]
    | some u => if uuidValid u then [] else [.of .uuid]) ++
  (match o.components with
    | none => []
    | some cs =>
      errsIdx (fun i (c : Component) =>
        (match getComponentAttr c.anyAttr with
          | some p => validatePathUUID m path p
          | none => [.missingField b!"UUID"]).map fun e => wrap b!"components" (wrapIndex b!"component" i e)) cs.component)

/-! ## Materials -/

/-- materials/validate.go:37-50 `validateColorGroup`. -/
def ColorGroup.validate (r : ColorGroup) : List Err :=
  (if r.id = 0 then [.of .missingID] else []) ++
  (if r.colors.length = 0 then [.of .emptyResourceProps] else []) ++
  errsIdx (fun j c => if c = .zero then [wrapIndex b!"color" j (.missingField b!"color")] else []) r.colors

/-- materials/validate.go:52-69 `validateTexture2DGroup`. -/
def Texture2DGroup.validate (m : Model) (path : Str) (r : Texture2DGroup) : List Err :=
  (if r.id = 0 then [.of .missingID] else []) ++
  (if r.textureID = 0 then [.missingField b!"texid"]
   else match m.findAsset path r.textureID with
    | some (.res (.texture2D _)) => []
    | _ => [.of .textureReference]) ++
  (if r.coords.length = 0 then [.of .emptyResourceProps] else [])

/-- materials/validate.go:71-93 `validateTexture2D`. -/
def Texture2D.validate (env : Env) (m : Model) (r : Texture2D) : List Err :=
  (if r.id = 0 then [.of .missingID] else []) ++
  (if r.path = [] then [.missingField b!"path"]
   else if m.attachments.any fun a => env.equalFold a.path r.path then [] else [.of .missingTexturePart]) ++
  (if r.contentType = .unset then [.missingField b!"contenttype"] else [])

/-- materials/validate.go:113-139: the loop over `PIDs`, from position `j`, with `colorCount` and `resourceUndefined`:
the errors and `lengths`. -/
def multiLayers (m : Model) (path : Str) : Nat → Nat → Bool → List UInt32 → List Err × List Nat
  | _, _, _, [] => ([], [])
  | j, colors, undef, pid :: pids =>
    match m.findAsset path pid with
    | some (.base r) =>
      let t := multiLayers m path (j + 1) colors undef pids
      ((if j ≠ 0 then [.of .materialMulti] else []) ++ t.1, r.materials.length :: t.2)
    | some (.res (.composite r)) =>
      let t := multiLayers m path (j + 1) colors undef pids
      ((if j ≠ 0 then [.of .materialMulti] else []) ++ t.1, r.composites.length :: t.2)
    | some (.res (.multi _)) =>
      let t := multiLayers m path (j + 1) colors undef pids
      (.of .multiRefMulti :: t.1, 0 :: t.2)
    | some (.res (.colorGroup r)) =>
      let t := multiLayers m path (j + 1) (colors + 1) undef pids
      ((if colors = 1 then [.of .multiColors] else []) ++ t.1, r.colors.length :: t.2)
    | some _ =>
      let t := multiLayers m path (j + 1) colors undef pids
      (t.1, 0 :: t.2)
    | none =>
      let t := multiLayers m path (j + 1) colors true pids
      ((if undef then [] else [.of .missingResource]) ++ t.1, 0 :: t.2)

/-- materials/validate.go:141-146: an index of a multi exceeds the length of its layer (zip stops at the shorter list, as
`k < len(r.PIDs)` does). -/
def multiOut (lengths : List Nat) (indices : List UInt32) : Bool := (lengths.zip indices).any fun p => p.1 < p.2.toNat

/-- materials/validate.go:95-149 `validateMultiProps`. -/
def MultiProperties.validate (m : Model) (path : Str) (r : MultiProperties) : List Err :=
  let layers := multiLayers m path 0 0 false r.pids
  (if r.id = 0 then [.of .missingID] else []) ++
  (if r.pids.length = 0 then [.missingField b!"pids"] else []) ++
  (if (r.blend.length : Int) > (r.pids.length : Int) - 1 then [.of .multiBlend] else []) ++
  (if r.multis.length = 0 then [.of .emptyResourceProps] else []) ++
  layers.1 ++
  errsIdx (fun j indices => if multiOut layers.2 indices then [wrapIndex b!"multi" j (.of .indexOutOfBounds)] else []) r.multis

/-- materials/validate.go:151-178 `validateCompositeMat`. -/
def CompositeMaterials.validate (m : Model) (path : Str) (r : CompositeMaterials) : List Err :=
  (if r.id = 0 then [.of .missingID] else []) ++
  (if r.materialID = 0 then [.missingField b!"matid"]
   else match m.findAsset path r.materialID with
    | some (.base b) =>
      if r.indices.any fun i => i.toNat > b.materials.length then [.of .indexOutOfBounds] else []
    | some _ => [.of .compositeBase]
    | none => [.of .missingResource]) ++
  (if r.indices.length = 0 then [.missingField b!"matindices"] else []) ++
  (if r.composites.length = 0 then [.of .emptyResourceProps] else [])

/-- materials/validate.go:14-35 `Spec.Validate`, `validateAsset`. -/
def materialsValidateAsset (env : Env) (m : Model) (path : Str) : Asset → List Err
  | .res (.colorGroup r) => r.validate
  | .res (.texture2DGroup r) => r.validate m path
  | .res (.texture2D r) => r.validate env m
  | .res (.multi r) => r.validate m path
  | .res (.composite r) => r.validate m path
  | _ => []

/-! ## Slices -/

/-- slices/validate.go:13-15 `validTransform`. -/
def validTransform (t : Matrix) : Bool :=
  t.m2.eq .zero && t.m6.eq .zero && t.m8.eq .zero && t.m9.eq .zero && t.m10.eq .one

/-- slices/slices.go:122-129 `GetObjectAttr`. -/
def getSliceAttr : AnyAttr → Option (UInt32 × MeshResolution)
  | [] => none
  | .sliceObject id res :: _ => some (id, res)
  | _ :: as => getSliceAttr as

/-- slices/validate.go:212-227: the loop over the components of `o`. -/
def componentsPlanar (rec : Object → Option Bool) (m : Model) (o : Object) (path : Str) (id : UInt32) :
    List Component → Option Bool
  | [] => some true
  | c :: cs =>
    if c.objectID = id ∧ c.objectPath path = path ∧ c.transform.isTransform = true ∧ validTransform c.transform = false then some false
    else if c.objectID = o.id ∧ c.objectPath path = path then some true
    else match m.findObject (c.objectPath path) c.objectID with
      | none => componentsPlanar rec m o path id cs
      | some o1 =>
        match rec o1 with
        | none => none
        | some false => some false
        | some true => componentsPlanar rec m o path id cs

/-- slices/validate.go:208-229 `validateObjectTransforms`, with at most `fuel` nested calls. -/
def objectPlanar (m : Model) (path : Str) (id : UInt32) : Nat → Object → Option Bool
  | 0, _ => none
  | fuel + 1, o =>
    match o.components with
    | none => some true
    | some cs => componentsPlanar (objectPlanar m path id fuel) m o path id cs.component

/-- slices/validate.go:188-206 `validateBuildTransforms`. -/
def buildPlanar (m : Model) (fuel : Nat) (path : Str) (id : UInt32) : List Item → Option Bool
  | [] => some true
  | it :: its =>
    let target := if it.objectPath = [] then path else it.objectPath
    if it.objectID = id ∧ target = path ∧ it.transform.isTransform = true ∧ validTransform it.transform = false then some false
    else match m.findObject target it.objectID with
      | none => buildPlanar m fuel path id its
      | some o =>
        match objectPlanar m path id fuel o with
        | none => none
        | some false => some false
        | some true => buildPlanar m fuel path id its

/-- slices/validate.go:160-169 `isSliceStackClosed`. -/
def SliceStack.isClosed (r : SliceStack) : Bool :=
  r.slices.all fun s => s.polygons.all fun p =>
    match p.segments.getLast? with
    | none => true
    | some sg => p.startV == sg.v2

/-- slices/validate.go:171-186 `checkAllClosed`. -/
def SliceStack.allClosed (m : Model) (r : SliceStack) : Bool :=
  r.isClosed && r.refs.all fun ref =>
    match m.findAsset ref.path ref.sliceStackID with
    | some (.res (.sliceStack st)) => st.isClosed
    | _ => true

/-- slices/validate.go:53-59: `IsRequired` of the first extension entry of the namespace. -/
def sliceRequired : List Extension → Bool
  | [] => false
  | e :: es => if e.ns = nsSlices then e.isRequired else sliceRequired es

/-- slices/validate.go:27-65 `validateObject`. -/
def slicesValidateObject (m : Model) (fuel : Nat) (path : Str) (o : Object) : Option (List Err) :=
  match getSliceAttr o.anyAttr with
  | none => some []
  | some (stackID, res) =>
    let low := if res = .low then if sliceRequired m.extensions then [] else [.of .sliceExtRequired] else []
    if stackID = 0 then some (.missingField b!"slicestackid" :: low)
    else match ((m.findResources path).getD .zero).findAsset stackID with
      | some (.res (.sliceStack r)) =>
        match buildPlanar m fuel path o.id m.build.items with
        | none => none
        | some planar =>
          some ((if planar then [] else [.of .sliceInvalidTransform]) ++
            (if o.type = .model ∨ o.type = .solidSupport then
              if r.allClosed m then [] else [.of .slicePolygonNotClosed] else []) ++ low)
      | some _ => some (.of .nonSliceStack :: low)
      | none => some (.of .missingResource :: low)

/-- `-math.MaxFloat32`. -/
def negMaxFloat : F32 := (F32.mk false maxMag).neg

/-- slices/validate.go:87-116: the loop of `validateSlices`, from index `j`, with `lastTopZ`. -/
def slicesErrs (bottomZ : F32) : Nat → F32 → List Slice → List Err
  | _, _, [] => []
  | j, last, s :: ss =>
    (if s.topZ.eq .zero then [wrapIndex b!"slice" j (.missingField b!"ztop")]
     else if s.topZ.lt bottomZ then [wrapIndex b!"slice" j (.of .sliceSmallTopZ)] else []) ++
    (if s.topZ.le last then [wrapIndex b!"slice" j (.of .sliceNoMonotonic)] else []) ++
    (if s.polygons.length = 0 ∧ s.vertices.length = 0 then []
     else
      (if s.vertices.length < 2 then [wrapIndex b!"slice" j (.of .sliceInsufficientVertices)] else []) ++
      (if s.polygons.length = 0 then [wrapIndex b!"slice" j (.of .sliceInsufficientPolygons)] else []) ++
      errsIdx (fun k (p : Polygon) => if p.segments.length < 1 then
        [wrapIndex b!"slice" j (wrapIndex b!"polygon" k (.of .sliceInsufficientSegments))] else []) s.polygons) ++
    slicesErrs bottomZ (j + 1) s.topZ ss

/-- slices/validate.go:122-156: the loop of `validateRefs`, from index `i`, with `lastTopZ`. -/
def refsErrs (m : Model) (path : Str) : Nat → F32 → List SliceRef → List Err
  | _, _, [] => []
  | i, last, r :: rs =>
    let e1 :=
      (if r.path = [] then [wrapIndex b!"sliceref" i (.missingField b!"slicepath")]
       else if r.path = path then [wrapIndex b!"sliceref" i (.of .sliceRefSamePart)] else []) ++
      (if r.sliceStackID = 0 then [wrapIndex b!"sliceref" i (.missingField b!"slicestackid")] else [])
    if r.path = [] ∨ r.path = path ∨ r.sliceStackID = 0 then e1 ++ refsErrs m path (i + 1) last rs
    else match m.findAsset r.path r.sliceStackID with
      | some (.res (.sliceStack st)) =>
        (if st.refs.length ≠ 0 then [wrapIndex b!"sliceref" i (.of .sliceRefRef)] else []) ++
        (match st.slices.head? with
          | some s => if s.topZ.le last then [wrapIndex b!"sliceref" i (.of .sliceNoMonotonic)] else []
          | none => []) ++
        refsErrs m path (i + 1) (match st.slices.getLast? with | some s => s.topZ | none => last) rs
      | some _ => wrapIndex b!"sliceref" i (.of .nonSliceStack) :: refsErrs m path (i + 1) last rs
      | none => wrapIndex b!"sliceref" i (.of .missingResource) :: refsErrs m path (i + 1) last rs

/-- slices/validate.go:67-83 `validateAsset`. -/
def SliceStack.validate (m : Model) (path : Str) (r : SliceStack) : List Err :=
  (if (r.slices.length ≠ 0 ∧ r.refs.length ≠ 0) ∨ (r.slices.length = 0 ∧ r.refs.length = 0) then [.of .slicesAndRefs] else []) ++
  refsErrs m path 0 negMaxFloat r.refs ++
  slicesErrs r.bottomZ 0 negMaxFloat r.slices

/-! ## Beam lattice -/

/-- beamlattice/beamlattice.go:109-116 `GetBeamLattice`. -/
def getBeamLattice : List AnyElem → Option BeamLattice
  | [] => none
  | .beamLattice b :: _ => some b
  | _ :: as => getBeamLattice as

/-- beamlattice/validate.go:81-91: the loop of `validateRefMesh`. -/
def refMeshErrs (meshID selfID : UInt32) : List Object → List Err
  | [] => []
  | r :: rs =>
    if r.id = selfID then [.of .missingResource]
    else if r.id = meshID then
      match r.mesh with
      | none => [.of .latticeInvalidMesh]
      | some mesh => if r.type ≠ .model ∨ (getBeamLattice mesh.any).isSome then [.of .latticeInvalidMesh] else []
    else refMeshErrs meshID selfID rs

/-- beamlattice/validate.go:76-94 `validateRefMesh`. -/
def validateRefMesh (m : Model) (path : Str) (meshID selfID : UInt32) : List Err :=
  if meshID = selfID then [.of .recursion]
  else match m.findResources path with
    | some res => refMeshErrs meshID selfID res.objects
    | none => []

/-- beamlattice/validate.go:49-61: the errors of the beam number `i`. -/
def Beam.validate (radius : F32) (nv : Nat) (i : Nat) (b : Beam) : List Err :=
  (if b.v1 = b.v2 then [wrapIndex b!"beam" i (.of .latticeSameVertex)]
   else if b.v1.toNat ≥ nv ∨ b.v2.toNat ≥ nv then [wrapIndex b!"beam" i (.of .indexOutOfBounds)] else []) ++
  (if b.r1.eq .zero = false ∧ b.r1.eq radius = false ∧ b.r1.eq b.r2 = false then [wrapIndex b!"beam" i (.of .latticeBeamR2)] else [])

/-- beamlattice/validate.go:18-74 `validateObject`. -/
def beamValidateObject (m : Model) (path : Str) (o : Object) : List Err :=
  match o.mesh with
  | none => []
  | some mesh =>
    match getBeamLattice mesh.any with
    | none => []
    | some bl =>
      (((if o.type ≠ .model ∧ o.type ≠ .solidSupport then [.of .latticeObjType] else []) ++
       (if bl.minLength.eq .zero then [.missingField b!"minlength"] else []) ++
       (if bl.radius.eq .zero then [.missingField b!"radius"] else []) ++
       (if bl.clipMode = .none ∧ bl.clippingMeshID = 0 then [.of .latticeClippedNoMesh] else []) ++
       (if bl.clippingMeshID ≠ 0 then validateRefMesh m path bl.clippingMeshID o.id else []) ++
       (if bl.representationMeshID ≠ 0 then validateRefMesh m path bl.representationMeshID o.id else []) ++
       errsIdx (Beam.validate bl.radius mesh.vertices.length) bl.beams ++
       errsIdx (fun i (s : BeamSet) =>
         if s.refs.any fun r => r.toNat ≥ s.refs.length then [wrapIndex b!"beamset" i (.of .indexOutOfBounds)] else []) bl.beamSets : List Err)
      ).map fun e => wrap b!"mesh" (wrap b!"beamlattice" e)

/-! ## The extensions together -/

/-- validate.go:48-52: the validators of the declared extensions on the model. -/
def extModelErrs (env : Env) (m : Model) : List Err :=
  m.extensions.flatMap fun e =>
    match env.load e.ns with
    | some .production => prodValidateModel m
    | _ => []

/-- validate.go:183-187: on an asset. -/
def extAssetErrs (env : Env) (m : Model) (path : Str) (a : Asset) : List Err :=
  m.extensions.flatMap fun e =>
    match env.load e.ns with
    | some .materials => materialsValidateAsset env m path a
    | some .slices =>
      match a with
      | .res (.sliceStack r) => r.validate m path
      | _ => []
    | _ => []

/-- validate.go:241-245: on an object. -/
def extObjectErrs (env : Env) (m : Model) (fuel : Nat) (path : Str) (o : Object) : Option (List Err) :=
  (m.extensions.mapM fun (e : Extension) =>
    match env.load e.ns with
    | some .production => some (prodValidateObject m path o)
    | some .slices => slicesValidateObject m fuel path o
    | some .beamlattice => some (beamValidateObject m path o)
    | _ => some []).map List.flatten

/-- validate.go:205-247 `Object.Validate`. -/
def Object.validate (env : Env) (m : Model) (fuel : Nat) (path : Str) (o : Object) : Option (List Err) :=
  (extObjectErrs env m fuel path o).map (o.validateCore m path ++ ·)

/-- validate.go:178-180: `Validate` of the assets that have it, which is only `BaseMaterials`. -/
def Asset.validate : Asset → List Err
  | .base r => r.validate
  | _ => []

/-- validate.go:168-189: the loop over the assets, from index `i`, with the identifiers seen. -/
def assetsErrs (env : Env) (m : Model) (path : Str) : Nat → List UInt32 → List Asset → List Err
  | _, _, [] => []
  | i, seen, a :: as =>
    (((if a.identify ≠ 0 ∧ a.identify ∈ seen then [.of .duplicatedID] else []) ++
      a.validate ++
      extAssetErrs env m path a : List Err)).map (wrapIndex a.xmlLocal i) ++
    assetsErrs env m path (i + 1) (a.identify :: seen) as

/-- validate.go:190-199: the loop over the objects. -/
def objectsErrs (env : Env) (m : Model) (fuel : Nat) (path : Str) : Nat → List UInt32 → List Object → Option (List Err)
  | _, _, [] => some []
  | i, seen, o :: os =>
    match o.validate env m fuel path, objectsErrs env m fuel path (i + 1) (o.id :: seen) os with
    | some e, some es =>
      some ((if o.id ≠ 0 ∧ o.id ∈ seen then [wrapIndex b!"object" i (.of .duplicatedID)] else []) ++
        e.map (wrapIndex b!"object" i) ++ es)
    | _, _ => none

/-- validate.go:166-201 `Resources.validate`. -/
def Resources.validate (env : Env) (m : Model) (fuel : Nat) (path : Str) (rs : Resources) : Option (List Err) :=
  (objectsErrs env m fuel path 0 (rs.assets.map Asset.identify) rs.objects).map
    (assetsErrs env m path 0 [] rs.assets ++ ·)

/-- validate.go:54-60: the resources of the child models, in the order of their sorted paths. -/
def childsErrs (env : Env) (m : Model) (fuel : Nat) (paths : List Str) : Option (List Err) :=
  (paths.mapM fun path =>
    match lookupChild m.childs path with
    | some c => (c.resources.validate env m fuel path).map fun (es : List Err) => es.map (wrapPath b!"resources" path)
    | none => some []).map List.flatten

/-- validate.go:36-44: the relationships of the child models. -/
def childRelErrs (env : Env) (m : Model) (paths : List Str) : List Err :=
  paths.flatMap fun path =>
    match lookupChild m.childs path with
    | some c =>
      if path = m.pathOrDefault then [.of .opcDuplicatedModelName] else validateRelationship env m c.relationships path
    | none => []

/-- validate.go:30-73 `Model.Validate`, with `fuel` for each recursion of the slices validator. -/
def Model.validateFuel (env : Env) (m : Model) (fuel : Nat) : Option (List Err) :=
  match childsErrs env m fuel m.sortedChilds, m.resources.validate env m fuel m.pathOrDefault with
  | some ce, some re =>
    some ((validateRelationship env m m.rootRelationships [] ++
      m.validateNamespaces env ++
      childRelErrs env m m.sortedChilds ++
      validateRelationship env m m.relationships m.pathOrDefault ++
      checkMetadata m m.metadata ++
      extModelErrs env m ++
      ce ++
      re.map (wrap b!"resources") ++
      (m.build.validate m).map (wrap b!"build")).map (wrap b!"model"))
  | _, _ => none

/-- `Model.Validate` returns, with the list `errs` of errors (nil if empty). -/
def Model.Validate (env : Env) (m : Model) (errs : List Err) : Prop := ∃ fuel, m.validateFuel env fuel = some errs

/-- `Model.Validate` returns nil. -/
def Model.Accepts (env : Env) (m : Model) : Prop := m.Validate env []

end Go3mf
