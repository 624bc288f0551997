import Verif.Model.Num

/-!
# errors/errors.go and errors/list.go

Go mutates `*Error` and `*List` values in place.  The model is functional: it assumes that an error value
has one owner, i.e. that no `*Error` or `*List` is appended to two lists or wrapped while another reference
to it is in use.  This holds of the uses in the repository, where every such value is created by the
function that returns it.  A `List` whose slice contains a nil error is not modelled.
-/

namespace Go3mf

/-- The package-level error values (errors/errors.go:15-38, slices/slices.go:30-41,
materials/materials.go:35-41, beamlattice/beamlattice.go:23-27, production/production.go:24-25). -/
inductive Sentinel where
  | missingID | duplicatedID | missingResource | duplicatedIndices | indexOutOfBounds
  | insufficientVertices | insufficientTriangles | componentsPID | opcPartName | opcRelTarget
  | opcDuplicatedRel | opcContentType | opcDuplicatedTicket | opcDuplicatedModelName
  | metadataName | metadataNamespace | metadataDuplicated | otherItem | nonObject | requiredExt
  | emptyResourceProps | recursion | invalidObject | meshConsistency
  | sliceExtRequired | nonSliceStack | slicesAndRefs | sliceRefSamePart | sliceRefRef | sliceSmallTopZ
  | sliceNoMonotonic | sliceInsufficientVertices | sliceInsufficientPolygons | sliceInsufficientSegments
  | slicePolygonNotClosed | sliceInvalidTransform
  | multiBlend | materialMulti | multiRefMulti | multiColors | textureReference | compositeBase
  | missingTexturePart
  | latticeObjType | latticeClippedNoMesh | latticeInvalidMesh | latticeSameVertex | latticeBeamR2
  | uuid | prodRefInNonRoot
  deriving DecidableEq, Repr

/-- Errors that are neither `*Error` nor `*List`. -/
inductive Leaf where
  | sentinel (s : Sentinel)
  /-- errors/errors.go:121 `MissingFieldError`. -/
  | missingField (name : Str)
  /-- errors/errors.go:129 `ParseAttrError`. -/
  | parseAttr (name : Str) (required : Bool)
  /-- Any other error (`errors.New`, `fmt.Errorf`, errors of the standard library). -/
  | other (msg : Str)
  deriving DecidableEq, Repr

/-- errors/errors.go:41-44 `Level`. -/
structure Level where
  name : Str
  index : Int
  deriving DecidableEq, Repr

/-- A non-nil error that is not a nil `*List`. -/
inductive Err where
  | leaf (l : Leaf)
  /-- errors/errors.go:53-57 `*Error`; `target` is in the order of the Go slice, innermost first. -/
  | wrapped (target : List Level) (err : Err) (path : Str)
  /-- errors/list.go:13 `*List`. -/
  | list (es : List Err)
  deriving Repr

/-- A Go `error` value: nil, a nil `*List` in a non-nil interface, or an error. -/
inductive ErrVal where
  | nil
  | nilList
  | err (e : Err)

mutual
/-- errors/errors.go:63-78 `WrapIndex` on a non-nil error. -/
def wrapIndex (name : Str) (index : Int) : Err → Err
  | .wrapped t e p => .wrapped (t ++ [⟨name, index⟩]) e p
  | .list es => .list (wrapIndexList name index es)
  | .leaf l => .wrapped [⟨name, index⟩] (.leaf l) []
/-- The loop of errors/errors.go:72-74. -/
def wrapIndexList (name : Str) (index : Int) : List Err → List Err
  | [] => []
  | e :: es => wrapIndex name index e :: wrapIndexList name index es
end

mutual
/-- errors/errors.go:80-96 `WrapPath` on a non-nil error. -/
def wrapPath (name : Str) (path : Str) : Err → Err
  | .wrapped t e _ => .wrapped (t ++ [⟨name, -1⟩]) e path
  | .list es => .list (wrapPathList name path es)
  | .leaf l => .wrapped [⟨name, -1⟩] (.leaf l) path
/-- The loop of errors/errors.go:90-92. -/
def wrapPathList (name : Str) (path : Str) : List Err → List Err
  | [] => []
  | e :: es => wrapPath name path e :: wrapPathList name path es
end

/-- errors/errors.go:59-61 `Wrap`. -/
def wrap (name : Str) (e : Err) : Err := wrapIndex name (-1) e

/-- `fmt.Sprintf("%d", i)`. -/
def intDigits : Int → Str
  | .ofNat n => natDigits n
  | .negSucc n => b!"-" ++ natDigits (n + 1)

/-- errors/errors.go:46-51 `Level.String`. -/
def Level.str (l : Level) : Str :=
  if l.index = -1 then l.name else l.name ++ b!"[" ++ intDigits l.index ++ b!"]"

/-- `strings.Join`. -/
def Str.join (sep : Str) : List Str → Str
  | [] => []
  | [s] => s
  | s :: t => s ++ sep ++ Str.join sep t

/-- errors/errors.go:102-108 `Error.XPath`. -/
def xpath (target : List Level) : Str := b!"/" ++ Str.join b!"/" (target.reverse.map Level.str)

/-- `errors.Unwrap`: errors/errors.go:98-100 and errors/list.go:46-51. -/
def Err.unwrap : Err → Option Err
  | .leaf _ => none
  | .wrapped _ e _ => some e
  | .list [] => none
  | .list (e :: _) => some e

mutual
/-- `errors.Is(e, l)` of the standard library, for a target `l` that is neither `*Error` nor `*List`: some
error of the chain of `Unwrap` is `l`. -/
def Err.is (l : Leaf) : Err → Bool
  | .leaf k => k == l
  | .wrapped _ e _ => Err.is l e
  | .list es => Err.isFirst l es
/-- `errors.Is` on the first element, the only one `List.Unwrap` gives access to. -/
def Err.isFirst (l : Leaf) : List Err → Bool
  | [] => false
  | e :: _ => Err.is l e
end

/-! ## Append -/

/-- errors/list.go:65-85: the loop of `Append` when `err` is a `*List`, `none` being a nil `*List`. -/
def appendLoop : Option (List Err) → List ErrVal → Option (List Err)
  | acc, [] => acc
  | acc, .nil :: es => appendLoop acc es
  | acc, .nilList :: es => appendLoop (some (acc.getD [])) es
  | acc, .err (.list l) :: es => appendLoop (some (acc.getD [] ++ l)) es
  | acc, .err e :: es => appendLoop (some (acc.getD [] ++ [e])) es

/-- Is the error interface non-nil? -/
def ErrVal.nonNil : ErrVal → Bool
  | .nil => false
  | _ => true

/-- A `*List` as an error value. -/
def ErrVal.ofList : Option (List Err) → ErrVal
  | none => .nilList
  | some l => .err (.list l)

/-- errors/list.go:59-101 `Append`. -/
def ErrVal.append (err : ErrVal) (errs : List ErrVal) : ErrVal :=
  if errs.isEmpty then err
  else match err with
    | .nilList => .ofList (appendLoop none errs)
    | .err (.list l) => .ofList (appendLoop (some l) errs)
    | _ =>
      let newErrs := (if err.nonNil then [err] else []) ++ errs.filter ErrVal.nonNil
      if newErrs.isEmpty then .nil else .ofList (appendLoop (some []) newErrs)

/-! ## Representation used by the validators

In the validators `errs` starts as nil and grows by `errs = errors.Append(errs, err)` where `err` is nil, a
leaf, a `*Error` or a non-empty `*List`.  There the model represents an error value by the list of its
elements, the empty list being nil, and `Append` by concatenation; see `C14_validators`. -/

/-- The error value represented by a list of elements. -/
def ErrVal.ofErrs : List Err → ErrVal
  | [] => .nil
  | l => .err (.list l)

end Go3mf
