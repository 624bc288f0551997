import Verif.Model.Validate

/-!
# validate.go with the validators of any extensions

Verif/Model/Validate.lean knows the four built-in extensions.  Any package can register its own (spec/spec.go:19-23); if
it implements `ValidateSpec` (spec/spec.go:51-58), `Model.Validate` calls it.  Here the registered extensions are any, and
so are the errors they return, nil `*List`s included.  A validator is a function of its arguments that returns a new
error.  The checks of the core specification are those of Verif/Model/Validate.lean.
-/

namespace Go3mf

/-- The elements that `ValidateSpec.Validate` is called with: validate.go:50 the model, 185 an asset, 243 an object. -/
inductive ValTarget where
  | model
  | asset (a : Asset)
  | object (o : Object)

/-- spec/spec.go:51-58 `ValidateSpec.Validate`: of the model, the path and the element. -/
abbrev Validator := Model → Str → ValTarget → ErrVal

/-- The registered extensions (spec/spec.go:11-14), by name space; `some none` is a `Spec` that is no `ValidateSpec`. -/
abbrev Registered := Str → Option (Option Validator)

/-- errors/errors.go:59-96 on an error that may be nil.  A nil `*List` makes them panic; `Append` never returns one here. -/
def ErrVal.mapErr (f : Err → Err) : ErrVal → ErrVal
  | .err e => .err (f e)
  | v => v

/-- validate.go:48-52, 183-187, 241-245: the loop over the extensions of the model, with spec/spec.go:32-41
`LoadValidator`. -/
def extV (reg : Registered) (m : Model) (path : Str) (x : ValTarget) (errs : ErrVal) : ErrVal :=
  m.extensions.foldl (fun acc (e : Extension) =>
    match reg e.ns with
    | some (some v) => acc.append [v m path x]
    | _ => acc) errs

/-- validate.go:169-187: the errors of one asset, `seen` being the identifiers of those before. -/
def assetV (reg : Registered) (m : Model) (path : Str) (seen : List UInt32) (a : Asset) : ErrVal :=
  extV reg m path (.asset a)
    ((ErrVal.nil.append [.ofErrs (if a.identify ≠ 0 ∧ a.identify ∈ seen then [.of .duplicatedID] else [])]).append
      [.ofErrs a.validate])

/-- validate.go:168-189: the loop over the assets, from index `i`. -/
def assetsV (reg : Registered) (m : Model) (path : Str) : Nat → List UInt32 → List Asset → ErrVal → ErrVal
  | _, _, [], errs => errs
  | i, seen, a :: as, errs =>
    assetsV reg m path (i + 1) (a.identify :: seen) as
      (errs.append [(assetV reg m path seen a).mapErr (wrapIndex a.xmlLocal i)])

/-- validate.go:205-247 `Object.Validate`. -/
def objectV (reg : Registered) (m : Model) (path : Str) (o : Object) : ErrVal :=
  extV reg m path (.object o) (.ofErrs (o.validateCore m path))

/-- validate.go:190-199: the loop over the objects. -/
def objectsV (reg : Registered) (m : Model) (path : Str) : Nat → List UInt32 → List Object → ErrVal → ErrVal
  | _, _, [], errs => errs
  | i, seen, o :: os, errs =>
    objectsV reg m path (i + 1) (o.id :: seen) os
      ((errs.append [.ofErrs (if o.id ≠ 0 ∧ o.id ∈ seen then [wrapIndex b!"object" i (.of .duplicatedID)] else [])]).append
        [(objectV reg m path o).mapErr (wrapIndex b!"object" i)])

/-- validate.go:166-201 `Resources.validate`. -/
def resourcesV (reg : Registered) (m : Model) (path : Str) (rs : Resources) : ErrVal :=
  objectsV reg m path 0 (rs.assets.map Asset.identify) rs.objects (assetsV reg m path 0 [] rs.assets .nil)

/-- validate.go:309-318 `Model.validateNamespaces`. -/
def namespacesV (reg : Registered) (m : Model) : List Err :=
  if m.extensions.any fun e => e.isRequired && (reg e.ns).isNone then [.of .requiredExt] else []

/-- validate.go:54-60: the loop over the child models. -/
def childsV (reg : Registered) (m : Model) (paths : List Str) (errs : ErrVal) : ErrVal :=
  paths.foldl (fun acc path =>
    match lookupChild m.childs path with
    | some c => acc.append [(resourcesV reg m path c.resources).mapErr (wrapPath b!"resources" path)]
    | none => acc) errs

/-- validate.go:30-73 `Model.Validate`. -/
def Model.validateV (env : Env) (reg : Registered) (m : Model) : ErrVal :=
  let errs := ErrVal.nil.append [.ofErrs (validateRelationship env m m.rootRelationships [])]
  let errs := errs.append [.ofErrs (namespacesV reg m)]
  let errs := errs.append [.ofErrs (childRelErrs env m m.sortedChilds)]
  let errs := errs.append [.ofErrs (validateRelationship env m m.relationships m.pathOrDefault)]
  let errs := errs.append [.ofErrs (checkMetadata m m.metadata)]
  let errs := extV reg m m.path .model errs
  let errs := childsV reg m m.sortedChilds errs
  let errs := errs.append [(resourcesV reg m m.pathOrDefault m.resources).mapErr (wrap b!"resources")]
  let errs := errs.append [(ErrVal.ofErrs (m.build.validate m)).mapErr (wrap b!"build")]
  errs.mapErr (wrap b!"model")

/-- The validators of the built-in extensions: production/validate.go:13-25, slices/validate.go:17-25,
beamlattice/validate.go:11-16, materials/validate.go:14-19.  The recursion of that of the slices is bounded by `fuel`. -/
def builtinV (env : Env) (fuel : Nat) : Registered := fun ns =>
  (env.load ns).map fun x => some fun m path t =>
    match x, t with
    | .production, .model => .ofErrs (prodValidateModel m)
    | .production, .object o => .ofErrs (prodValidateObject m path o)
    | .materials, .asset a => .ofErrs (materialsValidateAsset env m path a)
    | .slices, .asset (.res (.sliceStack r)) => .ofErrs (r.validate m path)
    | .slices, .object o => .ofErrs ((slicesValidateObject m fuel path o).getD [])
    | .beamlattice, .object o => .ofErrs (beamValidateObject m path o)
    | _, _ => .nil

end Go3mf
