import Verif.Model.Validate

/-!
# Lemmas: the validation does not look at the prefixes of the extensions
-/

namespace Go3mf

/-- What the validation looks at. -/
def Extension.seen (x : Extension) : Str × Bool := (x.ns, x.isRequired)

section
variable {m : Model} {E : List Extension}

theorem relationshipErrs_ext (env : Env) : ∀ (rs : List Relationship) (i : Nat) (v : List (Str × Str)) (h : Bool),
    relationshipErrs env { m with extensions := E } i v h rs = relationshipErrs env m i v h rs
  | [], _, _, _ => by simp only [relationshipErrs]
  | _ :: rs, _, _, _ => by simp only [relationshipErrs, relationshipErrs_ext env rs]

theorem validateRelationship_ext (env : Env) (rs : List Relationship) (path : Str) :
    validateRelationship env { m with extensions := E } rs path = validateRelationship env m rs path := by
  simp only [validateRelationship, relationshipErrs_ext]

theorem findResources_ext (path : Str) : ({ m with extensions := E } : Model).findResources path = m.findResources path := rfl

theorem findAsset_ext (path : Str) (id : UInt32) : ({ m with extensions := E } : Model).findAsset path id = m.findAsset path id := rfl

theorem findObject_ext (path : Str) (id : UInt32) : ({ m with extensions := E } : Model).findObject path id = m.findObject path id := rfl

theorem multiLayers_ext (path : Str) : ∀ (ids : List UInt32) (i c : Nat) (u : Bool),
    multiLayers { m with extensions := E } path i c u ids = multiLayers m path i c u ids
  | [], _, _, _ => by simp only [multiLayers]
  | _ :: ids, _, _, _ => by simp only [multiLayers, multiLayers_ext path ids, findAsset_ext]

theorem refsErrs_ext (path : Str) : ∀ (rs : List SliceRef) (i : Nat) (z : F32),
    refsErrs { m with extensions := E } path i z rs = refsErrs m path i z rs
  | [], _, _ => by simp only [refsErrs]
  | _ :: rs, _, _ => by simp only [refsErrs, refsErrs_ext path rs, findAsset_ext]

theorem componentsPlanar_ext (rec : Object → Option Bool) (o : Object) (path : Str) (id : UInt32) : ∀ cs : List Component,
    componentsPlanar rec { m with extensions := E } o path id cs = componentsPlanar rec m o path id cs
  | [] => by simp only [componentsPlanar]
  | _ :: cs => by simp only [componentsPlanar, componentsPlanar_ext rec o path id cs, findObject_ext]

theorem objectPlanar_ext (path : Str) (id : UInt32) : ∀ fuel : Nat, objectPlanar { m with extensions := E } path id fuel = objectPlanar m path id fuel
  | 0 => by funext o; simp only [objectPlanar]
  | fuel + 1 => by funext o; simp only [objectPlanar, objectPlanar_ext path id fuel, componentsPlanar_ext]

theorem buildPlanar_ext (fuel : Nat) (path : Str) (id : UInt32) : ∀ is : List Item,
    buildPlanar { m with extensions := E } fuel path id is = buildPlanar m fuel path id is
  | [] => by simp only [buildPlanar]
  | _ :: is => by simp only [buildPlanar, buildPlanar_ext fuel path id is, findObject_ext, objectPlanar_ext]

theorem stack_ext (path : Str) (r : SliceStack) : r.validate { m with extensions := E } path = r.validate m path := by
  simp only [SliceStack.validate, refsErrs_ext]

theorem materials_ext (env : Env) (path : Str) (a : Asset) :
    materialsValidateAsset env { m with extensions := E } path a = materialsValidateAsset env m path a := by
  rw [materialsValidateAsset.eq_def, materialsValidateAsset.eq_def]
  simp only [MultiProperties.validate, multiLayers_ext, CompositeMaterials.validate, Texture2DGroup.validate, Texture2D.validate, findAsset_ext]

/-! ## The functions that look at the extensions -/

theorem any_seen {E' : List Extension} (h : E.map Extension.seen = E'.map Extension.seen) (f : Str × Bool → Bool) :
    (E.any fun e => f (e.ns, e.isRequired)) = E'.any fun e => f (e.ns, e.isRequired) := by
  have := congrArg (List.any · f) h
  simpa [List.any_map, Function.comp_def, Extension.seen] using this

theorem flatMap_seen {E' : List Extension} (h : E.map Extension.seen = E'.map Extension.seen) (f : Str → List Err) :
    (E.flatMap fun e => f e.ns) = E'.flatMap fun e => f e.ns := by
  have := congrArg (List.flatMap fun q => f q.1) h
  simpa [List.flatMap_map, Extension.seen] using this

theorem mapM_seen : ∀ {E E' : List Extension}, E.map Extension.seen = E'.map Extension.seen → ∀ f : Str → Option (List Err),
    (E.mapM fun e => f e.ns) = E'.mapM fun e => f e.ns
  | [], [], _, _ => rfl
  | [], _ :: _, h, _ => by simp at h
  | _ :: _, [], h, _ => by simp at h
  | x :: E, y :: E', h, f => by
    simp only [List.map_cons, List.cons.injEq] at h
    have h1 : x.ns = y.ns := congrArg Prod.fst h.1
    simp only [List.mapM_cons, h1, mapM_seen h.2 f]

theorem sliceRequired_seen : ∀ {E E' : List Extension}, E.map Extension.seen = E'.map Extension.seen → sliceRequired E = sliceRequired E'
  | [], [], _ => rfl
  | [], _ :: _, h => by simp at h
  | _ :: _, [], h => by simp at h
  | x :: E, y :: E', h => by
    simp only [List.map_cons, List.cons.injEq] at h
    have h1 : x.ns = y.ns := congrArg Prod.fst h.1
    have h2 : x.isRequired = y.isRequired := congrArg Prod.snd h.1
    simp only [sliceRequired, h1, h2, sliceRequired_seen h.2]

variable (h : E.map Extension.seen = m.extensions.map Extension.seen)
include h

theorem slicesObject_ext (fuel : Nat) (path : Str) (o : Object) :
    slicesValidateObject { m with extensions := E } fuel path o = slicesValidateObject m fuel path o := by
  have e : ∀ r : SliceStack, r.allClosed { m with extensions := E } = r.allClosed m := fun _ => rfl
  simp only [slicesValidateObject, sliceRequired_seen h, buildPlanar_ext, e, findResources_ext]

theorem metadataErrs_ext : ∀ (xs : List Metadata) (i : Nat) (seen : List Name),
    metadataErrs { m with extensions := E } i seen xs = metadataErrs m i seen xs
  | [], _, _ => by simp only [metadataErrs]
  | x :: xs, _, _ => by
    have := any_seen h fun q => decide (q.1 = x.name.space)
    simp only [metadataErrs, metadataErrs_ext xs, Metadata.validate, this]

theorem extObjectErrs_ext (env : Env) (fuel : Nat) (path : Str) (o : Object) :
    extObjectErrs env { m with extensions := E } fuel path o = extObjectErrs env m fuel path o := by
  have h1 : prodValidateObject { m with extensions := E } path o = prodValidateObject m path o := rfl
  have h2 : beamValidateObject { m with extensions := E } path o = beamValidateObject m path o := rfl
  simp only [extObjectErrs, slicesObject_ext h, h1, h2]
  exact congrArg (Option.map List.flatten) (mapM_seen h fun ns => match env.load ns with
    | some .production => some (prodValidateObject m path o)
    | some .slices => slicesValidateObject m fuel path o
    | some .beamlattice => some (beamValidateObject m path o)
    | _ => some [])

theorem extAssetErrs_ext (env : Env) (path : Str) (a : Asset) :
    extAssetErrs env { m with extensions := E } path a = extAssetErrs env m path a := by
  simp only [extAssetErrs, materials_ext, stack_ext]
  exact flatMap_seen h fun ns => match env.load ns with
    | some .materials => materialsValidateAsset env m path a
    | some .slices =>
      match a with
      | .res (.sliceStack r) => r.validate m path
      | _ => []
    | _ => []

theorem assetsErrs_ext (env : Env) (path : Str) : ∀ (as : List Asset) (i : Nat) (seen : List UInt32),
    assetsErrs env { m with extensions := E } path i seen as = assetsErrs env m path i seen as
  | [], _, _ => by simp only [assetsErrs]
  | _ :: as, _, _ => by simp only [assetsErrs, assetsErrs_ext env path as, extAssetErrs_ext h]

theorem objectsErrs_ext (env : Env) (fuel : Nat) (path : Str) : ∀ (os : List Object) (i : Nat) (seen : List UInt32),
    objectsErrs env { m with extensions := E } fuel path i seen os = objectsErrs env m fuel path i seen os
  | [], _, _ => by simp only [objectsErrs]
  | o :: os, _, _ => by
    have : o.validateCore { m with extensions := E } path = o.validateCore m path := rfl
    simp only [objectsErrs, objectsErrs_ext env fuel path os, Object.validate, extObjectErrs_ext h, this]

theorem resources_ext (env : Env) (fuel : Nat) (path : Str) (rs : Resources) :
    rs.validate env { m with extensions := E } fuel path = rs.validate env m fuel path := by
  simp only [Resources.validate, assetsErrs_ext h, objectsErrs_ext h]

/-- The validation does not depend on the prefixes of the extensions. -/
theorem validateFuel_ext (env : Env) (fuel : Nat) : ({ m with extensions := E } : Model).validateFuel env fuel = m.validateFuel env fuel := by
  have h1 : ({ m with extensions := E } : Model).sortedChilds = m.sortedChilds := rfl
  have h2 : ({ m with extensions := E } : Model).pathOrDefault = m.pathOrDefault := rfl
  have h3 : ({ m with extensions := E } : Model).validateNamespaces env = m.validateNamespaces env := by
    have := any_seen h fun q => q.2 && (env.load q.1).isNone
    simp only [Model.validateNamespaces, this]
  have h4 : extModelErrs env { m with extensions := E } = extModelErrs env m := by
    have e : prodValidateModel { m with extensions := E } = prodValidateModel m := rfl
    simp only [extModelErrs, e]
    exact flatMap_seen h fun ns => match env.load ns with
      | some .production => prodValidateModel m
      | _ => []
  have h5 : m.build.validate { m with extensions := E } = m.build.validate m := by
    simp only [Build.validate, Item.validate, checkMetadata, metadataErrs_ext h, findObject_ext]
  simp only [Model.validateFuel, childsErrs, childRelErrs, checkMetadata, h1, h2, h3, h4, h5, metadataErrs_ext h, resources_ext h,
    validateRelationship_ext]

end

end Go3mf
