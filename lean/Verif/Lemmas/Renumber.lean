import Verif.Spec.Renumber
import Verif.Model.Validate
import Verif.Model.Box

/-!
# Lemmas on the change of identifiers
-/

namespace Go3mf
open Spec

theorem errsIdx_map {α β : Type} (f : Nat → β → List Err) (g : α → β) (l : List α) :
    errsIdx f (l.map g) = errsIdx (fun i x => f i (g x)) l := by
  rw [errsIdx, errsIdx]
  congr 1
  apply List.ext_getElem <;> simp

theorem errsIdx_congr {α : Type} {f g : Nat → α → List Err} (h : ∀ i x, f i x = g i x) (l : List α) : errsIdx f l = errsIdx g l := by
  rw [show f = g from funext fun i => funext fun x => h i x]

section
variable {m : Model} {σ : Str → UInt32 → UInt32} (h : Numbering m σ)
include h

/-! ## Identifiers -/

theorem num_eq (p : Str) (a b : UInt32) : (σ p a = σ p b) ↔ a = b := ⟨h.inj p a b, fun e => e ▸ rfl⟩

theorem num_zero (p : Str) (a : UInt32) : (σ p a = 0) ↔ a = 0 := by
  rw [← h.zero p, num_eq h, h.zero]

theorem num_mem (p : Str) (a : UInt32) (l : List UInt32) : (σ p a ∈ l.map (σ p)) ↔ a ∈ l := by
  constructor
  · intro hm
    obtain ⟨b, hb, e⟩ := List.mem_map.mp hm
    exact h.inj p _ _ e ▸ hb
  · exact fun hm => List.mem_map_of_mem hm

theorem identify_num (p : Str) (a : Asset) : (renumberAsset σ p a).identify = σ p a.identify := by
  cases a with
  | base r => rfl
  | unknown id ts => rfl
  | res r => cases r <;> rfl

theorem findObjectIn_num (p : Str) (id : UInt32) : ∀ os : List Object,
    findObjectIn (os.map (renumberObject σ p)) (σ p id) = (findObjectIn os id).map (renumberObject σ p)
  | [] => rfl
  | o :: os => by
    have e : ((renumberObject σ p o).id == σ p id) = (o.id == id) := by
      rw [Bool.eq_iff_iff, beq_iff_eq, beq_iff_eq]
      exact num_eq h p o.id id
    simp only [List.map_cons, findObjectIn, e, findObjectIn_num p id os]
    split <;> rfl

theorem findAssetIn_num (p : Str) (id : UInt32) : ∀ as : List Asset,
    findAssetIn (as.map (renumberAsset σ p)) (σ p id) = (findAssetIn as id).map (renumberAsset σ p)
  | [] => rfl
  | a :: as => by
    have e : ((renumberAsset σ p a).identify == σ p id) = (a.identify == id) := by
      rw [Bool.eq_iff_iff, identify_num h]
      simpa using num_eq h p a.identify id
    simp only [List.map_cons, findAssetIn, e, findAssetIn_num p id as]
    split <;> rfl

/-! ## Parts -/

theorem objectPath_root {p : Str} (hp : MeansRoot m p) (a : AnyAttr) : σ (AnyAttr.objectPath p a) = σ (AnyAttr.objectPath [] a) := by
  induction a with
  | nil => exact h.root p hp
  | cons g a ih =>
    simp only [AnyAttr.objectPath]
    split
    · split
      · rfl
      · exact ih
    · exact ih

theorem resources_root {p : Str} (hp : MeansRoot m p) (rs : Resources) : renumberResources σ p rs = renumberResources σ [] rs := by
  have e := h.root p hp
  have e1 : renumberComponent σ p = renumberComponent σ [] := by
    funext c
    simp only [renumberComponent, Component.objectPath, objectPath_root h hp]
  have e2 : renumberObject σ p = renumberObject σ [] := by
    funext o
    simp only [renumberObject, e, e1]
  have e3 : renumberAsset σ p = renumberAsset σ [] := by
    funext a
    cases a with
    | base r => simp only [renumberAsset, e]
    | unknown id ts => simp only [renumberAsset, e]
    | res r => cases r <;> simp only [renumberAsset, renumberRes, e]
  simp only [renumberResources, e2, e3]

theorem lookupChild_num (p : Str) : ∀ cs : List (Str × ChildModel),
    lookupChild (cs.map fun c => (c.1, { c.2 with resources := renumberResources σ c.1 c.2.resources })) p =
      (lookupChild cs p).map fun c => { c with resources := renumberResources σ p c.resources }
  | [] => rfl
  | c :: cs => by
    simp only [List.map_cons, lookupChild, lookupChild_num p cs]
    split
    · next e => subst e; rfl
    · rfl

theorem findResources_num (p : Str) : (renumberModel σ m).findResources p = (m.findResources p).map (renumberResources σ p) := by
  by_cases hp : MeansRoot m p
  · rw [Model.findResources, if_pos (by exact hp), Model.findResources, if_pos (by exact hp), Option.map_some, resources_root h hp]
    rfl
  · rw [Model.findResources, if_neg (by exact hp), Model.findResources, if_neg (by exact hp)]
    simp only [renumberModel, lookupChild_num h]
    cases lookupChild m.childs p <;> rfl

theorem findObject_num (p : Str) (id : UInt32) :
    (renumberModel σ m).findObject p (σ p id) = (m.findObject p id).map (renumberObject σ p) := by
  rw [Model.findObject, Model.findObject, findResources_num h]
  cases m.findResources p with
  | none => rfl
  | some rs => exact findObjectIn_num h p id rs.objects

theorem findAsset_num (p : Str) (id : UInt32) :
    (renumberModel σ m).findAsset p (σ p id) = (m.findAsset p id).map (renumberAsset σ p) := by
  rw [Model.findAsset, Model.findAsset, findResources_num h]
  cases m.findResources p with
  | none => rfl
  | some rs => exact findAssetIn_num h p id rs.assets

/-! ## Core -/

theorem len_num (p : Str) (a : Asset) : (renumberAsset σ p a).len = a.len := by
  cases a with
  | base r => rfl
  | unknown id ts => rfl
  | res r => cases r <;> simp [renumberAsset, renumberRes, Asset.len]

theorem xmlLocal_num (p : Str) (a : Asset) : (renumberAsset σ p a).xmlLocal = a.xmlLocal := by
  cases a with
  | base r => rfl
  | unknown id ts => rfl
  | res r => cases r <;> rfl

theorem item_num (i : Item) : (renumberItem σ i).validate (renumberModel σ m) = i.validate m := by
  have e : (renumberItem σ i).objectPath = i.objectPath := rfl
  have e2 : ∀ xs k seen, metadataErrs (renumberModel σ m) k seen xs = metadataErrs m k seen xs := by
    intro xs
    induction xs with
    | nil => intro k seen; simp only [metadataErrs]
    | cons x xs ih => intro k seen; simp only [metadataErrs, ih]; rfl
  simp only [Item.validate, e, checkMetadata, e2]
  simp only [renumberItem, num_zero h, findObject_num h]
  congr 2
  cases m.findObject i.objectPath i.objectID <;> rfl

theorem metadata_num (xs : List Metadata) : checkMetadata (renumberModel σ m) xs = checkMetadata m xs := by
  have e2 : ∀ xs k seen, metadataErrs (renumberModel σ m) k seen xs = metadataErrs m k seen xs := by
    intro xs
    induction xs with
    | nil => intro k seen; simp only [metadataErrs]
    | cons x xs ih => intro k seen; simp only [metadataErrs, ih]; rfl
  exact e2 xs 0 []

theorem build_num : (renumberModel σ m).build.validate (renumberModel σ m) = m.build.validate m := by
  rw [Build.validate, Build.validate]
  simp only [show (renumberModel σ m).build.items = m.build.items.map (renumberItem σ) from rfl, errsIdx_map, item_num h]

theorem triangle_num (p : Str) (rs : Resources) (o : Object) (n : UInt32) (i : Nat) (t : Triangle) :
    Triangle.validate (renumberResources σ p rs) (renumberObject σ p o) n i { t with pid := σ p t.pid } = t.validate rs o n i := by
  have e : (renumberResources σ p rs).findAsset (σ p t.pid) = (rs.findAsset t.pid).map (renumberAsset σ p) := findAssetIn_num h p t.pid rs.assets
  have e1 : (renumberObject σ p o).pid = σ p o.pid := rfl
  have e2 : (renumberObject σ p o).pindex = o.pindex := rfl
  simp only [Triangle.validate, e, e1, e2, num_zero h, num_eq h]
  cases rs.findAsset t.pid with
  | none => rfl
  | some a => simp only [Option.map_some, len_num h]

theorem mesh_num (p : Str) (rs : Resources) (o : Object) (x : Mesh) :
    (renumberObject σ p o).validateMesh (renumberResources σ p rs) (renumberMesh (σ p) x) = o.validateMesh rs x := by
  have e1 : (renumberObject σ p o).type = o.type := rfl
  simp only [Object.validateMesh, renumberMesh, errsIdx_map, triangle_num h, e1, List.length_map]
  rfl

theorem components_num (p : Str) (o : Object) (cs : List Component) :
    (renumberObject σ p o).validateComponents (renumberModel σ m) p (cs.map (renumberComponent σ p)) = o.validateComponents m p cs := by
  have e : ∀ c, (renumberComponent σ p c).objectPath p = c.objectPath p := fun _ => rfl
  simp only [Object.validateComponents, errsIdx_map, e]
  congr 1
  refine errsIdx_congr (fun i c => ?_) cs
  simp only [renumberComponent, num_zero h, findObject_num h]
  cases m.findObject (c.objectPath p) c.objectID with
  | none => rfl
  | some r =>
    simp only [Option.map_some]
    by_cases hp : c.objectPath p = p
    · simp only [hp, and_true, renumberObject, num_eq h]
    · simp only [hp, and_false, if_false]

theorem core_num (p : Str) (o : Object) : (renumberObject σ p o).validateCore (renumberModel σ m) p = o.validateCore m p := by
  have e : (((renumberModel σ m).findResources p).getD .zero) = renumberResources σ p ((m.findResources p).getD .zero) := by
    rw [findResources_num h]
    cases m.findResources p <;> rfl
  have e1 : ∀ rs : Resources, (renumberResources σ p rs).findAsset (σ p o.pid) = (rs.findAsset o.pid).map (renumberAsset σ p) :=
    fun rs => findAssetIn_num h p o.pid rs.assets
  have ei : (renumberObject σ p o).id = σ p o.id := rfl
  have ep : (renumberObject σ p o).pid = σ p o.pid := rfl
  have ex : (renumberObject σ p o).pindex = o.pindex := rfl
  have em : (renumberObject σ p o).mesh = o.mesh.map (renumberMesh (σ p)) := rfl
  have ec : (renumberObject σ p o).components =
    o.components.map fun cs => { cs with component := cs.component.map (renumberComponent σ p) } := rfl
  simp only [Object.validateCore, e, ei, ep, ex, em, ec, num_zero h, ne_eq, Option.isSome_map, Option.isNone_map, e1]
  congr 1
  · congr 1
    cases o.mesh with
    | none => rfl
    | some x =>
      simp only [Option.map_some, mesh_num h]
      congr 2
      cases ((m.findResources p).getD .zero).findAsset o.pid with
      | none => rfl
      | some a => simp only [Option.map_some, len_num h]
  · cases o.components with
    | none => rfl
    | some cs => simp only [Option.map_some, List.length_map, components_num h]

/-! ## Extensions -/

theorem getObjectAttr_num (f : UInt32 → UInt32) : ∀ a : AnyAttr, getObjectAttr (a.map (renumberAttr f)) = getObjectAttr a
  | [] => rfl
  | g :: a => by cases g <;> simp [renumberAttr, getObjectAttr, getObjectAttr_num f a]

theorem getSliceAttr_num (f : UInt32 → UInt32) : ∀ a : AnyAttr,
    getSliceAttr (a.map (renumberAttr f)) = (getSliceAttr a).map fun q => (f q.1, q.2)
  | [] => rfl
  | g :: a => by cases g <;> simp [renumberAttr, getSliceAttr, getSliceAttr_num f a]

theorem getBeamLattice_num (f : UInt32 → UInt32) : ∀ a : List AnyElem,
    getBeamLattice (a.map (renumberAny f)) = (getBeamLattice a).map fun b =>
      { b with
        clippingMeshID := f b.clippingMeshID
        representationMeshID := f b.representationMeshID }
  | [] => rfl
  | g :: a => by cases g <;> simp [renumberAny, getBeamLattice, getBeamLattice_num f a]

theorem production_num (p : Str) (o : Object) : prodValidateObject (renumberModel σ m) p (renumberObject σ p o) = prodValidateObject m p o := by
  have e : ∀ u, validatePathUUID (renumberModel σ m) p u = validatePathUUID m p u := fun _ => rfl
  simp only [prodValidateObject, renumberObject, getObjectAttr_num h, e]
  congr 1
  cases o.components with
  | none => rfl
  | some cs => simp only [Option.map_some, errsIdx_map]; rfl

theorem productionModel_num : prodValidateModel (renumberModel σ m) = prodValidateModel m := by
  simp only [prodValidateModel, renumberModel, errsIdx_map]
  rfl

theorem refMesh_num (p : Str) (a b : UInt32) : ∀ os : List Object,
    refMeshErrs (σ p a) (σ p b) (os.map (renumberObject σ p)) = refMeshErrs a b os
  | [] => rfl
  | o :: os => by
    have ei : (renumberObject σ p o).id = σ p o.id := rfl
    have em : (renumberObject σ p o).mesh = o.mesh.map (renumberMesh (σ p)) := rfl
    have et : (renumberObject σ p o).type = o.type := rfl
    simp only [List.map_cons, refMeshErrs, ei, em, et, num_eq h, refMesh_num p a b os]
    cases o.mesh with
    | none => rfl
    | some x => simp only [Option.map_some, renumberMesh, getBeamLattice_num h, Option.isSome_map]

theorem validateRefMesh_num (p : Str) (a b : UInt32) : validateRefMesh (renumberModel σ m) p (σ p a) (σ p b) = validateRefMesh m p a b := by
  rw [validateRefMesh, validateRefMesh, findResources_num h]
  simp only [num_eq h]
  cases m.findResources p with
  | none => rfl
  | some rs => simp only [Option.map_some, renumberResources, refMesh_num h]

theorem beam_num (p : Str) (o : Object) : beamValidateObject (renumberModel σ m) p (renumberObject σ p o) = beamValidateObject m p o := by
  rw [beamValidateObject, beamValidateObject]
  have ei : (renumberObject σ p o).id = σ p o.id := rfl
  have em : (renumberObject σ p o).mesh = o.mesh.map (renumberMesh (σ p)) := rfl
  have et : (renumberObject σ p o).type = o.type := rfl
  rw [em, ei, et]
  cases o.mesh with
  | none => rfl
  | some x =>
    simp only [Option.map_some, renumberMesh, getBeamLattice_num h]
    cases getBeamLattice x.any with
    | none => rfl
    | some b => simp only [Option.map_some, num_zero h, ne_eq, validateRefMesh_num h]

theorem multiLayers_num (p : Str) : ∀ (ids : List UInt32) (i c : Nat) (u : Bool),
    multiLayers (renumberModel σ m) p i c u (ids.map (σ p)) = multiLayers m p i c u ids
  | [], _, _, _ => by simp only [List.map_nil, multiLayers]
  | id :: ids, _, _, _ => by
    simp only [List.map_cons, multiLayers, findAsset_num h, multiLayers_num p ids]
    cases m.findAsset p id with
    | none => rfl
    | some a =>
      cases a with
      | base r => rfl
      | unknown id ts => rfl
      | res r => cases r <;> rfl

theorem materials_num (env : Env) (p : Str) (a : Asset) :
    materialsValidateAsset env (renumberModel σ m) p (renumberAsset σ p a) = materialsValidateAsset env m p a := by
  cases a with
  | base r => rfl
  | unknown id ts => rfl
  | res r =>
    cases r with
    | colorGroup r => simp only [renumberAsset, renumberRes, materialsValidateAsset, ColorGroup.validate, num_zero h]
    | texture2D r => simp only [renumberAsset, renumberRes, materialsValidateAsset, Texture2D.validate, num_zero h]; rfl
    | texture2DGroup r =>
      simp only [renumberAsset, renumberRes, materialsValidateAsset, Texture2DGroup.validate, num_zero h, findAsset_num h]
      congr 2
      cases m.findAsset p r.textureID with
      | none => rfl
      | some a =>
        cases a with
        | base r => rfl
        | unknown id ts => rfl
        | res r => cases r <;> rfl
    | composite r =>
      simp only [renumberAsset, renumberRes, materialsValidateAsset, CompositeMaterials.validate, num_zero h, findAsset_num h]
      congr 3
      cases m.findAsset p r.materialID with
      | none => rfl
      | some a =>
        cases a with
        | base r => rfl
        | unknown id ts => rfl
        | res r => cases r <;> rfl
    | multi r =>
      simp only [renumberAsset, renumberRes, materialsValidateAsset, MultiProperties.validate, num_zero h, multiLayers_num h, List.length_map]
    | sliceStack r => rfl

theorem refsErrs_num (p : Str) : ∀ (rs : List SliceRef) (i : Nat) (z : F32),
    refsErrs (renumberModel σ m) p i z (rs.map fun x => { x with sliceStackID := σ x.path x.sliceStackID }) = refsErrs m p i z rs
  | [], _, _ => by simp only [List.map_nil, refsErrs]
  | r :: rs, _, _ => by
    simp only [List.map_cons, refsErrs, num_zero h, findAsset_num h, refsErrs_num p rs]
    cases m.findAsset r.path r.sliceStackID with
    | none => rfl
    | some a =>
      cases a with
      | base r => rfl
      | unknown id ts => rfl
      | res r =>
        cases r with
        | sliceStack st =>
          simp only [Option.map_some, renumberAsset, renumberRes, List.length_map, List.head?_map, List.getLast?_map]
          cases st.slices.head? <;> cases st.slices.getLast? <;> rfl
        | _ => rfl

theorem slicesErrs_num (f : UInt32 → UInt32) (z : F32) : ∀ (ss : List Slice) (j : Nat) (l : F32),
    slicesErrs z j l (ss.map (renumberSlice f)) = slicesErrs z j l ss
  | [], _, _ => by simp only [List.map_nil, slicesErrs]
  | s :: ss, j, l => by
    have e1 : (renumberSlice f s).topZ = s.topZ := rfl
    have e2 : (renumberSlice f s).vertices = s.vertices := rfl
    have e3 : (renumberSlice f s).polygons = s.polygons.map (renumberPolygon f) := rfl
    have e4 : ∀ x, (renumberPolygon f x).segments.length = x.segments.length := fun x => List.length_map _
    simp only [List.map_cons, slicesErrs, e1, e2, e3, slicesErrs_num f z ss, List.length_map, errsIdx_map, e4]

theorem isClosed_num (f : UInt32 → UInt32) (st : SliceStack) (id : UInt32) (refs : List SliceRef) :
    SliceStack.isClosed
      { st with
        id := id
        slices := st.slices.map (renumberSlice f)
        refs := refs } = st.isClosed := by
  simp only [SliceStack.isClosed, renumberSlice, renumberPolygon, List.all_map, Function.comp_def, List.getLast?_map]
  congr 1
  funext s
  congr 1
  funext x
  cases x.segments.getLast? <;> rfl

theorem extAssetErrs_num (env : Env) (p : Str) (a : Asset) :
    extAssetErrs env (renumberModel σ m) p (renumberAsset σ p a) = extAssetErrs env m p a := by
  have e : (renumberModel σ m).extensions = m.extensions := rfl
  simp only [extAssetErrs, materials_num h, e]
  congr 1
  funext x
  cases env.load x.ns with
  | none => rfl
  | some k =>
    cases k with
    | slices =>
      cases a with
      | base r => rfl
      | unknown id ts => rfl
      | res r =>
        cases r with
        | sliceStack r => simp only [renumberAsset, renumberRes, SliceStack.validate, refsErrs_num h, slicesErrs_num h, List.length_map]
        | _ => rfl
    | _ => rfl

/-! ## Slices: only if all the parts are renumbered alike -/

theorem uniform_object (hu : ∀ p q, σ p = σ q) (p q : Str) : renumberObject σ p = renumberObject σ q := by
  have e1 : renumberComponent σ p = renumberComponent σ q := by
    funext c
    simp only [renumberComponent, hu (c.objectPath p) (c.objectPath q)]
  funext o
  simp only [renumberObject, hu p q, e1]

theorem componentsPlanar_num (hu : ∀ p q, σ p = σ q) (rec rec' : Object → Option Bool) (p : Str) (id : UInt32)
    (hr : ∀ o, rec' (renumberObject σ p o) = rec o) (o : Object) : ∀ cs : List Component,
    componentsPlanar rec' (renumberModel σ m) (renumberObject σ p o) p (σ p id) (cs.map (renumberComponent σ p)) = componentsPlanar rec m o p id cs
  | [] => by simp only [List.map_nil, componentsPlanar]
  | c :: cs => by
    have e : (renumberComponent σ p c).objectPath p = c.objectPath p := rfl
    have e1 : (renumberComponent σ p c).objectID = σ p c.objectID := by rw [renumberComponent, hu (c.objectPath p) p]
    have e2 : (renumberComponent σ p c).transform = c.transform := rfl
    have e3 : (renumberObject σ p o).id = σ p o.id := rfl
    have e4 : (renumberModel σ m).findObject (c.objectPath p) (σ p c.objectID) = (m.findObject (c.objectPath p) c.objectID).map (renumberObject σ p) := by
      rw [hu p (c.objectPath p), findObject_num h, uniform_object h hu p (c.objectPath p)]
    simp only [List.map_cons, componentsPlanar, e, e1, e2, e3, e4, num_eq h, componentsPlanar_num hu rec rec' p id hr o cs]
    cases m.findObject (c.objectPath p) c.objectID with
    | none => rfl
    | some o1 => simp only [Option.map_some, hr]

theorem objectPlanar_num (hu : ∀ p q, σ p = σ q) (p : Str) (id : UInt32) : ∀ (fuel : Nat) (o : Object),
    objectPlanar (renumberModel σ m) p (σ p id) fuel (renumberObject σ p o) = objectPlanar m p id fuel o
  | 0, o => by simp only [objectPlanar]
  | fuel + 1, o => by
    have ec : (renumberObject σ p o).components =
      o.components.map fun cs => { cs with component := cs.component.map (renumberComponent σ p) } := rfl
    simp only [objectPlanar, ec]
    cases o.components with
    | none => rfl
    | some cs => exact componentsPlanar_num h hu _ _ p id (objectPlanar_num hu p id fuel) o cs.component

theorem buildPlanar_num (hu : ∀ p q, σ p = σ q) (fuel : Nat) (p : Str) (id : UInt32) : ∀ is : List Item,
    buildPlanar (renumberModel σ m) fuel p (σ p id) (is.map (renumberItem σ)) = buildPlanar m fuel p id is
  | [] => by simp only [List.map_nil, buildPlanar]
  | i :: is => by
    have e : (renumberItem σ i).objectPath = i.objectPath := rfl
    have e1 : (renumberItem σ i).objectID = σ p i.objectID := by rw [renumberItem, hu i.objectPath p]
    have e2 : (renumberItem σ i).transform = i.transform := rfl
    have e4 : ∀ q, (renumberModel σ m).findObject q (σ p i.objectID) = (m.findObject q i.objectID).map (renumberObject σ p) := by
      intro q
      rw [hu p q, findObject_num h, uniform_object h hu p q]
    simp only [List.map_cons, buildPlanar, e, e1, e2, e4, num_eq h, buildPlanar_num hu fuel p id is]
    cases m.findObject (if i.objectPath = [] then p else i.objectPath) i.objectID with
    | none => rfl
    | some o1 => simp only [Option.map_some, objectPlanar_num h hu]

theorem slices_num (hu : ∀ p q, σ p = σ q) (fuel : Nat) (p : Str) (o : Object) :
    slicesValidateObject (renumberModel σ m) fuel p (renumberObject σ p o) = slicesValidateObject m fuel p o := by
  have ea : (renumberObject σ p o).anyAttr = o.anyAttr.map (renumberAttr (σ p)) := rfl
  have ei : (renumberObject σ p o).id = σ p o.id := rfl
  have et : (renumberObject σ p o).type = o.type := rfl
  have e : (((renumberModel σ m).findResources p).getD .zero) = renumberResources σ p ((m.findResources p).getD .zero) := by
    rw [findResources_num h]
    cases m.findResources p <;> rfl
  have e1 : ∀ (rs : Resources) id, (renumberResources σ p rs).findAsset (σ p id) = (rs.findAsset id).map (renumberAsset σ p) :=
    fun rs id => findAssetIn_num h p id rs.assets
  have e2 : (renumberModel σ m).extensions = m.extensions := rfl
  have e3 : (renumberModel σ m).build.items = m.build.items.map (renumberItem σ) := rfl
  rw [slicesValidateObject, slicesValidateObject, ea, getSliceAttr_num h]
  cases getSliceAttr o.anyAttr with
  | none => rfl
  | some q =>
    simp only [Option.map_some, num_zero h, e, e1, e2, e3, ei, et, buildPlanar_num h hu]
    cases ((m.findResources p).getD .zero).findAsset q.1 with
    | none => rfl
    | some a =>
      cases a with
      | base r => rfl
      | unknown id ts => rfl
      | res r =>
        cases r with
        | sliceStack st =>
          simp only [Option.map_some, renumberAsset, renumberRes]
          have ec : SliceStack.allClosed (renumberModel σ m)
              { st with
                id := σ p st.id
                slices := st.slices.map (renumberSlice (σ p))
                refs := st.refs.map fun x => { x with sliceStackID := σ x.path x.sliceStackID } } = st.allClosed m := by
            rw [SliceStack.allClosed, SliceStack.allClosed, isClosed_num h]
            simp only [List.all_map, Function.comp_def, findAsset_num h]
            congr 1
            congr 1
            funext x
            cases m.findAsset x.path x.sliceStackID with
            | none => rfl
            | some a =>
              cases a with
              | base r => rfl
              | unknown id ts => rfl
              | res r =>
                cases r with
                | sliceStack s2 => exact isClosed_num h _ s2 _ _
                | _ => rfl
          rw [ec]
        | _ => rfl

/-! ## Together -/

theorem extObjectErrs_num (env : Env) (hs : (∀ p q, σ p = σ q) ∨ ∀ e ∈ m.extensions, env.load e.ns ≠ some .slices) (fuel : Nat) (p : Str)
    (o : Object) : extObjectErrs env (renumberModel σ m) fuel p (renumberObject σ p o) = extObjectErrs env m fuel p o := by
  have e : (renumberModel σ m).extensions = m.extensions := rfl
  simp only [extObjectErrs, production_num h, beam_num h, e]
  congr 1
  rcases hs with hu | hs
  · simp only [slices_num h hu]
  · have : ∀ es : List Extension, (∀ e ∈ es, env.load e.ns ≠ some .slices) → ∀ (a b : Option (List Err)),
        (es.mapM fun (e : Extension) => match env.load e.ns with
          | some .production => some (prodValidateObject m p o)
          | some .slices => a
          | some .beamlattice => some (beamValidateObject m p o)
          | _ => some []) =
        es.mapM fun (e : Extension) => match env.load e.ns with
          | some .production => some (prodValidateObject m p o)
          | some .slices => b
          | some .beamlattice => some (beamValidateObject m p o)
          | _ => some [] := by
      intro es
      induction es with
      | nil => intro _ a b; rfl
      | cons x es ih =>
        intro hs a b
        simp only [List.mapM_cons, ih (fun e he => hs e (List.mem_cons_of_mem _ he)) a b]
        have hx := hs x (List.mem_cons_self ..)
        cases hl : env.load x.ns with
        | none => rfl
        | some k => cases k <;> first | rfl | exact absurd hl hx
    exact this m.extensions hs _ _

theorem assetsErrs_num (env : Env) (p : Str) : ∀ (as : List Asset) (i : Nat) (seen : List UInt32),
    assetsErrs env (renumberModel σ m) p i (seen.map (σ p)) (as.map (renumberAsset σ p)) = assetsErrs env m p i seen as
  | [], _, _ => by simp only [List.map_nil, assetsErrs]
  | a :: as, i, seen => by
    have ev : (renumberAsset σ p a).validate = a.validate := by
      cases a with
      | base r => simp only [renumberAsset, Asset.validate, BaseMaterials.validate, num_zero h]
      | unknown id ts => rfl
      | res r => rfl
    have es := assetsErrs_num env p as (i + 1) (a.identify :: seen)
    simp only [List.map_cons] at es
    simp only [List.map_cons, assetsErrs, identify_num h, xmlLocal_num h, extAssetErrs_num h, ne_eq, num_zero h, num_mem h, ev, es]

theorem objectsErrs_num (env : Env) (hs : (∀ p q, σ p = σ q) ∨ ∀ e ∈ m.extensions, env.load e.ns ≠ some .slices) (fuel : Nat) (p : Str) :
    ∀ (os : List Object) (i : Nat) (seen : List UInt32),
    objectsErrs env (renumberModel σ m) fuel p i (seen.map (σ p)) (os.map (renumberObject σ p)) = objectsErrs env m fuel p i seen os
  | [], _, _ => by simp only [List.map_nil, objectsErrs]
  | o :: os, i, seen => by
    have es := objectsErrs_num env hs fuel p os (i + 1) (o.id :: seen)
    simp only [List.map_cons] at es
    have ei : (renumberObject σ p o).id = σ p o.id := rfl
    simp only [List.map_cons, objectsErrs, ei, Object.validate, core_num h, extObjectErrs_num h env hs, ne_eq, num_zero h, num_mem h, es]

theorem resources_num (env : Env) (hs : (∀ p q, σ p = σ q) ∨ ∀ e ∈ m.extensions, env.load e.ns ≠ some .slices) (fuel : Nat) (p : Str)
    (rs : Resources) : (renumberResources σ p rs).validate env (renumberModel σ m) fuel p = rs.validate env m fuel p := by
  have e1 := assetsErrs_num h env p rs.assets 0 []
  have e2 := objectsErrs_num h env hs fuel p rs.objects 0 (rs.assets.map Asset.identify)
  have e3 : (rs.assets.map (renumberAsset σ p)).map Asset.identify = (rs.assets.map Asset.identify).map (σ p) := by
    simp only [List.map_map]
    exact List.map_congr_left fun a _ => identify_num h p a
  simp only [List.map_nil] at e1
  simp only [Resources.validate, renumberResources, e1, e3, e2]

theorem validateFuel_num (env : Env) (hs : (∀ p q, σ p = σ q) ∨ ∀ e ∈ m.extensions, env.load e.ns ≠ some .slices) (fuel : Nat) :
    (renumberModel σ m).validateFuel env fuel = m.validateFuel env fuel := by
  have h1 : (renumberModel σ m).sortedChilds = m.sortedChilds := by
    simp only [Model.sortedChilds, renumberModel, List.map_map, Function.comp_def]
  have h2 : (renumberModel σ m).pathOrDefault = m.pathOrDefault := rfl
  have h3 : (renumberModel σ m).validateNamespaces env = m.validateNamespaces env := rfl
  have h4 : extModelErrs env (renumberModel σ m) = extModelErrs env m := by
    simp only [extModelErrs, productionModel_num h]
    rfl
  have h5 : ∀ rs q, validateRelationship env (renumberModel σ m) rs q = validateRelationship env m rs q := by
    intro rs q
    have : ∀ rs i v t, relationshipErrs env (renumberModel σ m) i v t rs = relationshipErrs env m i v t rs := by
      intro rs
      induction rs with
      | nil => intro i v t; simp only [relationshipErrs]
      | cons r rs ih => intro i v t; simp only [relationshipErrs, ih]; rfl
    simp only [validateRelationship, this]
  have h6 : (renumberModel σ m).resources.validate env (renumberModel σ m) fuel m.pathOrDefault = m.resources.validate env m fuel m.pathOrDefault := by
    have hp : MeansRoot m m.pathOrDefault := by
      rw [Model.pathOrDefault]
      split
      · next e => exact .inr (.inr ⟨e, rfl⟩)
      · exact .inr (.inl rfl)
    have := resources_num h env hs fuel m.pathOrDefault m.resources
    rwa [resources_root h hp] at this
  have h7 : ∀ ps, childsErrs env (renumberModel σ m) fuel ps = childsErrs env m fuel ps := by
    intro ps
    simp only [childsErrs, renumberModel, lookupChild_num h]
    congr 2
    funext q
    cases lookupChild m.childs q with
    | none => rfl
    | some c =>
      have := resources_num h env hs fuel q c.resources
      simp only [renumberModel] at this
      simp only [Option.map_some, this]
  have h8 : ∀ ps, childRelErrs env (renumberModel σ m) ps = childRelErrs env m ps := by
    intro ps
    simp only [childRelErrs, h2, h5]
    simp only [renumberModel, lookupChild_num h]
    congr 1
    funext q
    cases lookupChild m.childs q <;> rfl
  have h9 : (renumberModel σ m).metadata = m.metadata := rfl
  have h10 : (renumberModel σ m).rootRelationships = m.rootRelationships := rfl
  have h11 : (renumberModel σ m).relationships = m.relationships := rfl
  simp only [Model.validateFuel, h1, h2, h3, h4, h5, h6, h7, h8, h9, h10, h11, metadata_num h, build_num h]

/-! ## Bounding boxes: only if all the parts are renumbered alike -/

theorem componentsBox_num (hu : ∀ p q, σ p = σ q) (rec rec' : Object → Str → Option Box) (p : Str)
    (hr : ∀ o, rec' (renumberObject σ p o) p = rec o p) : ∀ (cs : List Component) (b : Box),
    componentsBox rec' (renumberModel σ m) p (cs.map (renumberComponent σ p)) b = componentsBox rec m p cs b
  | [], _ => by simp only [List.map_nil, componentsBox]
  | c :: cs, b => by
    have e : (renumberComponent σ p c).objectPath p = c.objectPath p := rfl
    have e1 : (renumberComponent σ p c).objectID = σ (c.objectPath p) c.objectID := rfl
    have e2 : (renumberComponent σ p c).transform = c.transform := rfl
    simp only [List.map_cons, componentsBox, e, e1, e2, findObject_num h, uniform_object h hu (c.objectPath p) p,
      componentsBox_num hu rec rec' p hr cs]
    cases m.findObject (c.objectPath p) c.objectID with
    | none => rfl
    | some o => simp only [Option.map_some, hr]

theorem boxFuel_num (hu : ∀ p q, σ p = σ q) (p : Str) : ∀ (fuel : Nat) (o : Object),
    (renumberObject σ p o).boxFuel (renumberModel σ m) fuel p = o.boxFuel m fuel p
  | 0, o => by simp only [Object.boxFuel]
  | fuel + 1, o => by
    have em : (renumberObject σ p o).mesh = o.mesh.map (renumberMesh (σ p)) := rfl
    have ec : (renumberObject σ p o).components =
      o.components.map fun cs => { cs with component := cs.component.map (renumberComponent σ p) } := rfl
    simp only [Object.boxFuel, em, ec]
    cases o.mesh with
    | some x => rfl
    | none =>
      simp only [Option.map_none]
      cases o.components with
      | none => rfl
      | some cs => simp only [Option.map_some, List.length_map, componentsBox_num h hu _ _ p (boxFuel_num hu p fuel)]

end

end Go3mf
