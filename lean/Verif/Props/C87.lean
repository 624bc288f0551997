import Verif.Props.C04
import Verif.Props.C09
import Verif.Props.C11
import Verif.Props.C28
import Verif.Model.Validate

/-!
# C87: the same model gives the same report

The child models are in a map, which Go visits in an order that changes from run to run.
-/

namespace Go3mf

/-- Two models that no query can tell apart. -/
structure SameQueries (m m' : Model) : Prop where
  path : m'.path = m.path
  extensions : m'.extensions = m.extensions
  attachments : m'.attachments = m.attachments
  build : m'.build = m.build
  find : ∀ p, m'.findResources p = m.findResources p

variable {m m' : Model}

theorem SameQueries.root (h : SameQueries m m') : m'.pathOrDefault = m.pathOrDefault := by
  simp only [Model.pathOrDefault, h.path]

theorem SameQueries.object (h : SameQueries m m') (p : Str) (id : UInt32) : m'.findObject p id = m.findObject p id := by
  simp only [Model.findObject, h.find]

theorem SameQueries.asset (h : SameQueries m m') (p : Str) (id : UInt32) : m'.findAsset p id = m.findAsset p id := by
  simp only [Model.findAsset, h.find]

namespace SameQueries

theorem relationshipErrs (h : SameQueries m m') (env : Env) : ∀ (rs : List Relationship) (i : Nat) (v : List (Str × Str)) (t : Bool),
    Go3mf.relationshipErrs env m' i v t rs = Go3mf.relationshipErrs env m i v t rs
  | [], _, _, _ => rfl
  | r :: rs, i, v, t => by simp only [Go3mf.relationshipErrs, h.attachments, relationshipErrs h env rs]

theorem validateRelationship (h : SameQueries m m') (env : Env) (rs : List Relationship) (p : Str) :
    Go3mf.validateRelationship env m' rs p = Go3mf.validateRelationship env m rs p := by
  simp only [Go3mf.validateRelationship, h.relationshipErrs]

theorem validateNamespaces (h : SameQueries m m') (env : Env) : m'.validateNamespaces env = m.validateNamespaces env := by
  simp only [Model.validateNamespaces, h.extensions]

theorem metadataErrs (h : SameQueries m m') : ∀ (mds : List Metadata) (i : Nat) (seen : List Name),
    Go3mf.metadataErrs m' i seen mds = Go3mf.metadataErrs m i seen mds
  | [], _, _ => rfl
  | md :: mds, i, seen => by simp only [Go3mf.metadataErrs, Metadata.validate, h.extensions, metadataErrs h mds]

theorem checkMetadata (h : SameQueries m m') (mds : List Metadata) : Go3mf.checkMetadata m' mds = Go3mf.checkMetadata m mds := by
  simp only [Go3mf.checkMetadata, h.metadataErrs]

theorem buildErrs (h : SameQueries m m') (b : Build) : b.validate m' = b.validate m := by
  simp only [Build.validate, Item.validate, h.object, h.checkMetadata]

theorem core (h : SameQueries m m') (p : Str) (o : Object) : o.validateCore m' p = o.validateCore m p := by
  simp only [Object.validateCore, Object.validateComponents, h.find, h.object]

theorem prodModel (h : SameQueries m m') : prodValidateModel m' = prodValidateModel m := by
  simp only [prodValidateModel, validatePathUUID, h.build, h.root]

theorem prodObject (h : SameQueries m m') (p : Str) (o : Object) : prodValidateObject m' p o = prodValidateObject m p o := by
  simp only [prodValidateObject, validatePathUUID, h.root]

theorem multiLayers (h : SameQueries m m') (p : Str) : ∀ (ids : List UInt32) (j c : Nat) (u : Bool),
    Go3mf.multiLayers m' p j c u ids = Go3mf.multiLayers m p j c u ids
  | [], _, _, _ => rfl
  | id :: ids, j, c, u => by simp only [Go3mf.multiLayers, h.asset, multiLayers h p ids]

theorem materials (h : SameQueries m m') (env : Env) (p : Str) (a : Asset) :
    materialsValidateAsset env m' p a = materialsValidateAsset env m p a := by
  simp only [materialsValidateAsset, Texture2DGroup.validate, Texture2D.validate, MultiProperties.validate,
    CompositeMaterials.validate, h.asset, h.attachments, h.multiLayers]

theorem componentsPlanar (h : SameQueries m m') (rec : Object → Option Bool) (o : Object) (p : Str) (id : UInt32) :
    ∀ cs : List Component, Go3mf.componentsPlanar rec m' o p id cs = Go3mf.componentsPlanar rec m o p id cs
  | [] => rfl
  | c :: cs => by simp only [Go3mf.componentsPlanar, h.object, componentsPlanar h rec o p id cs]

theorem objectPlanar (h : SameQueries m m') (p : Str) (id : UInt32) : ∀ fuel : Nat,
    Go3mf.objectPlanar m' p id fuel = Go3mf.objectPlanar m p id fuel
  | 0 => by funext o; rfl
  | fuel + 1 => by
    funext o
    simp only [Go3mf.objectPlanar, objectPlanar h p id fuel, h.componentsPlanar]

theorem buildPlanar (h : SameQueries m m') (fuel : Nat) (p : Str) (id : UInt32) : ∀ its : List Item,
    Go3mf.buildPlanar m' fuel p id its = Go3mf.buildPlanar m fuel p id its
  | [] => rfl
  | it :: its => by simp only [Go3mf.buildPlanar, h.object, h.objectPlanar, buildPlanar h fuel p id its]

theorem slicesObject (h : SameQueries m m') (fuel : Nat) (p : Str) (o : Object) :
    slicesValidateObject m' fuel p o = slicesValidateObject m fuel p o := by
  have hc : ∀ r : SliceStack, r.allClosed m' = r.allClosed m := fun r => by simp only [SliceStack.allClosed, h.asset]
  simp only [slicesValidateObject, h.extensions, h.find, h.build, h.buildPlanar, hc]

theorem refsErrs (h : SameQueries m m') (p : Str) : ∀ (rs : List SliceRef) (i : Nat) (z : F32),
    Go3mf.refsErrs m' p i z rs = Go3mf.refsErrs m p i z rs
  | [], _, _ => rfl
  | r :: rs, i, z => by simp only [Go3mf.refsErrs, h.asset, refsErrs h p rs]

theorem beamObject (h : SameQueries m m') (p : Str) (o : Object) : beamValidateObject m' p o = beamValidateObject m p o := by
  simp only [beamValidateObject, validateRefMesh, h.find]

theorem extModel (h : SameQueries m m') (env : Env) : extModelErrs env m' = extModelErrs env m := by
  simp only [extModelErrs, h.extensions, h.prodModel]

theorem extAsset (h : SameQueries m m') (env : Env) (p : Str) (a : Asset) : extAssetErrs env m' p a = extAssetErrs env m p a := by
  simp only [extAssetErrs, SliceStack.validate, h.extensions, h.materials, h.refsErrs]

theorem objectErrs (h : SameQueries m m') (env : Env) (fuel : Nat) (p : Str) (o : Object) :
    o.validate env m' fuel p = o.validate env m fuel p := by
  simp only [Object.validate, extObjectErrs, h.extensions, h.prodObject, h.slicesObject, h.beamObject, h.core]

theorem assetsErrs (h : SameQueries m m') (env : Env) (p : Str) : ∀ (as : List Asset) (i : Nat) (seen : List UInt32),
    Go3mf.assetsErrs env m' p i seen as = Go3mf.assetsErrs env m p i seen as
  | [], _, _ => rfl
  | a :: as, i, seen => by simp only [Go3mf.assetsErrs, h.extAsset, assetsErrs h env p as]

theorem objectsErrs (h : SameQueries m m') (env : Env) (fuel : Nat) (p : Str) : ∀ (os : List Object) (i : Nat) (seen : List UInt32),
    Go3mf.objectsErrs env m' fuel p i seen os = Go3mf.objectsErrs env m fuel p i seen os
  | [], _, _ => rfl
  | o :: os, i, seen => by simp only [Go3mf.objectsErrs, h.objectErrs, objectsErrs h env fuel p os]

theorem resources (h : SameQueries m m') (env : Env) (fuel : Nat) (p : Str) (rs : Resources) :
    rs.validate env m' fuel p = rs.validate env m fuel p := by
  simp only [Resources.validate, h.objectsErrs, h.assetsErrs]

theorem componentsBox (h : SameQueries m m') (rec : Object → Str → Option Box) (p : Str) : ∀ (cs : List Component) (b : Box),
    Go3mf.componentsBox rec m' p cs b = Go3mf.componentsBox rec m p cs b
  | [], _ => rfl
  | c :: cs, b => by simp only [Go3mf.componentsBox, h.object, componentsBox h rec p cs]

theorem boxFuel (h : SameQueries m m') : ∀ fuel : Nat, Object.boxFuel m' fuel = Object.boxFuel m fuel
  | 0 => by funext o p; rfl
  | fuel + 1 => by
    funext o p
    simp only [Object.boxFuel, boxFuel h fuel, h.componentsBox]

theorem boxOp (h : SameQueries m m') {it : Item} {f : Option (Box → Box)} (hf : Item.BoxOp m it f) : Item.BoxOp m' it f := by
  have hb : ∀ {o : Object} {b : Box}, o.BoundingBox m it.objectPath b → o.BoundingBox m' it.objectPath b := by
    rintro o b ⟨fuel, hb⟩
    exact ⟨fuel, by rw [h.boxFuel]; exact hb⟩
  cases hf with
  | missing h1 => exact .missing (by rw [h.object]; exact h1)
  | empty h1 h2 h3 => exact .empty (by rw [h.object]; exact h1) (hb h2) h3
  | extend h1 h2 h3 => exact .extend (by rw [h.object]; exact h1) (hb h2) h3

theorem symm (h : SameQueries m m') : SameQueries m' m :=
  ⟨h.path.symm, h.extensions.symm, h.attachments.symm, h.build.symm, fun p => (h.find p).symm⟩

theorem box (h : SameQueries m m') {r : Box} (hr : m.BoundingBox r) : m'.BoundingBox r := by
  unfold Model.BoundingBox at hr ⊢
  rw [h.build]
  split
  · rename_i hn
    rw [if_pos hn] at hr
    exact hr
  · rename_i hn
    rw [if_neg hn] at hr
    obtain ⟨ops, h1, h2⟩ := hr
    exact ⟨ops, h1.imp fun _ _ => h.boxOp, h2⟩

end SameQueries

theorem lookupChild_perm {cs cs' : List (Str × ChildModel)} (hn : (cs.map (·.1)).Nodup) (h : cs'.Perm cs) (p : Str) :
    lookupChild cs' p = lookupChild cs p := by
  apply Option.ext
  intro c
  rw [lookupChild_spec hn, lookupChild_spec ((h.map _).nodup_iff.2 hn), h.mem_iff]

theorem same_queries {m : Model} {cs : List (Str × ChildModel)} (hwf : m.WF) (h : cs.Perm m.childs) :
    SameQueries m { m with childs := cs } :=
  ⟨rfl, rfl, rfl, rfl, fun p => by simp only [Model.findResources, lookupChild_perm hwf h]⟩

theorem sortedChilds_perm {m : Model} {cs : List (Str × ChildModel)} (hwf : m.WF) (h : cs.Perm m.childs) :
    ({ m with childs := cs } : Model).sortedChilds = m.sortedChilds := by
  have hwf' : ({ m with childs := cs } : Model).WF := (h.map _).nodup_iff.2 hwf
  have strict : ∀ m : Model, m.WF → m.sortedChilds.Pairwise (fun a b => Str.lt a b = true) := by
    intro m hwf
    have h1 : m.sortedChilds.Pairwise (fun a b => Str.le a b = true) := List.pairwise_insertionSort _ _
    have h2 : m.sortedChilds.Pairwise (· ≠ ·) := (List.perm_insertionSort _ _).nodup_iff.2 hwf
    refine (h1.and h2).imp fun {a b} h => ?_
    rcases Str.lt_total a b with h3 | h3 | h3
    · exact h3
    · exact absurd h3 h.2
    · simp [Str.le, h3] at h
  have hp : ({ m with childs := cs } : Model).sortedChilds.Perm m.sortedChilds :=
    (List.perm_insertionSort _ _).trans ((h.map _).trans (List.perm_insertionSort _ _).symm)
  refine hp.eq_of_pairwise ?_ (strict _ hwf') (strict _ hwf)
  intro a b _ _ hab hba
  exact absurd hba (by simp [Str.lt_asymm hab])

/-- **C87**: `Validate` returns the same errors in the same order, in whatever order the map of the child models is visited, or does
not return in both cases. -/
theorem C87_validate (env : Env) (m : Model) (hwf : m.WF) (cs : List (Str × ChildModel)) (h : cs.Perm m.childs) (errs : List Err) :
    ({ m with childs := cs } : Model).Validate env errs ↔ m.Validate env errs := by
  have hq := same_queries hwf h
  have hs := sortedChilds_perm hwf h
  have key : ∀ fuel, ({ m with childs := cs } : Model).validateFuel env fuel = m.validateFuel env fuel := by
    intro fuel
    simp only [Model.validateFuel, hs, childsErrs, childRelErrs, lookupChild_perm hwf h, hq.resources, hq.validateRelationship,
      hq.validateNamespaces, hq.checkMetadata, hq.extModel, hq.buildErrs, hq.root]
  simp only [Model.Validate, key]

/-- The queries give the same answers. -/
theorem C87_find (m : Model) (hwf : m.WF) (cs : List (Str × ChildModel)) (h : cs.Perm m.childs) (path : Str) (id : UInt32) :
    ({ m with childs := cs } : Model).findResources path = m.findResources path ∧
    ({ m with childs := cs } : Model).findAsset path id = m.findAsset path id ∧
    ({ m with childs := cs } : Model).findObject path id = m.findObject path id :=
  have hq := same_queries hwf h
  ⟨hq.find path, hq.asset path id, hq.object path id⟩

/-- `ValidateCoherency` returns the same errors, in an order that depends on the schedule. -/
theorem C87_coherency (m : Model) (hs : Spec.SmallMeshes m) (cs : List (Str × ChildModel)) (h : cs.Perm m.childs)
    (r r' : ErrVal) (hr : m.ValidateCoherency r)
    (hr' : ({ m with childs := cs } : Model).ValidateCoherency r') :
    ∃ l l' : List Err, l'.Perm l ∧ (r = if l = [] then .nil else .err (.list l)) ∧ r' = if l' = [] then .nil else .err (.list l') := by
  obtain ⟨l, h1, e1⟩ := C09_result m hs r hr
  obtain ⟨l', h2, e2⟩ := C09_result { m with childs := cs } ⟨hs.1, fun c hc => hs.2 c (h.mem_iff.1 hc)⟩ r' hr'
  exact ⟨l, l', h2.trans ((C09_map_order m cs h).trans h1.symm), e1, e2⟩

/-- `BoundingBox` has the same possible results. -/
theorem C87_box (m : Model) (hwf : m.WF) (cs : List (Str × ChildModel)) (h : cs.Perm m.childs) (r : Box) :
    ({ m with childs := cs } : Model).BoundingBox r ↔ m.BoundingBox r :=
  have hq := same_queries hwf h
  ⟨hq.symm.box, hq.box⟩

/-! ## Example -/

/-- Two child models with an object without content each. -/
def c87Model : Model :=
  { Model.zero with
    childs := [(b!"/b.model", { ChildModel.zero with resources := { Resources.zero with objects := [{ Object.zero with id := 1 }] } }),
      (b!"/a.model", { ChildModel.zero with resources := { Resources.zero with objects := [Object.zero] } })] }

/-- The hypotheses hold, and the report is in the order of the names. -/
example : c87Model.WF ∧ c87Model.childs.reverse.Perm c87Model.childs ∧ c87Model.childs.reverse ≠ c87Model.childs ∧
    Spec.SmallMeshes c87Model ∧
    c87Model.Validate exEnv [wrap b!"model" (wrapPath b!"resources" b!"/a.model" (wrapIndex b!"object" 0 (.of .missingID))),
      wrap b!"model" (wrapPath b!"resources" b!"/a.model" (wrapIndex b!"object" 0 (.of .invalidObject))),
      wrap b!"model" (wrapPath b!"resources" b!"/b.model" (wrapIndex b!"object" 0 (.of .invalidObject)))] := by
  refine ⟨by decide, List.reverse_perm _, ?_, ⟨?_, ?_⟩, 0, by rfl⟩
  · intro h
    have := congrArg (fun l => l.map (·.1)) h
    revert this
    decide
  · intro o ho
    simp [c87Model, Model.zero, Resources.zero] at ho
  · intro c hc o ho mesh hm
    simp only [c87Model, List.mem_cons, List.not_mem_nil, or_false] at hc
    rcases hc with rfl | rfl <;> (simp at ho; subst ho; simp [Object.zero] at hm)

end Go3mf
