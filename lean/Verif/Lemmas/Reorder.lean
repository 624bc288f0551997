import Verif.Lemmas.Additions
import Verif.Lemmas.Schedules
import Verif.Model.Box
import Verif.Spec.Reorder

/-!
# Other orders of the resources and items
-/

namespace Go3mf
open Spec

/-! ## Lookups -/

theorem findObjectIn_iff {os : List Object} (hn : (os.map (·.id)).Nodup) {id : UInt32} {o : Object} :
    findObjectIn os id = some o ↔ o ∈ os ∧ o.id = id := by
  induction os with
  | nil => simp [findObjectIn]
  | cons x os ih =>
    rw [List.map_cons, List.nodup_cons] at hn
    rw [findObjectIn]
    split
    · next h =>
      rw [beq_iff_eq] at h
      constructor
      · rintro ⟨⟩; exact ⟨List.mem_cons_self .., h⟩
      · rintro ⟨h1, h2⟩
        rcases List.mem_cons.1 h1 with rfl | h1
        · rfl
        · exact absurd (List.mem_map.2 ⟨o, h1, h2.trans h.symm⟩) hn.1
    · next h =>
      rw [beq_iff_eq] at h
      rw [ih hn.2, List.mem_cons]
      constructor
      · exact fun h1 => ⟨.inr h1.1, h1.2⟩
      · rintro ⟨rfl | h1, h2⟩
        · exact absurd h2 h
        · exact ⟨h1, h2⟩

theorem findAssetIn_iff {as : List Asset} (hn : (as.map Asset.identify).Nodup) {id : UInt32} {a : Asset} :
    findAssetIn as id = some a ↔ a ∈ as ∧ a.identify = id := by
  induction as with
  | nil => simp [findAssetIn]
  | cons x as ih =>
    rw [List.map_cons, List.nodup_cons] at hn
    rw [findAssetIn]
    split
    · next h =>
      rw [beq_iff_eq] at h
      constructor
      · rintro ⟨⟩; exact ⟨List.mem_cons_self .., h⟩
      · rintro ⟨h1, h2⟩
        rcases List.mem_cons.1 h1 with rfl | h1
        · rfl
        · exact absurd (List.mem_map.2 ⟨a, h1, h2.trans h.symm⟩) hn.1
    · next h =>
      rw [beq_iff_eq] at h
      rw [ih hn.2, List.mem_cons]
      constructor
      · exact fun h1 => ⟨.inr h1.1, h1.2⟩
      · rintro ⟨rfl | h1, h2⟩
        · exact absurd h2 h
        · exact ⟨h1, h2⟩

theorem findObjectIn_reorder {os os' : List Object} (hn : (os.map (·.id)).Nodup) (h : os'.Perm os) (id : UInt32) :
    findObjectIn os' id = findObjectIn os id := by
  apply Option.ext
  intro o
  rw [findObjectIn_iff hn, findObjectIn_iff ((h.map _).nodup_iff.2 hn), h.mem_iff]

theorem findAssetIn_reorder {as as' : List Asset} (hn : (as.map Asset.identify).Nodup) (h : as'.Perm as) (id : UInt32) :
    findAssetIn as' id = findAssetIn as id := by
  apply Option.ext
  intro a
  rw [findAssetIn_iff hn, findAssetIn_iff ((h.map _).nodup_iff.2 hn), h.mem_iff]

theorem lookupChild_reorder {cs cs' : List (Str × ChildModel)} (h : List.Forall₂ ChildReordered cs cs') (p : Str) :
    (lookupChild cs p = none ∧ lookupChild cs' p = none) ∨
    ∃ c c', lookupChild cs p = some c ∧ lookupChild cs' p = some c' ∧ ChildReordered (p, c) (p, c') ∧ (p, c) ∈ cs := by
  induction h with
  | nil => exact .inl ⟨rfl, rfl⟩
  | @cons x y xs ys h1 _ ih =>
    obtain ⟨q, c⟩ := x
    obtain ⟨q', c'⟩ := y
    have e : q' = q := h1.path
    subst e
    rw [lookupChild, lookupChild]
    by_cases hq : q' = p
    · subst hq
      simp only [if_true]
      exact .inr ⟨c, c', rfl, rfl, h1, List.mem_cons_self ..⟩
    · simp only [if_neg hq]
      rcases ih with ih | ⟨d, d', h2, h3, h4, h5⟩
      · exact .inl ih
      · exact .inr ⟨d, d', h2, h3, h4, List.mem_cons_of_mem _ h5⟩

/-- Two models in which all the lookups by identifier agree. -/
structure SameLookups (m m' : Model) : Prop where
  path : m'.path = m.path
  extensions : m'.extensions = m.extensions
  attachments : m'.attachments = m.attachments
  buildAttr : m'.build.anyAttr = m.build.anyAttr
  items : m'.build.items.Perm m.build.items
  object : ∀ p id, m'.findObject p id = m.findObject p id
  asset : ∀ p id, m'.findAsset p id = m.findAsset p id
  resAsset : ∀ p id, ((m'.findResources p).getD .zero).findAsset id = ((m.findResources p).getD .zero).findAsset id

theorem Spec.Reordered.lookups {m m' : Model} (hd : IdsDistinct m) (h : Reordered m m') : SameLookups m m' := by
  have hp : m'.path = m.path := by obtain ⟨rs, its, cs, e⟩ := h.rest; rw [e]
  have hr : ∀ p, (m.findResources p = none ∧ m'.findResources p = none) ∨ ∃ rs rs', m.findResources p = some rs ∧
      m'.findResources p = some rs' ∧ ResReordered rs rs' ∧ (rs.assets.map Asset.identify).Nodup ∧ (rs.objects.map (·.id)).Nodup := by
    intro p
    rw [Model.findResources, Model.findResources, hp]
    split
    · exact .inr ⟨_, _, rfl, rfl, h.resources, hd _ (.inl rfl)⟩
    · rcases lookupChild_reorder h.childs p with ⟨h1, h2⟩ | ⟨c, c', h1, h2, h3, h4⟩
      · rw [h1, h2]; exact .inl ⟨rfl, rfl⟩
      · rw [h1, h2]; exact .inr ⟨_, _, rfl, rfl, h3.resources, hd _ (.inr ⟨_, h4, rfl⟩)⟩
  refine ⟨hp, ?_, ?_, ?_, h.items, fun p id => ?_, fun p id => ?_, fun p id => ?_⟩
  · obtain ⟨rs, its, cs, e⟩ := h.rest; rw [e]
  · obtain ⟨rs, its, cs, e⟩ := h.rest; rw [e]
  · obtain ⟨rs, its, cs, e⟩ := h.rest; rw [e]
  · rw [Model.findObject, Model.findObject]
    rcases hr p with ⟨h1, h2⟩ | ⟨rs, rs', h1, h2, h3, _, h5⟩
    · rw [h1, h2]
    · rw [h1, h2]; exact findObjectIn_reorder h5 h3.objects id
  · rw [Model.findAsset, Model.findAsset]
    rcases hr p with ⟨h1, h2⟩ | ⟨rs, rs', h1, h2, h3, h4, _⟩
    · rw [h1, h2]
    · rw [h1, h2]; exact findAssetIn_reorder h4 h3.assets id
  · rcases hr p with ⟨h1, h2⟩ | ⟨rs, rs', h1, h2, h3, h4, _⟩
    · rw [h1, h2]
    · rw [h1, h2]; exact findAssetIn_reorder h4 h3.assets id

/-! ## Validators -/

namespace SameLookups
variable {m m' : Model}

theorem root (h : SameLookups m m') : m'.pathOrDefault = m.pathOrDefault := by
  simp only [Model.pathOrDefault, h.path]

theorem symm (h : SameLookups m m') : SameLookups m' m :=
  ⟨h.path.symm, h.extensions.symm, h.attachments.symm, h.buildAttr.symm, h.items.symm, fun p i => (h.object p i).symm,
    fun p i => (h.asset p i).symm, fun p i => (h.resAsset p i).symm⟩

theorem relationshipErrs (h : SameLookups m m') (env : Env) : ∀ (rs : List Relationship) (i : Nat) (v : List (Str × Str)) (t : Bool),
    Go3mf.relationshipErrs env m' i v t rs = Go3mf.relationshipErrs env m i v t rs
  | [], _, _, _ => rfl
  | r :: rs, i, v, t => by simp only [Go3mf.relationshipErrs, h.attachments, relationshipErrs h env rs]

theorem validateRelationship (h : SameLookups m m') (env : Env) (rs : List Relationship) (p : Str) :
    Go3mf.validateRelationship env m' rs p = Go3mf.validateRelationship env m rs p := by
  simp only [Go3mf.validateRelationship, h.relationshipErrs]

theorem validateNamespaces (h : SameLookups m m') (env : Env) : m'.validateNamespaces env = m.validateNamespaces env := by
  simp only [Model.validateNamespaces, h.extensions]

theorem metadataErrs (h : SameLookups m m') : ∀ (mds : List Metadata) (i : Nat) (seen : List Name),
    Go3mf.metadataErrs m' i seen mds = Go3mf.metadataErrs m i seen mds
  | [], _, _ => rfl
  | md :: mds, i, seen => by simp only [Go3mf.metadataErrs, Metadata.validate, h.extensions, metadataErrs h mds]

theorem checkMetadata (h : SameLookups m m') (mds : List Metadata) : Go3mf.checkMetadata m' mds = Go3mf.checkMetadata m mds := by
  simp only [Go3mf.checkMetadata, h.metadataErrs]

theorem triangle (h : SameLookups m m') (p : Str) (o : Object) (n : UInt32) :
    Triangle.validate ((m'.findResources p).getD .zero) o n = Triangle.validate ((m.findResources p).getD .zero) o n := by
  funext i t
  simp only [Triangle.validate, h.resAsset]

theorem core (h : SameLookups m m') (p : Str) (o : Object) : o.validateCore m' p = o.validateCore m p := by
  simp only [Object.validateCore, Object.validateComponents, Object.validateMesh, h.resAsset, h.triangle, h.object]

theorem prodObject (h : SameLookups m m') (p : Str) (o : Object) : prodValidateObject m' p o = prodValidateObject m p o := by
  simp only [prodValidateObject, validatePathUUID, h.root]

theorem multiLayers (h : SameLookups m m') (p : Str) : ∀ (ids : List UInt32) (j c : Nat) (u : Bool),
    Go3mf.multiLayers m' p j c u ids = Go3mf.multiLayers m p j c u ids
  | [], _, _, _ => rfl
  | id :: ids, j, c, u => by simp only [Go3mf.multiLayers, h.asset, multiLayers h p ids]

theorem materials (h : SameLookups m m') (env : Env) (p : Str) (a : Asset) :
    materialsValidateAsset env m' p a = materialsValidateAsset env m p a := by
  simp only [materialsValidateAsset, Texture2DGroup.validate, Texture2D.validate, MultiProperties.validate,
    CompositeMaterials.validate, h.asset, h.attachments, h.multiLayers]

theorem componentsPlanar (h : SameLookups m m') (rec : Object → Option Bool) (o : Object) (p : Str) (id : UInt32) :
    ∀ cs : List Component, Go3mf.componentsPlanar rec m' o p id cs = Go3mf.componentsPlanar rec m o p id cs
  | [] => rfl
  | c :: cs => by simp only [Go3mf.componentsPlanar, h.object, componentsPlanar h rec o p id cs]

theorem objectPlanar (h : SameLookups m m') (p : Str) (id : UInt32) : ∀ fuel : Nat,
    Go3mf.objectPlanar m' p id fuel = Go3mf.objectPlanar m p id fuel
  | 0 => by funext o; rfl
  | fuel + 1 => by
    funext o
    simp only [Go3mf.objectPlanar, objectPlanar h p id fuel, h.componentsPlanar]

theorem buildPlanar (h : SameLookups m m') (fuel : Nat) (p : Str) (id : UInt32) : ∀ its : List Item,
    Go3mf.buildPlanar m' fuel p id its = Go3mf.buildPlanar m fuel p id its
  | [] => rfl
  | it :: its => by simp only [Go3mf.buildPlanar, h.object, h.objectPlanar, buildPlanar h fuel p id its]

theorem refsErrs (h : SameLookups m m') (p : Str) : ∀ (rs : List SliceRef) (i : Nat) (z : F32),
    Go3mf.refsErrs m' p i z rs = Go3mf.refsErrs m p i z rs
  | [], _, _ => rfl
  | r :: rs, i, z => by simp only [Go3mf.refsErrs, h.asset, refsErrs h p rs]

theorem extAsset (h : SameLookups m m') (env : Env) (p : Str) (a : Asset) : extAssetErrs env m' p a = extAssetErrs env m p a := by
  simp only [extAssetErrs, SliceStack.validate, h.extensions, h.materials, h.refsErrs]

theorem item (h : SameLookups m m') (it : Item) : it.validate m' = it.validate m := by
  simp only [Item.validate, h.object, h.checkMetadata]

end SameLookups

/-- Which items let a sliced object pass, each on its own. -/
theorem buildPlanar_true (m : Model) (fuel : Nat) (p : Str) (id : UInt32) (its : List Item) :
    buildPlanar m fuel p id its = some true ↔ ∀ it ∈ its, buildPlanar m fuel p id [it] = some true := by
  induction its with
  | nil => simp [buildPlanar]
  | cons x its ih =>
    rw [List.forall_mem_cons, ← ih, buildPlanar, buildPlanar]
    simp only [buildPlanar]
    generalize buildPlanar m fuel p id its = b
    generalize (if x.objectPath = [] then p else x.objectPath) = t
    split
    · simp
    · split
      · simp
      · split <;> simp

theorem errsIdx_nil_iff {α : Type} {f : Nat → α → List Err} {g : α → Prop} (hg : ∀ k x, f k x = [] ↔ g x) (l : List α) :
    errsIdx f l = [] ↔ ∀ x ∈ l, g x := by
  rw [List.eq_nil_iff_forall_not_mem]
  constructor
  · intro h x hx
    obtain ⟨k, hk⟩ := List.getElem?_of_mem hx
    rw [← hg k, List.eq_nil_iff_forall_not_mem]
    exact fun e he => h e ((mem_errsIdx_iff f l e).2 ⟨k, x, hk, he⟩)
  · intro h e he
    obtain ⟨k, x, h1, h2⟩ := (mem_errsIdx_iff f l e).1 he
    rw [(hg k x).2 (h x (List.mem_of_getElem? h1))] at h2
    cases h2

theorem errsIdx_map_nil_iff {α : Type} (g : α → List Err) (w : Nat → Err → Err) (l : List α) :
    errsIdx (fun i x => (g x).map (w i)) l = [] ↔ ∀ x ∈ l, g x = [] :=
  errsIdx_nil_iff (g := fun x => g x = []) (fun _ _ => List.map_eq_nil_iff) l

namespace SameLookups
variable {m m' : Model}

theorem build (h : SameLookups m m') (hb : m.build.validate m = []) : m'.build.validate m' = [] := by
  have hg : ∀ (M : Model) (k : Nat) (it : Item), (it.validate M).map (wrapIndex b!"item" k) = [] ↔ it.validate M = [] :=
    fun M k it => List.map_eq_nil_iff
  rw [Build.validate, errsIdx_nil_iff (fun k x => hg m k x)] at hb
  rw [Build.validate, errsIdx_nil_iff (fun k x => hg m' k x)]
  intro it hit
  rw [h.item]
  exact hb it (h.items.mem_iff.1 hit)

theorem prodModel (h : SameLookups m m') (hb : prodValidateModel m = []) : prodValidateModel m' = [] := by
  rw [prodValidateModel, List.append_eq_nil_iff] at hb ⊢
  refine ⟨by rw [h.buildAttr]; exact hb.1, ?_⟩
  have h2 := (errsIdx_map_nil_iff (fun it : Item => match getItemAttr it.anyAttr with
      | some p => validatePathUUID m [] p
      | none => [.missingField b!"UUID"]) _ _).1 hb.2
  refine (errsIdx_map_nil_iff (fun it : Item => match getItemAttr it.anyAttr with
      | some p => validatePathUUID m' [] p
      | none => [.missingField b!"UUID"]) _ _).2 fun it hit => ?_
  have := h2 it (h.items.mem_iff.1 hit)
  simpa only [validatePathUUID, h.root] using this

theorem extModel (h : SameLookups m m') (env : Env) (hb : extModelErrs env m = []) : extModelErrs env m' = [] := by
  rw [extModelErrs, List.flatMap_eq_nil_iff] at hb ⊢
  intro e he
  have := hb e (h.extensions ▸ he)
  revert this
  cases env.load e.ns with
  | none => exact id
  | some k => cases k <;> first | exact id | exact h.prodModel

theorem slicesObject (h : SameLookups m m') (fuel : Nat) (p : Str) (o : Object) (hb : slicesValidateObject m fuel p o = some []) :
    slicesValidateObject m' fuel p o = some [] := by
  have hc : ∀ r : SliceStack, r.allClosed m' = r.allClosed m := fun r => by simp only [SliceStack.allClosed, h.asset]
  rw [slicesValidateObject] at hb ⊢
  simp only [h.extensions, h.resAsset, h.buildPlanar, hc] at hb ⊢
  cases h1 : getSliceAttr o.anyAttr with
  | none => rfl
  | some x =>
    obtain ⟨id, res⟩ := x
    simp only [h1] at hb ⊢
    split
    · next h2 => rw [if_pos h2] at hb; exact hb
    · next h2 =>
      rw [if_neg h2] at hb
      cases h3 : ((m.findResources p).getD .zero).findAsset id with
      | none => simp [h3] at hb
      | some a =>
        rw [h3] at hb
        cases a with
        | base r => simp at hb
        | unknown i t => simp at hb
        | res r =>
          cases r with
          | sliceStack r =>
            simp only at hb ⊢
            cases h4 : Go3mf.buildPlanar m fuel p o.id m.build.items with
            | none => simp [h4] at hb
            | some b =>
              cases b with
              | false => simp [h4] at hb
              | true =>
                have h5 : Go3mf.buildPlanar m fuel p o.id m'.build.items = some true := by
                  rw [buildPlanar_true] at h4 ⊢
                  exact fun it hit => h4 it (h.items.mem_iff.1 hit)
                rw [h4] at hb
                rw [h5]
                exact hb
          | _ => simp at hb

end SameLookups

theorem mapM_flatten_nil_iff {α : Type} (f : α → Option (List Err)) (l : List α) :
    (l.mapM f).map List.flatten = some [] ↔ ∀ x ∈ l, f x = some [] := by
  induction l with
  | nil => simp
  | cons x l ih =>
    rw [List.forall_mem_cons, ← ih]
    simp only [List.mapM_cons]
    cases f x with
    | none => simp
    | some a =>
      cases h2 : List.mapM f l with
      | none => simp [h2]
      | some b => simp [h2]

/-- When the validators of the extensions have nothing to say about an object. -/
theorem extObjectErrs_nil_iff (env : Env) (m : Model) (fuel : Nat) (p : Str) (o : Object) :
    extObjectErrs env m fuel p o = some [] ↔ ∀ e ∈ m.extensions, (match env.load e.ns with
      | some .production => some (prodValidateObject m p o)
      | some .slices => slicesValidateObject m fuel p o
      | some .beamlattice => some (beamValidateObject m p o)
      | _ => some []) = some [] := by
  exact mapM_flatten_nil_iff _ _

theorem validate_nil_iff (env : Env) (m : Model) (fuel : Nat) (p : Str) (o : Object) :
    o.validate env m fuel p = some [] ↔ o.validateCore m p = [] ∧ extObjectErrs env m fuel p o = some [] := by
  rw [Object.validate]
  cases extObjectErrs env m fuel p o with
  | none => simp
  | some e => simp

/-- The object has no beam lattice that refers to another mesh. -/
def latticeAlone (o : Object) : Prop :=
  ∀ mesh, o.mesh = some mesh → ∀ bl, .beamLattice bl ∈ mesh.any → bl.clippingMeshID = 0 ∧ bl.representationMeshID = 0

theorem getBeamLattice_mem {as : List AnyElem} {bl : BeamLattice} (h : getBeamLattice as = some bl) : .beamLattice bl ∈ as := by
  induction as with
  | nil => cases h
  | cons x as ih =>
    cases x with
    | beamLattice b => cases h; exact List.mem_cons_self ..
    | _ => exact List.mem_cons_of_mem _ (ih h)

theorem beam_alone (m m' : Model) (p : Str) {o : Object} (h : latticeAlone o) : beamValidateObject m' p o = beamValidateObject m p o := by
  rw [beamValidateObject, beamValidateObject]
  cases h1 : o.mesh with
  | none => rfl
  | some mesh =>
    cases h2 : getBeamLattice mesh.any with
    | none => simp only [h2]
    | some bl =>
      have h3 := h mesh h1 bl (getBeamLattice_mem h2)
      simp only [h2, h3.1, h3.2, ne_eq, not_true_eq_false, if_false]

theorem SameLookups.objectErrs {m m' : Model} (h : SameLookups m m') (env : Env) (fuel : Nat) (p : Str) (o : Object)
    (hl : (∀ e ∈ m.extensions, env.load e.ns ≠ some .beamlattice) ∨ latticeAlone o)
    (hb : o.validate env m fuel p = some []) : o.validate env m' fuel p = some [] := by
  rw [validate_nil_iff, extObjectErrs_nil_iff] at hb ⊢
  refine ⟨by rw [h.core]; exact hb.1, fun e he => ?_⟩
  rw [h.extensions] at he
  have h1 := hb.2 e he
  have h2 : env.load e.ns ≠ some .beamlattice ∨ latticeAlone o := hl.imp_left fun h => h e he
  revert h1 h2
  cases env.load e.ns with
  | none => exact fun h _ => h
  | some k =>
    cases k with
    | beamlattice =>
      rintro h1 (h2 | h2)
      · exact absurd rfl h2
      · simp only at h1 ⊢; rw [beam_alone m m' p h2]; exact h1
    | production => exact fun h1 _ => by simpa only [h.prodObject] using h1
    | slices => exact fun h1 _ => h.slicesObject fuel p o h1
    | _ => exact fun h _ => h

/-! ## Parts -/

theorem objectsErrs_nil_iff (env : Env) (m : Model) (fuel : Nat) (p : Str) : ∀ (os : List Object) (i : Nat) (seen : List UInt32),
    (os.map (·.id)).Nodup → (objectsErrs env m fuel p i seen os = some [] ↔
      ∀ o ∈ os, o.validate env m fuel p = some [] ∧ (o.id ≠ 0 → o.id ∉ seen))
  | [], _, _, _ => by simp [objectsErrs]
  | o :: os, i, seen, hn => by
    rw [List.map_cons, List.nodup_cons] at hn
    have ih := objectsErrs_nil_iff env m fuel p os (i + 1) (o.id :: seen) hn.2
    have hx : (∀ x ∈ os, x.validate env m fuel p = some [] ∧ (x.id ≠ 0 → x.id ∉ o.id :: seen)) ↔
        ∀ x ∈ os, x.validate env m fuel p = some [] ∧ (x.id ≠ 0 → x.id ∉ seen) := by
      refine forall₂_congr fun x hx => and_congr_right fun _ => imp_congr_right fun _ => ?_
      rw [List.mem_cons, not_or]
      exact ⟨fun h => h.2, fun h => ⟨fun e => hn.1 (e ▸ List.mem_map_of_mem hx), h⟩⟩
    rw [hx] at ih
    rw [List.forall_mem_cons, ← ih, objectsErrs]
    cases o.validate env m fuel p with
    | none => simp
    | some e =>
      cases objectsErrs env m fuel p (i + 1) (o.id :: seen) os with
      | none => simp
      | some es =>
        simp only [Option.some.injEq, List.append_eq_nil_iff, List.map_eq_nil_iff]
        constructor
        · rintro ⟨⟨h1, h2⟩, h3⟩
          refine ⟨⟨h2, fun h4 h5 => ?_⟩, h3⟩
          rw [if_pos ⟨h4, h5⟩] at h1
          cases h1
        · rintro ⟨⟨h1, h2⟩, h3⟩
          exact ⟨⟨if_neg fun h => h2 h.1 h.2, h1⟩, h3⟩

theorem assetsErrs_nil_iff (env : Env) (m : Model) (p : Str) : ∀ (as : List Asset) (i : Nat) (seen : List UInt32),
    (as.map Asset.identify).Nodup → (∀ a ∈ as, a.identify ∉ seen) → (assetsErrs env m p i seen as = [] ↔
      ∀ a ∈ as, a.validate = [] ∧ extAssetErrs env m p a = [])
  | [], _, _, _, _ => by simp [assetsErrs]
  | a :: as, i, seen, hn, hs => by
    rw [List.map_cons, List.nodup_cons] at hn
    rw [List.forall_mem_cons] at hs
    have ih := assetsErrs_nil_iff env m p as (i + 1) (a.identify :: seen) hn.2 (fun x hx => by
      rw [List.mem_cons, not_or]
      exact ⟨fun e => hn.1 (e ▸ List.mem_map_of_mem hx), hs.2 x hx⟩)
    rw [List.forall_mem_cons, ← ih, assetsErrs]
    rw [if_neg (fun h => hs.1 h.2)]
    simp only [List.nil_append, List.append_eq_nil_iff, List.map_eq_nil_iff]

theorem resources_reorder {m m' : Model} (h : SameLookups m m') (env : Env)
    (fuel : Nat) (p : Str) {rs rs' : Resources} (hr : ResReordered rs rs')
    (hl : (∀ e ∈ m.extensions, env.load e.ns ≠ some .beamlattice) ∨ ∀ o ∈ rs.objects, latticeAlone o)
    (hd : (rs.assets.map Asset.identify).Nodup ∧ (rs.objects.map (·.id)).Nodup) (hb : rs.validate env m fuel p = some []) :
    rs'.validate env m' fuel p = some [] := by
  have key : ∀ (M : Model) (r : Resources), r.validate env M fuel p = some [] ↔ assetsErrs env M p 0 [] r.assets = [] ∧
      objectsErrs env M fuel p 0 (r.assets.map Asset.identify) r.objects = some [] := by
    intro M r
    rw [Resources.validate]
    cases objectsErrs env M fuel p 0 (r.assets.map Asset.identify) r.objects with
    | none => simp
    | some e => simp
  rw [key, assetsErrs_nil_iff env m p _ _ _ hd.1 (by simp), objectsErrs_nil_iff env m fuel p _ _ _ hd.2] at hb
  rw [key, assetsErrs_nil_iff env m' p _ _ _ ((hr.assets.map _).nodup_iff.2 hd.1) (by simp),
    objectsErrs_nil_iff env m' fuel p _ _ _ ((hr.objects.map _).nodup_iff.2 hd.2)]
  refine ⟨fun a ha => ?_, fun o ho => ?_⟩
  · rw [h.extAsset]; exact hb.1 a (hr.assets.mem_iff.1 ha)
  · have h1 := hb.2 o (hr.objects.mem_iff.1 ho)
    refine ⟨h.objectErrs env fuel p o (hl.imp_right fun h => h o (hr.objects.mem_iff.1 ho)) h1.1, fun h2 h3 => h1.2 h2 ?_⟩
    exact (hr.assets.map _).mem_iff.1 h3

theorem validateFuel_nil_iff (env : Env) (m : Model) (fuel : Nat) : m.validateFuel env fuel = some [] ↔
    childsErrs env m fuel m.sortedChilds = some [] ∧ m.resources.validate env m fuel m.pathOrDefault = some [] ∧
    validateRelationship env m m.rootRelationships [] = [] ∧ m.validateNamespaces env = [] ∧ childRelErrs env m m.sortedChilds = [] ∧
    validateRelationship env m m.relationships m.pathOrDefault = [] ∧ checkMetadata m m.metadata = [] ∧ extModelErrs env m = [] ∧
    m.build.validate m = [] := by
  rw [Model.validateFuel]
  cases childsErrs env m fuel m.sortedChilds with
  | none => simp
  | some ce =>
    cases m.resources.validate env m fuel m.pathOrDefault with
    | none => simp
    | some re =>
      simp only [Option.some.injEq, List.map_eq_nil_iff, List.append_eq_nil_iff]
      tauto

theorem forall₂_keys {cs cs' : List (Str × ChildModel)} (h : List.Forall₂ ChildReordered cs cs') : cs'.map (·.1) = cs.map (·.1) := by
  induction h with
  | nil => rfl
  | cons h1 _ ih => rw [List.map_cons, List.map_cons, ih, h1.path]

theorem accepts_reorder {env : Env} {m m' : Model} (hd : IdsDistinct m) (hr : Reordered m m')
    (hl : (∀ e ∈ m.extensions, env.load e.ns ≠ some .beamlattice) ∨ LatticesAlone m) (ha : m.Accepts env) : m'.Accepts env := by
  have h := hr.lookups hd
  obtain ⟨fuel, hb⟩ := ha
  refine ⟨fuel, ?_⟩
  rw [validateFuel_nil_iff] at hb ⊢
  obtain ⟨h1, h2, h3, h4, h5, h6, h7, h8, h9⟩ := hb
  have hk : m'.sortedChilds = m.sortedChilds := by rw [Model.sortedChilds, Model.sortedChilds, forall₂_keys hr.childs]
  have e1 : m'.rootRelationships = m.rootRelationships := by obtain ⟨_, _, _, e⟩ := hr.rest; rw [e]
  have e2 : m'.relationships = m.relationships := by obtain ⟨_, _, _, e⟩ := hr.rest; rw [e]
  have e3 : m'.metadata = m.metadata := by obtain ⟨_, _, _, e⟩ := hr.rest; rw [e]
  refine ⟨?_, ?_, ?_, ?_, ?_, ?_, ?_, h.extModel env h8, h.build h9⟩
  · rw [childsErrs, mapM_flatten_nil_iff] at h1 ⊢
    intro p hp
    have h10 := h1 p (hk ▸ hp)
    rcases lookupChild_reorder hr.childs p with ⟨k1, k2⟩ | ⟨c, c', k1, k2, k3, k4⟩
    · rw [k2]
    · rw [k1] at h10
      rw [k2]
      simp only [Option.map_eq_some_iff, List.map_eq_nil_iff] at h10 ⊢
      obtain ⟨es, h10, rfl⟩ := h10
      exact ⟨[], resources_reorder h env fuel p k3.resources (hl.imp_right fun h => h _ (.inr ⟨_, k4, rfl⟩)) (hd _ (.inr ⟨_, k4, rfl⟩)) h10, rfl⟩
  · rw [h.root]; exact resources_reorder h env fuel _ hr.resources (hl.imp_right fun h => h _ (.inl rfl)) (hd _ (.inl rfl)) h2
  · rw [h.validateRelationship, e1]; exact h3
  · rw [h.validateNamespaces]; exact h4
  · rw [childRelErrs, List.flatMap_eq_nil_iff] at h5 ⊢
    intro p hp
    have h10 := h5 p (hk ▸ hp)
    rcases lookupChild_reorder hr.childs p with ⟨k1, k2⟩ | ⟨c, c', k1, k2, k3, k4⟩
    · rw [k2]
    · rw [k1] at h10
      rw [k2]
      have e : c'.relationships = c.relationships := k3.relationships
      simp only [h.root, h.validateRelationship, e]
      exact h10
  · rw [h.validateRelationship, e2, h.root]; exact h6
  · rw [h.checkMetadata, e3]; exact h7

/-! ## Symmetry -/

theorem Spec.ResReordered.symm {rs rs' : Resources} (h : ResReordered rs rs') : ResReordered rs' rs :=
  ⟨h.assets.symm, h.objects.symm, h.anyAttr.symm⟩

theorem Spec.Reordered.symm {m m' : Model} (h : Reordered m m') : Reordered m' m := by
  refine ⟨h.resources.symm, h.items.symm, ?_, ?_⟩
  · refine (List.Forall₂.flip h.childs).imp fun a b h => ?_
    exact ⟨h.path.symm, h.resources.symm, h.relationships.symm, h.any.symm⟩
  · obtain ⟨rs, its, cs, e⟩ := h.rest
    refine ⟨m.resources, m.build.items, m.childs, ?_⟩
    rw [e]

/-- Every part of the one is a part of the other, in another order. -/
theorem Spec.Reordered.part {m m' : Model} (h : Reordered m m') {rs' : Resources}
    (hr : rs' = m'.resources ∨ ∃ c ∈ m'.childs, rs' = c.2.resources) :
    ∃ rs, (rs = m.resources ∨ ∃ c ∈ m.childs, rs = c.2.resources) ∧ ResReordered rs rs' := by
  rcases hr with rfl | ⟨c', hc, rfl⟩
  · exact ⟨_, .inl rfl, h.resources⟩
  · have : ∃ c ∈ m.childs, ChildReordered c c' := by
      have := h.childs
      clear h
      generalize m.childs = cs at this
      generalize m'.childs = cs' at this hc
      induction this with
      | nil => cases hc
      | cons h1 _ ih =>
        rcases List.mem_cons.1 hc with rfl | h2
        · exact ⟨_, List.mem_cons_self .., h1⟩
        · obtain ⟨c, h3, h4⟩ := ih h2; exact ⟨c, List.mem_cons_of_mem _ h3, h4⟩
    obtain ⟨c, h1, h2⟩ := this
    exact ⟨_, .inr ⟨c, h1, rfl⟩, h2.resources⟩

theorem Spec.Reordered.alone {m m' : Model} (h : Reordered m m') (hl : LatticesAlone m) : LatticesAlone m' := by
  intro rs' hr o ho
  obtain ⟨rs, h1, h2⟩ := h.part hr
  exact hl rs h1 o (h2.objects.mem_iff.1 ho)

/-! ## Bounding boxes -/

namespace SameLookups
variable {m m' : Model}

theorem componentsBox (h : SameLookups m m') (rec : Object → Str → Option Box) (p : Str) : ∀ (cs : List Component) (b : Box),
    Go3mf.componentsBox rec m' p cs b = Go3mf.componentsBox rec m p cs b
  | [], _ => rfl
  | c :: cs, b => by simp only [Go3mf.componentsBox, h.object, componentsBox h rec p cs]

theorem boxFuel (h : SameLookups m m') : ∀ fuel : Nat, Object.boxFuel m' fuel = Object.boxFuel m fuel
  | 0 => by funext o p; rfl
  | fuel + 1 => by
    funext o p
    simp only [Object.boxFuel, boxFuel h fuel, h.componentsBox]

theorem objectBox (h : SameLookups m m') (o : Object) (p : Str) (b : Box) : o.BoundingBox m' p b ↔ o.BoundingBox m p b := by
  simp only [Object.BoundingBox, h.boxFuel]

theorem boxOp (h : SameLookups m m') {it : Item} {f : Option (Box → Box)} (hf : Item.BoxOp m it f) : Item.BoxOp m' it f := by
  cases hf with
  | missing h1 => exact .missing (by rw [h.object]; exact h1)
  | empty h1 h2 h3 => exact .empty (by rw [h.object]; exact h1) ((h.objectBox ..).2 h2) h3
  | extend h1 h2 h3 => exact .extend (by rw [h.object]; exact h1) ((h.objectBox ..).2 h2) h3

theorem box (h : SameLookups m m') {r : Box} (hr : m.BoundingBox r) : m'.BoundingBox r := by
  unfold Model.BoundingBox at hr ⊢
  rw [h.items.length_eq]
  split
  · rename_i hn
    rwa [if_pos hn] at hr
  · rename_i hn
    rw [if_neg hn] at hr
    obtain ⟨ops, h1, h2⟩ := hr
    obtain ⟨ops', h3, h4⟩ := List.forall₂_comp_perm_eq_perm_comp_forall₂ ▸
      (show Relation.Comp List.Perm (List.Forall₂ (Item.BoxOp m)) m'.build.items ops from ⟨_, h.items, h1⟩)
    exact ⟨ops', h3.imp fun _ _ => h.boxOp, (Par.Result.perm h4).2 h2⟩

end SameLookups

end Go3mf
