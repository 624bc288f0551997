import Verif.Lemmas.Reorder
import Verif.Spec.Thin

/-!
# Removals
-/

namespace Go3mf
open Spec

/-! ## Lookups -/

theorem findObjectIn_thin {os os' : List Object} (hn : (os.map (·.id)).Nodup) (h : os'.Sublist os) {id : UInt32} {o : Object}
    (hf : findObjectIn os' id = some o) : findObjectIn os id = some o := by
  rw [findObjectIn_iff ((h.map _).nodup hn)] at hf
  rw [findObjectIn_iff hn]
  exact ⟨h.subset hf.1, hf.2⟩

theorem findAssetIn_thin {as as' : List Asset} (hn : (as.map Asset.identify).Nodup) (h : as'.Sublist as) {id : UInt32} {a : Asset}
    (hf : findAssetIn as' id = some a) : findAssetIn as id = some a := by
  rw [findAssetIn_iff ((h.map _).nodup hn)] at hf
  rw [findAssetIn_iff hn]
  exact ⟨h.subset hf.1, hf.2⟩

theorem lookupChild_thin {cs cs' : List (Str × ChildModel)} (h : List.Forall₂ ChildThinned cs cs') (p : Str) :
    (lookupChild cs p = none ∧ lookupChild cs' p = none) ∨
    ∃ c c', lookupChild cs p = some c ∧ lookupChild cs' p = some c' ∧ ChildThinned (p, c) (p, c') ∧ (p, c) ∈ cs ∧ (p, c') ∈ cs' := by
  induction h with
  | nil => exact .inl ⟨rfl, rfl⟩
  | @cons x y xs ys h1 _ ih =>
    obtain ⟨q, c⟩ := x
    obtain ⟨q', c'⟩ := y
    have e : q' = q := h1.path
    subst e
    rw [lookupChild, lookupChild]
    by_cases hq : q' = p
    · subst hq
      simp only [if_true]
      exact .inr ⟨c, c', rfl, rfl, h1, List.mem_cons_self .., List.mem_cons_self ..⟩
    · simp only [if_neg hq]
      rcases ih with ih | ⟨d, d', h2, h3, h4, h5, h6⟩
      · exact .inl ih
      · exact .inr ⟨d, d', h2, h3, h4, List.mem_cons_of_mem _ h5, List.mem_cons_of_mem _ h6⟩

theorem resAsset_eq (m : Model) (p : Str) (id : UInt32) : ((m.findResources p).getD .zero).findAsset id = m.findAsset p id := by
  rw [Model.findAsset]
  cases m.findResources p <;> rfl

/-- Two models of which the second finds less. -/
structure FewerLookups (m m' : Model) : Prop where
  path : m'.path = m.path
  extensions : m'.extensions = m.extensions
  attachments : m'.attachments = m.attachments
  buildAttr : m'.build.anyAttr = m.build.anyAttr
  items : m'.build.items.Sublist m.build.items
  resources : ∀ p, (m.findResources p = none ∧ m'.findResources p = none) ∨ ∃ rs rs', m.findResources p = some rs ∧
    m'.findResources p = some rs' ∧ ResThinned rs rs' ∧ (rs.assets.map Asset.identify).Nodup ∧ (rs.objects.map (·.id)).Nodup

namespace FewerLookups
variable {m m' : Model}

theorem object (h : FewerLookups m m') {p : Str} {id : UInt32} {o : Object} (ho : m'.findObject p id = some o) :
    m.findObject p id = some o := by
  rw [Model.findObject] at ho ⊢
  rcases h.resources p with ⟨h1, h2⟩ | ⟨rs, rs', h1, h2, h3, _, h5⟩
  · rw [h2] at ho; cases ho
  · rw [h2] at ho; rw [h1]; exact findObjectIn_thin h5 h3.objects ho

theorem asset (h : FewerLookups m m') {p : Str} {id : UInt32} {a : Asset} (ha : m'.findAsset p id = some a) :
    m.findAsset p id = some a := by
  rw [Model.findAsset] at ha ⊢
  rcases h.resources p with ⟨h1, h2⟩ | ⟨rs, rs', h1, h2, h3, h4, _⟩
  · rw [h2] at ha; cases ha
  · rw [h2] at ha; rw [h1]; exact findAssetIn_thin h4 h3.assets ha

theorem root (h : FewerLookups m m') : m'.pathOrDefault = m.pathOrDefault := by
  simp only [Model.pathOrDefault, h.path]

end FewerLookups

theorem Spec.Thinned.fewer {m m' : Model} (hd : IdsDistinct m) (h : Thinned m m') : FewerLookups m m' := by
  have hp : m'.path = m.path := by obtain ⟨rs, its, cs, e⟩ := h.rest; rw [e]
  refine ⟨hp, ?_, ?_, ?_, h.items, fun p => ?_⟩
  · obtain ⟨rs, its, cs, e⟩ := h.rest; rw [e]
  · obtain ⟨rs, its, cs, e⟩ := h.rest; rw [e]
  · obtain ⟨rs, its, cs, e⟩ := h.rest; rw [e]
  · rw [Model.findResources, Model.findResources, hp]
    split
    · exact .inr ⟨_, _, rfl, rfl, h.resources, hd _ (.inl rfl)⟩
    · rcases lookupChild_thin h.childs p with ⟨h1, h2⟩ | ⟨c, c', h1, h2, h3, h4, _⟩
      · rw [h1, h2]; exact .inl ⟨rfl, rfl⟩
      · rw [h1, h2]; exact .inr ⟨_, _, rfl, rfl, h3.resources, hd _ (.inr ⟨_, h4, rfl⟩)⟩

/-! ## Validators -/

theorem relationshipErrs_att {m m' : Model} (h : m'.attachments = m.attachments) (env : Env) :
    ∀ (rs : List Relationship) (i : Nat) (v : List (Str × Str)) (t : Bool), relationshipErrs env m' i v t rs = relationshipErrs env m i v t rs
  | [], _, _, _ => rfl
  | r :: rs, i, v, t => by simp only [relationshipErrs, h, relationshipErrs_att h env rs]

theorem validateRelationship_att {m m' : Model} (h : m'.attachments = m.attachments) (env : Env) (rs : List Relationship) (p : Str) :
    validateRelationship env m' rs p = validateRelationship env m rs p := by
  simp only [validateRelationship, relationshipErrs_att h]

theorem metadataErrs_exts {m m' : Model} (h : m'.extensions = m.extensions) : ∀ (mds : List Metadata) (i : Nat) (seen : List Name),
    metadataErrs m' i seen mds = metadataErrs m i seen mds
  | [], _, _ => rfl
  | md :: mds, i, seen => by simp only [metadataErrs, Metadata.validate, h, metadataErrs_exts h mds]

theorem checkMetadata_exts {m m' : Model} (h : m'.extensions = m.extensions) (mds : List Metadata) :
    checkMetadata m' mds = checkMetadata m mds := metadataErrs_exts h mds 0 []

theorem errsIdx_congr_mem {α : Type} {f g : Nat → α → List Err} {l : List α} (h : ∀ k, ∀ x ∈ l, f k x = g k x) : errsIdx f l = errsIdx g l := by
  rw [errsIdx, errsIdx]
  congr 1
  apply List.ext_getElem?
  intro i
  rw [List.getElem?_mapIdx, List.getElem?_mapIdx]
  cases e : l[i]? with
  | none => rfl
  | some x => simp only [Option.map_some, h i x (List.mem_of_getElem? e)]

section
variable {m m' : Model}

theorem core_thin (hx : NothingMissed m m') {p : Str} {rs : Resources} (hp : IsPart m' p rs) {o : Object} (ho : o ∈ rs.objects) :
    o.validateCore m' p = o.validateCore m p := by
  simp only [Object.validateCore, resAsset_eq, hx.assets p _ (.object hp ho)]
  congr 1
  · congr 1
    cases hm : o.mesh with
    | none => rfl
    | some x =>
      simp only [Object.validateMesh]
      congr 3
      refine errsIdx_congr_mem fun k t ht => ?_
      simp only [Triangle.validate, resAsset_eq, hx.assets p _ (.triangle hp ho hm ht)]
  · cases hc : o.components with
    | none => rfl
    | some cs =>
      simp only [Object.validateComponents]
      rw [errsIdx_congr_mem (g := fun j (c : Component) =>
        if c.objectID = 0 then [wrapIndex b!"component" j (.missingField b!"objectid")]
        else match m.findObject (c.objectPath p) c.objectID with
          | some ref =>
            if ref.id = o.id ∧ c.objectPath p = p then [wrapIndex b!"component" j (.of .recursion)] else []
          | none => [wrapIndex b!"component" j (.of .missingResource)])]
      · rfl
      intro k c hk
      simp only [hx.objects _ _ (.component hp ho hc hk)]
      rfl

theorem item_thin (h : FewerLookups m m') (hx : NothingMissed m m') {it : Item} (hi : it ∈ m'.build.items) :
    it.validate m' = it.validate m := by
  simp only [Item.validate, hx.objects _ _ (.item hi), checkMetadata_exts h.extensions]

theorem multiLayers_thin {p : Str} : ∀ (ids : List UInt32), (∀ id ∈ ids, m'.findAsset p id = m.findAsset p id) → ∀ (j c : Nat) (u : Bool),
    multiLayers m' p j c u ids = multiLayers m p j c u ids
  | [], _, _, _, _ => rfl
  | id :: ids, h, j, c, u => by
    rw [List.forall_mem_cons] at h
    simp only [multiLayers, h.1, multiLayers_thin ids h.2]

theorem refsErrs_thin {p : Str} : ∀ (rs : List SliceRef), (∀ r ∈ rs, m'.findAsset r.path r.sliceStackID = m.findAsset r.path r.sliceStackID) →
    ∀ (i : Nat) (z : F32), refsErrs m' p i z rs = refsErrs m p i z rs
  | [], _, _, _ => rfl
  | r :: rs, h, i, z => by
    rw [List.forall_mem_cons] at h
    simp only [refsErrs, h.1, refsErrs_thin rs h.2]

theorem extAsset_thin (h : FewerLookups m m') (hx : NothingMissed m m') (env : Env) {p : Str} {rs : Resources} (hp : IsPart m' p rs)
    {a : Asset} (ha : a ∈ rs.assets) : extAssetErrs env m' p a = extAssetErrs env m p a := by
  have h1 : materialsValidateAsset env m' p a = materialsValidateAsset env m p a := by
    cases a with
    | base r => rfl
    | unknown i t => rfl
    | res r =>
      cases r with
      | colorGroup r => rfl
      | sliceStack r => rfl
      | texture2D r => simp only [materialsValidateAsset, Texture2D.validate, h.attachments]
      | texture2DGroup r => simp only [materialsValidateAsset, Texture2DGroup.validate, hx.assets _ _ (.texture hp ha)]
      | composite r => simp only [materialsValidateAsset, CompositeMaterials.validate, hx.assets _ _ (.composite hp ha)]
      | multi r =>
        simp only [materialsValidateAsset, MultiProperties.validate,
          multiLayers_thin r.pids fun id hi => hx.assets _ _ (.multi hp ha hi)]
  have h2 : ∀ r : SliceStack, a = .res (.sliceStack r) → r.validate m' p = r.validate m p := by
    rintro r rfl
    simp only [SliceStack.validate, refsErrs_thin r.refs fun s hs => hx.assets _ _ (.stack hp ha hs)]
  simp only [extAssetErrs, h.extensions, h1]
  congr 1
  funext e
  cases env.load e.ns with
  | none => rfl
  | some k =>
    cases k with
    | slices =>
      cases a with
      | base r => rfl
      | unknown i t => rfl
      | res r =>
        cases r with
        | sliceStack r => exact h2 r rfl
        | _ => rfl
    | _ => rfl

/-! ### Slices -/

theorem componentsPlanar_thin (h : FewerLookups m m') {rec rec' : Object → Option Bool} (hr : ∀ o, rec o = some true → rec' o = some true)
    (o : Object) (p : Str) (id : UInt32) : ∀ cs : List Component, componentsPlanar rec m o p id cs = some true →
    componentsPlanar rec' m' o p id cs = some true
  | [], _ => rfl
  | c :: cs, hc => by
    rw [componentsPlanar] at hc ⊢
    split
    · next h1 => rw [if_pos h1] at hc; exact hc
    · next h1 =>
      rw [if_neg h1] at hc
      split
      · rfl
      · next h2 =>
        rw [if_neg h2] at hc
        have ih := componentsPlanar_thin h hr o p id cs
        cases h3 : m'.findObject (c.objectPath p) c.objectID with
        | none =>
          simp only
          cases h4 : m.findObject (c.objectPath p) c.objectID with
          | none => rw [h4] at hc; exact ih hc
          | some x =>
            rw [h4] at hc
            simp only at hc
            cases h5 : rec x with
            | none => simp [h5] at hc
            | some b => cases b <;> simp [h5] at hc; exact ih hc
        | some x =>
          rw [h.object h3] at hc
          simp only at hc ⊢
          cases h5 : rec x with
          | none => simp [h5] at hc
          | some b =>
            cases b <;> simp [h5] at hc
            rw [hr x h5]
            exact ih hc

theorem objectPlanar_thin (h : FewerLookups m m') (p : Str) (id : UInt32) : ∀ (fuel : Nat) (o : Object),
    objectPlanar m p id fuel o = some true → objectPlanar m' p id fuel o = some true
  | 0, _, ho => by simp [objectPlanar] at ho
  | fuel + 1, o, ho => by
    rw [objectPlanar] at ho ⊢
    cases hc : o.components with
    | none => rfl
    | some cs =>
      rw [hc] at ho
      exact componentsPlanar_thin h (objectPlanar_thin h p id fuel) o p id cs.component ho

theorem buildPlanar_one_thin (h : FewerLookups m m') (fuel : Nat) (p : Str) (id : UInt32) (it : Item)
    (hb : buildPlanar m fuel p id [it] = some true) : buildPlanar m' fuel p id [it] = some true := by
  simp only [buildPlanar] at hb ⊢
  generalize (if it.objectPath = [] then p else it.objectPath) = t at hb ⊢
  split
  · next h1 => rw [if_pos h1] at hb; exact hb
  · next h1 =>
    rw [if_neg h1] at hb
    cases h3 : m'.findObject t it.objectID with
    | none => rfl
    | some x =>
      rw [h.object h3] at hb
      simp only at hb ⊢
      cases h5 : objectPlanar m p id fuel x with
      | none => simp [h5] at hb
      | some b =>
        cases b <;> simp [h5] at hb
        rw [objectPlanar_thin h p id fuel x h5]

theorem getSliceAttr_mem {as : AnyAttr} {id : UInt32} {q : MeshResolution} (h : getSliceAttr as = some (id, q)) : .sliceObject id q ∈ as := by
  induction as with
  | nil => cases h
  | cons x as ih =>
    cases x with
    | sliceObject i r => cases h; exact List.mem_cons_self ..
    | _ => exact List.mem_cons_of_mem _ (ih h)

theorem slicesObject_thin (h : FewerLookups m m') (hx : NothingMissed m m') (fuel : Nat) {p : Str} {rs : Resources} (hp : IsPart m' p rs)
    {o : Object} (ho : o ∈ rs.objects) (hb : slicesValidateObject m fuel p o = some []) : slicesValidateObject m' fuel p o = some [] := by
  rw [slicesValidateObject] at hb ⊢
  simp only [h.extensions, resAsset_eq] at hb ⊢
  cases h1 : getSliceAttr o.anyAttr with
  | none => rfl
  | some x =>
    obtain ⟨id, res⟩ := x
    simp only [h1] at hb ⊢
    split
    · next h2 => rw [if_pos h2] at hb; exact hb
    · next h2 =>
      rw [if_neg h2] at hb
      rw [hx.assets p id (.slices hp ho (getSliceAttr_mem h1))]
      cases h3 : m.findAsset p id with
      | none => simp [h3] at hb
      | some a =>
        rw [h3] at hb
        cases a with
        | base r => simp at hb
        | unknown i t => simp at hb
        | res r =>
          cases r with
          | sliceStack r =>
            simp only at hb ⊢
            cases h4 : buildPlanar m fuel p o.id m.build.items with
            | none => simp [h4] at hb
            | some b =>
              cases b with
              | false => simp [h4] at hb
              | true =>
                have h5 : buildPlanar m' fuel p o.id m'.build.items = some true := by
                  rw [buildPlanar_true] at h4 ⊢
                  exact fun it hit => buildPlanar_one_thin h fuel p o.id it (h4 it (h.items.subset hit))
                have h6 : r.allClosed m = true → r.allClosed m' = true := by
                  simp only [SliceStack.allClosed, Bool.and_eq_true, List.all_eq_true]
                  refine fun h7 => ⟨h7.1, fun s hs => ?_⟩
                  have h8 := h7.2 s hs
                  cases h9 : m'.findAsset s.path s.sliceStackID with
                  | none => rfl
                  | some b => rw [h.asset h9] at h8; exact h8
                rw [h4] at hb
                rw [h5]
                simp only [if_true, List.nil_append, Option.some.injEq, List.append_eq_nil_iff] at hb ⊢
                refine ⟨?_, hb.2⟩
                have h10 := hb.1
                split
                · next h11 =>
                  rw [if_pos h11] at h10
                  by_cases h12 : r.allClosed m = true
                  · rw [if_pos (h6 h12)]
                  · rw [if_neg h12] at h10; cases h10
                · rfl
          | _ => simp at hb

/-! ### Beam lattices -/

theorem refMeshErrs_thin {a b : UInt32} {os' os : List Object} (hs : os'.Sublist os) : (os.map (·.id)).Nodup → a ∈ os'.map (·.id) →
    refMeshErrs a b os = [] → refMeshErrs a b os' = [] := by
  induction hs with
  | slnil => exact fun _ _ h => h
  | @cons l l' r hs ih =>
    intro hn ha h
    rw [List.map_cons, List.nodup_cons] at hn
    rw [refMeshErrs] at h
    split at h
    · cases h
    · split at h
      · next h2 => exact absurd ((hs.map _).subset ha) (h2 ▸ hn.1)
      · exact ih hn.2 ha h
  | @cons_cons l l' r hs ih =>
    intro hn ha h
    rw [List.map_cons, List.nodup_cons] at hn
    rw [refMeshErrs] at h ⊢
    split at h
    · cases h
    · next h1 =>
      rw [if_neg h1]
      split at h
      · next h2 => rw [if_pos h2]; exact h
      · next h2 =>
        rw [if_neg h2]
        rw [List.map_cons, List.mem_cons] at ha
        exact ih hn.2 (ha.resolve_left fun e => h2 e.symm) h

theorem refMeshErrs_mem {a b : UInt32} {os : List Object} (hb : b ∈ os.map (·.id)) (h : refMeshErrs a b os = []) : a ∈ os.map (·.id) := by
  induction os with
  | nil => cases hb
  | cons r os ih =>
    rw [refMeshErrs] at h
    rw [List.map_cons, List.mem_cons] at hb ⊢
    split at h
    · cases h
    · next h1 =>
      split at h
      · next h2 => exact .inl h2.symm
      · exact .inr (ih (hb.resolve_left fun e => h1 e.symm) h)

theorem validateRefMesh_thin (h : FewerLookups m m') {p : Str} {rs' : Resources} (hr : m'.findResources p = some rs') {o : Object}
    (ho : o ∈ rs'.objects) {a : UInt32} (hx : m'.findObject p a = m.findObject p a) (hb : validateRefMesh m p a o.id = []) :
    validateRefMesh m' p a o.id = [] := by
  rcases h.resources p with ⟨h1, h2⟩ | ⟨rs, rs2, h1, h2, h3, _, h5⟩
  · rw [h2] at hr; cases hr
  · rw [hr] at h2
    cases h2
    rw [validateRefMesh] at hb ⊢
    split at hb
    · cases hb
    · next h6 =>
      rw [if_neg h6, hr]
      rw [h1] at hb
      simp only at hb ⊢
      have h7 := refMeshErrs_mem (List.mem_map_of_mem (h3.objects.subset ho)) hb
      refine refMeshErrs_thin h3.objects h5 ?_ hb
      obtain ⟨x, hx1, hx2⟩ := List.mem_map.1 h7
      have h8 : m.findObject p a = some x := by
        rw [Model.findObject, h1]
        exact (findObjectIn_iff h5).2 ⟨hx1, hx2⟩
      rw [h8, Model.findObject, hr] at hx
      have h9 := (findObjectIn_iff ((h3.objects.map _).nodup h5)).1 hx
      exact List.mem_map.2 ⟨x, h9.1, h9.2⟩

theorem beam_thin (h : FewerLookups m m') (hx : NothingMissed m m') {p : Str} {rs' : Resources} (hp : IsPart m' p rs')
    (hr : m'.findResources p = some rs') {o : Object} (ho : o ∈ rs'.objects) (hb : beamValidateObject m p o = []) :
    beamValidateObject m' p o = [] := by
  rw [beamValidateObject] at hb ⊢
  cases h1 : o.mesh with
  | none => rfl
  | some x =>
    simp only [h1] at hb ⊢
    cases h2 : getBeamLattice x.any with
    | none => rfl
    | some bl =>
      have h3 := getBeamLattice_mem h2
      simp only [h2, List.map_eq_nil_iff, List.append_eq_nil_iff] at hb ⊢
      refine ⟨⟨⟨⟨hb.1.1.1.1, ?_⟩, ?_⟩, hb.1.2⟩, hb.2⟩
      · have h4 := hb.1.1.1.2
        split
        · next h5 =>
          rw [if_pos h5] at h4
          exact validateRefMesh_thin h hr ho (hx.objects _ _ (.clipping hp ho h1 h3)) h4
        · rfl
      · have h4 := hb.1.1.2
        split
        · next h5 =>
          rw [if_pos h5] at h4
          exact validateRefMesh_thin h hr ho (hx.objects _ _ (.representation hp ho h1 h3)) h4
        · rfl

/-! ## Parts -/

theorem object_thin (h : FewerLookups m m') (hx : NothingMissed m m') (env : Env) (fuel : Nat) {p : Str} {rs' : Resources}
    (hp : IsPart m' p rs') (hr : m'.findResources p = some rs') {o : Object} (ho : o ∈ rs'.objects)
    (hb : o.validate env m fuel p = some []) : o.validate env m' fuel p = some [] := by
  rw [validate_nil_iff, extObjectErrs_nil_iff] at hb ⊢
  refine ⟨by rw [core_thin hx hp ho]; exact hb.1, fun e he => ?_⟩
  rw [h.extensions] at he
  have h1 := hb.2 e he
  revert h1
  cases env.load e.ns with
  | none => exact id
  | some k =>
    cases k with
    | production => intro h1; simpa only [prodValidateObject, validatePathUUID, h.root] using h1
    | slices => exact slicesObject_thin h hx fuel hp ho
    | beamlattice =>
      simp only [Option.some.injEq]
      exact beam_thin h hx hp hr ho
    | _ => exact id

theorem resources_thin (h : FewerLookups m m') (hx : NothingMissed m m') (env : Env) (fuel : Nat) {p : Str} {rs rs' : Resources}
    (hp : IsPart m' p rs') (hf : m'.findResources p = some rs') (hr : ResThinned rs rs')
    (hd : (rs.assets.map Asset.identify).Nodup ∧ (rs.objects.map (·.id)).Nodup) (hb : rs.validate env m fuel p = some []) :
    rs'.validate env m' fuel p = some [] := by
  have key : ∀ (M : Model) (r : Resources), r.validate env M fuel p = some [] ↔ assetsErrs env M p 0 [] r.assets = [] ∧
      objectsErrs env M fuel p 0 (r.assets.map Asset.identify) r.objects = some [] := by
    intro M r
    rw [Resources.validate]
    cases objectsErrs env M fuel p 0 (r.assets.map Asset.identify) r.objects with
    | none => simp
    | some e => simp
  rw [key, assetsErrs_nil_iff env m p _ _ _ hd.1 (by simp), objectsErrs_nil_iff env m fuel p _ _ _ hd.2] at hb
  rw [key, assetsErrs_nil_iff env m' p _ _ _ ((hr.assets.map _).nodup hd.1) (by simp),
    objectsErrs_nil_iff env m' fuel p _ _ _ ((hr.objects.map _).nodup hd.2)]
  refine ⟨fun a ha => ?_, fun o ho => ?_⟩
  · rw [extAsset_thin h hx env hp ha]; exact hb.1 a (hr.assets.subset ha)
  · have h1 := hb.2 o (hr.objects.subset ho)
    refine ⟨object_thin h hx env fuel hp hf ho h1.1, fun h2 h3 => h1.2 h2 ?_⟩
    exact (hr.assets.map _).subset h3

theorem prodModel_thin (h : FewerLookups m m') (hb : prodValidateModel m = []) : prodValidateModel m' = [] := by
  rw [prodValidateModel, List.append_eq_nil_iff] at hb ⊢
  refine ⟨by rw [h.buildAttr]; exact hb.1, ?_⟩
  have h2 := (errsIdx_map_nil_iff (fun it : Item => match getItemAttr it.anyAttr with
      | some p => validatePathUUID m [] p
      | none => [.missingField b!"UUID"]) _ _).1 hb.2
  refine (errsIdx_map_nil_iff (fun it : Item => match getItemAttr it.anyAttr with
      | some p => validatePathUUID m' [] p
      | none => [.missingField b!"UUID"]) _ _).2 fun it hit => ?_
  have := h2 it (h.items.subset hit)
  simpa only [validatePathUUID, h.root] using this

theorem extModel_thin (h : FewerLookups m m') (env : Env) (hb : extModelErrs env m = []) : extModelErrs env m' = [] := by
  rw [extModelErrs, List.flatMap_eq_nil_iff] at hb ⊢
  intro e he
  have := hb e (h.extensions ▸ he)
  revert this
  cases env.load e.ns with
  | none => exact id
  | some k => cases k <;> first | exact id | exact prodModel_thin h

theorem build_thin (h : FewerLookups m m') (hx : NothingMissed m m') (hb : m.build.validate m = []) : m'.build.validate m' = [] := by
  rw [Build.validate] at hb ⊢
  replace hb := (errsIdx_map_nil_iff (fun it : Item => it.validate m) _ _).1 hb
  refine (errsIdx_map_nil_iff (fun it : Item => it.validate m') _ _).2 fun it hit => ?_
  rw [item_thin h hx hit]
  exact hb it (h.items.subset hit)

theorem thinned_keys {cs cs' : List (Str × ChildModel)} (h : List.Forall₂ ChildThinned cs cs') : cs'.map (·.1) = cs.map (·.1) := by
  induction h with
  | nil => rfl
  | cons h1 _ ih => rw [List.map_cons, List.map_cons, ih, h1.path]

/-- In an accepted model no child part has a name of the root part, other than the empty one. -/
theorem accepted_child {env : Env} (hb : childRelErrs env m m.sortedChilds = []) {p : Str} (hp : p ∈ m.childs.map (·.1))
    {c : ChildModel} (hc : lookupChild m.childs p = some c) : p ≠ m.pathOrDefault := by
  rw [childRelErrs, List.flatMap_eq_nil_iff] at hb
  have := hb p ((List.perm_insertionSort _ _).mem_iff.2 hp)
  rw [hc] at this
  rintro rfl
  simp at this

theorem accepts_thin {env : Env} (hd : IdsDistinct m) (hr : Thinned m m') (hc : ∀ c ∈ m.childs, c.1 ≠ []) (hx : NothingMissed m m')
    (ha : m.Accepts env) : m'.Accepts env := by
  have h := hr.fewer hd
  obtain ⟨fuel, hb⟩ := ha
  refine ⟨fuel, ?_⟩
  rw [validateFuel_nil_iff] at hb ⊢
  obtain ⟨h1, h2, h3, h4, h5, h6, h7, h8, h9⟩ := hb
  have hk : m'.sortedChilds = m.sortedChilds := by rw [Model.sortedChilds, Model.sortedChilds, thinned_keys hr.childs]
  have e1 : m'.rootRelationships = m.rootRelationships := by obtain ⟨_, _, _, e⟩ := hr.rest; rw [e]
  have e2 : m'.relationships = m.relationships := by obtain ⟨_, _, _, e⟩ := hr.rest; rw [e]
  have e3 : m'.metadata = m.metadata := by obtain ⟨_, _, _, e⟩ := hr.rest; rw [e]
  refine ⟨?_, ?_, ?_, ?_, ?_, ?_, ?_, extModel_thin h env h8, build_thin h hx h9⟩
  · rw [childsErrs, mapM_flatten_nil_iff] at h1 ⊢
    intro p hp
    have h10 := h1 p (hk ▸ hp)
    rcases lookupChild_thin hr.childs p with ⟨k1, k2⟩ | ⟨c, c', k1, k2, k3, k4, k5⟩
    · rw [k2]
    · rw [k1] at h10
      rw [k2]
      simp only [Option.map_eq_some_iff, List.map_eq_nil_iff] at h10 ⊢
      obtain ⟨es, h10, rfl⟩ := h10
      refine ⟨[], resources_thin h hx env fuel (.child k5) ?_ k3.resources (hd _ (.inr ⟨_, k4, rfl⟩)) h10, rfl⟩
      have k6 := accepted_child h5 (List.mem_map_of_mem (f := (·.1)) k4) k1
      rw [← h.root, Model.pathOrDefault] at k6
      rw [Model.findResources, if_neg, k2]
      rintro (k7 | k7 | ⟨k7, k8⟩)
      · exact hc _ k4 k7
      · by_cases k8 : m'.path = []
        · exact hc _ k4 (k7.trans k8)
        · simp [k8] at k6; exact k6 k7
      · simp [k7] at k6; exact k6 k8
  · rw [h.root]
    have k1 : IsPart m' m'.pathOrDefault m'.resources := by
      rw [Model.pathOrDefault]
      exact .root
    rw [h.root] at k1
    refine resources_thin h hx env fuel k1 ?_ hr.resources (hd _ (.inl rfl)) h2
    rw [← h.root, Model.pathOrDefault, Model.findResources, if_pos]
    by_cases k2 : m'.path = []
    · rw [if_pos k2]; exact .inr (.inr ⟨k2, rfl⟩)
    · rw [if_neg k2]; exact .inr (.inl rfl)
  · rw [validateRelationship_att h.attachments, e1]; exact h3
  · rw [Model.validateNamespaces, h.extensions]; exact h4
  · rw [childRelErrs, List.flatMap_eq_nil_iff] at h5 ⊢
    intro p hp
    have h10 := h5 p (hk ▸ hp)
    rcases lookupChild_thin hr.childs p with ⟨k1, k2⟩ | ⟨c, c', k1, k2, k3, k4, _⟩
    · rw [k2]
    · rw [k1] at h10
      rw [k2]
      have e : c'.relationships = c.relationships := k3.relationships
      simp only [h.root, validateRelationship_att h.attachments, e]
      exact h10
  · rw [validateRelationship_att h.attachments, e2, h.root]; exact h6
  · rw [checkMetadata_exts h.extensions, e3]; exact h7

end

end Go3mf
