import Verif.Model.Validate
import Verif.Spec.Additions

/-!
# Additions to a model and its validation
-/

namespace Go3mf
open Spec

/-! ## Lists of errors -/

theorem mem_errsIdx_iff {α : Type} (f : Nat → α → List Err) (l : List α) (e : Err) :
    e ∈ errsIdx f l ↔ ∃ k x, l[k]? = some x ∧ e ∈ f k x := by
  simp only [errsIdx, List.mem_flatten, List.mem_mapIdx]
  constructor
  · rintro ⟨xs, ⟨i, hi, rfl⟩, h⟩
    exact ⟨i, l[i], List.getElem?_eq_getElem hi, h⟩
  · rintro ⟨k, x, h1, h2⟩
    obtain ⟨hk, rfl⟩ := List.getElem?_eq_some_iff.1 h1
    exact ⟨_, ⟨k, hk, rfl⟩, h2⟩

theorem errsIdx_nil_of {α : Type} {f g : Nat → α → List Err} {l : List α} (h : ∀ k, ∀ x ∈ l, f k x = [] → g k x = [])
    (hf : errsIdx f l = []) : errsIdx g l = [] := by
  rw [List.eq_nil_iff_forall_not_mem] at hf ⊢
  intro e he
  obtain ⟨k, x, h1, h2⟩ := (mem_errsIdx_iff g l e).1 he
  have h3 : f k x = [] := by
    rw [List.eq_nil_iff_forall_not_mem]
    intro e' he'
    exact hf e' ((mem_errsIdx_iff f l e').2 ⟨k, x, h1, he'⟩)
  rw [h k x (List.mem_of_getElem? h1) h3] at h2
  cases h2

/-- The errors of a longer list are those of the additions, if there were none. -/
theorem mem_errsIdx_append {α : Type} {f g : Nat → α → List Err} {l l' : List α} (h : ∀ k, ∀ x ∈ l, f k x = [] → g k x = [])
    (hf : errsIdx f l = []) {e : Err} (he : e ∈ errsIdx g (l ++ l')) : ∃ k x, l'[k]? = some x ∧ e ∈ g (l.length + k) x := by
  obtain ⟨k, x, h1, h2⟩ := (mem_errsIdx_iff g _ e).1 he
  rw [List.getElem?_append] at h1
  split at h1
  · exact absurd ((mem_errsIdx_iff g l e).2 ⟨k, x, h1, h2⟩) (by rw [errsIdx_nil_of h hf]; simp)
  · next hk => exact ⟨k - l.length, x, h1, by rwa [show l.length + (k - l.length) = k by omega]⟩

theorem findObjectIn_append {os : List Object} {id : UInt32} {o : Object} (h : findObjectIn os id = some o) (os' : List Object) :
    findObjectIn (os ++ os') id = some o := by
  induction os with
  | nil => cases h
  | cons x os ih =>
    rw [List.cons_append, findObjectIn]
    rw [findObjectIn] at h
    split
    · next h1 => rwa [if_pos h1] at h
    · next h1 => rw [if_neg h1] at h; exact ih h

theorem findAssetIn_append {as : List Asset} {id : UInt32} {a : Asset} (h : findAssetIn as id = some a) (as' : List Asset) :
    findAssetIn (as ++ as') id = some a := by
  induction as with
  | nil => cases h
  | cons x as ih =>
    rw [List.cons_append, findAssetIn]
    rw [findAssetIn] at h
    split
    · next h1 => rwa [if_pos h1] at h
    · next h1 => rw [if_neg h1] at h; exact ih h

/-! ## Lookups -/

section
variable {m : Model} {A : List Asset} {O : List Object} {I : List Item}

/-- The resources of a part have become more. -/
theorem findResources_grow (p : Str) : ∃ A' O', (growModel m A O I).findResources p = (m.findResources p).map fun rs =>
    { rs with
      assets := rs.assets ++ A'
      objects := rs.objects ++ O' } := by
  rw [Model.findResources, Model.findResources]
  by_cases hp : p = [] ∨ p = m.path ∨ (m.path = [] ∧ p = defaultModelPath)
  · refine ⟨A, O, ?_⟩
    rw [if_pos hp, if_pos (show p = [] ∨ p = (growModel m A O I).path ∨ ((growModel m A O I).path = [] ∧ p = defaultModelPath) from hp)]
    rfl
  · refine ⟨[], [], ?_⟩
    rw [if_neg hp, if_neg (show ¬ (p = [] ∨ p = (growModel m A O I).path ∨ ((growModel m A O I).path = [] ∧ p = defaultModelPath)) from hp)]
    simp only [growModel, List.append_nil]
    cases lookupChild m.childs p <;> rfl

theorem findObject_grow {p : Str} {id : UInt32} {o : Object} (h : m.findObject p id = some o) :
    (growModel m A O I).findObject p id = some o := by
  obtain ⟨A', O', e⟩ := findResources_grow (m := m) (A := A) (O := O) (I := I) p
  rw [Model.findObject] at h ⊢
  rw [e]
  cases hr : m.findResources p with
  | none => simp [hr] at h
  | some rs =>
    simp only [hr] at h
    exact findObjectIn_append h O'

theorem findAsset_grow {p : Str} {id : UInt32} {a : Asset} (h : m.findAsset p id = some a) :
    (growModel m A O I).findAsset p id = some a := by
  obtain ⟨A', O', e⟩ := findResources_grow (m := m) (A := A) (O := O) (I := I) p
  rw [Model.findAsset] at h ⊢
  rw [e]
  cases hr : m.findResources p with
  | none => simp [hr] at h
  | some rs =>
    simp only [hr] at h
    exact findAssetIn_append h A'

theorem resAsset_grow {p : Str} {id : UInt32} {a : Asset} (h : ((m.findResources p).getD .zero).findAsset id = some a) :
    (((growModel m A O I).findResources p).getD .zero).findAsset id = some a := by
  obtain ⟨A', O', e⟩ := findResources_grow (m := m) (A := A) (O := O) (I := I) p
  rw [e]
  cases hr : m.findResources p with
  | none => simpa [hr] using h
  | some rs =>
    simp only [hr] at h
    exact findAssetIn_append h A'

/-! ## Core -/

theorem metadata_grow (xs : List Metadata) : checkMetadata (growModel m A O I) xs = checkMetadata m xs := by
  have : ∀ xs k seen, metadataErrs (growModel m A O I) k seen xs = metadataErrs m k seen xs := by
    intro xs
    induction xs with
    | nil => intro k seen; simp only [metadataErrs]
    | cons x xs ih => intro k seen; simp only [metadataErrs, ih]; rfl
  exact this xs 0 []

theorem item_grow {i : Item} (h : i.validate m = []) : i.validate (growModel m A O I) = [] := by
  rw [Item.validate, List.append_eq_nil_iff] at h ⊢
  refine ⟨?_, by rw [metadata_grow]; exact h.2⟩
  have h := h.1
  split
  · next h1 => rwa [if_pos h1] at h
  · next h1 =>
    rw [if_neg h1] at h
    cases ho : m.findObject i.objectPath i.objectID with
    | none => simp [ho] at h
    | some o =>
      rw [findObject_grow ho]
      simpa [ho] using h

theorem triangle_grow (p : Str) (o : Object) (n : UInt32) (i : Nat) (t : Triangle)
    (h : t.validate ((m.findResources p).getD .zero) o n i = []) :
    t.validate (((growModel m A O I).findResources p).getD .zero) o n i = [] := by
  rw [Triangle.validate, List.append_eq_nil_iff] at h ⊢
  refine ⟨h.1, ?_⟩
  have h := h.2
  split
  · rfl
  · next h1 =>
    rw [if_neg h1] at h
    split
    · rfl
    · next h2 =>
      rw [if_neg h2] at h
      cases ho : ((m.findResources p).getD .zero).findAsset t.pid with
      | none => simp [ho] at h
      | some a =>
        rw [resAsset_grow ho]
        simpa [ho] using h

theorem core_grow (p : Str) (o : Object) (h : o.validateCore m p = []) : o.validateCore (growModel m A O I) p = [] := by
  simp only [Object.validateCore, List.append_eq_nil_iff] at h ⊢
  obtain ⟨⟨⟨⟨h1, h2⟩, h3⟩, h4⟩, h5⟩ := h
  refine ⟨⟨⟨⟨h1, h2⟩, h3⟩, ?_⟩, ?_⟩
  · cases hm : o.mesh with
    | none => rfl
    | some x =>
      simp only [hm, List.append_eq_nil_iff, List.map_eq_nil_iff, Object.validateMesh] at h4 ⊢
      refine ⟨?_, h4.2.1, errsIdx_nil_of (fun k t _ => triangle_grow p o _ k t) h4.2.2⟩
      have h := h4.1
      split
      · next h6 =>
        rw [if_pos h6] at h
        cases ho : ((m.findResources p).getD .zero).findAsset o.pid with
        | none => simp [ho] at h
        | some a =>
          rw [resAsset_grow ho]
          simpa [ho] using h
      · rfl
  · cases hc : o.components with
    | none => rfl
    | some cs =>
      simp only [hc] at h5 ⊢
      split
      · next h6 =>
        rw [if_pos h6, List.append_eq_nil_iff] at h5
        rw [List.append_eq_nil_iff]
        refine ⟨h5.1, ?_⟩
        have h := h5.2
        rw [Object.validateComponents, List.map_eq_nil_iff] at h ⊢
        refine errsIdx_nil_of (fun k c _ h => ?_) h
        split
        · next h7 => rwa [if_pos h7] at h
        · next h7 =>
          rw [if_neg h7] at h
          cases ho : m.findObject (c.objectPath p) c.objectID with
          | none => simp [ho] at h
          | some r =>
            rw [findObject_grow ho]
            simpa [ho] using h
      · rfl

/-! ## Extensions -/

theorem multiLayers_grow (p : Str) : ∀ (ids : List UInt32) (i c : Nat), (multiLayers m p i c false ids).1 = [] →
    multiLayers (growModel m A O I) p i c false ids = multiLayers m p i c false ids
  | [], _, _, _ => by simp only [multiLayers]
  | id :: ids, i, c, h => by
    rw [multiLayers] at h ⊢
    rw [multiLayers]
    cases ho : m.findAsset p id with
    | none => simp [ho] at h
    | some a =>
      rw [findAsset_grow ho]
      rw [ho] at h
      cases a with
      | base r =>
        simp only [List.append_eq_nil_iff] at h ⊢
        rw [multiLayers_grow p ids _ _ h.2]
      | unknown id ts =>
        simp only at h ⊢
        rw [multiLayers_grow p ids _ _ h]
      | res r =>
        cases r with
        | multi r => simp at h
        | composite r =>
          simp only [List.append_eq_nil_iff] at h ⊢
          rw [multiLayers_grow p ids _ _ h.2]
        | colorGroup r =>
          simp only [List.append_eq_nil_iff] at h ⊢
          rw [multiLayers_grow p ids _ _ h.2]
        | _ =>
          simp only at h ⊢
          rw [multiLayers_grow p ids _ _ h]

theorem materials_grow (env : Env) (p : Str) (a : Asset) (h : materialsValidateAsset env m p a = []) :
    materialsValidateAsset env (growModel m A O I) p a = [] := by
  cases a with
  | base r => rfl
  | unknown id ts => rfl
  | res r =>
    cases r with
    | colorGroup r => exact h
    | texture2D r => exact h
    | texture2DGroup r =>
      simp only [materialsValidateAsset, Texture2DGroup.validate, List.append_eq_nil_iff] at h ⊢
      refine ⟨⟨h.1.1, ?_⟩, h.2⟩
      have h := h.1.2
      split
      · next h1 => rwa [if_pos h1] at h
      · next h1 =>
        rw [if_neg h1] at h
        cases ho : m.findAsset p r.textureID with
        | none => simp [ho] at h
        | some a =>
          rw [findAsset_grow ho]
          rwa [ho] at h
    | composite r =>
      simp only [materialsValidateAsset, CompositeMaterials.validate, List.append_eq_nil_iff] at h ⊢
      refine ⟨⟨⟨h.1.1.1, ?_⟩, h.1.2⟩, h.2⟩
      have h := h.1.1.2
      split
      · next h1 => rwa [if_pos h1] at h
      · next h1 =>
        rw [if_neg h1] at h
        cases ho : m.findAsset p r.materialID with
        | none => simp [ho] at h
        | some a =>
          rw [findAsset_grow ho]
          rwa [ho] at h
    | multi r =>
      simp only [materialsValidateAsset, MultiProperties.validate, List.append_eq_nil_iff] at h ⊢
      rw [multiLayers_grow p _ _ _ h.1.2]
      exact h
    | sliceStack r => rfl

theorem refMesh_append (a b : UInt32) (os' : List Object) : ∀ os : List Object, (∃ o ∈ os, o.id = b) →
    refMeshErrs a b (os ++ os') = refMeshErrs a b os
  | [], h => by simp at h
  | o :: os, h => by
    rw [List.cons_append, refMeshErrs, refMeshErrs]
    by_cases h1 : o.id = b
    · rw [if_pos h1, if_pos h1]
    · rw [if_neg h1, if_neg h1]
      by_cases h2 : o.id = a
      · rw [if_pos h2, if_pos h2]
      · rw [if_neg h2, if_neg h2]
        refine refMesh_append a b os' os ?_
        obtain ⟨x, hx, e⟩ := h
        rcases List.mem_cons.1 hx with rfl | hx
        · exact absurd e h1
        · exact ⟨x, hx, e⟩

theorem validateRefMesh_grow {p : Str} {rs : Resources} (hr : m.findResources p = some rs) {o : Object} (ho : o ∈ rs.objects) (a : UInt32) :
    validateRefMesh (growModel m A O I) p a o.id = validateRefMesh m p a o.id := by
  obtain ⟨A', O', e⟩ := findResources_grow (m := m) (A := A) (O := O) (I := I) p
  rw [validateRefMesh, validateRefMesh, e, hr]
  simp only [Option.map_some, refMesh_append a o.id O' rs.objects ⟨o, ho, rfl⟩]

theorem beam_grow {p : Str} {rs : Resources} (hr : m.findResources p = some rs) {o : Object} (ho : o ∈ rs.objects) :
    beamValidateObject (growModel m A O I) p o = beamValidateObject m p o := by
  simp only [beamValidateObject, validateRefMesh_grow hr ho]

/-! ## Parts -/

variable (env : Env) (hs : ∀ e ∈ m.extensions, env.load e.ns ≠ some .slices)

include hs

/-- Without slices the validators of objects return. -/
theorem extObjectErrs_some (M : Model) (he : M.extensions = m.extensions) (fuel : Nat) (p : Str) (o : Object) :
    extObjectErrs env M fuel p o = some (m.extensions.flatMap fun e =>
      match env.load e.ns with
      | some .production => prodValidateObject M p o
      | some .beamlattice => beamValidateObject M p o
      | _ => []) := by
  rw [extObjectErrs, he]
  clear he
  generalize m.extensions = es at hs
  induction es with
  | nil => rfl
  | cons x es ih =>
    have ih := ih (fun e he => hs e (List.mem_cons_of_mem _ he))
    have hx := hs x (List.mem_cons_self ..)
    rw [Option.map_eq_some_iff] at ih
    obtain ⟨ys, h1, h2⟩ := ih
    simp only [List.mapM_cons, h1, List.flatMap_cons, ← h2]
    cases hl : env.load x.ns with
    | none => rfl
    | some k => cases k <;> first | rfl | exact absurd hl hx

theorem object_grow {p : Str} {rs : Resources} (hr : m.findResources p = some rs) {o : Object} (ho : o ∈ rs.objects) {k : Nat}
    (h : o.validate env m k p = some []) (fuel : Nat) : o.validate env (growModel m A O I) fuel p = some [] := by
  rw [Object.validate, extObjectErrs_some env hs m rfl, Option.map_some, Option.some.injEq, List.append_eq_nil_iff] at h
  rw [Object.validate, extObjectErrs_some env hs (growModel m A O I) rfl, Option.map_some, Option.some.injEq, List.append_eq_nil_iff]
  refine ⟨core_grow p o h.1, ?_⟩
  simp only [beam_grow hr ho]
  exact h.2

theorem objectsErrs_grow {p : Str} {rs : Resources} (hr : m.findResources p = some rs) {k : Nat} (fuel : Nat) :
    ∀ (os : List Object), (∀ o ∈ os, o ∈ rs.objects) → ∀ (i : Nat) (seen seen' : List UInt32), (∀ x ∈ os, x.id ∈ seen' → x.id ∈ seen) →
    (∀ x, x ∈ seen → x ∈ seen') → objectsErrs env m k p i seen os = some [] →
    objectsErrs env (growModel m A O I) fuel p i seen' os = some []
  | [], _, _, _, _, _, _, _ => by simp only [objectsErrs]
  | o :: os, hos, i, seen, seen', h1, h2, h => by
    rw [objectsErrs] at h ⊢
    cases h3 : o.validate env m k p with
    | none => simp [h3] at h
    | some e =>
      cases h4 : objectsErrs env m k p (i + 1) (o.id :: seen) os with
      | none => simp [h3, h4] at h
      | some es =>
        simp only [h3, h4, Option.some.injEq, List.append_eq_nil_iff, List.map_eq_nil_iff] at h
        obtain ⟨⟨h5, rfl⟩, rfl⟩ := h
        rw [object_grow env hs hr (hos o (List.mem_cons_self ..)) h3 fuel,
          objectsErrs_grow hr fuel os (fun x hx => hos x (List.mem_cons_of_mem _ hx)) (i + 1) (o.id :: seen) (o.id :: seen') ?_ ?_ h4]
        · simp only [List.map_nil, List.append_nil, Option.some.injEq]
          split
          · next h6 =>
            rw [if_pos ⟨h6.1, h1 o (List.mem_cons_self ..) h6.2⟩] at h5
            cases h5
          · rfl
        · intro x hx h6
          rcases List.mem_cons.1 h6 with h6 | h6
          · rw [h6]; exact List.mem_cons_self ..
          · exact List.mem_cons_of_mem _ (h1 x (List.mem_cons_of_mem _ hx) h6)
        · intro x h6
          rcases List.mem_cons.1 h6 with rfl | h6
          · exact List.mem_cons_self ..
          · exact List.mem_cons_of_mem _ (h2 x h6)

theorem extAssetErrs_grow (p : Str) (a : Asset) (h : extAssetErrs env m p a = []) : extAssetErrs env (growModel m A O I) p a = [] := by
  unfold extAssetErrs at h ⊢
  rw [List.flatMap_eq_nil_iff] at h ⊢
  intro e he
  have h1 := h e he
  have h2 := hs e he
  cases hl : env.load e.ns with
  | none => rfl
  | some k =>
    cases k with
    | materials => simp only [hl] at h1 ⊢; exact materials_grow env p a h1
    | slices => exact absurd hl h2
    | _ => rfl

theorem assetsErrs_grow (p : Str) : ∀ (as : List Asset) (i : Nat) (seen : List UInt32), assetsErrs env m p i seen as = [] →
    assetsErrs env (growModel m A O I) p i seen as = []
  | [], _, _, _ => by simp only [assetsErrs]
  | a :: as, i, seen, h => by
    simp only [assetsErrs, List.append_eq_nil_iff, List.map_eq_nil_iff] at h ⊢
    exact ⟨⟨h.1.1, extAssetErrs_grow env hs p a h.1.2⟩, assetsErrs_grow p as _ _ h.2⟩

omit hs in
theorem assetsErrs_append (M : Model) (p : Str) (as' : List Asset) : ∀ (as : List Asset) (i : Nat) (seen : List UInt32),
    assetsErrs env M p i seen (as ++ as') = assetsErrs env M p i seen as ++
      assetsErrs env M p (i + as.length) ((as.map Asset.identify).reverse ++ seen) as'
  | [], _, _ => by simp [assetsErrs]
  | a :: as, i, seen => by
    simp only [List.cons_append, assetsErrs, assetsErrs_append M p as' as (i + 1), List.append_assoc, List.length_cons, List.map_cons,
      List.reverse_cons, List.nil_append]
    rw [show i + 1 + as.length = i + (as.length + 1) by omega]

omit hs in
theorem mem_assetsErrs (M : Model) (p : Str) : ∀ (as : List Asset) (i : Nat) (seen : List UInt32) (e : Err),
    e ∈ assetsErrs env M p i seen as → ∃ k a e', as[k]? = some a ∧ e = wrapIndex a.xmlLocal (i + k : Nat) e'
  | [], _, _, _, h => by simp [assetsErrs] at h
  | a :: as, i, seen, e, h => by
    rw [assetsErrs, List.mem_append, List.mem_map] at h
    rcases h with ⟨e', _, rfl⟩ | h
    · exact ⟨0, a, e', rfl, rfl⟩
    · obtain ⟨k, b, e', h1, h2⟩ := mem_assetsErrs M p as (i + 1) _ e h
      exact ⟨k + 1, b, e', h1, by rw [h2, show i + 1 + k = i + (k + 1) by omega]⟩

omit hs in
theorem objectsErrs_append (M : Model) (fuel : Nat) (p : Str) (os' : List Object) : ∀ (os : List Object) (i : Nat) (seen : List UInt32),
    objectsErrs env M fuel p i seen (os ++ os') =
      match objectsErrs env M fuel p i seen os, objectsErrs env M fuel p (i + os.length) ((os.map (·.id)).reverse ++ seen) os' with
      | some a, some b => some (a ++ b)
      | _, _ => none
  | [], i, seen => by
    simp only [List.nil_append, objectsErrs, List.length_nil, Nat.add_zero, List.map_nil, List.reverse_nil]
    cases objectsErrs env M fuel p i seen os' <;> rfl
  | o :: os, i, seen => by
    simp only [List.cons_append, objectsErrs, objectsErrs_append M fuel p os' os (i + 1), List.length_cons, List.map_cons,
      List.reverse_cons, List.append_assoc, List.nil_append]
    rw [show i + 1 + os.length = i + (os.length + 1) by omega]
    cases o.validate env M fuel p with
    | none => rfl
    | some a =>
      cases objectsErrs env M fuel p (i + 1) (o.id :: seen) os with
      | none => rfl
      | some b =>
        cases objectsErrs env M fuel p (i + (os.length + 1)) ((os.map (·.id)).reverse ++ o.id :: seen) os' with
        | none => rfl
        | some c => simp only [List.append_assoc]

omit hs in
theorem mem_objectsErrs (M : Model) (fuel : Nat) (p : Str) : ∀ (os : List Object) (i : Nat) (seen : List UInt32) (es : List Err),
    objectsErrs env M fuel p i seen os = some es → ∀ e ∈ es, ∃ k e', k < os.length ∧ e = wrapIndex b!"object" (i + k : Nat) e'
  | [], _, _, es, h, e, he => by
    rw [objectsErrs] at h
    cases h
    cases he
  | o :: os, i, seen, es, h, e, he => by
    rw [objectsErrs] at h
    cases h3 : o.validate env M fuel p with
    | none => simp [h3] at h
    | some x =>
      cases h4 : objectsErrs env M fuel p (i + 1) (o.id :: seen) os with
      | none => simp [h3, h4] at h
      | some xs =>
        simp only [h3, h4, Option.some.injEq] at h
        subst h
        rcases List.mem_append.1 he with he | he
        · rcases List.mem_append.1 he with he | he
          · split at he
            · exact ⟨0, .of .duplicatedID, by simp, by simpa using he⟩
            · cases he
          · obtain ⟨e', _, rfl⟩ := List.mem_map.1 he
            exact ⟨0, e', by simp, rfl⟩
        · obtain ⟨k, e', h5, h6⟩ := mem_objectsErrs M fuel p os (i + 1) _ xs h4 e he
          exact ⟨k + 1, e', by simpa using h5, by rw [h6, show i + 1 + k = i + (k + 1) by omega]⟩

/-! ## Together -/

theorem validate_grow (hc : lookupChild m.childs [] = none) (ha : ∀ a ∈ A, ∀ o ∈ m.resources.objects, a.identify ≠ o.id)
    (hm : m.Accepts env) {errs : List Err} (h : (growModel m A O I).Validate env errs) : ∀ e ∈ errs, InAddition m A O I e := by
  obtain ⟨k, hk⟩ := hm
  obtain ⟨fuel, h⟩ := h
  rw [Model.validateFuel] at hk h
  cases h1 : childsErrs env m k m.sortedChilds with
  | none => simp [h1] at hk
  | some ce =>
  cases h2 : m.resources.validate env m k m.pathOrDefault with
  | none => simp [h1, h2] at hk
  | some re =>
  simp only [h1, h2, Option.some.injEq, List.map_eq_nil_iff, List.append_eq_nil_iff] at hk
  obtain ⟨⟨⟨⟨⟨⟨⟨⟨a1, a2⟩, a3⟩, a4⟩, a5⟩, a6⟩, rfl⟩, rfl⟩, a9⟩ := hk
  have e1 : (growModel m A O I).sortedChilds = m.sortedChilds := rfl
  have e2 : (growModel m A O I).pathOrDefault = m.pathOrDefault := rfl
  have e3 : (growModel m A O I).validateNamespaces env = m.validateNamespaces env := rfl
  have e5 : ∀ rs q, validateRelationship env (growModel m A O I) rs q = validateRelationship env m rs q := by
    intro rs q
    have : ∀ rs i v t, relationshipErrs env (growModel m A O I) i v t rs = relationshipErrs env m i v t rs := by
      intro rs
      induction rs with
      | nil => intro i v t; simp only [relationshipErrs]
      | cons r rs ih => intro i v t; simp only [relationshipErrs, ih]; rfl
    simp only [validateRelationship, this]
  have e6 : childRelErrs env (growModel m A O I) m.sortedChilds = [] := by
    rw [← a3]
    simp only [childRelErrs, e2, e5]
    rfl
  have hroot : m.findResources m.pathOrDefault = some m.resources := by
    rw [Model.findResources, if_pos]
    rw [Model.pathOrDefault]
    split
    · next e => exact .inr (.inr ⟨e, rfl⟩)
    · exact .inr (.inl rfl)
  have e7 : childsErrs env (growModel m A O I) fuel m.sortedChilds = some [] := by
    have hne : ∀ q ∈ m.sortedChilds, ∀ c, lookupChild m.childs q = some c → m.findResources q = some c.resources := by
      intro q hq c hl
      rw [Model.findResources, if_neg, hl]
      rintro (rfl | rfl | ⟨h3, rfl⟩)
      · rw [hc] at hl; cases hl
      · rw [childRelErrs, List.flatMap_eq_nil_iff] at a3
        have := a3 m.path hq
        by_cases h4 : m.path = []
        · rw [h4, hc] at hl; cases hl
        · simp only [hl, Model.pathOrDefault, if_neg h4, if_true] at this
          cases this
      · rw [childRelErrs, List.flatMap_eq_nil_iff] at a3
        have := a3 _ hq
        simp only [hl, Model.pathOrDefault, if_pos h3, if_true] at this
        cases this
    clear h a3 e6
    rw [childsErrs, Option.map_eq_some_iff] at h1
    rw [childsErrs]
    obtain ⟨xs, h3, h4⟩ := h1
    generalize m.sortedChilds = ps at h3 hne
    induction ps generalizing xs with
    | nil => rfl
    | cons q ps ih =>
      simp only [List.mapM_cons, Option.bind_eq_bind, Option.bind_eq_some_iff, Option.pure_def, Option.some.injEq] at h3
      obtain ⟨y, h5, ys, h6, rfl⟩ := h3
      rw [List.flatten_cons, List.append_eq_nil_iff] at h4
      have ih := ih ys h4.2 h6 (fun q hq => hne q (List.mem_cons_of_mem _ hq))
      obtain ⟨rfl, h4⟩ := h4
      rw [Option.map_eq_some_iff] at ih
      obtain ⟨zs, h7, h8⟩ := ih
      simp only [List.mapM_cons, h7]
      have hq := hne q (List.mem_cons_self ..)
      have el : lookupChild (growModel m A O I).childs q = lookupChild m.childs q := rfl
      rw [el]
      cases hl : lookupChild m.childs q with
      | none => simp [h8]
      | some c =>
        simp only [hl, Option.map_eq_some_iff, List.map_eq_nil_iff] at h5
        obtain ⟨w, h9, rfl⟩ := h5
        rw [Resources.validate, Option.map_eq_some_iff] at h9
        obtain ⟨v, h9, h10⟩ := h9
        rw [List.append_eq_nil_iff] at h10
        obtain ⟨h10, rfl⟩ := h10
        simp only [Resources.validate, assetsErrs_grow env hs q _ _ _ h10,
          objectsErrs_grow env hs (hq c hl) fuel c.resources.objects (fun _ h => h) 0 _ _ (fun _ _ h => h) (fun _ h => h) h9,
          Option.map_some, List.nil_append, List.map_nil]
        simp [h8]
  rw [e1, e2, e7] at h
  cases h3 : (growModel m A O I).resources.validate env (growModel m A O I) fuel m.pathOrDefault with
  | none => simp [h3] at h
  | some re =>
  simp only [h3, e3, e5, e6, metadata_grow] at h
  rw [show (growModel m A O I).rootRelationships = m.rootRelationships from rfl, a1, a2,
    show (growModel m A O I).relationships = m.relationships from rfl, a4,
    show (growModel m A O I).metadata = m.metadata from rfl, a5] at h
  simp only [List.nil_append, List.append_nil, Option.some.injEq] at h
  subst h
  intro e0 he0
  obtain ⟨e, he, rfl⟩ := List.mem_map.1 he0
  clear he0
  rcases List.mem_append.1 he with he | he
  · rcases List.mem_append.1 he with he | he
    · rw [extModelErrs, List.mem_flatMap] at he
      obtain ⟨x, hx, he⟩ := he
      rw [extModelErrs, List.flatMap_eq_nil_iff] at a6
      have ha6 := a6 x hx
      cases hl : env.load x.ns with
      | none => simp [hl] at he
      | some kd =>
        cases kd with
        | production =>
          simp only [hl] at he ha6
          rw [prodValidateModel, List.append_eq_nil_iff] at ha6
          rw [prodValidateModel, List.mem_append] at he
          rcases he with he | he
          · have := ha6.1
            rw [show (growModel m A O I).build.anyAttr = m.build.anyAttr from rfl, this] at he
            cases he
          · obtain ⟨j, it, h4, h5⟩ := mem_errsIdx_append (fun _ _ _ h => h) ha6.2 he
            obtain ⟨e', _, rfl⟩ := List.mem_map.1 h5
            exact .item j e' (List.getElem?_eq_some_iff.1 h4).1
        | _ => simp [hl] at he
    · obtain ⟨e', he1, rfl⟩ := List.mem_map.1 he
      rw [Resources.validate, Option.map_eq_some_iff] at h2 h3
      obtain ⟨v, h2, h4⟩ := h2
      obtain ⟨w, h3, rfl⟩ := h3
      rw [List.append_eq_nil_iff] at h4
      obtain ⟨h4, rfl⟩ := h4
      rcases List.mem_append.1 he1 with he1 | he1
      · rw [show (growModel m A O I).resources.assets = m.resources.assets ++ A from rfl, assetsErrs_append,
          assetsErrs_grow env hs _ _ _ _ h4, List.nil_append, Nat.zero_add] at he1
        obtain ⟨j, a, e2, h5, rfl⟩ := mem_assetsErrs env _ _ _ _ _ e' he1
        exact .asset j a e2 h5
      · rw [show (growModel m A O I).resources.objects = m.resources.objects ++ O from rfl, objectsErrs_append,
          objectsErrs_grow env hs hroot fuel m.resources.objects (fun _ h => h) 0 (m.resources.assets.map Asset.identify) _ ?_ ?_ h2] at h3
        · cases h5 : objectsErrs env (growModel m A O I) fuel m.pathOrDefault (0 + m.resources.objects.length)
              ((m.resources.objects.map (·.id)).reverse ++ (growModel m A O I).resources.assets.map Asset.identify) O with
          | none => rw [h5] at h3; cases h3
          | some ys =>
            simp only [h5, List.nil_append, Option.some.injEq] at h3
            subst h3
            obtain ⟨j, e2, h6, rfl⟩ := mem_objectsErrs env _ _ _ _ _ _ _ h5 e' he1
            rw [Nat.zero_add]
            exact .object j e2 h6
        · intro x hx h5
          rw [show (growModel m A O I).resources.assets = m.resources.assets ++ A from rfl, List.map_append, List.mem_append] at h5
          rcases h5 with h5 | h5
          · exact h5
          · obtain ⟨a, h6, h7⟩ := List.mem_map.1 h5
            exact absurd h7 (ha a h6 x hx)
        · intro x h5
          rw [show (growModel m A O I).resources.assets = m.resources.assets ++ A from rfl, List.map_append, List.mem_append]
          exact .inl h5
  · obtain ⟨e', he1, rfl⟩ := List.mem_map.1 he
    rw [Build.validate] at a9 he1
    obtain ⟨j, it, h4, h5⟩ := mem_errsIdx_append (g := fun i (it : Item) => (it.validate (growModel m A O I)).map (wrapIndex b!"item" i))
      (fun _ _ _ h => by rw [List.map_eq_nil_iff] at h ⊢; exact item_grow h) a9 he1
    obtain ⟨e2, _, rfl⟩ := List.mem_map.1 h5
    exact .item j e2 (List.getElem?_eq_some_iff.1 h4).1

end

end Go3mf
