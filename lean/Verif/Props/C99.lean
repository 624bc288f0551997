import Verif.Lemmas.Thin
import Verif.Props.C98

/-!
# C99: what nothing refers to can be removed

A program drops items from the build, and objects and assets that are not used any more.  If the model was valid and nothing that is left
refers to what was removed, then the model is still valid.
-/

namespace Go3mf
open Spec

/-- **C99**: an accepted model is accepted after removals from any of its parts, if nothing that is left refers to what was removed, every
asset has a number and no child part has the empty path. -/
theorem C99_accepts (env : Env) {m m' : Model} (hwf : m.WF) (hn : AssetsNumbered m) (hc : ∀ c ∈ m.childs, c.1 ≠ []) (h : Thinned m m')
    (hx : NothingMissed m m') (ha : m.Accepts env) : m'.Accepts env :=
  accepts_thin (accepted_distinct hwf hn ha) h hc hx ha

/-- **C99**: what is found after removals was found before. -/
theorem C99_found {m m' : Model} (hd : IdsDistinct m) (h : Thinned m m') :
    (∀ p id o, m'.findObject p id = some o → m.findObject p id = some o) ∧
    (∀ p id a, m'.findAsset p id = some a → m.findAsset p id = some a) :=
  ⟨fun _ _ _ => (h.fewer hd).object, fun _ _ _ => (h.fewer hd).asset⟩

theorem childThinned_refl (cs : List (Str × ChildModel)) : List.Forall₂ ChildThinned cs cs := by
  induction cs with
  | nil => exact .nil
  | cons c cs ih => exact .cons ⟨rfl, ⟨.refl _, .refl _⟩, rfl⟩ ih

/-- **C99**: items can always be removed. -/
theorem C99_items (env : Env) {m : Model} (hwf : m.WF) (hn : AssetsNumbered m) (hc : ∀ c ∈ m.childs, c.1 ≠ []) (its : List Item)
    (h : its.Sublist m.build.items) (ha : m.Accepts env) : ({ m with build := { m.build with items := its } } : Model).Accepts env :=
  C99_accepts env hwf hn hc ⟨⟨.refl _, .refl _⟩, h, childThinned_refl _, ⟨_, _, _, rfl⟩⟩ ⟨fun _ _ _ => rfl, fun _ _ _ => rfl⟩ ha

/-- The model without the objects of the root part that have the number `n`. -/
def Spec.dropObject (m : Model) (n : UInt32) : Model :=
  { m with resources := { m.resources with objects := m.resources.objects.filter (·.id ≠ n) } }

/-- The model without the assets of the root part that have the number `n`. -/
def Spec.dropAsset (m : Model) (n : UInt32) : Model :=
  { m with resources := { m.resources with assets := m.resources.assets.filter (·.identify ≠ n) } }

theorem findObjectIn_filter {n id : UInt32} (h : id ≠ n) (os : List Object) :
    findObjectIn (os.filter (·.id ≠ n)) id = findObjectIn os id := by
  induction os with
  | nil => rfl
  | cons o os ih =>
    rw [List.filter_cons]
    by_cases h1 : o.id = n
    · rw [if_neg (by simpa using h1), ih, findObjectIn, if_neg (by rw [h1]; simpa using h.symm)]
    · rw [if_pos (by simpa using h1), findObjectIn, findObjectIn, ih]

theorem findAssetIn_filter {n id : UInt32} (h : id ≠ n) (as : List Asset) :
    findAssetIn (as.filter (·.identify ≠ n)) id = findAssetIn as id := by
  induction as with
  | nil => rfl
  | cons a as ih =>
    rw [List.filter_cons]
    by_cases h1 : a.identify = n
    · rw [if_neg (by simpa using h1), ih, findAssetIn, if_neg (by rw [h1]; simpa using h.symm)]
    · rw [if_pos (by simpa using h1), findAssetIn, findAssetIn, ih]

/-- A name of the root part. -/
def Spec.NamesRoot (m : Model) (p : Str) : Prop := p = [] ∨ p = m.path ∨ (m.path = [] ∧ p = b!"/3D/3dmodel.model")

/-- **C99**: an object to which nothing else refers can be removed. -/
theorem C99_object (env : Env) {m : Model} (hwf : m.WF) (hn : AssetsNumbered m) (hc : ∀ c ∈ m.childs, c.1 ≠ []) (n : UInt32)
    (h : ∀ p, NamesRoot m p → ¬ ObjectRef (dropObject m n) p n) (ha : m.Accepts env) : (dropObject m n).Accepts env := by
  refine C99_accepts env hwf hn hc ⟨⟨.refl _, List.filter_sublist⟩, .refl _, childThinned_refl _, ⟨_, _, _, rfl⟩⟩
    ⟨fun p id hr => ?_, fun p id _ => ?_⟩ ha
  · rw [Model.findObject, Model.findObject, Model.findResources, Model.findResources]
    by_cases hp : p = [] ∨ p = m.path ∨ (m.path = [] ∧ p = defaultModelPath)
    · rw [if_pos hp, if_pos (show p = [] ∨ p = (dropObject m n).path ∨ ((dropObject m n).path = [] ∧ p = defaultModelPath) from hp)]
      refine findObjectIn_filter (fun e => ?_) _
      subst e
      exact h p hp hr
    · rw [if_neg hp, if_neg (show ¬ (p = [] ∨ p = (dropObject m n).path ∨ ((dropObject m n).path = [] ∧ p = defaultModelPath)) from hp)]
      rfl
  · rw [Model.findAsset, Model.findAsset, Model.findResources, Model.findResources]
    by_cases hp : p = [] ∨ p = m.path ∨ (m.path = [] ∧ p = defaultModelPath)
    · rw [if_pos hp, if_pos (show p = [] ∨ p = (dropObject m n).path ∨ ((dropObject m n).path = [] ∧ p = defaultModelPath) from hp)]
      rfl
    · rw [if_neg hp, if_neg (show ¬ (p = [] ∨ p = (dropObject m n).path ∨ ((dropObject m n).path = [] ∧ p = defaultModelPath)) from hp)]
      rfl

/-- **C99**: an asset to which nothing else refers can be removed. -/
theorem C99_asset (env : Env) {m : Model} (hwf : m.WF) (hn : AssetsNumbered m) (hc : ∀ c ∈ m.childs, c.1 ≠ []) (n : UInt32)
    (h : ∀ p, NamesRoot m p → ¬ AssetRef (dropAsset m n) p n) (ha : m.Accepts env) : (dropAsset m n).Accepts env := by
  refine C99_accepts env hwf hn hc ⟨⟨List.filter_sublist, .refl _⟩, .refl _, childThinned_refl _, ⟨_, _, _, rfl⟩⟩
    ⟨fun p id _ => ?_, fun p id hr => ?_⟩ ha
  · rw [Model.findObject, Model.findObject, Model.findResources, Model.findResources]
    by_cases hp : p = [] ∨ p = m.path ∨ (m.path = [] ∧ p = defaultModelPath)
    · rw [if_pos hp, if_pos (show p = [] ∨ p = (dropAsset m n).path ∨ ((dropAsset m n).path = [] ∧ p = defaultModelPath) from hp)]
      rfl
    · rw [if_neg hp, if_neg (show ¬ (p = [] ∨ p = (dropAsset m n).path ∨ ((dropAsset m n).path = [] ∧ p = defaultModelPath)) from hp)]
      rfl
  · rw [Model.findAsset, Model.findAsset, Model.findResources, Model.findResources]
    by_cases hp : p = [] ∨ p = m.path ∨ (m.path = [] ∧ p = defaultModelPath)
    · rw [if_pos hp, if_pos (show p = [] ∨ p = (dropAsset m n).path ∨ ((dropAsset m n).path = [] ∧ p = defaultModelPath) from hp)]
      refine findAssetIn_filter (fun e => ?_) _
      subst e
      exact h p hp hr
    · rw [if_neg hp, if_neg (show ¬ (p = [] ∨ p = (dropAsset m n).path ∨ ((dropAsset m n).path = [] ∧ p = defaultModelPath)) from hp)]
      rfl

/-! ## Cases -/

/-- The model of C98 with an object and a colour group that nothing refers to. -/
def Spec.thinBase : Model :=
  { orderFirst with
    resources :=
      { orderFirst.resources with
        assets := orderFirst.resources.assets ++ [.res (.colorGroup ⟨10, [⟨1, 2, 3, 255⟩]⟩)]
        objects := orderFirst.resources.objects ++ [{ Object.zero with id := 3, mesh := some (numMesh .one) }] } }

theorem thinBase_numbered : AssetsNumbered thinBase := by
  rintro rs (rfl | ⟨c, hc, rfl⟩)
  · decide +kernel
  · rw [List.mem_singleton.1 hc]; decide +kernel

set_option maxRecDepth 8000 in
theorem thinBase_accepts : thinBase.Accepts allExt := accepts_of 4 (by decide +kernel)

set_option maxRecDepth 8000 in
/-- The object can be removed. -/
example : (dropObject thinBase 3).Accepts allExt ∧ (dropObject thinBase 3).resources.objects.length = 2 := by
  refine ⟨C99_object allExt (by unfold Model.WF; decide +kernel) thinBase_numbered (by decide +kernel) 3 (fun p _ hr => ?_) thinBase_accepts,
    by decide +kernel⟩
  suffices h : ∀ p id, ObjectRef (dropObject thinBase 3) p id → id ≠ 3 from h p 3 hr rfl
  have hobj : ∀ p rs, IsPart (dropObject thinBase 3) p rs → ∀ o ∈ rs.objects,
      (∀ c ∈ (o.components.map (·.component)).getD [], c.objectID ≠ 3) ∧ (o.mesh.map (·.any)).getD [] = [] := by
    intro p rs hp
    cases hp with
    | root => decide +kernel
    | child h =>
      have h := List.mem_singleton.1 h
      injection h with h1 h2
      subst h2
      decide +kernel
  intro p id h
  cases h with
  | item h => revert h; exact (by decide +kernel : ∀ it ∈ (dropObject thinBase 3).build.items, it.objectID ≠ 3) _
  | component h1 h2 h3 h4 => exact (hobj _ _ h1 _ h2).1 _ (by rw [h3]; exact h4)
  | clipping h1 h2 h3 h4 =>
    have := (hobj _ _ h1 _ h2).2
    rw [h3] at this
    simp only [Option.map_some, Option.getD_some] at this
    rw [this] at h4; cases h4
  | representation h1 h2 h3 h4 =>
    have := (hobj _ _ h1 _ h2).2
    rw [h3] at this
    simp only [Option.map_some, Option.getD_some] at this
    rw [this] at h4; cases h4

set_option maxRecDepth 8000 in
/-- The first item can be removed. -/
example : ({ thinBase with build := { thinBase.build with items := thinBase.build.items.tail } } : Model).Accepts allExt :=
  C99_items allExt (by unfold Model.WF; decide +kernel) thinBase_numbered (by decide +kernel) _ (List.tail_sublist _) thinBase_accepts

set_option maxRecDepth 8000 in
/-- The condition is needed: without the base materials the model is rejected. -/
theorem C99_missed_false : ¬ ∀ (m m' : Model), m.WF → AssetsNumbered m → Thinned m m' → m.Accepts allExt → m'.Accepts allExt := by
  intro h
  have h1 := h thinBase (dropAsset thinBase 5) (by unfold Model.WF; decide +kernel) thinBase_numbered
    ⟨⟨List.filter_sublist, .refl _⟩, .refl _, childThinned_refl _, ⟨_, _, _, rfl⟩⟩ thinBase_accepts
  obtain ⟨es, h2, h3⟩ : ∃ es, (dropAsset thinBase 5).Validate allExt es ∧ es.length = 4 := by
    cases e : (dropAsset thinBase 5).validateFuel allExt 4 with
    | none => exact absurd (congrArg Option.isSome e) (by decide +kernel)
    | some es => exact ⟨es, ⟨4, e⟩, Option.some.inj ((congrArg (Option.map List.length) e).symm.trans (by decide +kernel))⟩
  rw [← Validate_unique h1 h2] at h3
  cases h3

end Go3mf
