import Verif.Lemmas.Additions
import Verif.Lemmas.ValidateMono
import Verif.Props.C01
import Verif.Props.C96
import Verif.Props.C66

/-!
# C97: additions do not disturb what is there

A program builds a model step by step: it takes `UnusedID`, appends an object or an asset, appends an item.  If the model was valid
before, then everything that `Validate` reports afterwards is about the additions.  What was found before is still found, and the
bounding box changes only by items.
-/

namespace Go3mf
open Spec

/-- C97: all the errors of the grown model are in the additions, if the model was accepted, the slices extension is not declared, no new
asset has the number of an old object, and no child part has the empty path. -/
theorem C97_located {m : Model} {A : List Asset} {O : List Object} {I : List Item} (env : Env)
    (hs : ∀ e ∈ m.extensions, env.load e.ns ≠ some .slices) (hc : ∀ c ∈ m.childs, c.1 ≠ [])
    (ha : ∀ a ∈ A, ∀ o ∈ m.resources.objects, a.identify ≠ o.id) (hm : m.Accepts env) {errs : List Err}
    (h : (growModel m A O I).Validate env errs) : ∀ e ∈ errs, InAddition m A O I e := by
  refine validate_grow env hs ?_ ha hm h
  generalize m.childs = cs at hc
  induction cs with
  | nil => rfl
  | cons c cs ih =>
    rw [lookupChild, if_neg (hc c (List.mem_cons_self ..))]
    exact ih fun c h => hc c (List.mem_cons_of_mem _ h)

/-- C97: what was found is still found. -/
theorem C97_found {m : Model} (A : List Asset) (O : List Object) (I : List Item) :
    (∀ p id o, m.findObject p id = some o → (growModel m A O I).findObject p id = some o) ∧
    (∀ p id a, m.findAsset p id = some a → (growModel m A O I).findAsset p id = some a) :=
  ⟨fun _ _ _ => findObject_grow, fun _ _ _ => findAsset_grow⟩

theorem findObjectIn_last {os : List Object} {o : Object} (h : o.id ∉ os.map (·.id)) : findObjectIn (os ++ [o]) o.id = some o := by
  induction os with
  | nil => simp [findObjectIn]
  | cons x os ih =>
    simp only [List.map_cons, List.mem_cons, not_or] at h
    rw [List.cons_append, findObjectIn, if_neg (by simpa using fun e => h.1 e.symm)]
    exact ih h.2

theorem findAssetIn_last {as : List Asset} {a : Asset} (h : a.identify ∉ as.map (·.identify)) : findAssetIn (as ++ [a]) a.identify = some a := by
  induction as with
  | nil => simp [findAssetIn]
  | cons x as ih =>
    simp only [List.map_cons, List.mem_cons, not_or] at h
    rw [List.cons_append, findAssetIn, if_neg (by simpa using fun e => h.1 e.symm)]
    exact ih h.2

/-- C97: an object or an asset that is added with the number of `UnusedID` is found, and disturbs nothing. -/
theorem C97_unused {m : Model} (env : Env) (hv : ValidIDs m.resources) (hl : m.resources.assets.length + m.resources.objects.length < 2 ^ 32 - 1)
    (hs : ∀ e ∈ m.extensions, env.load e.ns ≠ some .slices) (hc : ∀ c ∈ m.childs, c.1 ≠ []) (hm : m.Accepts env) :
    (∀ o : Object, o.id = m.resources.unusedID → (growModel m [] [o] []).findObject [] o.id = some o ∧
      ∀ errs, (growModel m [] [o] []).Validate env errs → ∀ e ∈ errs, InAddition m [] [o] [] e) ∧
    (∀ a : Asset, a.identify = m.resources.unusedID → (growModel m [a] [] []).findAsset [] a.identify = some a ∧
      ∀ errs, (growModel m [a] [] []).Validate env errs → ∀ e ∈ errs, InAddition m [a] [] [] e) := by
  have hu := (C01_unusedID_partial m.resources hv hl).2.1
  simp only [idsOf, List.mem_append, not_or] at hu
  refine ⟨fun o ho => ⟨?_, fun errs h => C97_located env hs hc (by simp) hm h⟩, fun a ha => ⟨?_, fun errs h => C97_located env hs hc ?_ hm h⟩⟩
  · rw [Model.findObject, Model.findResources, if_pos (.inl rfl)]
    exact findObjectIn_last (by rw [ho]; exact hu.2)
  · rw [Model.findAsset, Model.findResources, if_pos (.inl rfl)]
    exact findAssetIn_last (by rw [ha]; exact hu.1)
  · intro b hb o ho
    rw [List.mem_singleton] at hb
    subst hb
    rw [ha]
    exact fun e => hu.2 (by rw [e]; exact List.mem_map_of_mem ho)

/-! ## Boxes -/

theorem objectPath_cases (a : AnyAttr) : (∀ d, a.objectPath d = d) ∨ ∃ q, ∀ d, a.objectPath d = q := by
  induction a with
  | nil => exact .inl fun _ => rfl
  | cons g a ih =>
    cases hg : g.objectPath with
    | none => simpa only [AnyAttr.objectPath, hg] using ih
    | some q =>
      by_cases hq : q = []
      · simpa [AnyAttr.objectPath, hg, hq] using ih
      · exact .inr ⟨q, fun d => by simp [AnyAttr.objectPath, hg, hq]⟩

theorem findObjectIn_mem' {os : List Object} {id : UInt32} {o : Object} (h : findObjectIn os id = some o) : o ∈ os := by
  induction os with
  | nil => cases h
  | cons x os ih =>
    rw [findObjectIn] at h
    split at h
    · cases h; exact List.mem_cons_self ..
    · exact List.mem_cons_of_mem _ (ih h)

theorem findObject_single {m : Model} (hc : m.childs = []) {p : Str} {id : UInt32} {o : Object} (h : m.findObject p id = some o) :
    o ∈ m.resources.objects := by
  rw [Model.findObject, Model.findResources, hc] at h
  split at h
  · next rs e =>
    split at e
    · cases e; exact findObjectIn_mem' h
    · simp [lookupChild] at e
  · cases h

theorem objectsErrs_core (env : Env) (m : Model) (k : Nat) (p : Str) : ∀ (os : List Object) (i : Nat) (seen : List UInt32),
    objectsErrs env m k p i seen os = some [] → ∀ o ∈ os, o.validateCore m p = []
  | [], _, _, _, o, ho => by cases ho
  | x :: os, i, seen, h, o, ho => by
    rw [objectsErrs] at h
    cases h3 : x.validate env m k p with
    | none => simp [h3] at h
    | some e =>
      cases h4 : objectsErrs env m k p (i + 1) (x.id :: seen) os with
      | none => simp [h3, h4] at h
      | some es =>
        simp only [h3, h4, Option.some.injEq, List.append_eq_nil_iff, List.map_eq_nil_iff] at h
        obtain ⟨⟨_, rfl⟩, rfl⟩ := h
        rcases List.mem_cons.1 ho with rfl | ho
        · rw [Object.validate, Option.map_eq_some_iff] at h3
          obtain ⟨y, _, h3⟩ := h3
          exact (List.append_eq_nil_iff.1 h3).1
        · exact objectsErrs_core env m k p os _ _ h4 o ho

/-- In an accepted model of one part the components of the objects and the items are found. -/
theorem accepted_found {env : Env} {m : Model} (hm : m.Accepts env) :
    (∀ o ∈ m.resources.objects, ∀ cs, o.components = some cs → ∀ c ∈ cs.component, ∃ r, m.findObject (c.objectPath []) c.objectID = some r) ∧
    (∀ i ∈ m.build.items, ∃ r, m.findObject i.objectPath i.objectID = some r) := by
  obtain ⟨k, hk⟩ := hm
  rw [Model.validateFuel] at hk
  cases h1 : childsErrs env m k m.sortedChilds with
  | none => simp [h1] at hk
  | some ce =>
  cases h2 : m.resources.validate env m k m.pathOrDefault with
  | none => simp [h1, h2] at hk
  | some re =>
  simp only [h1, h2, Option.some.injEq, List.map_eq_nil_iff, List.append_eq_nil_iff] at hk
  obtain ⟨⟨_, rfl⟩, a9⟩ := hk
  constructor
  · intro o ho cs hcs c hc
    rw [Resources.validate, Option.map_eq_some_iff] at h2
    obtain ⟨v, h2, h4⟩ := h2
    obtain ⟨_, rfl⟩ := List.append_eq_nil_iff.1 h4
    have h5 := objectsErrs_core env m k _ _ _ _ h2 o ho
    simp only [Object.validateCore, List.append_eq_nil_iff, hcs] at h5
    have h5 := h5.2
    rw [if_pos (List.length_pos_of_mem hc), List.append_eq_nil_iff, Object.validateComponents, List.map_eq_nil_iff] at h5
    have h7 := List.eq_nil_iff_forall_not_mem.1 h5.2
    obtain ⟨j, hj⟩ := List.getElem?_of_mem hc
    have h6 : ∃ r, m.findObject (c.objectPath m.pathOrDefault) c.objectID = some r := by
      cases hr : m.findObject (c.objectPath m.pathOrDefault) c.objectID with
      | some r => exact ⟨r, rfl⟩
      | none =>
        exfalso
        by_cases h0 : c.objectID = 0
        · exact h7 _ ((mem_errsIdx_iff _ _ _).2 ⟨j, c, hj, by rw [if_pos h0]; exact List.mem_singleton.2 rfl⟩)
        · exact h7 _ ((mem_errsIdx_iff _ _ _).2 ⟨j, c, hj, by rw [if_neg h0, hr]; exact List.mem_singleton.2 rfl⟩)
    rcases objectPath_cases c.anyAttr with h7 | ⟨q, h7⟩
    · rw [Component.objectPath, h7] at h6 ⊢
      have e : m.findResources m.pathOrDefault = m.findResources [] := by
        rw [Model.findResources, if_pos, Model.findResources, if_pos (.inl rfl)]
        rw [Model.pathOrDefault]
        split
        · next e => exact .inr (.inr ⟨e, rfl⟩)
        · exact .inr (.inl rfl)
      rwa [Model.findObject, e] at h6
    · rw [Component.objectPath, h7] at h6 ⊢
      exact h6
  · intro i hi
    rw [Build.validate, List.eq_nil_iff_forall_not_mem] at a9
    obtain ⟨j, hj⟩ := List.getElem?_of_mem hi
    have h6 : i.validate m = [] := by
      rw [List.eq_nil_iff_forall_not_mem]
      intro e he
      exact a9 _ ((mem_errsIdx_iff _ _ _).2 ⟨j, i, hj, List.mem_map_of_mem he⟩)
    rw [Item.validate, List.append_eq_nil_iff] at h6
    have h6 := h6.1
    split at h6
    · cases h6
    · cases hr : m.findObject i.objectPath i.objectID with
      | some r => exact ⟨r, rfl⟩
      | none => simp [hr] at h6

theorem componentsBox_grow {m : Model} {A : List Asset} {O : List Object} {I : List Item} {r r' : Object → Str → Option Box} (p : Str)
    (hr : ∀ o ∈ m.resources.objects, r' o p = r o p) (hc : m.childs = []) : ∀ (cs : List Component),
    (∀ c ∈ cs, ∃ x, m.findObject (c.objectPath p) c.objectID = some x) → ∀ b : Box,
      componentsBox r' (growModel m A O I) p cs b = componentsBox r m p cs b
  | [], _, _ => by simp only [componentsBox]
  | c :: cs, h, b => by
    obtain ⟨x, hx⟩ := h c (List.mem_cons_self ..)
    simp only [componentsBox, hx, findObject_grow hx, hr x (findObject_single hc hx),
      componentsBox_grow p hr hc cs fun c hc => h c (List.mem_cons_of_mem _ hc)]

theorem boxFuel_grow {env : Env} {m : Model} (hm : m.Accepts env) (hc : m.childs = []) {A : List Asset} {O : List Object} {I : List Item} :
    ∀ (n : Nat), ∀ o ∈ m.resources.objects, o.boxFuel (growModel m A O I) n [] = o.boxFuel m n []
  | 0, _, _ => by simp only [Object.boxFuel]
  | n + 1, o, ho => by
    simp only [Object.boxFuel]
    cases o.mesh with
    | some x => rfl
    | none =>
      cases hcs : o.components with
      | none => rfl
      | some cs =>
        simp only
        split
        · rfl
        · exact componentsBox_grow [] (boxFuel_grow hm hc n) hc _ ((accepted_found hm).1 o ho cs hcs) _

/-- C97: in an accepted model of one part, whose items are in that part by default, new resources do not change the box. -/
theorem C97_box {env : Env} {m : Model} (hm : m.Accepts env) (hc : m.childs = []) (hp : ∀ i ∈ m.build.items, i.objectPath = [])
    (A : List Asset) (O : List Object) (r : Box) : (growModel m A O []).BoundingBox r ↔ m.BoundingBox r := by
  have e : (growModel m A O []).build.items = m.build.items := List.append_nil _
  have hop : ∀ i ∈ m.build.items, ∀ op, Item.BoxOp (growModel m A O []) i op ↔ Item.BoxOp m i op := by
    intro i hi op
    obtain ⟨o, ho⟩ := (accepted_found hm).2 i hi
    have ho' := findObject_grow (A := A) (O := O) (I := []) ho
    have hb : ∀ b, o.BoundingBox (growModel m A O []) i.objectPath b ↔ o.BoundingBox m i.objectPath b := by
      intro b
      simp only [Object.BoundingBox, hp i hi, boxFuel_grow hm hc _ o (findObject_single hc ho)]
    constructor
    · intro h
      cases h with
      | missing h1 => rw [ho'] at h1; cases h1
      | empty h1 h2 h3 => rw [ho'] at h1; cases h1; exact .empty ho ((hb _).1 h2) h3
      | extend h1 h2 h3 => rw [ho'] at h1; cases h1; exact .extend ho ((hb _).1 h2) h3
    · intro h
      cases h with
      | missing h1 => rw [ho] at h1; cases h1
      | empty h1 h2 h3 => rw [ho] at h1; cases h1; exact .empty ho' ((hb _).2 h2) h3
      | extend h1 h2 h3 => rw [ho] at h1; cases h1; exact .extend ho' ((hb _).2 h2) h3
  have hf : ∀ (is : List Item), (∀ i ∈ is, i ∈ m.build.items) → ∀ ops, List.Forall₂ (Item.BoxOp (growModel m A O [])) is ops ↔
      List.Forall₂ (Item.BoxOp m) is ops := by
    intro is
    induction is with
    | nil => intro _ ops; simp
    | cons i is ih =>
      intro h ops
      simp only [List.forall₂_cons_left_iff, hop i (h i (List.mem_cons_self ..)), ih fun i hi => h i (List.mem_cons_of_mem _ hi)]
  simp only [Model.BoundingBox, e, hf m.build.items fun _ h => h]

/-! ## Parts -/

/-- The object 1 of the root is the object 1 of the child part, which consists of the objects 2 and 3 of the child part.  The root has an
object 3, but no object 2. -/
def Spec.growNested : Model :=
  { Model.zero with
    resources := { Resources.zero with
      objects := [numComps 1 [⟨1, .identity, [.prodComponent [] b!"/c"]⟩], { Object.zero with id := 3, mesh := some (numMesh .one) }] }
    build := { Build.zero with items := [{ Item.zero with objectID := 1 }] }
    childs := [(b!"/c", { ChildModel.zero with resources := { Resources.zero with
      objects := [{ Object.zero with id := 2, mesh := some (numMesh .one) }, { Object.zero with id := 3, mesh := some (numMesh .one) },
        numComps 1 [⟨2, .identity, []⟩, ⟨3, .identity, []⟩]] } })] }

set_option maxRecDepth 8000 in
/-- C97 is not true of the code for the box, if there are child parts: a new object is taken for one of a child part. -/
theorem C97_box_false : ¬ ∀ (m : Model) (o : Object), m.Accepts allExt → o.id = m.resources.unusedID → ∀ x ∈ m.resources.objects, ∀ b : Box,
    (x.BoundingBox (growModel m [] [o] []) [] b ↔ x.BoundingBox m [] b) := by
  intro h
  have h1 := h growNested { Object.zero with id := 2, mesh := some (numMesh (F32.one.add .one)) } (accepts_of 4 (by decide +kernel))
    (by decide +kernel) _ (List.mem_cons_self ..) ⟨⟨.zero, .zero, .zero⟩, ⟨.one, .one, .one⟩⟩
  have h2 := h1.2 ⟨3, by decide +kernel⟩
  have h3 : (numComps 1 [⟨1, .identity, [.prodComponent [] b!"/c"]⟩]).BoundingBox
      (growModel growNested [] [{ Object.zero with id := 2, mesh := some (numMesh (F32.one.add .one)) }] []) []
      ⟨⟨.zero, .zero, .zero⟩, ⟨F32.one.add .one, F32.one.add .one, F32.one.add .one⟩⟩ := ⟨3, by decide +kernel⟩
  have := BoundingBox_unique h2 h3
  revert this
  decide +kernel

/-- The object 2 of the root part has slices and lies flat; the object 1 of the child part is the object 3 of the child part. -/
def Spec.growSliced : Model :=
  { numSliced with
    childs := [(b!"/c", { ChildModel.zero with resources := { Resources.zero with
      objects := [{ Object.zero with id := 3, mesh := some (numMesh .one) }, numComps 1 [⟨3, .identity, []⟩]] } })] }

/-- A new object 3 of the root, which is not built. -/
def Spec.growTilted : Object := numComps 3 [⟨2, { Matrix.identity with m2 := .one }, []⟩]

/-- The place of an error. -/
def Spec.errPlace : Err → Option (List Level)
  | .wrapped t _ _ => some t
  | _ => none

set_option maxRecDepth 8000 in
/-- C97 is not true of the code with slices and child parts: a new object is taken for one of a child part, and `Validate` rejects an old
object because of it. -/
theorem C97_slices_false : ¬ ∀ (m : Model) (o : Object), m.Accepts allExt → o.id = m.resources.unusedID → ∀ errs : List Err,
    (growModel m [] [o] []).Validate allExt errs → ∀ e ∈ errs, InAddition m [] [o] [] e := by
  intro h
  obtain ⟨es, h1, h2⟩ : ∃ es, (growModel growSliced [] [growTilted] []).Validate allExt es ∧
      es.map errPlace = [some [⟨b!"object", 1⟩, ⟨b!"resources", -1⟩, ⟨b!"model", -1⟩]] := by
    cases e : (growModel growSliced [] [growTilted] []).validateFuel allExt 5 with
    | none => exact absurd (congrArg Option.isSome e) (by decide +kernel)
    | some es => exact ⟨es, ⟨5, e⟩, Option.some.inj ((congrArg (Option.map (List.map errPlace)) e).symm.trans (by decide +kernel))⟩
  rw [List.map_eq_cons_iff] at h2
  obtain ⟨e, es', rfl, h2, h4⟩ := h2
  rw [List.map_eq_nil_iff] at h4
  subst h4
  have h3 := h growSliced growTilted (accepts_of 4 (by decide +kernel)) (by decide +kernel) _ h1 _ (List.mem_singleton.2 rfl)
  cases h3 with
  | asset k a e' hk => simp at hk
  | item k e' hk => simp at hk
  | object k e' hk =>
    have h3 : growSliced.resources.objects.length = 2 := rfl
    rw [h3] at h2
    cases e' with
    | leaf l =>
      simp [wrap, wrapIndex, errPlace] at h2
      omega
    | wrapped t e p =>
      cases t with
      | nil =>
        simp [wrap, wrapIndex, errPlace] at h2
        omega
      | cons x t =>
        simp [wrap, wrapIndex, errPlace] at h2
        have := congrArg List.length h2.2
        simp at this
    | list es => simp [wrap, wrapIndex, errPlace] at h2

/-! ## Cases -/

set_option maxRecDepth 8000 in
/-- The model of C96 with materials, a beam lattice and slices, without the slices: accepted, the numbers are valid. -/
def Spec.growBase : Model := { numRefs with extensions := [⟨nsMaterials, b!"m", false⟩, ⟨nsBeam, b!"b", false⟩] }

/-- An object that is not right: its property does not exist. -/
def Spec.growBad : Object :=
  { Object.zero with
    id := growBase.resources.unusedID
    pid := 77
    mesh := some (numMesh .one) }

set_option maxRecDepth 8000 in
/-- The new object gets the number 3; it has one error, and that is reported at the new object. -/
example : growBad.id = 3 ∧
    (growModel growBase [] [growBad] []).findObject [] 3 = some growBad ∧
    ∃ e, (growModel growBase [] [growBad] []).Validate allExt [e] ∧ InAddition growBase [] [growBad] [] e := by
  have h1 := (C97_unused (m := growBase) allExt (by unfold ValidIDs; decide +kernel) (by decide +kernel) (by decide +kernel) (by decide +kernel)
    (accepts_of 4 (by decide +kernel))).1 growBad rfl
  refine ⟨by decide +kernel, h1.1, _, ⟨1, rfl⟩, h1.2 _ ⟨1, rfl⟩ _ (List.mem_singleton.2 rfl)⟩

set_option maxRecDepth 8000 in
/-- The box is that of the item. -/
example (b : Box) : (growModel growBase [] [growBad] []).BoundingBox b ↔ growBase.BoundingBox b :=
  C97_box (env := allExt) (accepts_of 4 (by decide +kernel)) rfl (by decide +kernel) [] [growBad] b

end Go3mf
