import Verif.Props.C63
import Verif.Props.C66

/-!
# A model with one object more

An object without components, of an identifier that is not in use, and an item that refers to it, are added at the end of
the root part.  Which rules can the new model break, if the old one breaks none?
-/

namespace Go3mf
open Spec

/-- The model with an object more, and an item for it. -/
def Spec.grown (m : Model) (o : Object) : Model :=
  { m with
    resources := { m.resources with objects := m.resources.objects ++ [o] }
    build := { m.build with items := m.build.items ++ [{ Item.zero with objectID := o.id }] } }

/-- What is assumed of the object. -/
structure Spec.Addable (m : Model) (o : Object) : Prop where
  fresh : ∀ x ∈ m.resources.objects, x.id ≠ o.id
  flat : o.components = none
  solid : o.type = .model
  shape : ∃ mesh, o.mesh = some mesh ∧ mesh.any = []
  attr : o.anyAttr = []

/-- Parts other than the root have paths of their own. -/
def Spec.NamedParts (m : Model) : Prop := ∀ p c, (p, c) ∈ m.childs → ¬ IsRootPath m p

/-- Objects with slices are in the root part. -/
def Spec.SlicesInRoot (env : Env) (m : Model) : Prop :=
  Active env m .slices → ∀ p c, (p, c) ∈ m.childs → ∀ x ∈ c.resources.objects, sliceAttr x.anyAttr = none

namespace Grow

variable {env : Env} {m : Model} {o : Object}

theorem isFirst_append {α : Type} {q : α → Prop} {l : List α} {a x : α} (h : IsFirst q (l ++ [a]) x) :
    IsFirst q l x ∨ (x = a ∧ q a ∧ ∀ y ∈ l, ¬ q y) := by
  obtain ⟨pre, post, h1, h2, h3⟩ := h
  rcases List.append_eq_append_iff.1 h1 with ⟨t, h4, h5⟩ | ⟨t, h4, h5⟩
  · cases t with
    | nil =>
      simp only [List.nil_append, List.cons.injEq] at h5
      obtain ⟨rfl, -⟩ := h5
      refine .inr ⟨rfl, h2, ?_⟩
      rw [List.append_nil] at h4
      rw [← h4]
      exact h3
    | cons b t => simp at h5
  · cases t with
    | nil =>
      simp only [List.nil_append, List.cons.injEq] at h5
      obtain ⟨rfl, -⟩ := h5
      refine .inr ⟨rfl, h2, ?_⟩
      rw [List.append_nil] at h4
      rw [h4]
      exact h3
    | cons b t =>
      simp only [List.cons_append, List.cons.injEq] at h5
      obtain ⟨rfl, -⟩ := h5
      exact .inl ⟨pre, t, h4, h2, h3⟩

theorem isFirst_left {α : Type} {q : α → Prop} {l : List α} {x : α} (a : α) (h : IsFirst q l x) : IsFirst q (l ++ [a]) x := by
  obtain ⟨pre, post, rfl, h2, h3⟩ := h
  exact ⟨pre, post ++ [a], by simp, h2, h3⟩

theorem isFirst_last {α : Type} {q : α → Prop} {l : List α} {a : α} (h : q a) (hl : ∀ y ∈ l, ¬ q y) : IsFirst q (l ++ [a]) a :=
  ⟨l, [], by simp, h, hl⟩

theorem partAt_grown {p : Str} {rs : Resources} (h : PartAt (grown m o) p rs) :
    (IsRootPath m p ∧ rs = (grown m o).resources) ∨ (¬ IsRootPath m p ∧ PartAt m p rs) := by
  rcases h with ⟨h1, h2⟩ | ⟨h1, h2⟩
  · exact .inl ⟨h1, h2⟩
  · exact .inr ⟨h1, .inr ⟨h1, h2⟩⟩

theorem assetFound_grown (p : Str) (i : UInt32) (a : Asset) : AssetFound (grown m o) p i a ↔ AssetFound m p i a := by
  constructor
  · rintro ⟨rs, h1, h2⟩
    rcases partAt_grown h1 with ⟨h3, rfl⟩ | ⟨-, h3⟩
    · exact ⟨_, .inl ⟨h3, rfl⟩, h2⟩
    · exact ⟨_, h3, h2⟩
  · rintro ⟨rs, ⟨h1, rfl⟩ | ⟨h1, h2⟩, h3⟩
    · exact ⟨(grown m o).resources, .inl ⟨h1, rfl⟩, h3⟩
    · exact ⟨rs, .inr ⟨h1, h2⟩, h3⟩

theorem assetFound_eq : AssetFound (grown m o) = AssetFound m := by
  funext p i a
  exact propext (assetFound_grown p i a)

theorem objectFound_grown {p : Str} {i : UInt32} {x : Object} (h : ObjectFound (grown m o) p i x) :
    ObjectFound m p i x ∨ (IsRootPath m p ∧ i = o.id ∧ x = o) := by
  obtain ⟨rs, h1, h2⟩ := h
  rcases partAt_grown h1 with ⟨h3, rfl⟩ | ⟨-, h3⟩
  · rcases isFirst_append h2 with h4 | ⟨rfl, h4, -⟩
    · exact .inl ⟨_, .inl ⟨h3, rfl⟩, h4⟩
    · exact .inr ⟨h3, h4.symm, rfl⟩
  · exact .inl ⟨_, h3, h2⟩

theorem objectFound_mono {p : Str} {i : UInt32} {x : Object} (h : ObjectFound m p i x) : ObjectFound (grown m o) p i x := by
  obtain ⟨rs, ⟨h1, rfl⟩ | ⟨h1, h2⟩, h3⟩ := h
  · exact ⟨(grown m o).resources, .inl ⟨h1, rfl⟩, isFirst_left o h3⟩
  · exact ⟨rs, .inr ⟨h1, h2⟩, h3⟩

theorem objectFound_new (hs : Addable m o) {p : Str} (hp : IsRootPath m p) : ObjectFound (grown m o) p o.id o :=
  ⟨_, .inl ⟨hp, rfl⟩, isFirst_last rfl hs.fresh⟩

theorem not_found (hs : Addable m o) {p : Str} (hp : IsRootPath m p) {x : Object} : ¬ ObjectFound m p o.id x := by
  rintro ⟨rs, ⟨-, rfl⟩ | ⟨h1, -⟩, pre, post, h2, h3, -⟩
  · exact hs.fresh x (by rw [h2]; simp) h3
  · exact h1 hp

/-! ## Rules of assets -/

theorem materialRule {p : Str} {a : Asset} {loc : List Level} {l : Leaf} (h : MaterialRule env (grown m o) p a loc l) :
    MaterialRule env m p a loc l := by
  have e := assetFound_eq (m := m) (o := o)
  cases h with
  | colorId h => exact .colorId h
  | colorEmpty h => exact .colorEmpty h
  | color h1 h2 => exact .color h1 h2
  | coordsId h => exact .coordsId h
  | coordsNoTexture h => exact .coordsNoTexture h
  | coordsTexture h1 h2 => exact .coordsTexture h1 (e ▸ h2)
  | coordsEmpty h => exact .coordsEmpty h
  | textureId h => exact .textureId h
  | textureNoPath h => exact .textureNoPath h
  | texturePart h1 h2 => exact .texturePart h1 h2
  | textureType h => exact .textureType h
  | compositeId h => exact .compositeId h
  | compositeNoBase h => exact .compositeNoBase h
  | compositeMissing h1 h2 => exact .compositeMissing h1 (e ▸ h2)
  | compositeBase h1 h2 h3 => exact .compositeBase h1 (e ▸ h2) h3
  | compositeIndex h1 h2 h3 h4 => exact .compositeIndex h1 (e ▸ h2) h3 h4
  | compositeNoIndex h => exact .compositeNoIndex h
  | compositeEmpty h => exact .compositeEmpty h
  | multiId h => exact .multiId h
  | multiNoLayer h => exact .multiNoLayer h
  | multiBlend h => exact .multiBlend h
  | multiEmpty h => exact .multiEmpty h
  | multiMissing h1 h2 => exact .multiMissing h1 (e ▸ h2)
  | multiMaterial h1 h2 h3 h4 => exact .multiMaterial h1 h2 (e ▸ h3) h4
  | multiMulti h1 h2 => exact .multiMulti h1 (e ▸ h2)
  | multiColors h1 h2 h3 h4 h5 => exact .multiColors h1 h2 h3 (e ▸ h4) (e ▸ h5)
  | multiIndex h1 h2 h3 h4 h5 =>
    unfold LayerSize at h4
    rw [e] at h4
    exact .multiIndex h1 h2 h3 h4 h5

theorem refersTo_eq : RefersTo (grown m o) = RefersTo m := by
  funext p r st
  unfold RefersTo
  rw [assetFound_eq]

theorem topOfRefs {p : Str} {rs : List SliceRef} {z : F32} (h : TopOfRefs (grown m o) p rs z) : TopOfRefs m p rs z := by
  induction h with
  | nil => exact .nil
  | stack h1 h2 => exact .stack (refersTo_eq ▸ h1) h2
  | skip h1 _ ih => exact .skip (refersTo_eq (m := m) (o := o) ▸ h1) ih

theorem stackRule {p : Str} {r : SliceStack} {loc : List Level} {l : Leaf} (h : StackRule (grown m o) p r loc l) :
    StackRule m p r loc l := by
  have e := assetFound_eq (m := m) (o := o)
  have f := refersTo_eq (m := m) (o := o)
  cases h with
  | both h => exact .both h
  | refNoPath h1 h2 => exact .refNoPath h1 h2
  | refSame h1 h2 h3 => exact .refSame h1 h2 h3
  | refId h1 h2 => exact .refId h1 h2
  | refMissing h1 h2 h3 h4 h5 => exact .refMissing h1 h2 h3 h4 (e ▸ h5)
  | refNotStack h1 h2 h3 h4 h5 h6 => exact .refNotStack h1 h2 h3 h4 (e ▸ h5) h6
  | refRef h1 h2 h3 => exact .refRef h1 (f ▸ h2) h3
  | refOrder h1 h2 h3 h4 h5 => exact .refOrder h1 (f ▸ h2) h3 (topOfRefs h4) h5
  | noTop h1 h2 => exact .noTop h1 h2
  | lowTop h1 h2 h3 => exact .lowTop h1 h2 h3
  | order h1 h2 => exact .order h1 h2
  | vertices h1 h2 h3 => exact .vertices h1 h2 h3
  | polygons h1 h2 h3 => exact .polygons h1 h2 h3
  | segments h1 h2 h3 => exact .segments h1 h2 h3

/-! ## Rules of objects -/

theorem meshRule {p : Str} {x : Object} {mesh : Mesh} {loc : List Level} {l : Leaf} (h : MeshRule (grown m o) p x mesh loc l) :
    MeshRule m p x mesh loc l := by
  have e := assetFound_eq (m := m) (o := o)
  cases h with
  | vertices h1 h2 => exact .vertices h1 h2
  | triangles h1 h2 h3 => exact .triangles h1 h2 h3
  | repeated h1 h2 => exact .repeated h1 h2
  | vertex h1 h2 h3 => exact .vertex h1 h2 h3
  | missing h1 h2 h3 h4 => exact .missing h1 h2 h3 (e ▸ h4)
  | property h1 h2 h3 h4 h5 h6 h7 => exact .property h1 h2 h3 (e ▸ h4) h5 h6 h7

/-- The component was wrong before, if it is wrong now. -/
theorem componentRule {p : Str} {x : Object} {c : Component} {l : Leaf} (h : ComponentRule (grown m o) p x c l) :
    ∃ l', ComponentRule m p x c l' := by
  cases h with
  | id h => exact ⟨_, .id h⟩
  | missing h1 h2 => exact ⟨_, .missing h1 fun ⟨y, hy⟩ => h2 ⟨y, objectFound_mono hy⟩⟩
  | recursion h1 h2 h3 h4 =>
    by_cases hf : ∃ y, ObjectFound m (componentPart p c) c.objectID y
    · exact ⟨_, .recursion h1 hf.choose_spec h3 h4⟩
    · exact ⟨_, .missing h1 hf⟩

theorem objectRule {p : Str} {x : Object} {loc : List Level} {l : Leaf} (h : ObjectRule (grown m o) p x loc l) :
    ∃ loc' l', ObjectRule m p x loc' l' := by
  have e := assetFound_eq (m := m) (o := o)
  cases h with
  | id h => exact ⟨_, _, .id h⟩
  | pid h1 h2 => exact ⟨_, _, .pid h1 h2⟩
  | shape h => exact ⟨_, _, .shape h⟩
  | missing h1 h2 h3 => exact ⟨_, _, .missing h1 h2 (e ▸ h3)⟩
  | property h1 h2 h3 h4 h5 => exact ⟨_, _, .property h1 h2 (e ▸ h3) h4 h5⟩
  | mesh h1 h2 => exact ⟨_, _, .mesh h1 (meshRule h2)⟩
  | componentsPid h1 h2 h3 => exact ⟨_, _, .componentsPid h1 h2 h3⟩
  | component h1 h2 h3 =>
    obtain ⟨l', h4⟩ := componentRule h3
    exact ⟨_, _, .component h1 h2 h4⟩

theorem not_tilted_zero : ¬ Tilted Matrix.zero := fun h => absurd h.1 (by decide +kernel)

theorem tiltedIn (hs : Addable m o) {p : Str} {id : UInt32} {x : Object} (h : TiltedIn (grown m o) p id x) :
    x ≠ o ∧ TiltedIn m p id x := by
  induction h with
  | here h1 h2 h3 h4 h5 h6 =>
    refine ⟨?_, .here h1 h2 h3 h4 h5 h6⟩
    rintro rfl
    rw [hs.flat] at h1
    cases h1
  | inside h1 h2 h3 h4 _ ih =>
    refine ⟨?_, ?_⟩
    · rintro rfl
      rw [hs.flat] at h1
      cases h1
    · rcases objectFound_grown h4 with h5 | ⟨-, -, h5⟩
      · exact .inside h1 h2 h3 h5 ih.2
      · exact absurd h5 ih.1

theorem tiltedIn_mono {p : Str} {id : UInt32} {x : Object} (h : TiltedIn m p id x) : TiltedIn (grown m o) p id x := by
  induction h with
  | here h1 h2 h3 h4 h5 h6 => exact .here h1 h2 h3 h4 h5 h6
  | inside h1 h2 h3 h4 _ ih => exact .inside h1 h2 h3 (objectFound_mono h4) ih

theorem items_grown {it : Item} (h : it ∈ (grown m o).build.items) :
    it ∈ m.build.items ∨ it = { Item.zero with objectID := o.id } := by
  simpa [grown] using h

theorem item_part (p : Str) : itemPart p { Item.zero with objectID := o.id } = p := rfl

/-- In the root part, the new item does not refer to an object of the old model. -/
theorem tiltedBuild (hs : Addable m o) {p : Str} (hp : IsRootPath m p) {id : UInt32} (h : TiltedBuild (grown m o) p id) :
    TiltedBuild m p id := by
  cases h with
  | here h1 h2 h3 h4 =>
    rcases items_grown h1 with h5 | rfl
    · exact .here h5 h2 h3 h4
    · exact absurd h4 not_tilted_zero
  | inside h1 h2 h3 =>
    have h4 := tiltedIn hs h3
    rcases objectFound_grown h2 with h5 | ⟨-, -, h5⟩
    · rcases items_grown h1 with h6 | rfl
      · exact .inside h6 h5 h4.2
      · exact absurd h5 (not_found hs hp)
    · exact absurd h5 h4.1

theorem openBelow {r : SliceStack} (h : OpenBelow (grown m o) r) : OpenBelow m r := by
  unfold OpenBelow at *
  rw [assetFound_eq] at h
  exact h

theorem sliceObjectRule (hs : Addable m o) {p : Str} (hp : IsRootPath m p) {x : Object} {loc : List Level} {l : Leaf}
    (h : SliceObjectRule (grown m o) p x loc l) : SliceObjectRule m p x loc l := by
  have e := assetFound_eq (m := m) (o := o)
  cases h with
  | low h1 h2 => exact .low h1 h2
  | id h1 => exact .id h1
  | missing h1 h2 h3 => exact .missing h1 h2 (e ▸ h3)
  | notStack h1 h2 h3 h4 => exact .notStack h1 h2 (e ▸ h3) h4
  | transform h1 h2 h3 h4 => exact .transform h1 h2 (e ▸ h3) (tiltedBuild hs hp h4)
  | closed h1 h2 h3 h4 h5 => exact .closed h1 h2 (e ▸ h3) h4 (openBelow h5)

/-- The lattice of an object of the old model. -/
theorem refMeshRule (hs : Addable m o) {p : Str} {self id : UInt32} {l : Leaf}
    (hx : IsRootPath m p → ∃ x ∈ m.resources.objects, x.id = self) (h : RefMeshRule (grown m o) p self id l) :
    RefMeshRule m p self id l := by
  cases h with
  | recursion h => exact .recursion h
  | missing h1 h2 h3 h4 =>
    rcases partAt_grown h2 with ⟨h5, rfl⟩ | ⟨-, h5⟩
    · rcases isFirst_append h3 with h6 | ⟨rfl, -, h6⟩
      · exact .missing h1 (.inl ⟨h5, rfl⟩) h6 h4
      · obtain ⟨x, hx1, hx2⟩ := hx h5
        exact absurd (.inl hx2) (h6 x hx1)
    · exact .missing h1 h5 h3 h4
  | mesh h1 h2 h3 h4 h7 =>
    rcases partAt_grown h2 with ⟨h5, rfl⟩ | ⟨-, h5⟩
    · rcases isFirst_append h3 with h6 | ⟨rfl, -, h6⟩
      · exact .mesh h1 (.inl ⟨h5, rfl⟩) h6 h4 h7
      · obtain ⟨x, hx1, hx2⟩ := hx h5
        exact absurd (.inl hx2) (h6 x hx1)
    · exact .mesh h1 h5 h3 h4 h7

theorem latticeRule (hs : Addable m o) {p : Str} {x : Object} {mesh : Mesh} {b : BeamLattice} {loc : List Level} {l : Leaf}
    (hx : IsRootPath m p → x ∈ m.resources.objects) (h : LatticeRule (grown m o) p x mesh b loc l) :
    LatticeRule m p x mesh b loc l := by
  have hx' : IsRootPath m p → ∃ y ∈ m.resources.objects, y.id = x.id := fun hp => ⟨x, hx hp, rfl⟩
  cases h with
  | type h1 h2 => exact .type h1 h2
  | minLength h1 => exact .minLength h1
  | radius h1 => exact .radius h1
  | clip h1 h2 => exact .clip h1 h2
  | clipMesh h1 h2 => exact .clipMesh h1 (refMeshRule hs hx' h2)
  | representation h1 h2 => exact .representation h1 (refMeshRule hs hx' h2)
  | same h1 h2 => exact .same h1 h2
  | vertex h1 h2 h3 h4 => exact .vertex h1 h2 h3 h4
  | radii h1 h2 h3 h4 => exact .radii h1 h2 h3 h4
  | sets h1 h2 h3 => exact .sets h1 h2 h3

/-! ## Parts -/

theorem active_iff {x : Ext} : Active env (grown m o) x ↔ Active env m x := Iff.rfl

theorem pathRule {p : Str} {u : Str × Str} {l : Leaf} (h : PathRule (grown m o) p u l) : PathRule m p u l := by
  cases h with
  | missing h => exact .missing h
  | malformed h1 h2 => exact .malformed h1 h2
  | path h1 h2 => exact .path h1 h2

theorem prodObjectRule {p : Str} {x : Object} {loc : List Level} {l : Leaf} (h : ProdObjectRule (grown m o) p x loc l) :
    ProdObjectRule m p x loc l := by
  cases h with
  | missing h => exact .missing h
  | malformed h1 h2 => exact .malformed h1 h2
  | noComponent h1 h2 h3 => exact .noComponent h1 h2 h3
  | component h1 h2 h3 h4 => exact .component h1 h2 h3 (pathRule h4)

/-- Parts other than the root. -/
theorem childRule (hs : Addable m o) {p : Str} (hp : ¬ IsRootPath m p) {rs : Resources}
    (hn : Active env m .slices → ∀ x ∈ rs.objects, sliceAttr x.anyAttr = none) {loc : List Level} {l : Leaf}
    (h : PartRule env (grown m o) p rs loc l) : ∃ loc' l', PartRule env m p rs loc' l' := by
  cases h with
  | assetId h1 h2 h3 h4 => exact ⟨_, _, .assetId h1 h2 h3 h4⟩
  | base h1 h2 => exact ⟨_, _, .base h1 h2⟩
  | materials h1 h2 h3 => exact ⟨_, _, .materials h1 h2 (materialRule h3)⟩
  | stack h1 h2 h3 => exact ⟨_, _, .stack h1 h2 (stackRule h3)⟩
  | objectAssetId h1 h2 h3 h4 => exact ⟨_, _, .objectAssetId h1 h2 h3 h4⟩
  | objectId h1 h2 h3 h4 => exact ⟨_, _, .objectId h1 h2 h3 h4⟩
  | object h1 h2 =>
    obtain ⟨loc', l', h3⟩ := objectRule h2
    exact ⟨_, _, .object h1 h3⟩
  | production h1 h2 h3 => exact ⟨_, _, .production h1 h2 (prodObjectRule h3)⟩
  | slices h1 h2 h3 =>
    have h4 := hn h1 _ (List.mem_of_getElem? h2)
    cases h3 <;> simp_all
  | lattice h1 h2 h3 h4 h5 => exact ⟨_, _, .lattice h1 h2 h3 h4 (latticeRule hs (fun h => absurd h hp) h5)⟩

theorem getElem_grown {i : Nat} {x : Object} (h : (grown m o).resources.objects[i]? = some x) :
    m.resources.objects[i]? = some x ∨ (i = m.resources.objects.length ∧ x = o) := by
  rw [show (grown m o).resources.objects = m.resources.objects ++ [o] from rfl] at h
  rw [List.getElem?_append] at h
  split at h
  · exact .inl h
  · rw [List.getElem?_singleton] at h
    split at h
    · cases h
      exact .inr ⟨by omega, rfl⟩
    · cases h

theorem take_grown {i : Nat} {x : Object} (h : m.resources.objects[i]? = some x) :
    (grown m o).resources.objects.take i = m.resources.objects.take i := by
  rw [show (grown m o).resources.objects = m.resources.objects ++ [o] from rfl]
  have := (List.getElem?_eq_some_iff.1 h).1
  exact List.take_append_of_le_length (by omega)

/-- The root part: either a rule was broken before, or the new object breaks one, or its identifier is in use. -/
theorem rootRule (hs : Addable m o) (ha : ∀ a ∈ m.resources.assets, a.identify ≠ o.id) (hn : ¬ Active env m .production)
    {loc : List Level} {l : Leaf} (h : PartRule env (grown m o) (rootPath m) (grown m o).resources loc l) :
    (∃ loc' l', PartRule env m (rootPath m) m.resources loc' l') ∨ ∃ loc' l', ObjectRule m (rootPath m) o loc' l' := by
  have hp : IsRootPath m (rootPath m) := .inr rfl
  have hg : (grown m o).resources.objects = m.resources.objects ++ [o] := rfl
  have ho : sliceAttr o.anyAttr = none := by rw [hs.attr]; rfl
  cases h with
  | assetId h1 h2 h3 h4 => exact .inl ⟨_, _, .assetId h1 h2 h3 h4⟩
  | base h1 h2 => exact .inl ⟨_, _, .base h1 h2⟩
  | materials h1 h2 h3 => exact .inl ⟨_, _, .materials h1 h2 (materialRule h3)⟩
  | stack h1 h2 h3 => exact .inl ⟨_, _, .stack h1 h2 (stackRule h3)⟩
  | objectAssetId h1 h2 h3 h4 =>
    rcases getElem_grown h1 with h5 | ⟨rfl, rfl⟩
    · exact .inl ⟨_, _, .objectAssetId h5 h2 h3 h4⟩
    · exact absurd h4 (ha _ h3)
  | objectId h1 h2 h3 h4 =>
    rcases getElem_grown h1 with h5 | ⟨rfl, rfl⟩
    · rw [take_grown h5] at h3
      exact .inl ⟨_, _, .objectId h5 h2 h3 h4⟩
    · rw [hg, List.take_left] at h3
      exact absurd h4 (hs.fresh _ h3)
  | object h1 h2 =>
    obtain ⟨loc', l', h3⟩ := objectRule h2
    rcases getElem_grown h1 with h5 | ⟨rfl, rfl⟩
    · exact .inl ⟨_, _, .object h5 h3⟩
    · exact .inr ⟨_, _, h3⟩
  | production h1 => exact absurd h1 hn
  | slices h1 h2 h3 =>
    rcases getElem_grown h2 with h5 | ⟨rfl, rfl⟩
    · exact .inl ⟨_, _, .slices h1 h5 (sliceObjectRule hs hp h3)⟩
    · cases h3 <;> simp_all
  | lattice h1 h2 h3 h4 h6 =>
    rcases getElem_grown h2 with h5 | ⟨rfl, rfl⟩
    · exact .inl ⟨_, _, .lattice h1 h5 h3 h4 (latticeRule hs (fun _ => List.mem_of_getElem? h5) h6)⟩
    · obtain ⟨mesh, h7, h8⟩ := hs.shape
      rw [h7] at h3
      cases h3
      rw [h8] at h4
      cases h4

/-! ## The model -/

theorem metaRule {mds : List Metadata} {loc : List Level} {l : Leaf} (h : MetaRule (grown m o) mds loc l) :
    MetaRule m mds loc l := by
  cases h with
  | @fault i md k h1 h2 =>
    refine .fault h1 ?_
    cases k <;> exact h2

theorem relFault {done : List Relationship} {r : Relationship} {s : Sentinel} (h : RelFault env (grown m o) done r s) :
    RelFault env m done r s := by
  cases s <;> exact h

theorem itemRule (hs : Addable m o) {it : Item} {loc : List Level} {l : Leaf} (h : ItemRule (grown m o) it loc l) :
    ∃ loc' l', ItemRule m it loc' l' := by
  cases h with
  | id h => exact ⟨_, _, .id h⟩
  | missing h1 h2 => exact ⟨_, _, .missing h1 fun ⟨y, hy⟩ => h2 ⟨y, objectFound_mono hy⟩⟩
  | other h1 h2 h3 =>
    rcases objectFound_grown h2 with h4 | ⟨-, -, rfl⟩
    · exact ⟨_, _, .other h1 h4 h3⟩
    · rw [hs.solid] at h3
      cases h3
  | metadata h => exact ⟨_, _, .metadata (metaRule h)⟩

theorem itemRule_new (hs : Addable m o) (hid : o.id ≠ 0) {loc : List Level} {l : Leaf} :
    ¬ ItemRule (grown m o) { Item.zero with objectID := o.id } loc l := by
  intro h
  have hp : IsRootPath m ([] : Str) := .inl rfl
  have hn := objectFound_new hs hp
  cases h with
  | id h => exact hid h
  | missing h1 h2 => exact h2 ⟨_, hn⟩
  | other h1 h2 h3 =>
    rcases objectFound_grown h2 with h4 | ⟨-, -, rfl⟩
    · exact not_found hs hp h4
    · rw [hs.solid] at h3
      cases h3
  | metadata h =>
    cases h with
    | fault h1 => cases h1

theorem modelRule (hs : Addable m o) (hid : o.id ≠ 0) (ha : ∀ a ∈ m.resources.assets, a.identify ≠ o.id)
    (hn : ¬ Active env m .production) (hc : NamedParts m) (hsl : SlicesInRoot env m) {loc : List Level} {l : Leaf} {p : Str}
    (h : ModelRule env (grown m o) loc l p) :
    (∃ loc' l' p', ModelRule env m loc' l' p') ∨ ∃ loc' l', ObjectRule m (rootPath m) o loc' l' := by
  cases h with
  | packageRel h1 h2 => exact .inl ⟨_, _, _, .packageRel h1 (relFault h2)⟩
  | rel h1 h2 => exact .inl ⟨_, _, _, .rel h1 (relFault h2)⟩
  | childRel h1 h2 h3 h4 => exact .inl ⟨_, _, _, .childRel h1 h2 h3 (relFault h4)⟩
  | childName h1 h2 => exact .inl ⟨_, _, _, .childName h1 h2⟩
  | extension h1 h2 h3 => exact .inl ⟨_, _, _, .extension h1 h2 h3⟩
  | metadata h1 => exact .inl ⟨_, _, _, .metadata (metaRule h1)⟩
  | production h1 => exact absurd h1 hn
  | child h1 h2 =>
    obtain ⟨loc', l', h3⟩ := childRule hs (hc _ _ h1) (fun h => hsl h _ _ h1) h2
    exact .inl ⟨_, _, _, .child h1 h3⟩
  | root h1 =>
    rcases rootRule hs ha hn h1 with ⟨loc', l', h2⟩ | h2
    · exact .inl ⟨_, _, _, .root h2⟩
    · exact .inr h2
  | @item i it _ _ h1 h2 =>
    rw [show (grown m o).build.items = m.build.items ++ [{ Item.zero with objectID := o.id }] from rfl,
      List.getElem?_append] at h1
    split at h1
    · obtain ⟨loc', l', h3⟩ := itemRule hs h2
      exact .inl ⟨_, _, _, .item h1 h3⟩
    · rw [List.getElem?_singleton] at h1
      split at h1
      · cases h1
        exact absurd h2 (itemRule_new hs hid)
      · cases h1

/-! ## The search -/

theorem step_flat (hs : Addable m o) {p : Str} {id : UInt32} {x : Object} : ¬ SearchStep (grown m o) p id o x := by
  rintro ⟨cs, j, c, h, -⟩
  rw [hs.flat] at h
  cases h

theorem searchStep {p : Str} {id : UInt32} {x y : Object} (hy : y ≠ o) (h : SearchStep (grown m o) p id x y) :
    SearchStep m p id x y := by
  obtain ⟨cs, j, c, h1, h2, h3, h4, h5⟩ := h
  refine ⟨cs, j, c, h1, h2, h3, fun d hd z hz ht => h4 d hd z (objectFound_mono hz) (tiltedIn_mono ht), ?_⟩
  rcases objectFound_grown h5 with h6 | ⟨-, -, h6⟩
  · exact h6
  · exact absurd h6 hy

theorem searchStart (hs : Addable m o) {p : Str} (hp : IsRootPath m p) {id : UInt32} {x : Object} (hx : x ≠ o)
    (h : SearchStart (grown m o) p id x) : SearchStart m p id x := by
  obtain ⟨j, it, h1, h2, h3, h4⟩ := h
  have h5 : ObjectFound m (itemPart p it) it.objectID x := by
    rcases objectFound_grown h4 with h6 | ⟨-, -, h6⟩
    · exact h6
    · exact absurd h6 hx
  have hi : (grown m o).build.items = m.build.items ++ [{ Item.zero with objectID := o.id }] := rfl
  rw [hi, List.getElem?_append] at h1
  split at h1
  · rw [hi, List.take_append_of_le_length (by omega)] at h2 h3
    exact ⟨j, it, h1, h2, fun d hd z hz ht => h3 d hd z (objectFound_mono hz) (tiltedIn_mono ht), h5⟩
  · rw [List.getElem?_singleton] at h1
    split at h1
    · cases h1
      exact absurd h5 (not_found hs hp)
    · cases h1

theorem endless (hs : Addable m o) {p : Str} (hp : IsRootPath m p) {id : UInt32} (h : Endless (grown m o) p id) :
    Endless m p id := by
  obtain ⟨f, h1, h2⟩ := h
  have hne : ∀ n, f n ≠ o := by
    intro n hn
    have := h2 n
    rw [hn] at this
    exact step_flat hs this
  exact ⟨f, searchStart hs hp (hne 0) h1, fun n => searchStep (hne (n + 1)) (h2 n)⟩

theorem returns (hs : Addable m o) (hsl : SlicesInRoot env m) (hwf : m.WF) (h : ∃ errs, m.Validate env errs) :
    ∃ errs, (grown m o).Validate env errs := by
  rw [C66_exact env m hwf] at h
  rw [C66_exact env _ (by exact hwf)]
  rintro p x ⟨h1, ⟨rs, h2, h3⟩, i, res, r, h4, h5, h6⟩ he
  rcases h2 with ⟨rfl, rfl⟩ | ⟨c, h2, rfl⟩
  · have hp : IsRootPath m (rootPath m) := .inr rfl
    rcases List.mem_append.1 h3 with h7 | h7
    · exact h _ x ⟨h1, ⟨_, .inl ⟨rfl, rfl⟩, h7⟩, i, res, r, h4, h5, (assetFound_grown _ _ _).1 h6⟩ (endless hs hp he)
    · rw [List.mem_singleton] at h7
      rw [h7, hs.attr] at h4
      cases h4
  · have := hsl h1 p c h2 x h3
    rw [h4] at this
    cases this

end Grow
end Go3mf
