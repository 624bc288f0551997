import Verif.Lemmas.Renumber
import Verif.Lemmas.ValidateMono
import Verif.Props.C11
import Verif.Props.C26
import Verif.Props.C37

/-!
# C96: the identifiers of resources are names

A model whose objects and assets have other identifiers, and whose references are changed likewise, is checked with the same answer
and has the same bounding box.  The identifiers of a part are local to it: they can be changed in one part only.  The code does not
keep to that: the search for nested components goes on in the part of the outermost object.
-/

namespace Go3mf
open Spec

/-- C96: the identifiers can be changed in each part on its own, if the extension for slices is not declared. -/
theorem C96_parts {m : Model} {σ : Str → UInt32 → UInt32} (h : Numbering m σ) (env : Env)
    (hs : ∀ e ∈ m.extensions, env.load e.ns ≠ some .slices) (errs : List Err) :
    (renumberModel σ m).Validate env errs ↔ m.Validate env errs := by
  simp only [Model.Validate, validateFuel_num h env (.inr hs)]

/-- C96: with any extensions, if the identifiers are changed in all parts alike. -/
theorem C96_alike {m : Model} {f : UInt32 → UInt32} (hf : ∀ a b, f a = f b → a = b) (h0 : f 0 = 0) (env : Env) (errs : List Err) :
    (renumberModel (fun _ => f) m).Validate env errs ↔ m.Validate env errs := by
  simp only [Model.Validate, validateFuel_num (m := m) (σ := fun _ => f) ⟨fun _ => hf, fun _ => h0, fun _ _ => rfl⟩ env (.inl fun _ _ => rfl)]

/-- C96: the box of an object. -/
theorem C96_object {m : Model} {f : UInt32 → UInt32} (hf : ∀ a b, f a = f b → a = b) (h0 : f 0 = 0) (p : Str) (o : Object) (b : Box) :
    (renumberObject (fun _ => f) p o).BoundingBox (renumberModel (fun _ => f) m) p b ↔ o.BoundingBox m p b := by
  simp only [Object.BoundingBox, boxFuel_num (m := m) (σ := fun _ => f) ⟨fun _ => hf, fun _ => h0, fun _ _ => rfl⟩ (fun _ _ => rfl)]

theorem boxOp_num {m : Model} {f : UInt32 → UInt32} (hf : ∀ a b, f a = f b → a = b) (h0 : f 0 = 0) (i : Item) (op : Option (Box → Box)) :
    (renumberItem (fun _ => f) i).BoxOp (renumberModel (fun _ => f) m) op ↔ i.BoxOp m op := by
  have hn : Numbering m (fun _ => f) := ⟨fun _ => hf, fun _ => h0, fun _ _ => rfl⟩
  have e := findObject_num hn i.objectPath i.objectID
  constructor
  · intro h
    cases h with
    | missing h1 =>
      refine .missing ?_
      have h1 : (renumberModel (fun _ => f) m).findObject i.objectPath (f i.objectID) = none := h1
      rw [e] at h1
      simpa using h1
    | @empty o b h1 h2 h3 =>
      have h1 : (renumberModel (fun _ => f) m).findObject i.objectPath (f i.objectID) = some o := h1
      rw [e, Option.map_eq_some_iff] at h1
      obtain ⟨o1, h4, rfl⟩ := h1
      exact .empty h4 ((C96_object hf h0 _ _ _).1 h2) h3
    | @extend o b h1 h2 h3 =>
      have h1 : (renumberModel (fun _ => f) m).findObject i.objectPath (f i.objectID) = some o := h1
      rw [e, Option.map_eq_some_iff] at h1
      obtain ⟨o1, h4, rfl⟩ := h1
      exact .extend h4 ((C96_object hf h0 _ _ _).1 h2) h3
  · intro h
    cases h with
    | missing h1 => exact .missing (e.trans (by rw [h1]; rfl))
    | @empty o b h1 h2 h3 => exact .empty (e.trans (by rw [h1]; rfl)) ((C96_object hf h0 _ _ _).2 h2) h3
    | @extend o b h1 h2 h3 =>
      exact Item.BoxOp.extend (it := renumberItem (fun _ => f) i) (e.trans (by rw [h1]; rfl)) ((C96_object hf h0 _ _ _).2 h2) h3

/-- C96: the box of a model. -/
theorem C96_box {m : Model} {f : UInt32 → UInt32} (hf : ∀ a b, f a = f b → a = b) (h0 : f 0 = 0) (r : Box) :
    (renumberModel (fun _ => f) m).BoundingBox r ↔ m.BoundingBox r := by
  have e : (renumberModel (fun _ => f) m).build.items = m.build.items.map (renumberItem fun _ => f) := rfl
  simp only [Model.BoundingBox, e, List.length_map, List.forall₂_map_left_iff, boxOp_num hf h0]

/-! ## Identifiers of one part -/

/-- A mesh. -/
def Spec.numMesh (s : F32) : Mesh :=
  { Mesh.zero with
    vertices := [⟨.zero, .zero, .zero⟩, ⟨s, .zero, .zero⟩, ⟨.zero, s, .zero⟩, ⟨.zero, .zero, s⟩]
    triangles := [⟨0, 2, 1, 0, 0, 0, 0, []⟩, ⟨0, 1, 3, 0, 0, 0, 0, []⟩, ⟨1, 2, 3, 0, 0, 0, 0, []⟩, ⟨2, 0, 3, 0, 0, 0, 0, []⟩] }

/-- An object of components. -/
def Spec.numComps (id : UInt32) (cs : List Component) : Object :=
  { Object.zero with
    id := id
    components := some ⟨cs, []⟩ }

/-- The object 1 of the root is the object 1 of the child part, and that is the object 2 of the child part.  The object 2 of the root is
another one, and it has an object 4. -/
def Spec.numNested : Model :=
  { Model.zero with
    resources := { Resources.zero with
      objects := [numComps 1 [⟨1, .identity, [.prodComponent [] b!"/c"]⟩], { Object.zero with id := 2, mesh := some (numMesh .one) },
        { Object.zero with id := 4, mesh := some (numMesh (F32.one.add .one)) }] }
    build := { Build.zero with items := [{ Item.zero with objectID := 1 }] }
    childs := [(b!"/c", { ChildModel.zero with resources := { Resources.zero with
      objects := [{ Object.zero with id := 2, mesh := some (numMesh .one) }, numComps 1 [⟨2, .identity, []⟩]] } })] }

/-- In the child part, the numbers 2 and 4 change places. -/
def Spec.numChild (p : Str) (id : UInt32) : UInt32 := if p = b!"/c" then if id = 2 then 4 else if id = 4 then 2 else id else id

theorem numChild_ok {m : Model} (h : m.path = []) : Numbering m numChild where
  inj := by
    intro p a b
    simp only [numChild]
    split
    · intro e
      split at e <;> split at e <;> (try split at e) <;> (try split at e) <;> simp_all
    · exact id
  zero := by
    intro p
    simp only [numChild]
    split
    · decide
    · rfl
  root := by
    intro p hp
    have : p ≠ b!"/c" := by
      rcases hp with rfl | rfl | ⟨_, rfl⟩
      · decide
      · rw [h]; decide
      · decide
    funext a
    simp only [numChild, if_neg this]
    rfl

/-- C96 is not true of the code for the box of an object, if only one part has other identifiers: the component of the child part is
looked up in the root part. -/
theorem C96_box_false : ¬ ∀ (m : Model) (σ : Str → UInt32 → UInt32), Numbering m σ → ∀ (o : Object) (b : Box), o ∈ m.resources.objects →
    ((renumberObject σ [] o).BoundingBox (renumberModel σ m) [] b ↔ o.BoundingBox m [] b) := by
  intro h
  have h1 := h numNested numChild (numChild_ok rfl) (numComps 1 [⟨1, .identity, [.prodComponent [] b!"/c"]⟩]) ⟨⟨.zero, .zero, .zero⟩, ⟨.one, .one, .one⟩⟩
    (List.mem_cons_self ..)
  have h2 := h1.2 ⟨3, by decide +kernel⟩
  have h3 : (renumberObject numChild [] (numComps 1 [⟨1, .identity, [.prodComponent [] b!"/c"]⟩])).BoundingBox (renumberModel numChild numNested) []
      ⟨⟨.zero, .zero, .zero⟩, ⟨F32.one.add .one, F32.one.add .one, F32.one.add .one⟩⟩ := ⟨3, by decide +kernel⟩
  have := BoundingBox_unique h2 h3
  revert this
  decide +kernel

/-- The object 2 of the root part has slices and lies flat.  The object 1 is one of the child part, where the object 2, a different one, is
turned over. -/
def Spec.numSliced : Model :=
  { numNested with
    extensions := [⟨nsSlices, b!"s", true⟩]
    resources := { Resources.zero with
      assets := [.res (.sliceStack ⟨7, .zero, [⟨.one, [⟨.zero, .zero⟩, ⟨.one, .zero⟩, ⟨.zero, .one⟩], [⟨0, [⟨1, 0, 0, 0⟩, ⟨2, 0, 0, 0⟩, ⟨0, 0, 0, 0⟩]⟩]⟩], []⟩)]
      objects :=
        [numComps 1 [⟨1, .identity, [.prodComponent [] b!"/c"]⟩],
         { Object.zero with
           id := 2
           mesh := some (numMesh .one)
           anyAttr := [.sliceObject 7 .full] }] }
    build := { Build.zero with items := [{ Item.zero with objectID := 1 }, { Item.zero with objectID := 2 }] }
    childs := [(b!"/c", { ChildModel.zero with resources := { Resources.zero with
      objects := [{ Object.zero with id := 2, mesh := some (numMesh .one) },
        numComps 1 [⟨2, { Matrix.identity with m2 := .one }, []⟩]] } })] }

set_option maxRecDepth 8000 in
/-- C96 is not true of the code for `Validate` with slices, if only one part has other identifiers: the object of the child part is taken
for the one of the root part that has the same number. -/
theorem C96_slices_false : ¬ ∀ (m : Model) (σ : Str → UInt32 → UInt32), Numbering m σ → ∀ errs : List Err,
    ((renumberModel σ m).Validate allExt errs ↔ m.Validate allExt errs) := by
  intro h
  obtain ⟨es, h1, h2⟩ : ∃ es, numSliced.Validate allExt es ∧ es.length = 1 := by
    cases e : numSliced.validateFuel allExt 4 with
    | none => exact absurd (congrArg Option.isSome e) (by decide +kernel)
    | some es => exact ⟨es, ⟨4, e⟩, Option.some.inj ((congrArg (Option.map List.length) e).symm.trans (by decide +kernel))⟩
  have h3 : (renumberModel numChild numSliced).Accepts allExt := accepts_of 4 (by decide +kernel)
  have := Validate_unique h1 ((h _ _ (numChild_ok rfl) _).1 h3)
  rw [this] at h2
  cases h2

/-! ## Cases -/

/-- The child part of `numNested` has other numbers, also where it is referred to; the box of the part itself is the same. -/
example : renumberModel numChild numNested ≠ numNested ∧
    (renumberModel numChild numNested).childs.map (fun c => c.2.resources.objects.map (·.id)) = [[4, 1]] ∧
    (renumberModel numChild numNested).childs.map (fun c => c.2.resources.objects.map fun o => o.components.map fun cs =>
      cs.component.map (·.objectID)) = [[none, some [4]]] := by decide +kernel

set_option maxRecDepth 8000 in
/-- It is accepted with the old and the new numbers. -/
example : (renumberModel numChild numNested).Accepts allExt :=
  (C96_parts (numChild_ok rfl) allExt (by decide +kernel) []).2 (accepts_of 4 (by decide +kernel))

/-- The numbers 5 and 9 change places. -/
def Spec.numSwap (id : UInt32) : UInt32 := if id = 5 then 9 else if id = 9 then 5 else id

theorem numSwap_inj : ∀ a b, numSwap a = numSwap b → a = b := by
  intro a b e
  simp only [numSwap] at e
  split at e <;> split at e <;> (try split at e) <;> (try split at e) <;> simp_all

/-- References of many kinds. -/
def Spec.numRefs : Model :=
  { Model.zero with
    extensions := [⟨nsMaterials, b!"m", false⟩, ⟨nsBeam, b!"b", false⟩, ⟨nsSlices, b!"s", true⟩]
    resources :=
      { Resources.zero with
        assets :=
          [.base ⟨5, [⟨b!"a", ⟨1, 2, 3, 255⟩, []⟩, ⟨b!"b", ⟨4, 5, 6, 255⟩, []⟩], []⟩,
           .res (.composite ⟨6, 5, [0, 1], [[.one, .one]]⟩),
           .res (.colorGroup ⟨7, [⟨1, 2, 3, 255⟩]⟩),
           .res (.multi ⟨8, [5, 7], [.mix], [[0, 0]]⟩),
           .res (.sliceStack ⟨9, .zero, [⟨.one, [⟨.zero, .zero⟩, ⟨.one, .zero⟩, ⟨.zero, .one⟩],
             [⟨0, [⟨1, 5, 0, 0⟩, ⟨2, 0, 0, 0⟩, ⟨0, 0, 0, 0⟩]⟩]⟩], []⟩)]
        objects :=
          [{ Object.zero with
             id := 1
             pid := 5
             mesh := some
               { numMesh .one with
                 triangles := [⟨0, 2, 1, 5, 0, 1, 0, []⟩, ⟨0, 1, 3, 8, 0, 0, 0, []⟩, ⟨1, 2, 3, 6, 0, 0, 0, []⟩, ⟨2, 0, 3, 0, 0, 0, 0, []⟩] }
             anyAttr := [.sliceObject 9 .low] },
           numComps 2 [⟨1, .identity, []⟩]] }
    build := { Build.zero with items := [{ Item.zero with objectID := 2 }] } }

set_option maxRecDepth 8000 in
/-- It is accepted, also with the other numbers. -/
example : (renumberModel (fun _ => numSwap) numRefs).Accepts allExt ∧ renumberModel (fun _ => numSwap) numRefs ≠ numRefs :=
  ⟨(C96_alike numSwap_inj rfl allExt []).2 (accepts_of 4 (by decide +kernel)), by decide +kernel⟩

end Go3mf
