import Mathlib.Logic.Relation
import Verif.Props.C37

/-!
# C39: recursive component definitions
-/

namespace Go3mf

/-- The object `x.2` of the part at `x.1` has a component that refers to the object `y.2` of the part at `y.1`. -/
def Spec.Contains (m : Model) (x y : Str × UInt32) : Prop :=
  ∃ o cs c, Spec.ObjectAt m x.1 x.2 o ∧ o.components = some cs ∧ c ∈ cs.component ∧
    y = (Spec.componentPart x.1 c, c.objectID)

/-- **C39** for direct recursion: if the model is accepted, no object of a part has itself as a component.  Missing: longer
cycles, which are accepted (`C39_cycle_false`). -/
theorem C39_direct_partial (env : Env) (m : Model) (hwf : m.WF) (h : m.Accepts env) (p : Str) (rs : Resources)
    (hp : Spec.IsPart m p rs) (hne : p ≠ []) (id : UInt32) : ¬ Spec.Contains m (p, id) (p, id) := by
  rintro ⟨o, cs, c, ⟨rs', h1, h2, h3⟩, h4, h5, h6⟩
  have h7 := isPart_found hwf h hp hne
  rw [(partAt_iff m hwf _ _).2 h1] at h7
  cases h7
  simp only at h3
  subst h3
  simp only [Prod.mk.injEq] at h6
  have h8 := ((validateCore_nil m p o).1 (isPart_object hwf h hp h2)).2.2.2.2 cs h4 (List.ne_nil_of_mem h5)
  obtain ⟨h9, ref, h10, h11⟩ := (validateComponents_nil m p o _).1 h8.2 c h5
  obtain ⟨rs'', -, k2⟩ := (C03_findObject m _ _ _).1 h10
  have k3 := (isFirst_mem k2).2
  refine h11 ⟨?_, ?_⟩
  · rw [k3]; exact h6.2.symm
  · rw [componentPart_eq]; exact h6.1.symm

/-- An object made of one component without transform. -/
def Spec.link (id ref : UInt32) (path : Str) : Object :=
  { Object.zero with
    id := id
    components := some { Components.zero with
      component := [{ Component.zero with objectID := ref, anyAttr := [.prodComponent [] path] }] } }

/-- Two objects made of each other, one of which is in the build. -/
def Spec.twoCycle : Model :=
  { Model.zero with
    resources := { Resources.zero with objects := [Spec.link 1 2 [], Spec.link 2 1 []] }
    build := { Build.zero with items := [{ Item.zero with objectID := 1 }] } }

/-- **C39** fails: a cycle of two objects is accepted. -/
theorem C39_cycle_false : ∃ (env : Env) (m : Model) (x : Str × UInt32), m.WF ∧ m.Accepts env ∧
    Relation.TransGen (Spec.Contains m) x x := by
  refine ⟨.ascii true true true true, Spec.twoCycle, (defaultModelPath, 1), by decide, accepts_of 1 (by decide +kernel), ?_⟩
  refine .tail (b := (defaultModelPath, 2)) (.single ?_) ?_
  · exact ⟨Spec.link 1 2 [], _, _, ⟨_, .inl ⟨.inr rfl, rfl⟩, by simp [Spec.twoCycle], rfl⟩, rfl, List.mem_singleton.2 rfl, by decide⟩
  · exact ⟨Spec.link 2 1 [], _, _, ⟨_, .inl ⟨.inr rfl, rfl⟩, by simp [Spec.twoCycle], rfl⟩, rfl, List.mem_singleton.2 rfl, by decide⟩

/- An object that is its own component is reported, and the tetrahedron of `Spec.accepted` is not. -/
example : ((({ Model.zero with resources := { Resources.zero with objects := [Spec.link 1 1 []] } } : Model).validateFuel
    (.ascii true true true true) 1).map List.length = some 1) ∧ Spec.accepted.Accepts (.ascii true true true true) :=
  ⟨by decide +kernel, accepts_of 1 (by decide +kernel)⟩

end Go3mf
