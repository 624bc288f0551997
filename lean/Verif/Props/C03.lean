import Verif.Model.Core
import Verif.Props.C02

/-!
# C03: path resolution of resources
-/

namespace Go3mf

theorem lookupChild_spec {l : List (Str × ChildModel)} (h : (l.map (·.1)).Nodup) (p : Str) (c : ChildModel) :
    lookupChild l p = some c ↔ (p, c) ∈ l := by
  induction l with
  | nil => simp [lookupChild]
  | cons kc l ih =>
    obtain ⟨k, d⟩ := kc
    simp only [List.map_cons, List.nodup_cons, List.mem_map, not_exists, not_and] at h
    simp only [lookupChild, List.mem_cons, Prod.mk.injEq]
    by_cases hk : k = p
    · subst hk
      simp only [if_true, Option.some.injEq, true_and]
      constructor
      · rintro rfl; exact .inl rfl
      · rintro (rfl | h')
        · rfl
        · exact absurd rfl (h.1 _ h')
    · simp only [hk, if_false, ih h.2]
      constructor
      · exact .inr
      · rintro (⟨rfl, -⟩ | h')
        · exact absurd rfl hk
        · exact h'

/-- The paths that designate the root model part: the empty path and the model's own path, which is
`/3D/3dmodel.model` when unset. -/
def Spec.IsRootPath (m : Model) (p : Str) : Prop :=
  p = [] ∨ p = (if m.path = [] then b!"/3D/3dmodel.model" else m.path)

/-- The empty path and the model's own path resolve to the root resources, even if a child model is
stored under that path. -/
theorem C03_root (m : Model) (p : Str) (h : Spec.IsRootPath m p) : m.findResources p = some m.resources := by
  unfold Spec.IsRootPath at h
  unfold Model.findResources defaultModelPath
  split at h <;> grind

/-- Any other path resolves exactly to the child model stored under exactly that path. -/
theorem C03_child (m : Model) (hwf : m.WF) (p : Str) (h : ¬ Spec.IsRootPath m p) (rs : Resources) :
    m.findResources p = some rs ↔ ∃ c, (p, c) ∈ m.childs ∧ rs = c.resources := by
  have hr : ¬ (p = [] ∨ p = m.path ∨ (m.path = [] ∧ p = defaultModelPath)) := by
    unfold Spec.IsRootPath at h
    unfold defaultModelPath
    split at h <;> grind
  simp only [Model.findResources, hr, if_false]
  constructor
  · split
    · rename_i c hc
      rintro ⟨⟩
      exact ⟨c, (lookupChild_spec hwf _ _).1 hc, rfl⟩
    · simp
  · rintro ⟨c, hc, rfl⟩
    rw [(lookupChild_spec hwf _ _).2 hc]

/-- Resolution fails exactly for paths that are neither the root's nor a child's. -/
theorem C03_none (m : Model) (hwf : m.WF) (p : Str) :
    m.findResources p = none ↔ ¬ Spec.IsRootPath m p ∧ ∀ c, (p, c) ∉ m.childs := by
  constructor
  · intro h
    have hr : ¬ Spec.IsRootPath m p := fun hr => by simp [C03_root m p hr] at h
    refine ⟨hr, fun c hc => ?_⟩
    have := (C03_child m hwf p hr c.resources).2 ⟨c, hc, rfl⟩
    simp [h] at this
  · rintro ⟨hr, hn⟩
    by_contra hne
    obtain ⟨rs, hrs⟩ := Option.ne_none_iff_exists'.1 hne
    obtain ⟨c, hc, -⟩ := (C03_child m hwf p hr rs).1 hrs
    exact hn c hc

/-- `Model.FindObject` is path resolution followed by lookup of the first object with the identifier. -/
theorem C03_findObject (m : Model) (p : Str) (id : UInt32) (o : Object) :
    m.findObject p id = some o ↔
      ∃ rs, m.findResources p = some rs ∧ Spec.IsFirst (·.id = id) rs.objects o := by
  unfold Model.findObject
  split
  · rename_i rs h
    simp [h, C02_findObject]
  · rename_i h; simp [h]

/-- `Model.FindAsset` is path resolution followed by lookup of the first asset with the identifier. -/
theorem C03_findAsset (m : Model) (p : Str) (id : UInt32) (a : Asset) :
    m.findAsset p id = some a ↔
      ∃ rs, m.findResources p = some rs ∧ Spec.IsFirst (·.identify = id) rs.assets a := by
  unfold Model.findAsset
  split
  · rename_i rs h
    simp [h, C02_findAsset]
  · rename_i h; simp [h]

/-- `PathOrDefault` is one of the paths of the root. -/
theorem C03_pathOrDefault (m : Model) : Spec.IsRootPath m m.pathOrDefault ∧ m.pathOrDefault ≠ [] := by
  unfold Spec.IsRootPath Model.pathOrDefault defaultModelPath
  split <;> simp_all

/- A model with a child stored under the root path and one stored under another path. -/
example :
    let c : ChildModel := { ChildModel.zero with resources := { Resources.zero with objects := [{ Object.zero with id := 9 }] } }
    let m : Model := { Model.zero with childs := [(defaultModelPath, c), (b!"/a.model", c)] }
    m.WF ∧ m.findObject b!"/a.model" 9 ≠ none ∧ m.findObject defaultModelPath 9 = none ∧
      m.findObject b!"/b.model" 9 = none := by decide

end Go3mf
