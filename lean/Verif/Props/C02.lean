import Verif.Model.Core

/-!
# C02: lookup by identifier, C03: path resolution
-/

namespace Go3mf

/-- `a` is the first element of `l` satisfying `p`. -/
def Spec.IsFirst {α : Type} (p : α → Prop) (l : List α) (a : α) : Prop :=
  ∃ pre post, l = pre ++ a :: post ∧ p a ∧ ∀ b ∈ pre, ¬ p b

theorem findObjectIn_spec (l : List Object) (id : UInt32) (o : Object) :
    findObjectIn l id = some o ↔ Spec.IsFirst (·.id = id) l o := by
  induction l with
  | nil => simp [findObjectIn, Spec.IsFirst]
  | cons a l ih =>
    simp only [findObjectIn, beq_iff_eq]
    constructor
    · split
      · rename_i h
        rintro ⟨⟩
        exact ⟨[], l, rfl, h, by simp⟩
      · rename_i h
        intro h'
        obtain ⟨pre, post, rfl, h1, h2⟩ := ih.1 h'
        exact ⟨a :: pre, post, rfl, h1, by simpa [h] using h2⟩
    · rintro ⟨pre, post, hl, h1, h2⟩
      cases pre with
      | nil => simp at hl; obtain ⟨rfl, rfl⟩ := hl; simp [h1]
      | cons b pre =>
        simp at hl; obtain ⟨rfl, rfl⟩ := hl
        have := h2 a (by simp)
        simp only [this, if_false]
        exact ih.2 ⟨pre, post, rfl, h1, fun b hb => h2 b (by simp [hb])⟩

theorem findAssetIn_spec (l : List Asset) (id : UInt32) (o : Asset) :
    findAssetIn l id = some o ↔ Spec.IsFirst (·.identify = id) l o := by
  induction l with
  | nil => simp [findAssetIn, Spec.IsFirst]
  | cons a l ih =>
    simp only [findAssetIn, beq_iff_eq]
    constructor
    · split
      · rename_i h
        rintro ⟨⟩
        exact ⟨[], l, rfl, h, by simp⟩
      · rename_i h
        intro h'
        obtain ⟨pre, post, rfl, h1, h2⟩ := ih.1 h'
        exact ⟨a :: pre, post, rfl, h1, by simpa [h] using h2⟩
    · rintro ⟨pre, post, hl, h1, h2⟩
      cases pre with
      | nil => simp at hl; obtain ⟨rfl, rfl⟩ := hl; simp [h1]
      | cons b pre =>
        simp at hl; obtain ⟨rfl, rfl⟩ := hl
        have := h2 a (by simp)
        simp only [this, if_false]
        exact ih.2 ⟨pre, post, rfl, h1, fun b hb => h2 b (by simp [hb])⟩

/-- `FindObject` returns `o` exactly when `o` is the first object with that identifier. -/
theorem C02_findObject (rs : Resources) (id : UInt32) (o : Object) :
    rs.findObject id = some o ↔ Spec.IsFirst (·.id = id) rs.objects o := findObjectIn_spec _ _ _

/-- `FindObject` fails exactly when no object has that identifier. -/
theorem C02_findObject_none (rs : Resources) (id : UInt32) :
    rs.findObject id = none ↔ ∀ o ∈ rs.objects, o.id ≠ id := by
  obtain ⟨as, os, _⟩ := rs
  simp only [Resources.findObject]
  induction os with
  | nil => simp [findObjectIn]
  | cons a l ih => by_cases h : a.id = id <;> simp_all [findObjectIn]

/-- `FindAsset` returns `a` exactly when `a` is the first asset with that identifier. -/
theorem C02_findAsset (rs : Resources) (id : UInt32) (a : Asset) :
    rs.findAsset id = some a ↔ Spec.IsFirst (·.identify = id) rs.assets a := findAssetIn_spec _ _ _

/-- `FindAsset` fails exactly when no asset has that identifier. -/
theorem C02_findAsset_none (rs : Resources) (id : UInt32) :
    rs.findAsset id = none ↔ ∀ a ∈ rs.assets, a.identify ≠ id := by
  obtain ⟨as, os, _⟩ := rs
  simp only [Resources.findAsset]
  induction as with
  | nil => simp [findAssetIn]
  | cons a l ih => by_cases h : a.identify = id <;> simp_all [findAssetIn]

/-- The identifier of each kind of asset is the `id` field a user sets. -/
theorem C02_identify :
    (∀ r, (Asset.base r).identify = r.id) ∧ (∀ i ts, (Asset.unknown i ts).identify = i) ∧
    (∀ r, (Asset.res (.colorGroup r)).identify = r.id) ∧ (∀ r, (Asset.res (.texture2D r)).identify = r.id) ∧
    (∀ r, (Asset.res (.texture2DGroup r)).identify = r.id) ∧ (∀ r, (Asset.res (.composite r)).identify = r.id) ∧
    (∀ r, (Asset.res (.multi r)).identify = r.id) ∧ (∀ r, (Asset.res (.sliceStack r)).identify = r.id) :=
  ⟨fun _ => rfl, fun _ _ => rfl, fun _ => rfl, fun _ => rfl, fun _ => rfl, fun _ => rfl, fun _ => rfl, fun _ => rfl⟩

/- Two objects with the same identifier: the first wins, although the collection contains both. -/
example :
    let o1 := { Object.zero with id := 5, name := b!"first" }
    let o2 := { Object.zero with id := 5, name := b!"second" }
    let rs : Resources := { Resources.zero with objects := [{ Object.zero with id := 4 }, o1, o2] }
    rs.findObject 5 = some o1 ∧ rs.findObject 6 = none := by decide

end Go3mf
