import Verif.Lemmas.Accepts
import Verif.Spec.Conform

/-!
# The core validators against the core rules
-/

namespace Go3mf

theorem partAt_iff (m : Model) (hwf : m.WF) (p : Str) (rs : Resources) :
    m.findResources p = some rs ↔ Spec.PartAt m p rs := by
  unfold Spec.PartAt
  by_cases h : Spec.IsRootPath m p
  · rw [C03_root m p h]
    simp [h, eq_comm]
  · rw [C03_child m hwf p h]
    simp [h]

theorem componentPart_eq (p : Str) (c : Component) : c.objectPath p = Spec.componentPart p c := by
  unfold Spec.componentPart Component.objectPath
  induction c.anyAttr with
  | nil => simp [AnyAttr.objectPath]
  | cons g gs ih =>
    rw [AnyAttr.objectPath, AnyAttr.objectPath]
    cases g.objectPath with
    | none => exact ih
    | some q =>
      simp only
      by_cases hq : q = []
      · simpa [hq] using ih
      · simp [hq]

theorem isFirst_mem {α : Type} {p : α → Prop} {l : List α} {a : α} (h : Spec.IsFirst p l a) : a ∈ l ∧ p a := by
  obtain ⟨pre, post, rfl, h1, -⟩ := h
  exact ⟨by simp, h1⟩

theorem findAsset_mem {rs : Resources} {id : UInt32} {a : Asset} (h : rs.findAsset id = some a) :
    a ∈ rs.assets ∧ a.identify = id := isFirst_mem ((findAssetIn_spec _ _ _).1 h)

theorem findObject_mem {rs : Resources} {id : UInt32} {o : Object} (h : rs.findObject id = some o) :
    o ∈ rs.objects ∧ o.id = id := isFirst_mem ((findObjectIn_spec _ _ _).1 h)

theorem unique_of_nodup {α : Type} (f : α → UInt32) (l : List α) (h : ((l.map f).filter (· ≠ 0)).Nodup) {a b : α}
    (ha : a ∈ l) (hb : b ∈ l) (h0 : f a ≠ 0) (he : f a = f b) : a = b := by
  induction l with
  | nil => cases ha
  | cons x l ih =>
    rw [List.map_cons, List.filter_cons] at h
    have hin : ∀ y ∈ l, f y ≠ 0 → f y ∈ (l.map f).filter (· ≠ 0) := fun y hy h0 =>
      List.mem_filter.2 ⟨List.mem_map_of_mem hy, by simpa using h0⟩
    have ht : ((l.map f).filter (· ≠ 0)).Nodup := by
      split at h
      · exact (List.nodup_cons.1 h).2
      · exact h
    rcases List.mem_cons.1 ha with rfl | ha' <;> rcases List.mem_cons.1 hb with rfl | hb'
    · rfl
    · rw [if_pos (by simpa using h0), List.nodup_cons] at h
      exact absurd (he ▸ hin b hb' (he ▸ h0)) h.1
    · rw [if_pos (by simpa [← he] using h0), List.nodup_cons] at h
      exact absurd (he ▸ hin a ha' h0) h.1
    · exact ih ht ha' hb'

theorem distinct_assets {rs : Resources} (h : Spec.DistinctIds rs) : ((rs.assets.map Asset.identify).filter (· ≠ 0)).Nodup := by
  unfold Spec.DistinctIds at h
  rw [List.filter_append, List.nodup_append] at h
  exact h.1

theorem distinct_objects {rs : Resources} (h : Spec.DistinctIds rs) : ((rs.objects.map Object.id).filter (· ≠ 0)).Nodup := by
  unfold Spec.DistinctIds at h
  rw [List.filter_append, List.nodup_append] at h
  exact h.2.1

theorem findAsset_of_mem {rs : Resources} (h : Spec.DistinctIds rs) {a : Asset} (ha : a ∈ rs.assets) (h0 : a.identify ≠ 0) :
    rs.findAsset a.identify = some a := by
  cases hf : rs.findAsset a.identify with
  | some b =>
    obtain ⟨h1, h2⟩ := findAsset_mem hf
    rw [unique_of_nodup _ _ (distinct_assets h) ha h1 h0 h2.symm]
  | none =>
    exfalso
    unfold Resources.findAsset at hf
    revert hf ha
    induction rs.assets with
    | nil => intro ha; cases ha
    | cons b l ih =>
      intro ha hf
      rw [findAssetIn] at hf
      by_cases hb : b.identify = a.identify
      · simp [hb] at hf
      · simp only [beq_iff_eq, hb, if_false] at hf
        rcases List.mem_cons.1 ha with rfl | ha
        · exact hb rfl
        · exact ih ha hf

theorem findObject_isSome {rs : Resources} {o : Object} (ha : o ∈ rs.objects) : ∃ o', rs.findObject o.id = some o' := by
  unfold Resources.findObject
  revert ha
  induction rs.objects with
  | nil => intro ha; cases ha
  | cons b l ih =>
    intro ha
    rw [findObjectIn]
    by_cases hb : b.id = o.id
    · simp [hb]
    · simp only [beq_iff_eq, hb, if_false]
      rcases List.mem_cons.1 ha with rfl | ha
      · exact absurd rfl hb
      · exact ih ha

theorem findObject_of_mem {rs : Resources} (h : Spec.DistinctIds rs) {o : Object} (ha : o ∈ rs.objects) (h0 : o.id ≠ 0) :
    rs.findObject o.id = some o := by
  obtain ⟨b, hf⟩ := findObject_isSome ha
  obtain ⟨h1, h2⟩ := findObject_mem hf
  rw [hf, unique_of_nodup _ _ (distinct_objects h) ha h1 h0 h2.symm]

theorem len_eq (a : Asset) : a.len = Spec.groupSize a := by
  unfold Asset.len Spec.groupSize
  cases a with
  | base r => rfl
  | unknown _ _ => rfl
  | res r => cases r <;> rfl

/-- What the code asks of a reference to properties. -/
def propOk (rs : Resources) (pid : UInt32) (indices : List UInt32) : Prop :=
  ∃ a, rs.findAsset pid = some a ∧ ∀ n, a.len = some n → ∀ i ∈ indices, i.toNat < n

theorem propOk_weak {rs : Resources} {pid : UInt32} {is : List UInt32} (h : propOk rs pid is) :
    ∀ i ∈ is, Spec.WeakProperty rs pid i := by
  intro i hi
  obtain ⟨a, h1, h2⟩ := h
  obtain ⟨h3, h4⟩ := findAsset_mem h1
  exact ⟨a, h3, h4, fun n hn => h2 n (len_eq a ▸ hn) i hi⟩

theorem propOk_of_property {rs : Resources} (hd : Spec.DistinctIds rs) {pid : UInt32} (h0 : pid ≠ 0) {is : List UInt32}
    (hn : is ≠ []) (h : ∀ i ∈ is, Spec.Property rs pid i) : propOk rs pid is := by
  cases is with
  | nil => exact absurd rfl hn
  | cons i is =>
    obtain ⟨a, ha, rfl, -⟩ := h i (by simp)
    refine ⟨a, findAsset_of_mem hd ha h0, fun n hn j hj => ?_⟩
    obtain ⟨b, hb, h1, k, h2, h3⟩ := h j hj
    have := unique_of_nodup _ _ (distinct_assets hd) ha hb h0 h1.symm
    subst this
    rw [len_eq, h2] at hn
    cases hn
    exact h3

theorem validateCore_nil (m : Model) (path : Str) (o : Object) :
    o.validateCore m path = [] ↔
      o.id ≠ 0 ∧ ¬ (o.pindex ≠ 0 ∧ o.pid = 0) ∧
      ¬ ((o.mesh.isSome ∧ o.components.isSome) ∨ (o.mesh.isNone ∧ o.components.isNone)) ∧
      (∀ mesh, o.mesh = some mesh → (o.pid ≠ 0 → propOk ((m.findResources path).getD .zero) o.pid [o.pindex]) ∧
        o.validateMesh ((m.findResources path).getD .zero) mesh = []) ∧
      (∀ cs, o.components = some cs → cs.component ≠ [] → o.pid = 0 ∧ o.validateComponents m path cs.component = []) := by
  unfold Object.validateCore
  simp only [List.append_eq_nil_iff, ite_nil, and_assoc, ne_eq, not_not]
  refine and_congr_right fun _ => and_congr_right fun _ => and_congr_right fun _ => and_congr ?_ ?_
  · cases o.mesh with
    | none => simp
    | some mesh =>
      simp only [List.append_eq_nil_iff, List.map_eq_nil_iff, Option.some.injEq, forall_eq']
      refine and_congr_left fun _ => ?_
      by_cases hp : o.pid = 0
      · simp [hp]
      · simp only [hp, not_false_eq_true, if_true, true_implies, propOk]
        cases hf : ((m.findResources path).getD .zero).findAsset o.pid with
        | none => simp
        | some a =>
          simp only [Option.some.injEq, exists_eq_left']
          cases a.len with
          | none => simp
          | some l =>
            simp only [ite_nil, ge_iff_le, not_le, Option.some.injEq, forall_eq', List.mem_singleton, forall_eq]
  · cases o.components with
    | none => simp
    | some cs =>
      simp only [Option.some.injEq, forall_eq', gt_iff_lt, List.length_pos_iff, ne_eq]
      by_cases hc : cs.component = []
      · simp [hc]
      · simp [hc, ite_nil]

theorem triangle_nil (res : Resources) (o : Object) (n : UInt32) (i : Nat) (t : Triangle)
    (ho : o.pid ≠ 0 → propOk res o.pid [o.pindex]) :
    t.validate res o n i = [] ↔
      (t.v1 ≠ t.v2 ∧ t.v1 ≠ t.v3 ∧ t.v2 ≠ t.v3) ∧ (t.v1 < n ∧ t.v2 < n ∧ t.v3 < n) ∧
      (t.pid ≠ 0 → propOk res t.pid [t.p1, t.p2, t.p3]) := by
  unfold Triangle.validate
  simp only [List.append_eq_nil_iff, ite_nil, and_assoc, not_or, ge_iff_le, UInt32.not_le, ne_eq]
  refine and_congr_right fun _ => and_congr_right fun _ => and_congr_right fun _ => and_congr_right fun _ =>
    and_congr_right fun _ => and_congr_right fun _ => ?_
  by_cases hp : t.pid = 0
  · simp [hp]
  · simp only [hp, if_false, not_false_eq_true, true_implies]
    by_cases hs : t.pid = o.pid ∧ t.p1 = o.pindex ∧ t.p2 = o.pindex ∧ t.p3 = o.pindex
    · rw [if_pos hs]
      obtain ⟨h1, h2, h3, h4⟩ := hs
      obtain ⟨a, h5, h6⟩ := ho (h1 ▸ hp)
      simp only [true_iff]
      rw [h1, h2, h3, h4]
      exact ⟨a, h5, by simpa using h6⟩
    · rw [if_neg hs]
      unfold propOk
      cases hf : res.findAsset t.pid with
      | none => simp
      | some a =>
        simp only [Option.some.injEq, exists_eq_left']
        cases a.len with
        | none => simp
        | some l =>
          simp only [ite_nil, ge_iff_le, not_or, not_le, Option.some.injEq, forall_eq', List.mem_cons, List.not_mem_nil, or_false,
            forall_eq_or_imp, forall_eq]

theorem forall_getElem {α : Type} {l : List α} {P : α → Prop} : (∀ (i : Nat) a, l[i]? = some a → P a) ↔ ∀ a ∈ l, P a := by
  constructor
  · intro h a ha
    obtain ⟨i, hi⟩ := List.getElem?_of_mem ha
    exact h i a hi
  · intro h i a hi
    exact h a (List.mem_of_getElem? hi)

theorem validateMesh_nil (res : Resources) (o : Object) (mesh : Mesh) (ho : o.pid ≠ 0 → propOk res o.pid [o.pindex]) :
    o.validateMesh res mesh = [] ↔
      (o.type = .model ∨ o.type = .solidSupport →
        3 ≤ mesh.vertices.length ∧ ¬ (mesh.triangles.length ≤ 3 ∧ mesh.any.length = 0)) ∧
      ∀ t ∈ mesh.triangles, (t.v1 ≠ t.v2 ∧ t.v1 ≠ t.v3 ∧ t.v2 ≠ t.v3) ∧
        (t.v1 < UInt32.ofNat mesh.vertices.length ∧ t.v2 < UInt32.ofNat mesh.vertices.length ∧
          t.v3 < UInt32.ofNat mesh.vertices.length) ∧
        (t.pid ≠ 0 → propOk res t.pid [t.p1, t.p2, t.p3]) := by
  unfold Object.validateMesh
  rw [List.append_eq_nil_iff, errsIdx_nil]
  refine and_congr ?_ ?_
  · by_cases ht : o.type = .model ∨ o.type = .solidSupport
    · simp only [ht, if_true, true_implies, List.append_eq_nil_iff, ite_nil, not_lt]
    · simp [ht]
  · rw [← forall_getElem]
    refine forall_congr' fun i => forall_congr' fun t => forall_congr' fun _ => ?_
    exact triangle_nil res o _ i t ho

theorem validateComponents_nil (m : Model) (path : Str) (o : Object) (cs : List Component) :
    o.validateComponents m path cs = [] ↔
      ∀ c ∈ cs, c.objectID ≠ 0 ∧ ∃ ref, m.findObject (c.objectPath path) c.objectID = some ref ∧
        ¬ (ref.id = o.id ∧ c.objectPath path = path) := by
  unfold Object.validateComponents
  rw [List.map_eq_nil_iff, errsIdx_nil, ← forall_getElem]
  refine forall_congr' fun i => forall_congr' fun c => forall_congr' fun _ => ?_
  by_cases h0 : c.objectID = 0
  · simp [h0]
  · simp only [h0, if_false, ne_eq, not_false_eq_true, true_and]
    cases m.findObject (c.objectPath path) c.objectID with
    | none => simp
    | some ref => simp only [ite_nil, Option.some.injEq, exists_eq_left']

theorem item_nil (m : Model) (it : Item) :
    it.validate m = [] ↔
      it.objectID ≠ 0 ∧ (∃ o, m.findObject it.objectPath it.objectID = some o ∧ o.type ≠ .other) ∧
      checkMetadata m it.metadata.metadata = [] := by
  unfold Item.validate
  rw [List.append_eq_nil_iff, ← and_assoc]
  refine and_congr_left fun _ => ?_
  by_cases h0 : it.objectID = 0
  · simp [h0]
  · simp only [h0, if_false, ne_eq, not_false_eq_true, true_and]
    cases m.findObject it.objectPath it.objectID with
    | none => simp
    | some o => simp only [ite_nil, Option.some.injEq, exists_eq_left']

theorem build_nil (m : Model) (b : Build) : b.validate m = [] ↔ ∀ it ∈ b.items, it.validate m = [] := by
  unfold Build.validate
  rw [errsIdx_nil, ← forall_getElem]
  simp only [List.map_eq_nil_iff]

theorem base_nil (r : BaseMaterials) : r.validate = [] ↔ Spec.BaseOk r := by
  unfold BaseMaterials.validate
  simp only [List.append_eq_nil_iff, ite_nil, errsIdx_nil, List.length_eq_zero_iff]
  constructor
  · rintro ⟨⟨h1, h2⟩, h3⟩
    rw [forall_getElem (P := fun b : Base => ¬ b.name = [] ∧ ¬ b.color = .zero)] at h3
    exact ⟨h1, h2, fun b hb => (h3 b hb).1, fun b hb => (h3 b hb).2⟩
  · rintro ⟨h1, h2, h3, h4⟩
    refine ⟨⟨h1, h2⟩, ?_⟩
    rw [forall_getElem (P := fun b : Base => ¬ b.name = [] ∧ ¬ b.color = .zero)]
    exact fun b hb => ⟨h3 b hb, h4 b hb⟩

end Go3mf
