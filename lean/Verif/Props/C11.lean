import Verif.Props.C10

/-!
# C11: `Model.BoundingBox` and the schedule of its goroutines
-/

namespace Go3mf

open F32

/-! ### The box of an object is determined -/

theorem componentsBox_mono {r r' : Object → Str → Option Box} (h : ∀ o p b, r o p = some b → r' o p = some b) (m : Model)
    (path : Str) : ∀ (cs : List Component) (b b' : Box), componentsBox r m path cs b = some b' →
      componentsBox r' m path cs b = some b' := by
  intro cs
  induction cs with
  | nil => intro b b' hb; exact hb
  | cons c cs ih =>
    intro b b' hb
    rw [componentsBox] at hb ⊢
    cases ho : m.findObject (c.objectPath path) c.objectID with
    | none => simp only [ho] at hb ⊢; exact ih _ _ hb
    | some obj =>
      simp only [ho] at hb ⊢
      cases hr : r obj path with
      | none => simp [hr] at hb
      | some cb =>
        rw [h _ _ _ hr]
        simp only [hr] at hb ⊢
        exact ih _ _ hb

theorem boxFuel_succ (m : Model) : ∀ (n : Nat) (o : Object) (path : Str) (b : Box), o.boxFuel m n path = some b →
    o.boxFuel m (n + 1) path = some b := by
  intro n
  induction n with
  | zero => intro o path b h; cases h
  | succ n ih =>
    intro o path b h
    rw [Object.boxFuel] at h ⊢
    cases hm : o.mesh with
    | some mesh => simp only [hm] at h ⊢; exact h
    | none =>
      simp only [hm] at h ⊢
      cases hc : o.components with
      | none => simp only [hc] at h ⊢; exact h
      | some cs =>
        simp only [hc] at h ⊢
        by_cases hl : cs.component.length = 0
        · rw [if_pos hl] at h ⊢; exact h
        · rw [if_neg hl] at h ⊢; exact componentsBox_mono ih m path _ _ _ h

theorem boxFuel_mono (m : Model) {n k : Nat} (hk : n ≤ k) {o : Object} {path : Str} {b : Box}
    (h : o.boxFuel m n path = some b) : o.boxFuel m k path = some b := by
  induction hk with
  | refl => exact h
  | step _ ih => exact boxFuel_succ m _ _ _ _ ih

theorem BoundingBox_unique {m : Model} {o : Object} {path : Str} {b b' : Box} (h : o.BoundingBox m path b)
    (h' : o.BoundingBox m path b') : b = b' := by
  obtain ⟨n, h⟩ := h
  obtain ⟨k, h'⟩ := h'
  have h1 := boxFuel_mono m (Nat.le_max_left n k) h
  have h2 := boxFuel_mono m (Nat.le_max_right n k) h'
  rw [h1] at h2
  exact Option.some.inj h2

theorem BoxOp_unique {m : Model} {it : Item} {f g : Option (Box → Box)} (h : it.BoxOp m f) (h' : it.BoxOp m g) : f = g := by
  cases h with
  | missing h1 =>
    cases h' with
    | missing => rfl
    | empty h2 => rfl
    | extend h2 => rw [h1] at h2; cases h2
  | empty h1 hb he =>
    cases h' with
    | missing => rfl
    | empty h2 hb' he' => rfl
    | extend h2 hb' he' =>
      rw [h1] at h2
      cases h2
      rw [BoundingBox_unique hb hb', he'] at he
      cases he
  | extend h1 hb he =>
    cases h' with
    | missing h2 => rw [h1] at h2; cases h2
    | empty h2 hb' he' =>
      rw [h1] at h2
      cases h2
      rw [BoundingBox_unique hb hb', he'] at he
      cases he
    | extend h2 hb' he' =>
      rw [h1] at h2
      cases h2
      rw [BoundingBox_unique hb hb']

theorem forall₂_unique {α β : Type} {R : α → β → Prop} (hu : ∀ a b c, R a b → R a c → b = c) {l : List α} {u v : List β}
    (h : List.Forall₂ R l u) (h' : List.Forall₂ R l v) : u = v := by
  induction h generalizing v with
  | nil => cases h'; rfl
  | cons hr _ ih => cases h' with | cons hr' ht => rw [hu _ _ _ hr hr', ih ht]

/-! ### Order of the extensions -/

/-- A coordinate of the box is not a number. -/
def Spec.HasNaN (b : Box) : Prop :=
  b.min.x.isNaN = true ∨ b.min.y.isNaN = true ∨ b.min.z.isNaN = true ∨
  b.max.x.isNaN = true ∨ b.max.y.isNaN = true ∨ b.max.z.isNaN = true

theorem fold_min_key (l : List F32) (a : F32) (ha : a.isNaN = false) (hl : ∀ x ∈ l, x.isNaN = false) :
    (l.foldl F32.min a).isNaN = false ∧ (l.foldl F32.min a).key = (l.map key).foldl Min.min a.key := by
  induction l generalizing a with
  | nil => exact ⟨ha, rfl⟩
  | cons x l ih =>
    obtain ⟨h1, h2⟩ := min_key ha (hl x (by simp))
    rw [List.foldl_cons, List.map_cons, List.foldl_cons, ← h1]
    exact ih _ h2 (fun y hy => hl y (by simp [hy]))

theorem fold_max_key (l : List F32) (a : F32) (ha : a.isNaN = false) (hl : ∀ x ∈ l, x.isNaN = false) :
    (l.foldl F32.max a).isNaN = false ∧ (l.foldl F32.max a).key = (l.map key).foldl Max.max a.key := by
  induction l generalizing a with
  | nil => exact ⟨ha, rfl⟩
  | cons x l ih =>
    obtain ⟨h1, h2⟩ := max_key ha (hl x (by simp))
    rw [List.foldl_cons, List.map_cons, List.foldl_cons, ← h1]
    exact ih _ h2 (fun y hy => hl y (by simp [hy]))

theorem fold_min_perm {l l' : List F32} (hp : l.Perm l') (a : F32) (ha : a.isNaN = false) (hl : ∀ x ∈ l, x.isNaN = false) :
    (l.foldl F32.min a).eq (l'.foldl F32.min a) = true := by
  obtain ⟨h1, h2⟩ := fold_min_key l a ha hl
  obtain ⟨h3, h4⟩ := fold_min_key l' a ha (fun x hx => hl x (hp.mem_iff.2 hx))
  have : RightCommutative (Min.min : Int → Int → Int) := ⟨fun a b c => by omega⟩
  have h5 := (hp.map key).foldl_eq (f := (Min.min : Int → Int → Int)) a.key
  simp [F32.eq, h1, h2, h3, h4, h5]

theorem fold_max_perm {l l' : List F32} (hp : l.Perm l') (a : F32) (ha : a.isNaN = false) (hl : ∀ x ∈ l, x.isNaN = false) :
    (l.foldl F32.max a).eq (l'.foldl F32.max a) = true := by
  obtain ⟨h1, h2⟩ := fold_max_key l a ha hl
  obtain ⟨h3, h4⟩ := fold_max_key l' a ha (fun x hx => hl x (hp.mem_iff.2 hx))
  have : RightCommutative (Max.max : Int → Int → Int) := ⟨fun a b c => by omega⟩
  have h5 := (hp.map key).foldl_eq (f := (Max.max : Int → Int → Int)) a.key
  simp [F32.eq, h1, h2, h3, h4, h5]

theorem foldl_extend (vs : List Box) (b : Box) : vs.foldl Box.extend b =
    ⟨⟨(vs.map (·.min.x)).foldl F32.min b.min.x, (vs.map (·.min.y)).foldl F32.min b.min.y, (vs.map (·.min.z)).foldl F32.min b.min.z⟩,
     ⟨(vs.map (·.max.x)).foldl F32.max b.max.x, (vs.map (·.max.y)).foldl F32.max b.max.y, (vs.map (·.max.z)).foldl F32.max b.max.z⟩⟩ := by
  induction vs generalizing b with
  | nil => rfl
  | cons v vs ih => rw [List.foldl_cons, ih]; rfl

theorem fold_extend_perm {vs ws : List Box} (hp : vs.Perm ws) (hn : ∀ v ∈ vs, ¬ Spec.HasNaN v) :
    (vs.foldl Box.extend .limit).eq (ws.foldl Box.extend .limit) = true := by
  rw [foldl_extend, foldl_extend]
  have hm := maxVal_key
  have hall : ∀ v ∈ vs, v.min.x.isNaN = false ∧ v.min.y.isNaN = false ∧ v.min.z.isNaN = false ∧
      v.max.x.isNaN = false ∧ v.max.y.isNaN = false ∧ v.max.z.isNaN = false := by
    intro v hv
    have := hn v hv
    simp only [Spec.HasNaN, not_or, Bool.not_eq_true] at this
    exact this
  simp only [Box.eq, Point3D.eq, Bool.and_eq_true]
  refine ⟨⟨⟨?_, ?_⟩, ?_⟩, ⟨?_, ?_⟩, ?_⟩
  · exact fold_min_perm (hp.map _) _ hm.2.2.1 (by intro x hx; obtain ⟨v, hv, rfl⟩ := List.mem_map.1 hx; exact (hall v hv).1)
  · exact fold_min_perm (hp.map _) _ hm.2.2.1 (by intro x hx; obtain ⟨v, hv, rfl⟩ := List.mem_map.1 hx; exact (hall v hv).2.1)
  · exact fold_min_perm (hp.map _) _ hm.2.2.1 (by intro x hx; obtain ⟨v, hv, rfl⟩ := List.mem_map.1 hx; exact (hall v hv).2.2.1)
  · exact fold_max_perm (hp.map _) _ hm.2.2.2.1 (by intro x hx; obtain ⟨v, hv, rfl⟩ := List.mem_map.1 hx; exact (hall v hv).2.2.2.1)
  · exact fold_max_perm (hp.map _) _ hm.2.2.2.1 (by intro x hx; obtain ⟨v, hv, rfl⟩ := List.mem_map.1 hx; exact (hall v hv).2.2.2.2.1)
  · exact fold_max_perm (hp.map _) _ hm.2.2.2.1 (by intro x hx; obtain ⟨v, hv, rfl⟩ := List.mem_map.1 hx; exact (hall v hv).2.2.2.2.2)

theorem extend_nan (v : Box) : Box.extend ⟨⟨.nan, .nan, .nan⟩, ⟨.nan, .nan, .nan⟩⟩ v = v := by
  have hmin : ∀ x : F32, F32.min .nan x = x := by intro x; simp [F32.min, F32.lt, isNaN]
  have hmax : ∀ x : F32, F32.max .nan x = x := by intro x; simp [F32.max, F32.lt, isNaN]
  simp [Box.extend, hmin, hmax]

/-- A list of updates all of which extend the box. -/
theorem map_extend_inv (fs : List (Box → Box)) (P : Box → Prop) (h : ∀ f ∈ fs, ∃ v, f = (fun b => Box.extend b v) ∧ P v) :
    ∃ vs : List Box, fs = vs.map (fun v b => Box.extend b v) ∧ ∀ v ∈ vs, P v := by
  induction fs with
  | nil => exact ⟨[], rfl, by simp⟩
  | cons f fs ih =>
    obtain ⟨v, rfl, hv⟩ := h f (by simp)
    obtain ⟨vs, rfl, hvs⟩ := ih (fun g hg => h g (by simp [hg]))
    exact ⟨v :: vs, rfl, by simpa using ⟨hv, hvs⟩⟩

theorem perm_map_inv' {α β : Type} (f : α → β) {l : List β} {l' : List α} (h : l.Perm (l'.map f)) :
    ∃ l'' : List α, l''.Perm l' ∧ l = l''.map f := by
  generalize hk : l'.map f = k at h
  induction h generalizing l' with
  | nil => exact ⟨l', .refl _, hk.symm⟩
  | @cons x l₁ l₂ _ ih =>
    cases l' with
    | nil => cases hk
    | cons a l' =>
      rw [List.map_cons, List.cons.injEq] at hk
      obtain ⟨m, hm, rfl⟩ := ih hk.2
      exact ⟨a :: m, hm.cons a, by simp [hk.1]⟩
  | swap x y l =>
    match l', hk with
    | a :: b :: l', hk =>
      simp only [List.map_cons, List.cons.injEq] at hk
      exact ⟨b :: a :: l', .swap _ _ _, by simp [hk.1, hk.2.1, hk.2.2]⟩
  | trans _ _ ih1 ih2 =>
    obtain ⟨m, hm, rfl⟩ := ih2 hk
    obtain ⟨m', hm', rfl⟩ := ih1 rfl
    exact ⟨m', hm'.trans hm, rfl⟩

/-- The result is that of extending the empty box by the boxes of the items, in some order. -/
theorem model_box_fold {m : Model} {r : Box} (h : m.BoundingBox r) (hne : m.build.items.length ≠ 0) :
    ∃ (ops : List (Option (Box → Box))) (vs ws : List Box), List.Forall₂ (Item.BoxOp m) m.build.items ops ∧ ops.filterMap id = List.map (fun v b => Box.extend b v) vs ∧
      ws.Perm vs ∧ r = ws.foldl Box.extend .limit ∧
      ∀ v ∈ vs, ∃ it ∈ m.build.items, ∃ o b, m.findObject it.objectPath it.objectID = some o ∧
        o.BoundingBox m it.objectPath b ∧ b.eq .zero = false ∧ v = it.transform.mulBox b := by
  rw [Model.BoundingBox, if_neg hne] at h
  obtain ⟨ops, hops, hr⟩ := h
  obtain ⟨fs, hp, rfl⟩ := Par.result_perm hr
  have hx : ∀ f ∈ ops.filterMap id, ∃ v, f = (fun b => Box.extend b v) ∧
      ∃ it ∈ m.build.items, ∃ o b, m.findObject it.objectPath it.objectID = some o ∧
        o.BoundingBox m it.objectPath b ∧ b.eq .zero = false ∧ v = it.transform.mulBox b := by
    intro f hf
    rw [List.mem_filterMap] at hf
    obtain ⟨op, hop, rfl⟩ := hf
    obtain ⟨it, hit, hb⟩ : ∃ it ∈ m.build.items, it.BoxOp m (some f) := by
      clear hr hp hne
      generalize m.build.items = its at hops
      induction hops with
      | nil => cases hop
      | cons h1 _ ih =>
        rcases List.mem_cons.1 hop with rfl | h2
        · exact ⟨_, by simp, h1⟩
        · obtain ⟨it, h3, h4⟩ := ih h2; exact ⟨it, by simp [h3], h4⟩
    cases hb with
    | extend h1 h2 h3 => exact ⟨_, rfl, it, hit, _, _, h1, h2, h3, rfl⟩
  obtain ⟨vs, hvs, hall⟩ := map_extend_inv _ _ hx
  rw [hvs] at hp
  obtain ⟨ws, hws, rfl⟩ := perm_map_inv' _ hp
  refine ⟨ops, vs, ws, hops, hvs, hws, ?_, hall⟩
  rw [List.foldl_map]

/-- **C11**, under the hypothesis that no box of an item, after its transform, has a NaN coordinate: under any two
schedules the results are equal (Go `==`).  Missing: NaN coordinates, see `C11_nan_false`. -/
theorem C11_schedule_partial (m : Model)
    (hn : ∀ it ∈ m.build.items, ∀ o b, m.findObject it.objectPath it.objectID = some o →
      o.BoundingBox m it.objectPath b → ¬ Spec.HasNaN (it.transform.mulBox b))
    (r r' : Box) (h : m.BoundingBox r) (h' : m.BoundingBox r') : r.eq r' = true := by
  by_cases hne : m.build.items.length = 0
  · rw [Model.BoundingBox, if_pos hne] at h h'
    subst h h'
    decide +kernel
  · obtain ⟨ops, vs, ws, h1, h2, h3, rfl, h4⟩ := model_box_fold h hne
    obtain ⟨ops', vs', ws', k1, k2, k3, rfl, -⟩ := model_box_fold h' hne
    have := forall₂_unique (fun it f g h h' => BoxOp_unique (it := it) h h') h1 k1
    subst this
    rw [h2] at k2
    have hinj : Function.Injective (fun (v b : Box) => Box.extend b v) := by
      intro v v' hv
      have := congrFun hv ⟨⟨.nan, .nan, .nan⟩, ⟨.nan, .nan, .nan⟩⟩
      simpa only [extend_nan] using this
    have := List.map_injective_iff.2 hinj k2
    subst this
    refine fold_extend_perm (h3.trans k3.symm) ?_
    intro v hv
    obtain ⟨it, hit, o, b, e1, e2, -, rfl⟩ := h4 v (h3.mem_iff.1 hv)
    exact hn it hit o b e1 e2

/-- A result is always reached when the box of every object of the build is. -/
theorem C11_returns (m : Model)
    (hb : ∀ it ∈ m.build.items, ∀ o, m.findObject it.objectPath it.objectID = some o → ∃ b, o.BoundingBox m it.objectPath b) :
    ∃ r, m.BoundingBox r := by
  by_cases hne : m.build.items.length = 0
  · exact ⟨_, by rw [Model.BoundingBox, if_pos hne]⟩
  · have : ∃ ops, List.Forall₂ (Item.BoxOp m) m.build.items ops := by
      clear hne
      generalize m.build.items = its at hb
      induction its with
      | nil => exact ⟨[], .nil⟩
      | cons it its ih =>
        obtain ⟨ops, h⟩ := ih (fun i hi => hb i (by simp [hi]))
        have : ∃ op, it.BoxOp m op := by
          cases ho : m.findObject it.objectPath it.objectID with
          | none => exact ⟨_, .missing ho⟩
          | some o =>
            obtain ⟨b, hb'⟩ := hb it (by simp) o ho
            cases he : b.eq .zero with
            | true => exact ⟨_, .empty ho hb' he⟩
            | false => exact ⟨_, .extend ho hb' he⟩
        obtain ⟨op, hop⟩ := this
        exact ⟨op :: ops, .cons hop h⟩
    obtain ⟨ops, hops⟩ := this
    obtain ⟨r, hr⟩ := Par.result_exists ops .limit
    exact ⟨r, by rw [Model.BoundingBox, if_neg hne]; exact ⟨ops, hops, hr⟩⟩

/-- An object with a single vertex. -/
def Spec.dot (id : UInt32) (p : Point3D) : Object := { Object.zero with id := id, mesh := some { Mesh.zero with vertices := [p] } }

/-- Two dots, both in the build. -/
def Spec.twoDots (p q : Point3D) : Model :=
  { Model.zero with
    resources := { Resources.zero with objects := [Spec.dot 1 p, Spec.dot 2 q] }
    build := { Build.zero with items := [{ Item.zero with objectID := 1 }, { Item.zero with objectID := 2 }] } }

theorem twoDots_result (p q : Point3D) (bp bq : Box) (hp : (Spec.dot 1 p).boxFuel (Spec.twoDots p q) 1 [] = some bp)
    (hq : (Spec.dot 2 q).boxFuel (Spec.twoDots p q) 1 [] = some bq) (h1 : bp.eq .zero = false) (h2 : bq.eq .zero = false) :
    (Spec.twoDots p q).BoundingBox ((Box.limit.extend (Matrix.zero.mulBox bp)).extend (Matrix.zero.mulBox bq)) ∧
    (Spec.twoDots p q).BoundingBox ((Box.limit.extend (Matrix.zero.mulBox bq)).extend (Matrix.zero.mulBox bp)) := by
  have hops : List.Forall₂ (Item.BoxOp (Spec.twoDots p q)) (Spec.twoDots p q).build.items
      [some fun b => b.extend (Matrix.zero.mulBox bp), some fun b => b.extend (Matrix.zero.mulBox bq)] :=
    .cons (.extend rfl ⟨1, hp⟩ h1) (.cons (.extend rfl ⟨1, hq⟩ h2) .nil)
  have hne : ¬ (Spec.twoDots p q).build.items.length = 0 := by simp [Spec.twoDots]
  rw [Model.BoundingBox, Model.BoundingBox, if_neg hne, if_neg hne]
  exact ⟨⟨_, hops, Par.result_two _ _ _⟩, ⟨_, hops, Par.result_two_swap _ _ _⟩⟩

/-- **C11** fails when a coordinate is NaN (the decoder accepts `x="NaN"`): two schedules give different boxes. -/
theorem C11_nan_false : ∃ (m : Model) (r r' : Box), m.BoundingBox r ∧ m.BoundingBox r' ∧
    r.min.x = F32.one ∧ r'.min.x = .nan := by
  have h := twoDots_result ⟨.nan, .one, .one⟩ ⟨.one, .one, .one⟩ _ _ rfl rfl (by decide +kernel) (by decide +kernel)
  exact ⟨_, _, _, h.1, h.2, by decide +kernel, by decide +kernel⟩

/- The hypothesis of `C11_schedule_partial` holds for two dots with ordinary coordinates. -/
example : ∀ it ∈ (Spec.twoDots ⟨.one, .zero, .one⟩ ⟨.zero, .one, .one⟩).build.items, ∀ o b,
    (Spec.twoDots ⟨.one, .zero, .one⟩ ⟨.zero, .one, .one⟩).findObject it.objectPath it.objectID = some o →
    o.BoundingBox (Spec.twoDots ⟨.one, .zero, .one⟩ ⟨.zero, .one, .one⟩) it.objectPath b →
    ¬ Spec.HasNaN (it.transform.mulBox b) := by
  intro it hit o b ho hb
  simp only [Spec.twoDots, List.mem_cons, List.not_mem_nil, or_false] at hit
  rcases hit with rfl | rfl
  · have : o = Spec.dot 1 ⟨.one, .zero, .one⟩ := (Option.some.inj ho).symm
    subst this
    have := BoundingBox_unique hb ⟨1, rfl⟩
    subst this
    unfold Spec.HasNaN
    decide +kernel
  · have : o = Spec.dot 2 ⟨.zero, .one, .one⟩ := (Option.some.inj ho).symm
    subst this
    have := BoundingBox_unique hb ⟨1, rfl⟩
    subst this
    unfold Spec.HasNaN
    decide +kernel

end Go3mf
