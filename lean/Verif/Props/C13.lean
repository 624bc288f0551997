import Mathlib.Data.Fintype.EquivFin
import Verif.Props.C12
import Verif.Props.C39

/-!
# C13: termination of `Model.BoundingBox`
-/

namespace Go3mf

/-- **C13** under two conditions: no object contains itself, and no component refers to another part.  Missing: models with
cycles of components, which are accepted by `Model.Validate`, and models with components in other parts; for both
the code may not terminate (`C13_cycle_false`, `C13_path_false`). -/
theorem C13_acyclic_partial (m : Model) (hwf : m.WF)
    (hpart : ∀ p rs o cs c, Spec.IsPart m p rs → o ∈ rs.objects → o.components = some cs → c ∈ cs.component →
      Spec.componentPart p c = p)
    (hacyc : ∀ x, ¬ Relation.TransGen (Spec.Contains m) x x) : ∃ r, m.BoundingBox r := by
  apply C11_returns
  intro it _ o ho
  -- the part in which the whole recursion takes place
  have key : ∀ (path P : Str) (rs : Resources), (path = P ∨ (path = [] ∧ Spec.IsRootPath m P)) → P ≠ [] →
      Spec.IsPart m P rs → m.findResources P = some rs →
      ∀ (id : UInt32) (o : Object), m.findObject path id = some o → ∃ n b, o.boxFuel m n path = some b := by
    intro path P rs hpP hP hisP hrs
    have hpath : m.findResources path = some rs := by
      rcases hpP with rfl | ⟨rfl, h⟩
      · exact hrs
      · rw [C03_root m P h] at hrs
        rw [C03_root m [] (.inl rfl), hrs]
    let R : UInt32 → UInt32 → Prop := Relation.TransGen fun a b => Spec.Contains m (P, b) (P, a)
    have hlift : ∀ a b, R a b → Relation.TransGen (Spec.Contains m) (P, b) (P, a) := by
      intro a b h
      induction h with
      | single h => exact .single h
      | tail _ h ih => exact .head h ih
    have : Finite UInt32 := Finite.of_injective UInt32.toFin (fun a b h => UInt32.toFin_inj.1 h)
    have : IsTrans UInt32 R := ⟨fun _ _ _ => Relation.TransGen.trans⟩
    have : Std.Irrefl R := ⟨fun a h => hacyc _ (hlift a a h)⟩
    have hwfR : WellFounded R := Finite.wellFounded_of_trans_of_irrefl R
    intro id
    induction id using hwfR.induction with
    | _ id ih =>
      intro o ho
      rw [Model.findObject, hpath] at ho
      obtain ⟨hmem, hid⟩ := findObject_mem ho
      cases hm : o.mesh with
      | some mesh => exact ⟨1, mesh.boundingBox, by rw [Object.boxFuel]; simp only [hm]⟩
      | none =>
        cases hc : o.components with
        | none => exact ⟨1, .zero, by rw [Object.boxFuel]; simp only [hm, hc]⟩
        | some cs =>
          by_cases hl : cs.component.length = 0
          · exact ⟨1, .zero, by rw [Object.boxFuel]; simp only [hm, hc, hl, if_true]⟩
          have hcomp : ∀ c ∈ cs.component, ∀ obj, m.findObject (c.objectPath path) c.objectID = some obj →
              ∃ n b, obj.boxFuel m n path = some b := by
            intro c hcc obj hobj
            have h1 := hpart P rs o cs c hisP hmem hc hcc
            have hres : m.findResources (c.objectPath path) = some rs := by
              rcases hpP with rfl | ⟨rfl, h⟩
              · rw [componentPart_eq, h1, hrs]
              · rw [componentPart_eq]
                unfold Spec.componentPart at h1 ⊢
                by_cases he : c.objectPath [] = []
                · rw [if_pos he]; exact hpath
                · rw [if_neg he] at h1 ⊢; rw [h1]; exact hrs
            have hobj' : m.findObject path c.objectID = some obj := by
              rw [Model.findObject, hres] at hobj
              rw [Model.findObject, hpath]
              exact hobj
            refine ih c.objectID (.single ?_) obj hobj'
            exact ⟨o, cs, c, ⟨rs, (partAt_iff m hwf _ _).1 hrs, hmem, hid⟩, hc, hcc, by simp [h1]⟩
          have hlist : ∀ l : List Component, (∀ c ∈ l, c ∈ cs.component) →
              ∃ n, ∀ k, n ≤ k → ∀ b, ∃ b', componentsBox (Object.boxFuel m k) m path l b = some b' := by
            intro l
            induction l with
            | nil => exact fun _ => ⟨0, fun k _ b => ⟨b, rfl⟩⟩
            | cons c l ihl =>
              intro hsub
              obtain ⟨n1, h1⟩ := ihl fun d hd => hsub d (by simp [hd])
              cases hobj : m.findObject (c.objectPath path) c.objectID with
              | none =>
                refine ⟨n1, fun k hk b => ?_⟩
                rw [componentsBox]
                simp only [hobj]
                exact h1 k hk b
              | some obj =>
                obtain ⟨n2, b2, h2⟩ := hcomp c (hsub c (by simp)) obj hobj
                refine ⟨max n1 n2, fun k hk b => ?_⟩
                rw [componentsBox]
                simp only [hobj, boxFuel_mono m (le_trans (le_max_right _ _) hk) h2]
                exact h1 k (le_trans (le_max_left _ _) hk) _
          obtain ⟨n, hn⟩ := hlist cs.component (fun _ h => h)
          obtain ⟨b', hb'⟩ := hn n (le_refl _) .limit
          refine ⟨n + 1, b', ?_⟩
          rw [Object.boxFuel]
          simp only [hm, hc, hl, if_false]
          exact hb'
  have hrs : ∃ rs, m.findResources it.objectPath = some rs := by
    rw [Model.findObject] at ho
    cases hr : m.findResources it.objectPath with
    | none => rw [hr] at ho; cases ho
    | some rs => exact ⟨rs, rfl⟩
  obtain ⟨rs, hrs⟩ := hrs
  have : ∃ n b, o.boxFuel m n it.objectPath = some b := by
    rcases (partAt_iff m hwf _ _).1 hrs with ⟨hroot, rfl⟩ | ⟨hnr, c, hc, rfl⟩
    · refine key it.objectPath m.pathOrDefault m.resources ?_ (C03_pathOrDefault m).2 .root
        (C03_root m _ (C03_pathOrDefault m).1) _ o ho
      rcases hroot with h | h
      · exact .inr ⟨h, (C03_pathOrDefault m).1⟩
      · exact .inl h
    · exact key it.objectPath it.objectPath c.resources (.inl rfl) (fun h => hnr (.inl h)) (.child hc) hrs _ o ho
  obtain ⟨n, b, hb⟩ := this
  exact ⟨b, n, hb⟩

/-! ### Counterexamples -/

theorem not_terminates {m : Model} {it : Item} {o : Object} (hit : m.build.items = [it])
    (ho : m.findObject it.objectPath it.objectID = some o) (h : ∀ n, o.boxFuel m n it.objectPath = none) (r : Box) :
    ¬ m.BoundingBox r := by
  intro hb
  rw [Model.BoundingBox, if_neg (by simp [hit]), hit] at hb
  obtain ⟨ops, h1, -⟩ := hb
  cases h1 with
  | cons h2 _ =>
    cases h2 with
    | missing e => rw [ho] at e; cases e
    | empty e hb _ =>
      rw [ho] at e; cases e
      obtain ⟨n, hn⟩ := hb
      rw [h n] at hn; cases hn
    | extend e hb _ =>
      rw [ho] at e; cases e
      obtain ⟨n, hn⟩ := hb
      rw [h n] at hn; cases hn

theorem link_fuel {m : Model} {id ref : UInt32} {path p : Str} {o : Object} (n : Nat)
    (ho : m.findObject (if path = [] then p else path) ref = some o) (h : o.boxFuel m n p = none) :
    (Spec.link id ref path).boxFuel m (n + 1) p = none := by
  have : Component.objectPath { Component.zero with objectID := ref, anyAttr := [.prodComponent [] path] } p =
      if path = [] then p else path := by
    simp only [Component.objectPath, AnyAttr.objectPath, AttrGroup.objectPath]
    by_cases hp : path = [] <;> simp [hp]
  rw [Object.boxFuel]
  simp only [Spec.link, Object.zero, List.length_cons, List.length_nil, Nat.zero_add, Nat.one_ne_zero, if_false, componentsBox,
    this, ho, h]

/-- **C13** fails: `Model.Validate` accepts two objects made of each other, on which `Model.BoundingBox` does not
terminate. -/
theorem C13_cycle_false : ∃ (env : Env) (m : Model), m.WF ∧ m.Accepts env ∧ ∀ r, ¬ m.BoundingBox r := by
  refine ⟨.ascii true true true true, Spec.twoCycle, by decide, accepts_of 1 (by decide +kernel), ?_⟩
  refine not_terminates (o := Spec.link 1 2 []) rfl rfl fun n => ?_
  have : ∀ n, (Spec.link 1 2 []).boxFuel Spec.twoCycle n [] = none ∧ (Spec.link 2 1 []).boxFuel Spec.twoCycle n [] = none := by
    intro n
    induction n with
    | zero => exact ⟨rfl, rfl⟩
    | succ n ih => exact ⟨link_fuel n rfl ih.2, link_fuel n rfl ih.1⟩
  exact (this n).1

/-- The object 1 of the root part is made of the object 2 of the part `/a`, which is made of the mesh 1 of that part. -/
def Spec.acrossParts : Model :=
  { Model.zero with
    resources := { Resources.zero with objects := [Spec.link 1 2 b!"/a"] }
    childs := [(b!"/a", { ChildModel.zero with resources := { Resources.zero with
      objects := [{ Object.zero with id := 1, type := .support, mesh := some (Spec.oneTriangle 0 0) }, Spec.link 2 1 []] } })]
    build := { Build.zero with items := [{ Item.zero with objectID := 1 }] } }

/-- **C13** fails also without cycles: `Spec.acrossParts` is accepted and no object contains itself, but the code looks for
the object 1 in the root part, and does not terminate. -/
theorem C13_path_false : ∃ (env : Env) (m : Model), m.WF ∧ m.Accepts env ∧
    (∀ x, ¬ Relation.TransGen (Spec.Contains m) x x) ∧ ∀ r, ¬ m.BoundingBox r := by
  refine ⟨.ascii true true true true, Spec.acrossParts, by decide, accepts_of 1 (by decide +kernel), ?_, ?_⟩
  · -- every step decreases this rank
    have hstep : ∀ x y, Spec.Contains Spec.acrossParts x y →
        (x.1 ≠ b!"/a" ∧ y = (b!"/a", 2)) ∨ (x = (b!"/a", 2) ∧ y = (b!"/a", 1)) := by
      rintro ⟨p, id⟩ y ⟨o, cs, c, ⟨rs, h1, h2, h3⟩, h4, h5, rfl⟩
      rcases h1 with ⟨hr, rfl⟩ | ⟨hr, ch, hc, rfl⟩
      · left
        refine ⟨?_, ?_⟩
        · intro h
          have : ¬ Spec.IsRootPath Spec.acrossParts b!"/a" := by unfold Spec.IsRootPath; decide
          exact this (h ▸ hr)
        · rw [List.mem_singleton.1 h2] at h4
          cases h4
          rw [List.mem_singleton.1 h5]
          rfl
      · right
        have := List.mem_singleton.1 hc
        simp only [Prod.mk.injEq] at this
        obtain ⟨rfl, rfl⟩ := this
        rcases List.mem_cons.1 h2 with rfl | h2
        · cases h4
        · rw [List.mem_singleton.1 h2] at h3 h4
          cases h4
          rw [List.mem_singleton.1 h5]
          simp only at h3
          exact ⟨by rw [← h3]; rfl, rfl⟩
    let rank : Str × UInt32 → Nat := fun x => if x = (b!"/a", 2) then 1 else if x.1 = b!"/a" then 0 else 2
    have hrank : ∀ x y, Spec.Contains Spec.acrossParts x y → rank y < rank x := by
      intro x y h
      rcases hstep x y h with ⟨h1, rfl⟩ | ⟨rfl, rfl⟩
      · have : x ≠ (b!"/a", 2) := fun h => h1 (by rw [h])
        simp [rank, this, h1]
      · decide
    have htrans : ∀ x y, Relation.TransGen (Spec.Contains Spec.acrossParts) x y → rank y < rank x := by
      intro x y h
      induction h with
      | single h => exact hrank _ _ h
      | tail _ h ih => exact lt_trans (hrank _ _ h) ih
    exact fun x h => lt_irrefl _ (htrans x x h)
  · refine not_terminates (o := Spec.link 1 2 b!"/a") rfl rfl fun n => ?_
    have : ∀ n, (Spec.link 1 2 b!"/a").boxFuel Spec.acrossParts n [] = none ∧
        (Spec.link 2 1 []).boxFuel Spec.acrossParts n [] = none := by
      intro n
      induction n with
      | zero => exact ⟨rfl, rfl⟩
      | succ n ih => exact ⟨link_fuel n rfl ih.2, link_fuel n rfl ih.1⟩
    exact (this n).1

/- The hypotheses of `C13_acyclic_partial` can be met: a mesh inside two nested objects. -/
example : ∃ r, ({ Model.zero with
    resources := { Resources.zero with objects := [Spec.dot 1 ⟨.one, .one, .one⟩, Spec.link 2 1 [], Spec.link 3 2 []] }
    build := { Build.zero with items := [{ Item.zero with objectID := 3 }] } } : Model).BoundingBox r := by
  let objs : List Object := [Spec.dot 1 ⟨.one, .one, .one⟩, Spec.link 2 1 [], Spec.link 3 2 []]
  have hmem : ∀ o ∈ objs, ∀ cs c, o.components = some cs → c ∈ cs.component → c.objectID < o.id ∧ ∀ p, Spec.componentPart p c = p := by
    intro o ho cs c h1 h2
    simp only [objs, List.mem_cons, List.not_mem_nil, or_false] at ho
    rcases ho with rfl | rfl | rfl
    · cases h1
    · cases h1; rw [List.mem_singleton.1 h2]; exact ⟨by decide, fun p => rfl⟩
    · cases h1; rw [List.mem_singleton.1 h2]; exact ⟨by decide, fun p => rfl⟩
  refine C13_acyclic_partial _ List.nodup_nil ?_ ?_
  · intro p rs o cs c hp ho h1 h2
    cases hp with
    | root => exact (hmem o ho cs c h1 h2).2 _
    | child h => cases h
  · have hstep : ∀ x y, Spec.Contains { Model.zero with
        resources := { Resources.zero with objects := objs }
        build := { Build.zero with items := [{ Item.zero with objectID := 3 }] } } x y → y.2.toNat < x.2.toNat := by
      rintro ⟨p, id⟩ y ⟨o, cs, c, ⟨rs, h1, h2, rfl⟩, h4, h5, rfl⟩
      rcases h1 with ⟨-, rfl⟩ | ⟨-, ch, hc, -⟩
      · exact UInt32.lt_iff_toNat_lt.1 (hmem o h2 cs c h4 h5).1
      · cases hc
    intro x h
    have : ∀ x y, Relation.TransGen (Spec.Contains { Model.zero with
        resources := { Resources.zero with objects := objs }
        build := { Build.zero with items := [{ Item.zero with objectID := 3 }] } }) x y → y.2.toNat < x.2.toNat := by
      intro x y h
      induction h with
      | single h => exact hstep _ _ h
      | tail _ h ih => exact lt_trans (hstep _ _ h) ih
    exact lt_irrefl _ (this x x h)

end Go3mf
