import Verif.Lemmas.Search
import Verif.Props.C13

/-!
# C66: when `Model.Validate` returns

Only the validator of the slices extension searches without a bound: for every object with a slice stack it goes through the
build and all components below, and stops at the first tilted use of the object.
-/

namespace Go3mf
open Spec

/-- **C66**: `Validate` returns exactly if no search for an object with slices goes on forever. -/
theorem C66_exact (env : Env) (m : Model) (hwf : m.WF) :
    (∃ errs, m.Validate env errs) ↔ ∀ p o, HasSlices env m p o → ¬ Endless m p o.id :=
  ⟨fun h _ _ hs he => validate_stuck hwf hs he h, validate_returns hwf⟩

/-- Without the slices extension, `Validate` always returns. -/
theorem C66_noSlices (env : Env) (m : Model) (hwf : m.WF) (h : ¬ Active env m .slices) : ∃ errs, m.Validate env errs :=
  (C66_exact env m hwf).2 fun _ _ hs => absurd hs.1 h

/-- The path by which the parts are known. -/
def normPart (m : Model) (q : Str) : Str := if q = [] then rootPath m else q

theorem partAt_norm {q : Str} {rs : Resources} (h : PartAt m q rs) : PartAt m (normPart m q) rs ∧ IsPart m (normPart m q) rs := by
  unfold normPart
  split
  · next h0 =>
    rcases h with ⟨-, rfl⟩ | ⟨hn, -⟩
    · exact ⟨.inl ⟨.inr rfl, rfl⟩, .root⟩
    · exact absurd (.inl h0) hn
  · next h0 =>
    refine ⟨h, ?_⟩
    rcases h with ⟨hr, rfl⟩ | ⟨-, c, hc, rfl⟩
    · rcases hr with hr | hr
      · exact absurd hr h0
      · rw [hr]; exact .root
    · exact .child hc

/-- **C66** under the two conditions of C13: no object contains itself, and no component refers to another part.  Missing:
models that do not meet them, on which the code may not return (`C66_cycle_false`, `C66_path_false`). -/
theorem C66_acyclic_partial (env : Env) (m : Model) (hwf : m.WF)
    (hpart : ∀ p rs o cs c, Spec.IsPart m p rs → o ∈ rs.objects → o.components = some cs → c ∈ cs.component →
      Spec.componentPart p c = p)
    (hacyc : ∀ x, ¬ Relation.TransGen (Spec.Contains m) x x) : ∃ errs, m.Validate env errs := by
  refine (C66_exact env m hwf).2 ?_
  rintro p o - ⟨f, ⟨-, it, -, -, -, h0⟩, hf⟩
  -- the part of each object
  have hq : ∀ n, ∃ q, ObjectFound m q (f n).id (f n) := by
    intro n
    cases n with
    | zero => exact ⟨_, by rw [objectFound_id h0]; exact h0⟩
    | succ n =>
      obtain ⟨cs, j, c, -, -, -, -, hx⟩ := hf n
      exact ⟨_, by rw [objectFound_id hx]; exact hx⟩
  -- below an object of a part are objects of this part, or of the part `p`
  have hstep : ∀ n Q, ObjectFound m Q (f n).id (f n) → Q ≠ [] →
      (ObjectFound m (normPart m p) (f (n + 1)).id (f (n + 1)) ∨ ObjectFound m Q (f (n + 1)).id (f (n + 1))) ∧
      (ObjectFound m Q (f (n + 1)).id (f (n + 1)) → Contains m (Q, (f n).id) (Q, (f (n + 1)).id)) := by
    intro n Q hQ hne
    obtain ⟨rs, hrs, hfirst⟩ := hQ
    have hmem : f n ∈ rs.objects ∧ (f n).id = (f n).id := ⟨by
      have := (findObject_iff hwf).2 ⟨rs, hrs, hfirst⟩
      rw [Model.findObject, (partAt_iff m hwf Q rs).2 hrs] at this
      exact (findObject_mem this).1, rfl⟩
    have hisP : IsPart m Q rs := by
      have := (partAt_norm hrs).2
      rwa [normPart, if_neg hne] at this
    obtain ⟨cs, j, c, hc, hj, -, -, hx⟩ := hf n
    have hcm : c ∈ cs.component := List.mem_of_getElem? hj
    have hcp := hpart Q rs (f n) cs c hisP hmem.1 hc hcm
    have hid := objectFound_id hx
    refine ⟨?_, fun _ => ⟨f n, cs, c, ⟨rs, hrs, hmem.1, rfl⟩, hc, hcm, by rw [hcp, hid]⟩⟩
    rw [hid]
    unfold componentPart at hx hcp
    split at hx
    · left
      obtain ⟨rs', h1, h2⟩ := hx
      exact ⟨rs', (partAt_norm h1).1, h2⟩
    · next he =>
      rw [if_neg he] at hcp
      rw [hcp] at hx
      exact .inr hx
  have hnorm : ∀ q, normPart m q ≠ [] := by
    intro q
    unfold normPart
    split
    · exact (C03_pathOrDefault m).2
    · assumption
  -- from some object on, all are in one part
  have hconst : ∃ N Q, Q ≠ [] ∧ ∀ k, ObjectFound m Q (f (N + k)).id (f (N + k)) := by
    obtain ⟨q, rs, h1, h2⟩ := hq 0
    have hq0 : ObjectFound m (normPart m q) (f 0).id (f 0) := ⟨rs, (partAt_norm h1).1, h2⟩
    by_cases hall : ∀ k, ObjectFound m (normPart m q) (f k).id (f k)
    · exact ⟨0, _, hnorm q, fun k => by rw [Nat.zero_add]; exact hall k⟩
    · have hN : ∃ N, ObjectFound m (normPart m p) (f N).id (f N) := by
        by_contra hno
        refine hall fun k => ?_
        induction k with
        | zero => exact hq0
        | succ k ih =>
          rcases (hstep k _ ih (hnorm q)).1 with h | h
          · exact absurd ⟨_, h⟩ hno
          · exact h
      obtain ⟨N, hN⟩ := hN
      refine ⟨N, _, hnorm p, fun k => ?_⟩
      induction k with
      | zero => exact hN
      | succ k ih => exact (hstep (N + k) _ ih (hnorm p)).1.elim id id
  obtain ⟨N, Q, hne, hk⟩ := hconst
  let R : UInt32 → UInt32 → Prop := Relation.TransGen fun a b => Spec.Contains m (Q, b) (Q, a)
  have hlift : ∀ a b, R a b → Relation.TransGen (Spec.Contains m) (Q, b) (Q, a) := by
    intro a b h
    induction h with
    | single h => exact .single h
    | tail _ h ih => exact .head h ih
  have : Finite UInt32 := Finite.of_injective UInt32.toFin (fun a b h => UInt32.toFin_inj.1 h)
  have : IsTrans UInt32 R := ⟨fun _ _ _ => Relation.TransGen.trans⟩
  have : Std.Irrefl R := ⟨fun a h => hacyc _ (hlift a a h)⟩
  have hwfR : WellFounded R := Finite.wellFounded_of_trans_of_irrefl R
  have key : ∀ a k, (f (N + k)).id = a → False := by
    intro a
    induction a using hwfR.induction with
    | _ a ih =>
      rintro k rfl
      exact ih _ (.single ((hstep (N + k) Q (hk k) hne).2 (hk (k + 1)))) (k + 1) rfl
  exact key _ 0 rfl

/-! ### Counterexamples -/

/-- The model with a slice stack and an object 7 that has it, in addition. -/
def Spec.withSlices (m : Model) : Model :=
  { m with
    extensions := [⟨nsSlices, b!"s", false⟩]
    resources := { m.resources with
      assets := [.res (.sliceStack ⟨5, .zero, [⟨.one, [], []⟩], []⟩)]
      objects := m.resources.objects ++
        [{ Object.zero with id := 7, type := .support, mesh := some (Spec.oneTriangle 0 0), anyAttr := [.sliceObject 5 .full] }] } }

theorem withSlices_has (m : Model) : HasSlices (.ascii true true true true) (Spec.withSlices m) (rootPath (Spec.withSlices m))
    { Object.zero with id := 7, type := .support, mesh := some (Spec.oneTriangle 0 0), anyAttr := [.sliceObject 5 .full] } := by
  refine ⟨⟨rfl, _, List.mem_singleton.2 rfl, rfl⟩, ⟨_, .inl ⟨rfl, rfl⟩, by simp [Spec.withSlices]⟩, 5, .full,
    ⟨5, .zero, [⟨.one, [], []⟩], []⟩, rfl, by decide, ?_⟩
  exact ⟨_, .inl ⟨.inr rfl, rfl⟩, (findAssetIn_spec _ _ _).1 rfl⟩

/-- Two objects that refer to each other, in turn. -/
def inTurn (a b : Object) : Nat → Object
  | 0 => a
  | n + 1 => inTurn b a n

theorem inTurn_step {m : Model} {p : Str} {id : UInt32} {a b : Object} (h1 : SearchStep m p id a b) (h2 : SearchStep m p id b a)
    (n : Nat) : SearchStep m p id (inTurn a b n) (inTurn a b (n + 1)) := by
  induction n generalizing a b with
  | zero => exact h1
  | succ n ih => exact ih h2 h1

/-- **C66** fails: `Validate` does not return for a model with two objects made of each other and an object with a slice stack,
although it accepts the same model when the slices extension is not registered. -/
theorem C66_cycle_false : ∃ (m : Model), m.WF ∧ m.Accepts (.ascii true false true true) ∧
    ¬ ∃ errs, m.Validate (.ascii true true true true) errs := by
  refine ⟨Spec.withSlices Spec.twoCycle, by decide, accepts_of 1 (by decide +kernel), ?_⟩
  refine validate_stuck (by decide) (withSlices_has _) ⟨inTurn (Spec.link 1 2 []) (Spec.link 2 1 []), ?_, inTurn_step ?_ ?_⟩
  · refine ⟨0, _, rfl, ?_, by simp, (findObject_iff (by decide)).1 rfl⟩
    intro d hd
    rw [show (Spec.withSlices Spec.twoCycle).build.items.take 1 = [{ Item.zero with objectID := 1 }] from rfl, List.mem_singleton] at hd
    subst hd
    rintro ⟨h, -⟩
    revert h
    decide
  · refine ⟨_, 0, _, rfl, rfl, ?_, by simp, (findObject_iff (by decide)).1 rfl⟩
    intro d hd
    rw [show List.take 1 [({ Component.zero with objectID := 2, anyAttr := [.prodComponent [] []] } : Component)] = [_] from rfl, List.mem_singleton] at hd
    subst hd
    exact ⟨by rintro ⟨h, -⟩; revert h; decide, by rintro ⟨h, -⟩; revert h; decide⟩
  · refine ⟨_, 0, _, rfl, rfl, ?_, by simp, (findObject_iff (by decide)).1 rfl⟩
    intro d hd
    rw [show List.take 1 [({ Component.zero with objectID := 1, anyAttr := [.prodComponent [] []] } : Component)] = [_] from rfl, List.mem_singleton] at hd
    subst hd
    exact ⟨by rintro ⟨h, -⟩; revert h; decide, by rintro ⟨h, -⟩; revert h; decide⟩

/-- **C66** fails also without cycles: the validator looks for the component of the object 2 of the part `/a` in the part
of the object with slices, and does not return. -/
theorem C66_path_false : ∃ (m : Model), m.WF ∧ m.Accepts (.ascii true false true true) ∧
    (∀ x, ¬ Relation.TransGen (Spec.Contains m) x x) ∧ ¬ ∃ errs, m.Validate (.ascii true true true true) errs := by
  refine ⟨Spec.withSlices Spec.acrossParts, by decide, accepts_of 1 (by decide +kernel), ?_, ?_⟩
  · have hstep : ∀ x y, Spec.Contains (Spec.withSlices Spec.acrossParts) x y →
        (x.1 ≠ b!"/a" ∧ y = (b!"/a", 2)) ∨ (x = (b!"/a", 2) ∧ y = (b!"/a", 1)) := by
      rintro ⟨p, id⟩ y ⟨o, cs, c, ⟨rs, h1, h2, h3⟩, h4, h5, rfl⟩
      rcases h1 with ⟨hr, rfl⟩ | ⟨hr, ch, hc, rfl⟩
      · left
        refine ⟨?_, ?_⟩
        · intro h
          have : ¬ Spec.IsRootPath (Spec.withSlices Spec.acrossParts) b!"/a" := by unfold Spec.IsRootPath; decide
          exact this (h ▸ hr)
        · rcases List.mem_cons.1 h2 with rfl | h2
          · cases h4
            rw [List.mem_singleton.1 h5]
            rfl
          · rw [List.mem_singleton.1 h2] at h4
            cases h4
      · right
        have := List.mem_singleton.1 hc
        simp only [Prod.mk.injEq] at this
        obtain ⟨rfl, rfl⟩ := this
        rcases List.mem_cons.1 h2 with rfl | h2
        · cases h4
        · rw [List.mem_singleton.1 h2] at h3 h4
          cases h4
          rw [List.mem_singleton.1 h5]
          simp only at h3
          exact ⟨by rw [← h3]; rfl, rfl⟩
    let rank : Str × UInt32 → Nat := fun x => if x = (b!"/a", 2) then 1 else if x.1 = b!"/a" then 0 else 2
    have hrank : ∀ x y, Spec.Contains (Spec.withSlices Spec.acrossParts) x y → rank y < rank x := by
      intro x y h
      rcases hstep x y h with ⟨h1, rfl⟩ | ⟨rfl, rfl⟩
      · have : x ≠ (b!"/a", 2) := fun h => h1 (by rw [h])
        simp [rank, this, h1]
      · decide
    have htrans : ∀ x y, Relation.TransGen (Spec.Contains (Spec.withSlices Spec.acrossParts)) x y → rank y < rank x := by
      intro x y h
      induction h with
      | single h => exact hrank _ _ h
      | tail _ h ih => exact lt_trans (hrank _ _ h) ih
    exact fun x h => lt_irrefl _ (htrans x x h)
  · refine validate_stuck (by decide) (withSlices_has _) ⟨inTurn (Spec.link 1 2 b!"/a") (Spec.link 2 1 []), ?_, inTurn_step ?_ ?_⟩
    · refine ⟨0, _, rfl, ?_, by simp, (findObject_iff (by decide)).1 rfl⟩
      intro d hd
      rw [show (Spec.withSlices Spec.acrossParts).build.items.take 1 = [{ Item.zero with objectID := 1 }] from rfl,
        List.mem_singleton] at hd
      subst hd
      rintro ⟨h, -⟩
      revert h
      decide
    · refine ⟨_, 0, _, rfl, rfl, ?_, by simp, (findObject_iff (by decide)).1 rfl⟩
      intro d hd
      rw [show List.take 1 [({ Component.zero with objectID := 2, anyAttr := [.prodComponent [] b!"/a"] } : Component)] = [_] from rfl,
        List.mem_singleton] at hd
      subst hd
      exact ⟨by rintro ⟨h, -⟩; revert h; decide, by rintro ⟨h, -⟩; revert h; decide⟩
    · refine ⟨_, 0, _, rfl, rfl, ?_, by simp, (findObject_iff (by decide)).1 rfl⟩
      intro d hd
      rw [show List.take 1 [({ Component.zero with objectID := 1, anyAttr := [.prodComponent [] []] } : Component)] = [_] from rfl,
        List.mem_singleton] at hd
      subst hd
      exact ⟨by rintro ⟨h, -⟩; revert h; decide, by rintro ⟨h, -⟩; revert h; decide⟩

/-- A transform that tilts. -/
def Spec.allOnes : Matrix := ⟨.one, .one, .one, .one, .one, .one, .one, .one, .one, .one, .one, .one, .one, .one, .one, .one⟩

/- A cycle does no harm if the search ends before: here the object with slices is tilted by the first item. -/
example : HasSlices (.ascii true true true true) (Spec.withSlices { Spec.twoCycle with
      build := { Build.zero with items := [{ Item.zero with objectID := 7, transform := Spec.allOnes }, { Item.zero with objectID := 1 }] } })
      (rootPath (Spec.withSlices Spec.twoCycle))
      { Object.zero with id := 7, type := .support, mesh := some (Spec.oneTriangle 0 0), anyAttr := [.sliceObject 5 .full] } ∧
    ((Spec.withSlices { Spec.twoCycle with
      build := { Build.zero with items := [{ Item.zero with objectID := 7, transform := Spec.allOnes }, { Item.zero with objectID := 1 }] } }).validateFuel
      (.ascii true true true true) 1).isSome = true :=
  ⟨withSlices_has _, by decide +kernel⟩

/- The hypotheses of `C66_acyclic_partial` can be met, with an object with slices. -/
example : ∃ errs, (Spec.withSlices { Model.zero with
    resources := { Resources.zero with objects := [Spec.dot 1 ⟨.one, .one, .one⟩, Spec.link 2 1 [], Spec.link 3 2 []] }
    build := { Build.zero with items := [{ Item.zero with objectID := 3 }] } }).Validate (.ascii true true true true) errs := by
  let M : Model := Spec.withSlices { Model.zero with
    resources := { Resources.zero with objects := [Spec.dot 1 ⟨.one, .one, .one⟩, Spec.link 2 1 [], Spec.link 3 2 []] }
    build := { Build.zero with items := [{ Item.zero with objectID := 3 }] } }
  have hmem : ∀ o ∈ M.resources.objects, ∀ cs c, o.components = some cs → c ∈ cs.component →
      c.objectID < o.id ∧ ∀ p, Spec.componentPart p c = p := by
    intro o ho cs c h1 h2
    simp only [M, Spec.withSlices, List.cons_append, List.nil_append, List.mem_cons, List.not_mem_nil, or_false] at ho
    rcases ho with rfl | rfl | rfl | rfl
    · cases h1
    · cases h1; rw [List.mem_singleton.1 h2]; exact ⟨by decide, fun p => rfl⟩
    · cases h1; rw [List.mem_singleton.1 h2]; exact ⟨by decide, fun p => rfl⟩
    · cases h1
  refine C66_acyclic_partial _ M List.nodup_nil ?_ ?_
  · intro p rs o cs c hp ho h1 h2
    cases hp with
    | root => exact (hmem o ho cs c h1 h2).2 _
    | child h => cases h
  · have hstep : ∀ x y, Spec.Contains M x y → y.2.toNat < x.2.toNat := by
      rintro ⟨p, id⟩ y ⟨o, cs, c, ⟨rs, h1, h2, rfl⟩, h4, h5, rfl⟩
      rcases h1 with ⟨-, rfl⟩ | ⟨-, ch, hc, -⟩
      · exact UInt32.lt_iff_toNat_lt.1 (hmem o h2 cs c h4 h5).1
      · cases hc
    have : ∀ x y, Relation.TransGen (Spec.Contains M) x y → y.2.toNat < x.2.toNat := by
      intro x y h
      induction h with
      | single h => exact hstep _ _ h
      | tail _ h ih => exact lt_trans (hstep _ _ h) ih
    exact fun x h => lt_irrefl _ (this x x h)

end Go3mf
