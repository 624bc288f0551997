import Verif.Lemmas.RulesExt
import Mathlib.Data.List.Induction

/-!
# The validators report the broken rules: slices
-/

namespace Go3mf
open Spec

theorem validTransform_false (t : Matrix) : validTransform t = false ↔ Tilts t := by
  unfold validTransform Tilts
  rw [← Bool.not_eq_true]
  simp only [Bool.and_eq_true, and_assoc]

/-- The first component that refers to the object itself ends the loop. -/
theorem componentsPlanar_iff (rec : Object → Option Bool) (T : Object → Prop) (m : Model) (hwf : m.WF) (o : Object) (p : Str)
    (id : UInt32) (hrec : ∀ x b, rec x = some b → (b = false ↔ T x)) (cs : List Component) : ∀ b,
    componentsPlanar rec m o p id cs = some b → (b = false ↔ ∃ (j : Nat) (c : Component), cs[j]? = some c ∧
      (((∀ d ∈ cs.take j, ¬ (d.objectID = o.id ∧ componentPart p d = p)) ∧ c.objectID = id ∧ componentPart p c = p ∧
        Tilted c.transform) ∨
      ((∀ d ∈ cs.take (j + 1), ¬ (d.objectID = o.id ∧ componentPart p d = p)) ∧
        ∃ x, ObjectFound m (componentPart p c) c.objectID x ∧ T x))) := by
  induction cs with
  | nil =>
    intro b h
    cases h
    simp
  | cons c cs ih =>
    intro b h
    unfold componentsPlanar at h
    simp only [componentPart_eq] at h
    by_cases h1 : c.objectID = id ∧ componentPart p c = p ∧ c.transform.isTransform = true ∧ validTransform c.transform = false
    · rw [if_pos h1] at h
      rw [validTransform_false] at h1
      cases h
      refine ⟨fun _ => ⟨0, c, rfl, .inl ⟨by simp, h1.1, h1.2.1, h1.2.2⟩⟩, fun _ => rfl⟩
    · rw [if_neg h1] at h
      rw [validTransform_false] at h1
      by_cases h2 : c.objectID = o.id ∧ componentPart p c = p
      · rw [if_pos h2] at h
        cases h
        simp only [Bool.true_eq_false, false_iff]
        rintro ⟨j, c', hj, ⟨h3, h4, h5, h6⟩ | ⟨h3, -⟩⟩
        · cases j with
          | zero => cases hj; exact h1 ⟨h4, h5, h6⟩
          | succ j => exact h3 c (by simp) h2
        · exact h3 c (by simp) h2
      · rw [if_neg h2] at h
        have tail : (∃ (j : Nat) (c' : Component), (c :: cs)[j]? = some c' ∧
            (((∀ d ∈ (c :: cs).take j, ¬ (d.objectID = o.id ∧ componentPart p d = p)) ∧ c'.objectID = id ∧ componentPart p c' = p ∧
              Tilted c'.transform) ∨
            ((∀ d ∈ (c :: cs).take (j + 1), ¬ (d.objectID = o.id ∧ componentPart p d = p)) ∧
              ∃ x, ObjectFound m (componentPart p c') c'.objectID x ∧ T x))) ↔
            (∃ x, ObjectFound m (componentPart p c) c.objectID x ∧ T x) ∨
            ∃ (j : Nat) (c' : Component), cs[j]? = some c' ∧
            (((∀ d ∈ cs.take j, ¬ (d.objectID = o.id ∧ componentPart p d = p)) ∧ c'.objectID = id ∧ componentPart p c' = p ∧
              Tilted c'.transform) ∨
            ((∀ d ∈ cs.take (j + 1), ¬ (d.objectID = o.id ∧ componentPart p d = p)) ∧
              ∃ x, ObjectFound m (componentPart p c') c'.objectID x ∧ T x)) := by
          constructor
          · rintro ⟨j, c', hj, h⟩
            cases j with
            | zero =>
              cases hj
              rcases h with ⟨-, h3, h4, h5⟩ | ⟨-, h⟩
              · exact absurd ⟨h3, h4, h5⟩ h1
              · exact .inl h
            | succ j =>
              simp only [List.getElem?_cons_succ] at hj
              simp only [List.take_succ_cons, List.forall_mem_cons] at h
              refine .inr ⟨j, c', hj, ?_⟩
              rcases h with ⟨⟨-, h3⟩, h4⟩ | ⟨⟨-, h3⟩, h4⟩
              · exact .inl ⟨h3, h4⟩
              · exact .inr ⟨h3, h4⟩
          · rintro (h | ⟨j, c', hj, h⟩)
            · exact ⟨0, c, rfl, .inr ⟨by simpa using h2, h⟩⟩
            · refine ⟨j + 1, c', by simpa using hj, ?_⟩
              simp only [List.take_succ_cons, List.forall_mem_cons]
              rcases h with ⟨h3, h4⟩ | ⟨h3, h4⟩
              · exact .inl ⟨⟨h2, h3⟩, h4⟩
              · exact .inr ⟨⟨h2, h3⟩, h4⟩
        rw [tail]
        cases hf : m.findObject (componentPart p c) c.objectID with
        | none =>
          rw [hf] at h
          have hn := (findObject_none hwf).1 hf
          rw [ih b h]
          constructor
          · exact .inr
          · rintro (⟨x, hx, -⟩ | h)
            · exact absurd ⟨x, hx⟩ hn
            · exact h
        | some x =>
          rw [hf] at h
          have hx := (findObject_iff hwf).1 hf
          simp only at h
          cases hr : rec x with
          | none => rw [hr] at h; cases h
          | some v =>
            rw [hr] at h
            cases v with
            | false =>
              cases h
              exact ⟨fun _ => .inl ⟨x, hx, (hrec x _ hr).1 rfl⟩, fun _ => rfl⟩
            | true =>
              simp only at h
              rw [ih b h]
              constructor
              · exact .inr
              · rintro (⟨y, hy, hT⟩ | h)
                · rw [objectFound_unique hwf hy hx] at hT
                  exact absurd ((hrec x _ hr).2 hT) (by simp)
                · exact h

theorem tiltedIn_iff {m : Model} {p : Str} {id : UInt32} {o : Object} : TiltedIn m p id o ↔ ∃ cs, o.components = some cs ∧
    ∃ (j : Nat) (c : Component), cs.component[j]? = some c ∧
      (((∀ d ∈ cs.component.take j, ¬ (d.objectID = o.id ∧ componentPart p d = p)) ∧ c.objectID = id ∧ componentPart p c = p ∧
        Tilted c.transform) ∨
      ((∀ d ∈ cs.component.take (j + 1), ¬ (d.objectID = o.id ∧ componentPart p d = p)) ∧
        ∃ x, ObjectFound m (componentPart p c) c.objectID x ∧ TiltedIn m p id x)) := by
  constructor
  · rintro (⟨h, h1, h2, h3, h4, h5⟩ | ⟨h, h1, h2, h3, h4⟩)
    · exact ⟨_, h, _, _, h1, .inl ⟨h2, h3, h4, h5⟩⟩
    · exact ⟨_, h, _, _, h1, .inr ⟨h2, _, h3, h4⟩⟩
  · rintro ⟨cs, h, j, c, h1, ⟨h2, h3, h4, h5⟩ | ⟨h2, x, h3, h4⟩⟩
    · exact .here h h1 h2 h3 h4 h5
    · exact .inside h h1 h2 h3 h4

theorem objectPlanar_iff {m : Model} (hwf : m.WF) (p : Str) (id : UInt32) (fuel : Nat) : ∀ (o : Object) (b : Bool),
    objectPlanar m p id fuel o = some b → (b = false ↔ TiltedIn m p id o) := by
  induction fuel with
  | zero => intro o b h; cases h
  | succ fuel ih =>
    intro o b h
    unfold objectPlanar at h
    rw [tiltedIn_iff]
    cases hc : o.components with
    | none => rw [hc] at h; cases h; simp
    | some cs =>
      rw [hc] at h
      rw [componentsPlanar_iff _ (TiltedIn m p id) m hwf o p id ih cs.component b h]
      simp

theorem buildPlanar_iff {m : Model} (hwf : m.WF) (p : Str) (id : UInt32) (fuel : Nat) (its : List Item) : ∀ b,
    buildPlanar m fuel p id its = some b → (b = false ↔ ∃ it ∈ its, (it.objectID = id ∧ itemPart p it = p ∧ Tilted it.transform) ∨
      ∃ x, ObjectFound m (itemPart p it) it.objectID x ∧ TiltedIn m p id x) := by
  induction its with
  | nil => intro b h; cases h; simp
  | cons it its ih =>
    intro b h
    unfold buildPlanar at h
    simp only [List.mem_cons, exists_eq_or_imp]
    have hip : (if it.objectPath = [] then p else it.objectPath) = itemPart p it := rfl
    simp only [hip] at h
    by_cases h1 : it.objectID = id ∧ itemPart p it = p ∧ it.transform.isTransform = true ∧ validTransform it.transform = false
    · rw [if_pos h1] at h
      rw [validTransform_false] at h1
      cases h
      exact ⟨fun _ => .inl (.inl h1), fun _ => rfl⟩
    · rw [if_neg h1] at h
      rw [validTransform_false] at h1
      have h1' : ¬ (it.objectID = id ∧ itemPart p it = p ∧ Tilted it.transform) := h1
      cases hf : m.findObject (itemPart p it) it.objectID with
      | none =>
        rw [hf] at h
        have hn := (findObject_none hwf).1 hf
        rw [ih b h]
        constructor
        · exact .inr
        · rintro ((h | ⟨x, hx, -⟩) | h)
          · exact absurd h h1'
          · exact absurd ⟨x, hx⟩ hn
          · exact h
      | some x =>
        rw [hf] at h
        have hx := (findObject_iff hwf).1 hf
        simp only at h
        cases hr : objectPlanar m p id fuel x with
        | none => rw [hr] at h; cases h
        | some v =>
          rw [hr] at h
          have hv := objectPlanar_iff hwf p id fuel x v hr
          cases v with
          | false =>
            cases h
            exact ⟨fun _ => .inl (.inr ⟨x, hx, hv.1 rfl⟩), fun _ => rfl⟩
          | true =>
            simp only at h
            rw [ih b h]
            constructor
            · exact .inr
            · rintro ((h | ⟨y, hy, hT⟩) | h)
              · exact absurd h h1'
              · rw [objectFound_unique hwf hy hx] at hT
                exact absurd (hv.2 hT) (by simp)
              · exact h

theorem tiltedBuild_iff {m : Model} {p : Str} {id : UInt32} : TiltedBuild m p id ↔
    ∃ it ∈ m.build.items, (it.objectID = id ∧ itemPart p it = p ∧ Tilted it.transform) ∨
      ∃ x, ObjectFound m (itemPart p it) it.objectID x ∧ TiltedIn m p id x := by
  constructor
  · rintro (⟨h, h1, h2, h3⟩ | ⟨h, h1, h2⟩)
    · exact ⟨_, h, .inl ⟨h1, h2, h3⟩⟩
    · exact ⟨_, h, .inr ⟨_, h1, h2⟩⟩
  · rintro ⟨it, h, ⟨h1, h2, h3⟩ | ⟨x, h1, h2⟩⟩
    · exact .here h h1 h2 h3
    · exact .inside h h1 h2

theorem isClosed_false (r : SliceStack) : r.isClosed = false ↔ OpenStack r := by
  unfold SliceStack.isClosed OpenStack
  simp only [List.all_eq_false, Bool.not_eq_true]
  constructor
  · rintro ⟨s, hs, q, hq, h⟩
    split at h
    · cases h
    · next g hg => exact ⟨s, hs, q, hq, g, hg, by simpa using h⟩
  · rintro ⟨s, hs, q, hq, g, hg, h⟩
    refine ⟨s, hs, q, hq, ?_⟩
    rw [hg]
    simpa using h

theorem allClosed_false {m : Model} (hwf : m.WF) (r : SliceStack) : r.allClosed m = false ↔ OpenBelow m r := by
  unfold SliceStack.allClosed OpenBelow
  rw [Bool.and_eq_false_iff, isClosed_false, List.all_eq_false]
  refine or_congr Iff.rfl (exists_congr fun ref => and_congr Iff.rfl ?_)
  rw [Bool.not_eq_true]
  constructor
  · intro h
    split at h
    · next st hf => exact ⟨st, (findAsset_iff hwf).1 hf, (isClosed_false st).1 h⟩
    · cases h
  · rintro ⟨st, hst, h⟩
    rw [(findAsset_iff hwf).2 hst]
    exact (isClosed_false st).2 h

theorem sliceRequired_iff (m : Model) : sliceRequired m.extensions = true ↔ SlicesRequired m := by
  unfold SlicesRequired
  generalize m.extensions = es
  induction es with
  | nil => simp [sliceRequired]
  | cons e es ih =>
    unfold sliceRequired
    by_cases h : e.ns = nsSlices
    · simp [h]
    · simp [h, ih]

theorem sliceObject_reports {m : Model} (hwf : m.WF) (fuel : Nat) (p : Str) (o : Object) (es : List Err)
    (h : slicesValidateObject m fuel p o = some es) : Reports es (SliceObjectRule m p o) := by
  unfold slicesValidateObject at h
  rw [getSliceAttr_find] at h
  cases ha : sliceAttr o.anyAttr with
  | none =>
    rw [ha] at h
    cases h
    refine Reports.nil.congr fun loc l => ?_
    simp only [false_iff]
    rintro (⟨h, -⟩ | h | ⟨h, -⟩ | ⟨h, -⟩ | ⟨h, -⟩ | ⟨h, -⟩) <;> rw [ha] at h <;> cases h
  | some v =>
    obtain ⟨i, res⟩ := v
    rw [ha] at h
    simp only [getD_findAsset] at h
    have hlow : Reports (if res = .low then if sliceRequired m.extensions then [] else [.of .sliceExtRequired] else []) fun loc l =>
        res = .low ∧ ¬ SlicesRequired m ∧ loc = [] ∧ l = .sentinel .sliceExtRequired := by
      by_cases h1 : res = .low
      · rw [if_pos h1]
        by_cases h2 : sliceRequired m.extensions = true
        · rw [if_pos h2]
          exact Reports.nil.congr fun loc l => by simp [(sliceRequired_iff m).1 h2]
        · rw [if_neg h2]
          exact (Reports.single [] (.sentinel .sliceExtRequired)).congr fun loc l => by
            simp [mt (sliceRequired_iff m).2 h2, h1]
      · rw [if_neg h1]
        exact Reports.nil.congr fun loc l => by simp [h1]
    by_cases h0 : i = 0
    · rw [if_pos h0] at h
      cases h
      subst h0
      refine ((Reports.single [] (.missingField b!"slicestackid")).append hlow).congr fun loc l => ?_
      constructor
      · rintro (⟨rfl, rfl⟩ | ⟨rfl, h, rfl, rfl⟩)
        · exact .id ha
        · exact .low ha h
      · rintro (⟨h, h1⟩ | h | ⟨h, h1, -⟩ | ⟨h, h1, -⟩ | ⟨h, h1, -⟩ | ⟨h, h1, -⟩) <;> rw [ha] at h <;> cases h
        · exact .inr ⟨rfl, h1, rfl, rfl⟩
        · exact .inl ⟨rfl, rfl⟩
        all_goals exact absurd rfl h1
    · rw [if_neg h0] at h
      split at h
      · next r hf =>
        have hr := (findAsset_iff hwf).1 hf
        cases hp : buildPlanar m fuel p o.id m.build.items with
        | none => rw [hp] at h; cases h
        | some planar =>
          rw [hp] at h
          cases h
          have hpl := (buildPlanar_iff hwf p o.id fuel m.build.items planar hp).trans tiltedBuild_iff.symm
          have h1 : Reports (if planar then [] else [.of .sliceInvalidTransform]) fun loc l => TiltedBuild m p o.id ∧ loc = [] ∧
              l = .sentinel .sliceInvalidTransform := by
            cases planar
            · exact (Reports.single [] (.sentinel .sliceInvalidTransform)).congr fun loc l => by simp [hpl.1 rfl]
            · refine Reports.nil.congr fun loc l => ?_
              simp only [false_iff]
              rintro ⟨h, -⟩
              exact absurd (hpl.2 h) (by simp)
          have h2 : Reports (if o.type = .model ∨ o.type = .solidSupport then
              if r.allClosed m then [] else [.of .slicePolygonNotClosed] else []) fun loc l =>
              (o.type = .model ∨ o.type = .solidSupport) ∧ OpenBelow m r ∧ loc = [] ∧ l = .sentinel .slicePolygonNotClosed := by
            by_cases ht : o.type = .model ∨ o.type = .solidSupport
            · rw [if_pos ht]
              have hc := allClosed_false hwf r
              cases hcl : r.allClosed m
              · exact (Reports.single [] (.sentinel .slicePolygonNotClosed)).congr fun loc l => by simp [hc.1 hcl, ht]
              · refine Reports.nil.congr fun loc l => ?_
                simp only [false_iff]
                rintro ⟨-, h, -⟩
                rw [hc.2 h] at hcl
                cases hcl
            · rw [if_neg ht]
              exact Reports.nil.congr fun loc l => by simp [ht]
          refine ((h1.append h2).append hlow).congr fun loc l => ?_
          constructor
          · rintro ((⟨h, rfl, rfl⟩ | ⟨h, h1, rfl, rfl⟩) | ⟨rfl, h, rfl, rfl⟩)
            · exact .transform ha h0 hr h
            · exact .closed ha h0 hr h h1
            · exact .low ha h
          · rintro (⟨h, h1⟩ | h | ⟨h, -, h1⟩ | ⟨h, -, h1, h2⟩ | ⟨h, -, h1, h2⟩ | ⟨h, -, h1, h2, h3⟩) <;> rw [ha] at h <;> cases h
            · exact .inr ⟨rfl, h1, rfl, rfl⟩
            · exact absurd rfl h0
            · exact absurd ⟨_, hr⟩ h1
            · exact absurd (assetFound_unique hwf h1 hr) (h2 r)
            · exact .inl (.inl ⟨h2, rfl, rfl⟩)
            · cases assetFound_unique hwf h1 hr
              exact .inl (.inr ⟨h2, h3, rfl, rfl⟩)
      · next a hns hf =>
        cases h
        have haf := (findAsset_iff hwf).1 hf
        have hns' : ∀ r, a ≠ .res (.sliceStack r) := fun r e => hns r e
        refine ((Reports.single [] (.sentinel .nonSliceStack)).append hlow).congr fun loc l => ?_
        constructor
        · rintro (⟨rfl, rfl⟩ | ⟨rfl, h, rfl, rfl⟩)
          · exact .notStack ha h0 haf hns'
          · exact .low ha h
        · rintro (⟨h, h1⟩ | h | ⟨h, -, h1⟩ | ⟨h, -, h1, h2⟩ | ⟨h, -, h1, h2⟩ | ⟨h, -, h1, h2, h3⟩) <;> rw [ha] at h <;> cases h
          · exact .inr ⟨rfl, h1, rfl, rfl⟩
          · exact absurd rfl h0
          · exact absurd ⟨_, haf⟩ h1
          · exact .inl ⟨rfl, rfl⟩
          · exact absurd (assetFound_unique hwf haf h1) (hns' _)
          · exact absurd (assetFound_unique hwf haf h1) (hns' _)
      · next hf =>
        cases h
        have hn := (findAsset_none hwf).1 hf
        refine ((Reports.single [] (.sentinel .missingResource)).append hlow).congr fun loc l => ?_
        constructor
        · rintro (⟨rfl, rfl⟩ | ⟨rfl, h, rfl, rfl⟩)
          · exact .missing ha h0 hn
          · exact .low ha h
        · rintro (⟨h, h1⟩ | h | ⟨h, -, h1⟩ | ⟨h, -, h1, h2⟩ | ⟨h, -, h1, h2⟩ | ⟨h, -, h1, h2, h3⟩) <;> rw [ha] at h <;> cases h
          · exact .inr ⟨rfl, h1, rfl, rfl⟩
          · exact absurd rfl h0
          · exact .inl ⟨rfl, rfl⟩
          all_goals exact absurd ⟨_, h1⟩ hn

/-! ## Slice stacks -/

theorem topBefore_append (ss : List Slice) (s : Slice) : topBefore (ss ++ [s]) = s.topZ := by simp [topBefore]

theorem slices_reports (bottom : F32) (ss : List Slice) : Reports (slicesErrs bottom 0 negMaxFloat ss) fun loc l =>
    ∃ (j : Nat) (s : Slice), ss[j]? = some s ∧
      ((loc = [nth b!"slice" j] ∧ ((s.topZ.eq .zero = true ∧ l = .missingField b!"ztop") ∨
        (s.topZ.eq .zero = false ∧ s.topZ.lt bottom = true ∧ l = .sentinel .sliceSmallTopZ) ∨
        (s.topZ.le (topBefore (ss.take j)) = true ∧ l = .sentinel .sliceNoMonotonic) ∨
        (¬ (s.polygons = [] ∧ s.vertices = []) ∧ s.vertices.length < 2 ∧ l = .sentinel .sliceInsufficientVertices) ∨
        (s.vertices ≠ [] ∧ s.polygons = [] ∧ l = .sentinel .sliceInsufficientPolygons))) ∨
      ∃ (k : Nat) (q : Polygon), s.polygons[k]? = some q ∧ q.segments = [] ∧
        loc = [nth b!"polygon" k, nth b!"slice" j] ∧ l = .sentinel .sliceInsufficientSegments) := by
  have hscan := errsIdx_scan (fun i done ss => slicesErrs bottom i (topBefore done) ss) (fun done j s =>
    (if s.topZ.eq .zero then [wrapIndex b!"slice" j (.missingField b!"ztop")]
     else if s.topZ.lt bottom then [wrapIndex b!"slice" j (.of .sliceSmallTopZ)] else []) ++
    (if s.topZ.le (topBefore done) then [wrapIndex b!"slice" j (.of .sliceNoMonotonic)] else []) ++
    (if s.polygons.length = 0 ∧ s.vertices.length = 0 then []
     else
      (if s.vertices.length < 2 then [wrapIndex b!"slice" j (.of .sliceInsufficientVertices)] else []) ++
      (if s.polygons.length = 0 then [wrapIndex b!"slice" j (.of .sliceInsufficientPolygons)] else []) ++
      errsIdx (fun k (p : Polygon) => if p.segments.length < 1 then
        [wrapIndex b!"slice" j (wrapIndex b!"polygon" k (.of .sliceInsufficientSegments))] else []) s.polygons))
    (fun i done => rfl) (fun i done a l => by simp only [topBefore_append]; rfl) ss
  have : slicesErrs bottom 0 negMaxFloat ss = slicesErrs bottom 0 (topBefore []) ss := rfl
  rw [this, hscan]
  refine (Reports.idx fun j s _ => ?_)
  refine (((Reports.ite (c := s.topZ.eq .zero = true) (fun _ => Reports.single [nth b!"slice" j] (.missingField b!"ztop"))
    (fun _ => Reports.one (c := s.topZ.lt bottom = true) [nth b!"slice" j] (.sentinel .sliceSmallTopZ))).append
    (Reports.one (c := s.topZ.le (topBefore (ss.take j)) = true) [nth b!"slice" j] (.sentinel .sliceNoMonotonic))).append
    (Reports.ite (c := s.polygons.length = 0 ∧ s.vertices.length = 0) (fun _ => Reports.nil) (fun _ =>
      ((Reports.one (c := s.vertices.length < 2) [nth b!"slice" j] (.sentinel .sliceInsufficientVertices)).append
      (Reports.one (c := s.polygons.length = 0) [nth b!"slice" j] (.sentinel .sliceInsufficientPolygons))).append
      (Reports.idx fun k (q : Polygon) _ => Reports.one (c := q.segments.length < 1) [nth b!"polygon" k, nth b!"slice" j]
        (.sentinel .sliceInsufficientSegments))))).congr fun loc l => ?_
  simp only [List.length_eq_zero_iff, Nat.lt_one_iff]
  constructor
  · rintro (((⟨h, rfl, rfl⟩ | ⟨h, h1, rfl, rfl⟩) | ⟨h, rfl, rfl⟩) | (⟨-, h⟩ | ⟨h, (⟨h1, rfl, rfl⟩ | ⟨h1, rfl, rfl⟩) |
      ⟨k, q, hk, h1, rfl, rfl⟩⟩))
    · exact .inl ⟨rfl, .inl ⟨h, rfl⟩⟩
    · exact .inl ⟨rfl, .inr (.inl ⟨by simpa using h, h1, rfl⟩)⟩
    · exact .inl ⟨rfl, .inr (.inr (.inl ⟨h, rfl⟩))⟩
    · exact h.elim
    · exact .inl ⟨rfl, .inr (.inr (.inr (.inl ⟨h, h1, rfl⟩)))⟩
    · exact .inl ⟨rfl, .inr (.inr (.inr (.inr ⟨fun hv => h ⟨h1, hv⟩, h1, rfl⟩)))⟩
    · exact .inr ⟨k, q, hk, h1, rfl, rfl⟩
  · rintro (⟨rfl, ⟨h, rfl⟩ | ⟨h, h1, rfl⟩ | ⟨h, rfl⟩ | ⟨h, h1, rfl⟩ | ⟨h, h1, rfl⟩⟩ | ⟨k, q, hk, h, rfl, rfl⟩)
    · exact .inl (.inl (.inl ⟨h, rfl, rfl⟩))
    · exact .inl (.inl (.inr ⟨by simpa using h, h1, rfl, rfl⟩))
    · exact .inl (.inr ⟨h, rfl, rfl⟩)
    · exact .inr (.inr ⟨h, .inl (.inl ⟨h1, rfl, rfl⟩)⟩)
    · exact .inr (.inr ⟨fun hh => h hh.2, .inl (.inr ⟨h1, rfl, rfl⟩)⟩)
    · refine .inr (.inr ⟨fun hh => ?_, .inr ⟨k, q, hk, h, rfl, rfl⟩⟩)
      rw [hh.1] at hk
      cases hk

/-- The top of the last slice of the stacks that the references lead to, as it is computed. -/
def topStep (m : Model) (p : Str) (last : F32) (r : SliceRef) : F32 :=
  if r.path = [] ∨ r.path = p ∨ r.sliceStackID = 0 then last
  else match m.findAsset r.path r.sliceStackID with
    | some (.res (.sliceStack st)) => (match st.slices.getLast? with | some s => s.topZ | none => last)
    | _ => last

theorem refersTo_iff {m : Model} (hwf : m.WF) {p : Str} {r : SliceRef} {st : SliceStack} : RefersTo m p r st ↔
    ¬ (r.path = [] ∨ r.path = p ∨ r.sliceStackID = 0) ∧ m.findAsset r.path r.sliceStackID = some (.res (.sliceStack st)) := by
  unfold RefersTo
  rw [findAsset_iff hwf]
  tauto

theorem topOfRefs_iff {m : Model} (hwf : m.WF) {p : Str} (rs : List SliceRef) : ∀ z,
    TopOfRefs m p rs z ↔ z = rs.foldl (topStep m p) negMaxFloat := by
  induction rs using List.reverseRecOn with
  | nil =>
    intro z
    constructor
    · intro h
      generalize hrs : ([] : List SliceRef) = rs at h
      cases h with
      | nil => rfl
      | stack => simp at hrs
      | skip => simp at hrs
    · rintro rfl; exact .nil
  | append_singleton rs r ih =>
    intro z
    rw [List.foldl_append, List.foldl_cons, List.foldl_nil]
    have hinv : TopOfRefs m p (rs ++ [r]) z ↔ (∃ st s, RefersTo m p r st ∧ st.slices.getLast? = some s ∧ z = s.topZ) ∨
        ((∀ st, RefersTo m p r st → st.slices = []) ∧ TopOfRefs m p rs z) := by
      constructor
      · intro h
        generalize hrs : rs ++ [r] = l at h
        cases h with
        | nil => simp at hrs
        | stack h1 h2 =>
          obtain ⟨rfl, h3⟩ := List.append_inj' hrs rfl
          cases h3
          exact .inl ⟨_, _, h1, h2, rfl⟩
        | skip h1 h2 =>
          obtain ⟨rfl, h3⟩ := List.append_inj' hrs rfl
          cases h3
          exact .inr ⟨h1, h2⟩
      · rintro (⟨st, s, h1, h2, rfl⟩ | ⟨h1, h2⟩)
        · exact .stack h1 h2
        · exact .skip h1 h2
    rw [hinv, ih]
    simp only [refersTo_iff hwf]
    unfold topStep
    by_cases hc : r.path = [] ∨ r.path = p ∨ r.sliceStackID = 0
    · rw [if_pos hc]
      simp [hc]
    · rw [if_neg hc]
      split
      · next st hf =>
        simp only [hf, hc, not_false_eq_true, true_and, Option.some.injEq, Asset.res.injEq, ExtRes.sliceStack.injEq]
        split
        · next s hs =>
          constructor
          · rintro (⟨st', s', rfl, h, rfl⟩ | ⟨h, -⟩)
            · rw [hs] at h; cases h; rfl
            · rw [h st rfl] at hs; cases hs
          · rintro rfl; exact .inl ⟨st, s, rfl, hs, rfl⟩
        · next hs =>
          have he := List.getLast?_eq_none_iff.1 hs
          constructor
          · rintro (⟨st', s', rfl, h, rfl⟩ | ⟨-, h⟩)
            · rw [hs] at h; cases h
            · exact h
          · intro h; exact .inr ⟨fun _ e => e ▸ he, h⟩
      · next hns =>
        constructor
        · rintro (⟨st, s, ⟨-, h⟩, -⟩ | ⟨-, h⟩)
          · exact absurd h (hns st)
          · exact h
        · intro h; exact .inr ⟨fun st h => absurd h.2 (hns st), h⟩

/-- The errors of one reference. -/
def refErrs (m : Model) (p : Str) (last : F32) (i : Nat) (r : SliceRef) : List Err :=
  if r.path = [] ∨ r.path = p ∨ r.sliceStackID = 0 then
    (if r.path = [] then [wrapIndex b!"sliceref" i (.missingField b!"slicepath")]
     else if r.path = p then [wrapIndex b!"sliceref" i (.of .sliceRefSamePart)] else []) ++
    (if r.sliceStackID = 0 then [wrapIndex b!"sliceref" i (.missingField b!"slicestackid")] else [])
  else match m.findAsset r.path r.sliceStackID with
    | some (.res (.sliceStack st)) =>
      (if st.refs.length ≠ 0 then [wrapIndex b!"sliceref" i (.of .sliceRefRef)] else []) ++
      (match st.slices.head? with
        | some s => if s.topZ.le last then [wrapIndex b!"sliceref" i (.of .sliceNoMonotonic)] else []
        | none => [])
    | some _ => [wrapIndex b!"sliceref" i (.of .nonSliceStack)]
    | none => [wrapIndex b!"sliceref" i (.of .missingResource)]

theorem refsErrs_cons (m : Model) (p : Str) (i : Nat) (last : F32) (r : SliceRef) (rs : List SliceRef) :
    refsErrs m p i last (r :: rs) = refErrs m p last i r ++ refsErrs m p (i + 1) (topStep m p last r) rs := by
  unfold refErrs topStep
  rw [refsErrs]
  by_cases hc : r.path = [] ∨ r.path = p ∨ r.sliceStackID = 0
  · simp only [if_pos hc]
  · simp only [if_neg hc]
    cases m.findAsset r.path r.sliceStackID with
    | none => rfl
    | some a =>
      cases a with
      | res x => cases x <;> rfl
      | _ => rfl

theorem ref_reports {m : Model} (hwf : m.WF) (p : Str) (last : F32) (i : Nat) (f : SliceRef) :
    Reports (refErrs m p last i f) fun loc l => loc = [nth b!"sliceref" i] ∧
      ((f.path = [] ∧ l = .missingField b!"slicepath") ∨
      (f.path ≠ [] ∧ f.path = p ∧ l = .sentinel .sliceRefSamePart) ∨
      (f.sliceStackID = 0 ∧ l = .missingField b!"slicestackid") ∨
      (f.path ≠ [] ∧ f.path ≠ p ∧ f.sliceStackID ≠ 0 ∧ (¬ ∃ a, AssetFound m f.path f.sliceStackID a) ∧ l = .sentinel .missingResource) ∨
      (∃ a, f.path ≠ [] ∧ f.path ≠ p ∧ f.sliceStackID ≠ 0 ∧ AssetFound m f.path f.sliceStackID a ∧ (∀ st, a ≠ .res (.sliceStack st)) ∧
        l = .sentinel .nonSliceStack) ∨
      (∃ st, RefersTo m p f st ∧ st.refs ≠ [] ∧ l = .sentinel .sliceRefRef) ∨
      (∃ st s, RefersTo m p f st ∧ st.slices.head? = some s ∧ s.topZ.le last = true ∧ l = .sentinel .sliceNoMonotonic)) := by
  unfold refErrs
  by_cases hc : f.path = [] ∨ f.path = p ∨ f.sliceStackID = 0
  · rw [if_pos hc]
    have hno : ∀ st, ¬ RefersTo m p f st := fun st h => ((refersTo_iff hwf).1 h).1 hc
    have hno' : ¬ (f.path ≠ [] ∧ f.path ≠ p ∧ f.sliceStackID ≠ 0) := by tauto
    refine ((Reports.ite (fun _ => Reports.single [nth b!"sliceref" i] (.missingField b!"slicepath")) fun _ =>
      Reports.one (c := f.path = p) [nth b!"sliceref" i] (.sentinel .sliceRefSamePart)).append
      (Reports.one (c := f.sliceStackID = 0) [nth b!"sliceref" i] (.missingField b!"slicestackid"))).congr fun loc l => ?_
    constructor
    · rintro ((⟨h, rfl, rfl⟩ | ⟨h, h1, rfl, rfl⟩) | ⟨h, rfl, rfl⟩)
      · exact ⟨rfl, .inl ⟨h, rfl⟩⟩
      · exact ⟨rfl, .inr (.inl ⟨h, h1, rfl⟩)⟩
      · exact ⟨rfl, .inr (.inr (.inl ⟨h, rfl⟩))⟩
    · rintro ⟨rfl, ⟨h, rfl⟩ | ⟨h, h1, rfl⟩ | ⟨h, rfl⟩ | ⟨h, h1, h2, -⟩ | ⟨_, h, h1, h2, -⟩ | ⟨st, h, -⟩ | ⟨st, _, h, -⟩⟩
      · exact .inl (.inl ⟨h, rfl, rfl⟩)
      · exact .inl (.inr ⟨h, h1, rfl, rfl⟩)
      · exact .inr ⟨h, rfl, rfl⟩
      · exact absurd ⟨h, h1, h2⟩ hno'
      · exact absurd ⟨h, h1, h2⟩ hno'
      · exact absurd h (hno st)
      · exact absurd h (hno st)
  · rw [if_neg hc]
    have hc1 : f.path ≠ [] := fun h => hc (.inl h)
    have hc2 : f.path ≠ p := fun h => hc (.inr (.inl h))
    have hc3 : f.sliceStackID ≠ 0 := fun h => hc (.inr (.inr h))
    split
    · next st hf =>
      have hst := (findAsset_iff hwf).1 hf
      have hr : RefersTo m p f st := (refersTo_iff hwf).2 ⟨hc, hf⟩
      have hu : ∀ st', RefersTo m p f st' → st' = st := fun st' h => by
        have := ((refersTo_iff hwf).1 h).2
        rw [hf] at this
        cases this
        rfl
      have h2 : Reports (match st.slices.head? with
          | some s => if s.topZ.le last then [wrapIndex b!"sliceref" i (.of .sliceNoMonotonic)] else []
          | none => []) fun loc l => ∃ s, st.slices.head? = some s ∧ s.topZ.le last = true ∧ loc = [nth b!"sliceref" i] ∧
            l = .sentinel .sliceNoMonotonic := by
        cases st.slices.head? with
        | none => exact Reports.nil.congr fun loc l => by simp
        | some s =>
          exact (Reports.one (c := s.topZ.le last = true) [nth b!"sliceref" i] (.sentinel .sliceNoMonotonic)).congr
            fun loc l => by simp
      refine ((Reports.one (c := st.refs.length ≠ 0) [nth b!"sliceref" i] (.sentinel .sliceRefRef)).append h2).congr fun loc l => ?_
      constructor
      · rintro (⟨h, rfl, rfl⟩ | ⟨s, h, h1, rfl, rfl⟩)
        · exact ⟨rfl, .inr (.inr (.inr (.inr (.inr (.inl ⟨st, hr, by simpa using h, rfl⟩)))))⟩
        · exact ⟨rfl, .inr (.inr (.inr (.inr (.inr (.inr ⟨st, s, hr, h, h1, rfl⟩)))))⟩
      · rintro ⟨rfl, ⟨h, -⟩ | ⟨-, h, -⟩ | ⟨h, -⟩ | ⟨-, -, -, h, -⟩ | ⟨a, -, -, -, h, h1, -⟩ | ⟨st', h, h1, rfl⟩ |
          ⟨st', s, h, h1, h2, rfl⟩⟩
        · exact absurd h hc1
        · exact absurd h hc2
        · exact absurd h hc3
        · exact absurd ⟨_, hst⟩ h
        · exact absurd (assetFound_unique hwf h hst) (h1 st)
        · cases hu _ h
          exact .inl ⟨by simpa using h1, rfl, rfl⟩
        · cases hu _ h
          exact .inr ⟨s, h1, h2, rfl, rfl⟩
    · next a hns hf =>
      have haf := (findAsset_iff hwf).1 hf
      have hns' : ∀ st, a ≠ .res (.sliceStack st) := fun st e => hns st e
      have hno : ∀ st, ¬ RefersTo m p f st := fun st h => by
        have := ((refersTo_iff hwf).1 h).2
        rw [hf] at this
        exact hns' st (Option.some.inj this)
      refine (Reports.single [nth b!"sliceref" i] (.sentinel .nonSliceStack)).congr fun loc l => ?_
      constructor
      · rintro ⟨rfl, rfl⟩
        exact ⟨rfl, .inr (.inr (.inr (.inr (.inl ⟨a, hc1, hc2, hc3, haf, hns', rfl⟩))))⟩
      · rintro ⟨rfl, ⟨h, -⟩ | ⟨-, h, -⟩ | ⟨h, -⟩ | ⟨-, -, -, h, -⟩ | ⟨a, -, -, -, h, h1, rfl⟩ | ⟨st', h, -⟩ | ⟨st', s, h, -⟩⟩
        · exact absurd h hc1
        · exact absurd h hc2
        · exact absurd h hc3
        · exact absurd ⟨_, haf⟩ h
        · exact ⟨rfl, rfl⟩
        · exact absurd h (hno st')
        · exact absurd h (hno st')
    · next hf =>
      have hn := (findAsset_none hwf).1 hf
      have hno : ∀ st, ¬ RefersTo m p f st := fun st h => hn ⟨_, h.2.2.2⟩
      refine (Reports.single [nth b!"sliceref" i] (.sentinel .missingResource)).congr fun loc l => ?_
      constructor
      · rintro ⟨rfl, rfl⟩
        exact ⟨rfl, .inr (.inr (.inr (.inl ⟨hc1, hc2, hc3, hn, rfl⟩)))⟩
      · rintro ⟨rfl, ⟨h, -⟩ | ⟨-, h, -⟩ | ⟨h, -⟩ | ⟨-, -, -, h, rfl⟩ | ⟨a, -, -, -, h, -⟩ | ⟨st', h, -⟩ | ⟨st', s, h, -⟩⟩
        · exact absurd h hc1
        · exact absurd h hc2
        · exact absurd h hc3
        · exact ⟨rfl, rfl⟩
        · exact absurd ⟨_, h⟩ hn
        · exact absurd h (hno st')
        · exact absurd h (hno st')

theorem stack_reports {m : Model} (hwf : m.WF) (p : Str) (r : SliceStack) : Reports (r.validate m p) (StackRule m p r) := by
  unfold SliceStack.validate
  have hscan := errsIdx_scan (fun i done rs => refsErrs m p i (done.foldl (topStep m p) negMaxFloat) rs)
    (fun done i f => refErrs m p (done.foldl (topStep m p) negMaxFloat) i f) (fun i done => rfl)
    (fun i done a l => by simp only [List.foldl_append, List.foldl_cons, List.foldl_nil]; exact refsErrs_cons m p i _ a l) r.refs
  have hr : refsErrs m p 0 negMaxFloat r.refs = _ := hscan
  rw [hr]
  refine (((Reports.one (c := (r.slices.length ≠ 0 ∧ r.refs.length ≠ 0) ∨ (r.slices.length = 0 ∧ r.refs.length = 0)) []
    (.sentinel .slicesAndRefs)).append (Reports.idx fun i f _ => ref_reports hwf p _ i f)).append
    (slices_reports r.bottomZ r.slices)).congr fun loc l => ?_
  constructor
  · rintro ((⟨h, rfl, rfl⟩ | ⟨i, f, hi, rfl, ⟨h, rfl⟩ | ⟨h, h1, rfl⟩ | ⟨h, rfl⟩ | ⟨h, h1, h2, h3, rfl⟩ | ⟨a, h, h1, h2, h3, h4, rfl⟩ |
        ⟨st, h, h1, rfl⟩ | ⟨st, s, h, h1, h2, rfl⟩⟩) |
      ⟨j, s, hj, ⟨rfl, ⟨h, rfl⟩ | ⟨h, h1, rfl⟩ | ⟨h, rfl⟩ | ⟨h, h1, rfl⟩ | ⟨h, h1, rfl⟩⟩ | ⟨k, q, hk, h, rfl, rfl⟩⟩)
    · refine .both ?_
      simp only [ne_eq, List.length_eq_zero_iff] at h
      tauto
    · exact .refNoPath hi h
    · exact .refSame hi h h1
    · exact .refId hi h
    · exact .refMissing hi h h1 h2 h3
    · exact .refNotStack hi h h1 h2 h3 h4
    · exact .refRef hi h h1
    · exact .refOrder hi h h1 ((topOfRefs_iff hwf _ _).2 rfl) h2
    · exact .noTop hj h
    · exact .lowTop hj h h1
    · exact .order hj h
    · exact .vertices hj h h1
    · exact .polygons hj h h1
    · exact .segments hj hk h
  · rintro (h | ⟨hi, h⟩ | ⟨hi, h, h1⟩ | ⟨hi, h⟩ | ⟨hi, h, h1, h2, h3⟩ | ⟨hi, h, h1, h2, h3, h4⟩ | ⟨hi, h, h1⟩ | ⟨hi, h, h1, hz, h2⟩ |
      ⟨hj, h⟩ | ⟨hj, h, h1⟩ | ⟨hj, h⟩ | ⟨hj, h, h1⟩ | ⟨hj, h, h1⟩ | ⟨hj, hk, h⟩)
    · refine .inl (.inl ⟨?_, rfl, rfl⟩)
      simp only [ne_eq, List.length_eq_zero_iff]
      tauto
    · exact .inl (.inr ⟨_, _, hi, rfl, .inl ⟨h, rfl⟩⟩)
    · exact .inl (.inr ⟨_, _, hi, rfl, .inr (.inl ⟨h, h1, rfl⟩)⟩)
    · exact .inl (.inr ⟨_, _, hi, rfl, .inr (.inr (.inl ⟨h, rfl⟩))⟩)
    · exact .inl (.inr ⟨_, _, hi, rfl, .inr (.inr (.inr (.inl ⟨h, h1, h2, h3, rfl⟩)))⟩)
    · exact .inl (.inr ⟨_, _, hi, rfl, .inr (.inr (.inr (.inr (.inl ⟨_, h, h1, h2, h3, h4, rfl⟩))))⟩)
    · exact .inl (.inr ⟨_, _, hi, rfl, .inr (.inr (.inr (.inr (.inr (.inl ⟨_, h, h1, rfl⟩)))))⟩)
    · rw [topOfRefs_iff hwf] at hz
      subst hz
      exact .inl (.inr ⟨_, _, hi, rfl, .inr (.inr (.inr (.inr (.inr (.inr ⟨_, _, h, h1, h2, rfl⟩)))))⟩)
    · exact .inr ⟨_, _, hj, .inl ⟨rfl, .inl ⟨h, rfl⟩⟩⟩
    · exact .inr ⟨_, _, hj, .inl ⟨rfl, .inr (.inl ⟨h, h1, rfl⟩)⟩⟩
    · exact .inr ⟨_, _, hj, .inl ⟨rfl, .inr (.inr (.inl ⟨h, rfl⟩))⟩⟩
    · exact .inr ⟨_, _, hj, .inl ⟨rfl, .inr (.inr (.inr (.inl ⟨h, h1, rfl⟩)))⟩⟩
    · exact .inr ⟨_, _, hj, .inl ⟨rfl, .inr (.inr (.inr (.inr ⟨h, h1, rfl⟩)))⟩⟩
    · exact .inr ⟨_, _, hj, .inr ⟨_, _, hk, h, rfl, rfl⟩⟩

end Go3mf
