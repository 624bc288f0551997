import Verif.Lemmas.RulesModel

/-!
# C63: `Validate` reports exactly the rules that are broken, each with its place

The rules are those of `Spec.ModelRule`.  Nothing is said about the order of the errors, or about how often one is reported
(an extension declared twice is validated twice).
-/

namespace Go3mf
open Spec

/-- **C63**: the errors that `Validate` returns are those of the broken rules, with location and path. -/
theorem C63_exact (env : Env) (m : Model) (hwf : m.WF) (errs : List Err) (h : m.Validate env errs) (e : Err) :
    e ∈ errs ↔ ∃ loc l p, ModelRule env m loc l p ∧ e = .wrapped loc (.leaf l) p := by
  obtain ⟨fuel, h⟩ := h
  unfold Model.validateFuel at h
  cases h1 : childsErrs env m fuel m.sortedChilds with
  | none => rw [h1] at h; cases h
  | some ce =>
    cases h2 : m.resources.validate env m fuel m.pathOrDefault with
    | none => rw [h1, h2] at h; cases h
    | some re =>
      rw [h1, h2] at h
      cases h
      simp only [List.map_append]
      have hns : Reports (m.validateNamespaces env) fun loc l => loc = [] ∧ l = .sentinel .requiredExt ∧
          ∃ x ∈ m.extensions, x.isRequired = true ∧ ∀ y, x.ns = nsOf y → registered env y = false := by
        unfold Model.validateNamespaces
        refine (Reports.one (c := (m.extensions.any fun e => e.isRequired && (env.load e.ns).isNone) = true) []
          (.sentinel .requiredExt)).congr fun loc l => ?_
        simp only [List.any_eq_true, Bool.and_eq_true, Option.isNone_iff_eq_none, load_none]
        tauto
      have hcr : PReports ((childRelErrs env m m.sortedChilds).map (wrap b!"model")) fun loc l q =>
          ∃ p c, (p, c) ∈ m.childs ∧ ((p = rootPath m ∧ loc = [lvl b!"model"] ∧ l = .sentinel .opcDuplicatedModelName ∧ q = []) ∨
            (p ≠ rootPath m ∧ q = p ∧ ∃ (i : Nat) (r : Relationship) (s : Sentinel), c.relationships[i]? = some r ∧
              RelFault env m (c.relationships.take i) r s ∧ loc = [nth b!"relationship" i, lvl b!"model"] ∧ l = .sentinel s)) := by
        intro e
        rw [List.mem_map]
        unfold childRelErrs
        simp only [List.mem_flatMap]
        constructor
        · rintro ⟨a, ⟨p, hp, ha⟩, rfl⟩
          obtain ⟨c, hc⟩ := (mem_sortedChilds m p).1 hp
          rw [(lookupChild_spec hwf p c).2 hc] at ha
          simp only at ha
          by_cases hr : p = m.pathOrDefault
          · rw [if_pos hr] at ha
            cases List.mem_singleton.1 ha
            exact ⟨_, _, _, ⟨p, c, hc, .inl ⟨hr, rfl, rfl, rfl⟩⟩, rfl⟩
          · rw [if_neg hr] at ha
            obtain ⟨_, _, _, ⟨i, r, s, h3, h4, rfl, rfl, rfl⟩, rfl⟩ := (rel_reports env m c.relationships p a).1 ha
            exact ⟨_, _, _, ⟨_, c, hc, .inr ⟨hr, rfl, i, r, s, h3, h4, rfl, rfl⟩⟩, rfl⟩
        · rintro ⟨_, _, _, ⟨p, c, hc, ⟨hr, rfl, rfl, rfl⟩ | ⟨hr, rfl, i, r, s, h3, h4, rfl, rfl⟩⟩, rfl⟩
          · refine ⟨.of .opcDuplicatedModelName, ⟨p, (mem_sortedChilds m p).2 ⟨c, hc⟩, ?_⟩, rfl⟩
            rw [(lookupChild_spec hwf p c).2 hc]
            simp only
            rw [if_pos (show p = m.pathOrDefault from hr)]
            exact List.mem_singleton.2 rfl
          · refine ⟨relErr _ i s, ⟨_, (mem_sortedChilds m _).2 ⟨c, hc⟩, ?_⟩, rfl⟩
            rw [(lookupChild_spec hwf _ c).2 hc]
            simp only
            rw [if_neg (show ¬ _ = m.pathOrDefault from hr)]
            exact (rel_reports env m c.relationships _ _).2 ⟨_, _, _, ⟨i, r, s, h3, h4, rfl, rfl, rfl⟩, rfl⟩
      have hb : Reports (m.build.validate m) _ := Reports.idx fun i it _ => (item_reports hwf it).wrapIndex b!"item" i
      have hall := (((((((((rel_reports env m m.rootRelationships []).wrap b!"model").append (hns.top b!"model")).append hcr).append
        ((rel_reports env m m.relationships m.pathOrDefault).wrap b!"model")).append
        ((metadata_reports m m.metadata).top b!"model")).append
        ((extModel_reports env m).top b!"model")).append
        ((childs_reports env hwf fuel m.sortedChilds ce h1).wrap b!"model")).append
        (((part_reports env hwf fuel m.pathOrDefault m.resources re h2).wrap b!"resources").top b!"model")).append
        ((hb.wrap b!"build").top b!"model")
      refine (hall.congr (S := ModelRule env m) fun loc l q => ?_) e
      constructor
      · rintro ((((((((⟨_, ⟨i, r, s, h3, h4, rfl, rfl, rfl⟩, rfl⟩ | ⟨rfl, _, ⟨rfl, rfl, x, hx, h3, h4⟩, rfl⟩) |
          ⟨p, c, hc, ⟨h3, rfl, rfl, rfl⟩ | ⟨h3, rfl, i, r, s, h4, h5, rfl, rfl⟩⟩) | ⟨_, ⟨i, r, s, h3, h4, rfl, rfl, rfl⟩, rfl⟩) |
          ⟨rfl, _, h3, rfl⟩) | ⟨rfl, _, ⟨x, hx, h3⟩, rfl⟩) | ⟨_, ⟨-, c, hc, _, h3, rfl⟩, rfl⟩) | ⟨rfl, _, ⟨_, h3, rfl⟩, rfl⟩) |
          ⟨rfl, _, ⟨_, ⟨i, it, hi, _, h3, rfl⟩, rfl⟩, rfl⟩)
        · exact .packageRel h3 h4
        · exact .extension hx h3 h4
        · exact .childName hc h3
        · exact .childRel hc h3 h4 h5
        · exact .rel h3 h4
        · exact .metadata h3
        · cases x with
          | production => exact .production hx h3
          | _ => exact h3.elim
        · rw [List.append_assoc]; exact .child hc h3
        · rw [List.append_assoc]; exact .root h3
        · rw [List.append_assoc, List.append_assoc]; exact .item hi h3
      · intro h
        cases h with
        | packageRel h3 h4 => exact .inl (.inl (.inl (.inl (.inl (.inl (.inl (.inl ⟨_, ⟨_, _, _, h3, h4, rfl, rfl, rfl⟩, rfl⟩)))))))
        | extension hx h3 h4 => exact .inl (.inl (.inl (.inl (.inl (.inl (.inl (.inr ⟨rfl, [], ⟨rfl, rfl, _, hx, h3, h4⟩, rfl⟩)))))))
        | childName hc h3 => exact .inl (.inl (.inl (.inl (.inl (.inl (.inr ⟨_, _, hc, .inl ⟨h3, rfl, rfl, rfl⟩⟩))))))
        | childRel hc h3 h4 h5 =>
          exact .inl (.inl (.inl (.inl (.inl (.inl (.inr ⟨_, _, hc, .inr ⟨h3, rfl, _, _, _, h4, h5, rfl, rfl⟩⟩))))))
        | rel h3 h4 => exact .inl (.inl (.inl (.inl (.inl (.inr ⟨_, ⟨_, _, _, h3, h4, rfl, rfl, rfl⟩, rfl⟩)))))
        | metadata h3 => exact .inl (.inl (.inl (.inl (.inr ⟨rfl, _, h3, rfl⟩))))
        | production hx h3 => exact .inl (.inl (.inl (.inr ⟨rfl, _, ⟨.production, hx, h3⟩, rfl⟩)))
        | child hc h3 => exact .inl (.inl (.inr ⟨_, ⟨(mem_sortedChilds m _).2 ⟨_, hc⟩, _, hc, _, h3, rfl⟩, by simp⟩))
        | root h3 => exact .inl (.inr ⟨rfl, _, ⟨_, h3, rfl⟩, by simp⟩)
        | item hi h3 => exact .inr ⟨rfl, _, ⟨_, ⟨_, _, hi, _, h3, rfl⟩, rfl⟩, by simp⟩

/-- **C63**: if validation returns, the model is accepted exactly if no rule is broken. -/
theorem C63_accepts (env : Env) (m : Model) (hwf : m.WF) (errs : List Err) (h : m.Validate env errs) :
    errs = [] ↔ ∀ loc l p, ¬ ModelRule env m loc l p := by
  rw [List.eq_nil_iff_forall_not_mem]
  constructor
  · intro hn loc l p hr
    exact hn _ ((C63_exact env m hwf errs h _).2 ⟨loc, l, p, hr, rfl⟩)
  · intro hn e he
    obtain ⟨loc, l, p, hr, -⟩ := (C63_exact env m hwf errs h e).1 he
    exact hn loc l p hr

/-! ### Examples -/

/-- A model with production and slices, and a part with an object: the build and its items have no UUID, and the object no mesh, no
UUID and no slice stack. -/
def c63Model : Model :=
  { Model.zero with
    extensions := [⟨nsProduction, b!"p", true⟩, ⟨nsSlices, b!"s", true⟩]
    childs := [(b!"/3D/a.model", { ChildModel.zero with
      resources := { Resources.zero with
        objects := [{ Object.zero with
          id := 1
          anyAttr := [.sliceObject 0 .low] }] } })]
    build := { Build.zero with
      items := [{ Item.zero with
        objectID := 7 }] } }

example : c63Model.WF ∧ c63Model.Validate (.ascii true true true true) [
    .wrapped [⟨b!"build", -1⟩, ⟨b!"model", -1⟩] (.leaf (.missingField b!"UUID")) [],
    .wrapped [⟨b!"item", 0⟩, ⟨b!"build", -1⟩, ⟨b!"model", -1⟩] (.leaf (.missingField b!"UUID")) [],
    .wrapped [⟨b!"object", 0⟩, ⟨b!"resources", -1⟩, ⟨b!"model", -1⟩] (.leaf (.sentinel .invalidObject)) b!"/3D/a.model",
    .wrapped [⟨b!"object", 0⟩, ⟨b!"resources", -1⟩, ⟨b!"model", -1⟩] (.leaf (.missingField b!"UUID")) b!"/3D/a.model",
    .wrapped [⟨b!"object", 0⟩, ⟨b!"resources", -1⟩, ⟨b!"model", -1⟩] (.leaf (.missingField b!"slicestackid")) b!"/3D/a.model",
    .wrapped [⟨b!"item", 0⟩, ⟨b!"build", -1⟩, ⟨b!"model", -1⟩] (.leaf (.sentinel .missingResource)) []] :=
  ⟨by decide, 1, rfl⟩

/-- One of the rules that the model breaks. -/
example : ModelRule (.ascii true true true true) c63Model [⟨b!"object", 0⟩, ⟨b!"resources", -1⟩, ⟨b!"model", -1⟩]
    (.missingField b!"slicestackid") b!"/3D/a.model" :=
  .child (loc := [⟨b!"object", 0⟩]) (List.mem_singleton.2 rfl)
    (.slices (loc := []) (i := 0) ⟨rfl, _, List.mem_cons_of_mem _ (List.mem_singleton.2 rfl), rfl⟩ rfl (.id (res := .low) rfl))

end Go3mf
