import Verif.Props.C63
import Verif.Props.C106

/-!
# C105 and C106 for models that the validation accepts
-/

namespace Go3mf

open Spec Spec.Lang

section
variable {env : Env} {m : Model}

/-- In a model that is accepted every object has a mesh or components. -/
theorem valid_shapes (hwf : m.WF) (hv : m.Validate env []) :
    (∀ o ∈ m.resources.objects, o.mesh ≠ none ∨ o.components ≠ none) ∧
    ∀ x ∈ m.childs, ∀ o ∈ x.2.resources.objects, o.mesh ≠ none ∨ o.components ≠ none := by
  have hn := (C63_accepts env m hwf [] hv).1 rfl
  have key : ∀ (p : Str) (o : Object), (∀ loc l, ¬ ObjectRule m p o loc l) → o.mesh ≠ none ∨ o.components ≠ none := by
    intro p o h
    by_contra hc
    simp only [not_or, not_not] at hc
    exact h _ _ (.shape (by rw [hc.1, hc.2]; rfl))
  refine ⟨fun o ho => ?_, fun x hx o ho => ?_⟩
  · obtain ⟨i, hi⟩ := List.getElem?_of_mem ho
    exact key (rootPath m) o fun loc l hr => hn _ _ _ (.root (.object hi hr))
  · obtain ⟨i, hi⟩ := List.getElem?_of_mem ho
    exact key x.1 o fun loc l hr => hn _ _ _ (.child hx (.object hi hr))

end

/-- **C106** (encoder.go:146-205, validate.go:30-73): if the validation accepts a model, then in the package that `Encode` writes every
part that has the content type of models follows the schemas of the core and of the extensions, unless it is an attachment. -/
theorem C106_valid_partial (env : Env) (h1 : env.materials = true) (h2 : env.slices = true) (h3 : env.beamlattice = true)
    (h4 : env.production = true) (o : Opc) (prec : Int) {m : Model} {order1 : List Str} {order2 : List (Str × ChildModel)}
    {pk : OutPkg} (hwf : m.WF) (hv : m.Validate env []) (hw : Writable env m) (h : DistinctModel m) (ht : m.thumbnail = [])
    (hc : ∀ x ∈ m.childs, ChildWritable env m.extensions x.2 ∧ DistinctChild x.2)
    (ha : ∀ a ∈ m.attachments, a.contentType ≠ contentTypeModel) (ho : order2.Perm m.childs)
    (he : encodePkg o prec m order1 order2 = some pk) :
    ∀ p ∈ pk.parts, p.contentType = contentTypeModel →
      ∃ evs, lex .eof (.new p.data) = (evs, .eof) ∧ Schema.model Schema.extension (tagsOf evs) :=
  C106_package_partial env h1 h2 h3 h4 o prec hw h ht (valid_shapes hwf hv).1
    (fun x hx => ⟨(hc x hx).1, (hc x hx).2, (valid_shapes hwf hv).2 x hx⟩) ha ho he

/-- The package of C64, with a texture, a slice stack and a child model, is accepted. -/
example : ∃ pk, encodePkg c50Opc 4 c64Model [b!"/c.model"] c64Model.childs = some pk ∧
    ∀ p ∈ pk.parts, p.contentType = contentTypeModel →
      ∃ evs, lex .eof (.new p.data) = (evs, .eof) ∧ Schema.model Schema.extension (tagsOf evs) := by
  have h : (encodePkg c50Opc 4 c64Model [b!"/c.model"] c64Model.childs).isSome = true := by decide +kernel
  obtain ⟨pk, hpk⟩ := Option.isSome_iff_exists.mp h
  refine ⟨pk, hpk, C106_valid_partial exEnv rfl rfl rfl rfl c50Opc 4 (by decide) c64_accepted (c64_writable ..) (c64With_distinct ..)
    rfl ?_ (by decide +kernel) (List.Perm.refl _) hpk⟩
  intro x hx
  refine ⟨(c64_child 4 _ _ _ x hx).1, ?_⟩
  simp only [c64Model, c64With, List.mem_singleton] at hx
  subst hx
  refine ⟨⟨distinct_nil, (fun _ h => nomatch h), ?_⟩, (fun _ h => nomatch h)⟩
  intro o ho
  simp only [List.mem_singleton] at ho
  subst ho
  obtain ⟨-, h2, h3, h4⟩ := (c64With_distinct .zero .zero .zero).2.1.2.2 c64Object (by simp [c64With])
  exact ⟨distinct_nil, h2, h3, h4⟩

/-- A model with an object whose components are empty. -/
def emptyComponents : Model :=
  { Model.zero with
    resources := { Resources.zero with
      objects := [{ Object.zero with
        id := 1
        components := some ⟨[], []⟩ }] } }

/-- The validation does not check the smallest numbers of the schema: an object with components that are empty is accepted
(validate.go:234-239), and an element without the required children is written. -/
example : emptyComponents.Accepts exEnv ∧
    ∃ before after, tagsOf (lex .eof (.new (marshalModel emptyComponents))).1 =
      before ++ .start ⟨nsCore, b!"components"⟩ [] :: .stop ⟨nsCore, b!"components"⟩ :: after := by
  have h : (emptyComponents.validateFuel exEnv 3).map List.isEmpty = some true := by decide +kernel
  obtain ⟨errs, h1, h2⟩ := Option.map_eq_some_iff.1 h
  rw [List.isEmpty_iff] at h2
  subst h2
  exact ⟨⟨3, h1⟩, (tagsOf (lex .eof (.new (marshalModel emptyComponents))).1).take 3,
    (tagsOf (lex .eof (.new (marshalModel emptyComponents))).1).drop 5, by decide +kernel⟩

end Go3mf
