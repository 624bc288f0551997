import Verif.Props.C55
import Verif.Props.C104

/-!
# C104 for packages
-/

namespace Go3mf

open Spec

/-- **C104** (encoder.go:146-205): in the package that `Encode` writes every part that has the content type of models is a
well-formed document, unless it is an attachment. -/
theorem C104_package_partial (env : Env) (o : Opc) (prec : Int) {m : Model} {order1 : List Str} {order2 : List (Str × ChildModel)}
    {pk : OutPkg} (hw : Writable env m) (hn : NamedModel m) (h : DistinctModel m)
    (hc : ∀ x ∈ m.childs, ChildWritable env m.extensions x.2 ∧ NamedChild x.2 ∧ DistinctChild x.2)
    (ha : ∀ a ∈ m.attachments, a.contentType ≠ contentTypeModel) (h2 : order2.Perm m.childs)
    (he : encodePkg o prec m order1 order2 = some pk) :
    ∀ p ∈ pk.parts, p.contentType = contentTypeModel → ∃ is, WellFormed p.data is ∧ PrefixesDeclared is ∧ MarkupOf .common p.data is := by
  obtain ⟨rfl, -⟩ := encodePkg_some he
  intro p hp ht
  rcases List.mem_append.1 hp with hp | hp
  · obtain ⟨a, ha', rfl⟩ := List.mem_map.1 hp
    exact absurd ht (ha a ha')
  · rcases List.mem_cons.1 hp with rfl | hp
    · exact C104_part_partial env hw hn h prec
    · obtain ⟨x, hx, rfl⟩ := List.mem_map.1 hp
      obtain ⟨c1, c2, c3⟩ := hc x (h2.mem_iff.1 hx)
      exact C104_child_partial env hw c1 hn.1 c2 h.1 c3 prec

/-- The package of C55, with a child model and two attachments. -/
example : ∃ pk, encodePkg c50Opc 3 c55Model [b!"/c.model"] c55Model.childs = some pk ∧
    ∀ p ∈ pk.parts, p.contentType = contentTypeModel →
      ∃ is, WellFormed p.data is ∧ PrefixesDeclared is ∧ MarkupOf .common p.data is := by
  have h : (encodePkg c50Opc 3 c55Model [b!"/c.model"] c55Model.childs).isSome = true := by decide +kernel
  obtain ⟨pk, hpk⟩ := Option.isSome_iff_exists.mp h
  refine ⟨pk, hpk, C104_package_partial exEnv c50Opc 3 c55_writable exModel_named exModel_distinct ?_ (by decide +kernel)
    (List.Perm.refl _) hpk⟩
  intro x hx
  refine ⟨(c55_child x hx).1, ?_⟩
  simp only [c55Model, List.mem_singleton] at hx
  subst hx
  exact ⟨⟨exModel_named.2.1, by simp [NamedAny, ChildModel.zero]⟩, ⟨exModel_distinct.2.1, by simp [DistinctAny, ChildModel.zero]⟩⟩

end Go3mf
