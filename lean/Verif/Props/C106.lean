import Verif.Props.C55
import Verif.Props.C65
import Verif.Props.C105

/-!
# C106 What is written follows the schemas of the extensions

The elements of the extensions for materials, slices and beam lattices have the order and the attributes of their schemas.
-/

namespace Go3mf

open Spec Spec.Lang

section
variable {m : Model} {c : ChildModel}

/-- **C106** (encoder.go:98-104, materials/encoder.go:15-143, slices/encoder.go:24-118, beamlattice/encoder.go:14-103): the tags of the
result of `MarshalModel` follow the schemas, those of the extensions included. -/
theorem C106_marshal_partial (env : Env) (h1 : env.materials = true) (h2 : env.slices = true) (h3 : env.beamlattice = true)
    (h4 : env.production = true) (hw : Writable env m) (h : DistinctModel m) (ht : m.thumbnail = [])
    (hs : ∀ o ∈ m.resources.objects, o.mesh ≠ none ∨ o.components ≠ none) :
    ∃ evs, lex .eof (.new (marshalModel m)) = (evs, .eof) ∧ Schema.model Schema.extension (tagsOf evs) :=
  schema_marshal (fun _ => others_extension h1 h2 h3 h4) hw h ht hs

/-- **C106** (encoder.go:146-180): and so do those of the part of a model. -/
theorem C106_part_partial (env : Env) (h1 : env.materials = true) (h2 : env.slices = true) (h3 : env.beamlattice = true)
    (h4 : env.production = true) (hw : Writable env m) (h : DistinctModel m) (ht : m.thumbnail = [])
    (hs : ∀ o ∈ m.resources.objects, o.mesh ≠ none ∨ o.components ≠ none) (prec : Int) :
    ∃ evs, lex .eof (.new (m.partBytes prec)) = (evs, .eof) ∧ Schema.model Schema.extension (tagsOf evs) :=
  schema_part (fun _ => others_extension h1 h2 h3 h4) hw h ht hs prec

/-- **C106** (encoder.go:182-205): and so do those of the part of a child model. -/
theorem C106_child_partial (env : Env) (h1 : env.materials = true) (h2 : env.slices = true) (h3 : env.beamlattice = true)
    (h4 : env.production = true) (hw : Writable env m) (hc : ChildWritable env m.extensions c) (h : DistinctRoot m)
    (hdc : DistinctChild c) (hs : ∀ o ∈ c.resources.objects, o.mesh ≠ none ∨ o.components ≠ none) (prec : Int) :
    ∃ evs, lex .eof (.new (c.partBytes prec m)) = (evs, .eof) ∧ Schema.model Schema.extension (tagsOf evs) :=
  schema_child (fun _ => others_extension h1 h2 h3 h4) hw hc h hdc hs prec

end

/-! ## Packages -/

/-- **C105** (encoder.go:146-205): in the package that `Encode` writes every part that has the content type of models follows the
schema, unless it is an attachment. -/
theorem C105_package_partial (env : Env) (o : Opc) (prec : Int) {m : Model} {order1 : List Str} {order2 : List (Str × ChildModel)}
    {pk : OutPkg} (hw : Writable env m) (h : DistinctModel m) (ht : m.thumbnail = [])
    (hs : ∀ o ∈ m.resources.objects, o.mesh ≠ none ∨ o.components ≠ none)
    (hc : ∀ x ∈ m.childs, ChildWritable env m.extensions x.2 ∧ DistinctChild x.2 ∧
      ∀ o ∈ x.2.resources.objects, o.mesh ≠ none ∨ o.components ≠ none)
    (ha : ∀ a ∈ m.attachments, a.contentType ≠ contentTypeModel) (h2 : order2.Perm m.childs)
    (he : encodePkg o prec m order1 order2 = some pk) :
    ∀ p ∈ pk.parts, p.contentType = contentTypeModel →
      ∃ evs, lex .eof (.new p.data) = (evs, .eof) ∧ Schema.model Other (tagsOf evs) := by
  obtain ⟨rfl, -⟩ := encodePkg_some he
  intro p hp hct
  rcases List.mem_append.1 hp with hp | hp
  · obtain ⟨a, ha', rfl⟩ := List.mem_map.1 hp
    exact absurd hct (ha a ha')
  · rcases List.mem_cons.1 hp with rfl | hp
    · exact C105_part_partial env hw h ht hs prec
    · obtain ⟨x, hx, rfl⟩ := List.mem_map.1 hp
      obtain ⟨c1, c2, c3⟩ := hc x (h2.mem_iff.1 hx)
      exact C105_child_partial env hw c1 h.1 c2 c3 prec

/-- **C106** (encoder.go:146-205): the same with the schemas of the extensions. -/
theorem C106_package_partial (env : Env) (h1 : env.materials = true) (h2 : env.slices = true) (h3 : env.beamlattice = true)
    (h4 : env.production = true) (o : Opc) (prec : Int) {m : Model} {order1 : List Str} {order2 : List (Str × ChildModel)}
    {pk : OutPkg} (hw : Writable env m) (h : DistinctModel m) (ht : m.thumbnail = [])
    (hs : ∀ o ∈ m.resources.objects, o.mesh ≠ none ∨ o.components ≠ none)
    (hc : ∀ x ∈ m.childs, ChildWritable env m.extensions x.2 ∧ DistinctChild x.2 ∧
      ∀ o ∈ x.2.resources.objects, o.mesh ≠ none ∨ o.components ≠ none)
    (ha : ∀ a ∈ m.attachments, a.contentType ≠ contentTypeModel) (ho : order2.Perm m.childs)
    (he : encodePkg o prec m order1 order2 = some pk) :
    ∀ p ∈ pk.parts, p.contentType = contentTypeModel →
      ∃ evs, lex .eof (.new p.data) = (evs, .eof) ∧ Schema.model Schema.extension (tagsOf evs) := by
  obtain ⟨rfl, -⟩ := encodePkg_some he
  intro p hp hct
  rcases List.mem_append.1 hp with hp | hp
  · obtain ⟨a, ha', rfl⟩ := List.mem_map.1 hp
    exact absurd hct (ha a ha')
  · rcases List.mem_cons.1 hp with rfl | hp
    · exact C106_part_partial env h1 h2 h3 h4 hw h ht hs prec
    · obtain ⟨x, hx, rfl⟩ := List.mem_map.1 hp
      obtain ⟨c1, c2, c3⟩ := hc x (ho.mem_iff.1 hx)
      exact C106_child_partial env h1 h2 h3 h4 hw c1 h.1 c2 c3 prec

/-! ## Examples -/

theorem exModel_shapes : ∀ o ∈ exModel.resources.objects, o.mesh ≠ none ∨ o.components ≠ none := by
  intro o ho
  simp only [exModel, List.mem_cons, List.not_mem_nil, or_false] at ho
  rcases ho with rfl | rfl <;> simp

/-- The model of C55, with a child model and two attachments, without thumbnail. -/
def c106Model : Model := { c55Model with thumbnail := [] }

theorem c106_writable : Writable exEnv c106Model :=
  { c55_writable with
    thumbnail := Text.nil }

example : ∃ pk, encodePkg c50Opc 3 c106Model [b!"/c.model"] c106Model.childs = some pk ∧
    ∀ p ∈ pk.parts, p.contentType = contentTypeModel →
      ∃ evs, lex .eof (.new p.data) = (evs, .eof) ∧ Schema.model Schema.extension (tagsOf evs) := by
  have h : (encodePkg c50Opc 3 c106Model [b!"/c.model"] c106Model.childs).isSome = true := by decide +kernel
  obtain ⟨pk, hpk⟩ := Option.isSome_iff_exists.mp h
  refine ⟨pk, hpk, C106_package_partial exEnv rfl rfl rfl rfl c50Opc 3 c106_writable exModel_distinct rfl exModel_shapes ?_
    (by decide +kernel) (List.Perm.refl _) hpk⟩
  intro x hx
  refine ⟨(c55_child x hx).1, ?_⟩
  simp only [c106Model, c55Model, List.mem_singleton] at hx
  subst hx
  exact ⟨⟨exModel_distinct.2.1, by simp [DistinctAny, ChildModel.zero]⟩, exModel_shapes⟩

theorem c65Lattice_distinct : DistinctModel c65Lattice := by
  refine ⟨⟨distinct_nil, by decide +kernel, (fun _ h => nomatch h)⟩, ⟨distinct_nil, (fun _ h => nomatch h), ?_⟩, (fun _ h => nomatch h),
    distinct_nil, (fun _ h => nomatch h)⟩
  intro o ho
  simp only [c65Lattice, List.mem_singleton] at ho
  subst ho
  refine ⟨distinct_nil, distinct_nil, fun m hm => ?_, fun cs hc => nomatch hc⟩
  simp only [Option.some.injEq] at hm
  subst hm
  exact ⟨distinct_nil, distinct_nil, distinct_nil, by simp [DistinctAny], (fun _ h => nomatch h)⟩

/-- A beam lattice. -/
example : ∃ evs, lex .eof (.new (marshalModel c65Lattice)) = (evs, .eof) ∧ Schema.model Schema.extension (tagsOf evs) :=
  C106_marshal_partial exEnv rfl rfl rfl rfl c65_lattice c65Lattice_distinct rfl (by
    intro o ho
    simp only [c65Lattice, List.mem_singleton] at ho
    subst ho
    simp)

theorem c64With_distinct (z1 z2 : F32) (t : Matrix) : DistinctModel (c64With z1 z2 t) := by
  refine ⟨⟨distinct_nil, by simp [c64With, c64Exts], (fun _ h => nomatch h)⟩, ⟨distinct_nil, ?_, ?_⟩, (fun _ h => nomatch h),
    distinct_nil, ?_⟩
  · intro a ha
    simp only [c64With, List.mem_cons, List.not_mem_nil, or_false] at ha
    rcases ha with rfl | rfl <;> trivial
  · intro o ho
    simp only [c64With, List.mem_singleton] at ho
    subst ho
    refine ⟨⟨by decide +kernel, by decide +kernel⟩, distinct_nil, fun m hm => ?_, fun cs hc => nomatch hc⟩
    simp only [c64Object, Option.some.injEq] at hm
    subst hm
    refine ⟨distinct_nil, distinct_nil, distinct_nil, (fun _ h => nomatch h), ?_⟩
    intro t ht
    simp only [Spec.tetra, List.mem_cons, List.not_mem_nil, or_false] at ht
    rcases ht with rfl | rfl | rfl | rfl <;> rfl
  · intro i hi
    simp only [c64With, List.mem_singleton] at hi
    subst hi
    exact ⟨distinct_nil, distinct_nil⟩

/-- A texture and a slice stack. -/
example (z1 z2 : F32) (t : Matrix) :
    ∃ evs, lex .eof (.new (marshalModel (c64With z1 z2 t))) = (evs, .eof) ∧ Schema.model Schema.extension (tagsOf evs) :=
  C106_marshal_partial exEnv rfl rfl rfl rfl (c64_writable z1 z2 t) (c64With_distinct z1 z2 t) rfl (by
    intro o ho
    simp only [c64With, List.mem_singleton] at ho
    subst ho
    simp [c64Object])

/-- The schema does not admit a color group without identifier. -/
example : ¬ Schema.extension [.start ⟨nsMaterials, b!"colorgroup"⟩ [], .stop ⟨nsMaterials, b!"colorgroup"⟩] := by
  have hne : ∀ {l l' : Str} {ns ns' : Str}, (⟨ns, l⟩ : Name) = ⟨ns', l'⟩ → l = l' := fun e => (Name.mk.inj e).2
  rintro (⟨as, b, h, ha, -⟩ | ⟨as, b, h, -⟩ | ⟨as, b, h, -⟩ | ⟨as, b, h, -⟩ | ⟨as, b, h, -⟩ | ⟨as, b, h, -⟩ | ⟨as, b, h, -⟩ |
    ⟨n, as, b, h, hn⟩) <;> simp only [List.cons.injEq, Event.start.injEq] at h
  · rw [← h.1.2] at ha
    exact absurd (ha.1 b!"id" (by simp)) (by decide +kernel)
  all_goals first
    | exact absurd (hne h.1.1) (by decide +kernel)
    | exact hn (by rw [← h.1.1]; decide +kernel)

end Go3mf
