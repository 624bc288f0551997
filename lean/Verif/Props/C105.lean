import Verif.Lemmas.Schema
import Verif.Lemmas.RtChild
import Verif.Props.C92
import Verif.Props.C104

/-!
# C105 What is written follows the schema of the core specification

The tags that a reader finds in the parts of models and child models have the order and the attributes of the schema.
-/

namespace Go3mf

open Spec Spec.Lang

section
variable {m : Model} {c : ChildModel}

theorem tagsOf_header (evs : List (Option Event)) : tagsOf (none :: some (.chars b!"\n") :: evs) = tagsOf evs := by
  simp [tagsOf]

theorem schema_marshal {env : Env} {other : Lang} (hO : ∀ prec, Others env m.extensions prec other) (hw : Writable env m) (h : DistinctModel m) (ht : m.thumbnail = [])
    (hs : ∀ o ∈ m.resources.objects, o.mesh ≠ none ∨ o.components ≠ none) :
    ∃ evs, lex .eof (.new (marshalModel m)) = (evs, .eof) ∧ Schema.model other (tagsOf evs) := by
  refine ⟨_, lex_marshal (writable_dom hw), ?_⟩
  rw [tagsOf_readOps]
  exact model_schema (hO _) hw h ht hs

theorem schema_part {env : Env} {other : Lang} (hO : ∀ prec, Others env m.extensions prec other) (hw : Writable env m) (h : DistinctModel m) (ht : m.thumbnail = [])
    (hs : ∀ o ∈ m.resources.objects, o.mesh ≠ none ∨ o.components ≠ none) (prec : Int) :
    ∃ evs, lex .eof (.new (m.partBytes prec)) = (evs, .eof) ∧ Schema.model other (tagsOf evs) := by
  have h1 := writable_dom hw
  have hl := C23_header_partial b!"model" (m.rootAttrs true) (m.bodyOps prec) (by decide +kernel) (by decide +kernel)
    (by rw [root_shown h1.root]; exact rootOK h1.root true)
    (by rw [root_shown h1.root, decls_root h1.root, root_default h1.root]; exact h1.good.ok)
    (by have := h1.good (prec := prec) |>.nest [] []; rw [List.append_nil] at this; rw [this]; rfl)
  rw [root_shown h1.root, root_default h1.root, ← Model.ops_document] at hl
  refine ⟨_, hl, ?_⟩
  rw [tagsOf_header, tagsOf_readOps]
  exact model_schema (hO _) hw h ht hs

theorem schema_child {env : Env} {other : Lang} (hO : ∀ prec, Others env m.extensions prec other) (hw : Writable env m) (hc : ChildWritable env m.extensions c) (h : DistinctRoot m)
    (hdc : DistinctChild c) (hs : ∀ o ∈ c.resources.objects, o.mesh ≠ none ∨ o.components ≠ none) (prec : Int) :
    ∃ evs, lex .eof (.new (c.partBytes prec m)) = (evs, .eof) ∧ Schema.model other (tagsOf evs) := by
  have h1 := childWritable_dom hw hc
  have hl := C23_header_partial b!"model" (m.rootAttrs false) (c.bodyOps prec) (by decide +kernel) (by decide +kernel)
    (by rw [root_shown h1.root]; exact rootOK h1.root false)
    (by rw [root_shown h1.root, decls_root h1.root, root_default h1.root]; exact h1.good.ok)
    (by have := h1.good (prec := prec) |>.nest [] []; rw [List.append_nil] at this; rw [this]; rfl)
  rw [root_shown h1.root, root_default h1.root, ← ChildModel.ops_eq] at hl
  refine ⟨_, hl, ?_⟩
  rw [tagsOf_header, tagsOf_readOps]
  have hb : Schema.build (tags [opStart (coreName b!"build") [], .stop (coreName b!"build")]) :=
    elem_tags (body := []) (by schema_attrs distinct_nil) ⟨[], rfl, fun _ h => nomatch h⟩
  have := elem_tags (l := b!"model") (root_schema (isRoot := false) h.1 nofun)
    (cat_tags (P := Star Schema.metadata) (a := []) ⟨[], rfl, fun _ h => nomatch h⟩
      (cat_tags (resources_schema (prec := prec) (hO _) hc.assets hc.objects hdc.1 hs)
        (cat_tags hb (any_schema (env := env) (exts := m.extensions) (prec := prec) (any := c.any) (hO _) (by simp [hc.any])))))
  simpa only [Schema.model, ChildModel.ops, List.append_assoc, List.cons_append, List.nil_append] using this

/-- **C105** (encoder.go:98-104, 220-543): the tags of the result of `MarshalModel` follow the schema, and it ends after
them. -/
theorem C105_marshal_partial (env : Env) (hw : Writable env m) (h : DistinctModel m) (ht : m.thumbnail = [])
    (hs : ∀ o ∈ m.resources.objects, o.mesh ≠ none ∨ o.components ≠ none) :
    ∃ evs, lex .eof (.new (marshalModel m)) = (evs, .eof) ∧ Schema.model Other (tagsOf evs) :=
  schema_marshal (fun _ => others_other) hw h ht hs

/-- **C105** (encoder.go:146-180): and so do those of the part of a model. -/
theorem C105_part_partial (env : Env) (hw : Writable env m) (h : DistinctModel m) (ht : m.thumbnail = [])
    (hs : ∀ o ∈ m.resources.objects, o.mesh ≠ none ∨ o.components ≠ none) (prec : Int) :
    ∃ evs, lex .eof (.new (m.partBytes prec)) = (evs, .eof) ∧ Schema.model Other (tagsOf evs) :=
  schema_part (fun _ => others_other) hw h ht hs prec

/-- **C105** (encoder.go:182-205, 250-264): and so do those of the part of a child model, whatever the thumbnail. -/
theorem C105_child_partial (env : Env) (hw : Writable env m) (hc : ChildWritable env m.extensions c) (h : DistinctRoot m)
    (hdc : DistinctChild c) (hs : ∀ o ∈ c.resources.objects, o.mesh ≠ none ∨ o.components ≠ none) (prec : Int) :
    ∃ evs, lex .eof (.new (c.partBytes prec m)) = (evs, .eof) ∧ Schema.model Other (tagsOf evs) :=
  schema_child (fun _ => others_other) hw hc h hdc hs prec

end

/-! ## Example -/

example : ∃ evs, lex .eof (.new (marshalModel exModel)) = (evs, .eof) ∧ Schema.model Other (tagsOf evs) :=
  C105_marshal_partial exEnv exWritable exModel_distinct rfl (by
    intro o ho
    simp only [exModel, List.mem_cons, List.not_mem_nil, or_false] at ho
    rcases ho with rfl | rfl <;> simp)

example : ∃ evs, lex .eof (.new (c104Child.partBytes 4 exModel)) = (evs, .eof) ∧ Schema.model Other (tagsOf evs) :=
  C105_child_partial exEnv exWritable ⟨exWritable.assets, (by simp [c104Child]), exWritable.resourcesAttrs, rfl⟩ exModel_distinct.1
    ⟨⟨exModel_distinct.2.1.1, exModel_distinct.2.1.2.1, by simp [c104Child]⟩,
      by simp [c104Child, DistinctAny, ChildModel.zero]⟩ (by simp [c104Child]) 4

/-- The schema does not admit the elements in another order. -/
example : ¬ Schema.model Other [.start ⟨nsCore, b!"model"⟩ [], .start ⟨nsCore, b!"build"⟩ [], .stop ⟨nsCore, b!"build"⟩,
    .start ⟨nsCore, b!"resources"⟩ [], .stop ⟨nsCore, b!"resources"⟩, .stop ⟨nsCore, b!"model"⟩] := by
  rintro ⟨as, body, h, -, a, b, rfl, ⟨ss, rfl, hss⟩, a', b', rfl, ⟨as', body', rfl, -⟩, -⟩
  cases ss with
  | nil =>
    simp only [List.flatten_nil, List.nil_append, List.cons_append, List.cons.injEq, Event.start.injEq, Name.mk.injEq] at h
    exact absurd h.2.1.1.2 (by decide +kernel)
  | cons s ss =>
    obtain ⟨bs, body'', rfl, -⟩ := hss s (by simp)
    simp only [List.flatten_cons, List.cons_append, List.cons.injEq, Event.start.injEq, Name.mk.injEq] at h
    exact absurd h.2.1.1.2 (by decide +kernel)

/-! ## What does not follow the schema -/

/-- **C105** is violated: the thumbnail of a model becomes an attribute that the schema does not have. -/
theorem C105_thumbnail_false : ∃ m : Model, m.resources.objects = [] ∧ m.any = [] ∧ m.anyAttr = [] ∧
    ¬ Schema.model Other (tagsOf (lex .eof (.new (marshalModel m))).1) := by
  refine ⟨{ Model.zero with thumbnail := b!"/t.png" }, rfl, rfl, rfl, ?_⟩
  rintro ⟨as, body, h, ha, -⟩
  have hh : (tagsOf (lex .eof (.new (marshalModel { Model.zero with thumbnail := b!"/t.png" }))).1).head? =
      some (.start ⟨nsCore, b!"model"⟩ [attr b!"xmlns" nsCore, attr b!"unit" b!"millimeter", ⟨⟨nsXML, b!"lang"⟩, []⟩,
        attr b!"thumbnail" b!"/t.png"]) := by
    decide +kernel
  rw [h, List.head?_cons, Option.some.injEq, Event.start.injEq] at hh
  rw [hh.2] at ha
  have := ha.2 b!"thumbnail" (by decide +kernel)
  revert this
  decide +kernel

theorem elem_head {l : Str} {A : List Attr → Prop} {P : Lang} {s : List Event} (h : Elem l A P s) :
    ∃ as r, s = .start ⟨nsCore, l⟩ as :: r := by
  obtain ⟨as, body, rfl, -⟩ := h
  exact ⟨as, _, rfl⟩

/-- A model with an object that is neither a mesh nor made of components. -/
def emptyObject : Model :=
  { Model.zero with
    resources :=
      { assets := []
        objects := [
          { id := 1, name := [], partNumber := [], thumbnail := [], pid := 0, pindex := 0, type := .model
            metadata := ⟨[], []⟩, mesh := none, components := none, anyAttr := [] }]
        anyAttr := [] } }

/-- **C105** is violated: an object without a mesh and without components is written as an empty element. -/
theorem C105_object_false : ∃ m : Model, m.thumbnail = [] ∧ m.any = [] ∧ m.anyAttr = [] ∧
    ¬ Schema.model Other (tagsOf (lex .eof (.new (marshalModel m))).1) := by
  refine ⟨emptyObject, rfl, rfl, rfl, ?_⟩
  have hh : ∃ as, (tagsOf (lex .eof (.new (marshalModel emptyObject))).1) =
      [.start ⟨nsCore, b!"model"⟩ as, .start ⟨nsCore, b!"resources"⟩ [], .start ⟨nsCore, b!"object"⟩ [attr b!"id" b!"1"],
        .stop ⟨nsCore, b!"object"⟩, .stop ⟨nsCore, b!"resources"⟩, .start ⟨nsCore, b!"build"⟩ [], .stop ⟨nsCore, b!"build"⟩,
        .stop ⟨nsCore, b!"model"⟩] :=
    ⟨[attr b!"xmlns" nsCore, attr b!"unit" b!"millimeter", ⟨⟨nsXML, b!"lang"⟩, []⟩], by decide +kernel⟩
  obtain ⟨as, hh⟩ := hh
  rw [hh]
  rintro ⟨as, body, h, -, a, b, rfl, ⟨ss, rfl, hss⟩, a', b', rfl, ⟨as', body', rfl, -, x, y, rfl, ⟨us, rfl, hus⟩, ⟨vs, rfl, hvs⟩⟩, -⟩
  have hne : ∀ l l' : Str, l ≠ l' → (⟨nsCore, l⟩ : Name) ≠ ⟨nsCore, l'⟩ := fun l l' h e => h (Name.mk.inj e).2
  cases ss with
  | cons s ss =>
    obtain ⟨bs, r, rfl⟩ := elem_head (hss s (by simp))
    simp only [List.flatten_cons, List.cons_append, List.cons.injEq, Event.start.injEq] at h
    exact hne _ _ (by decide +kernel) h.2.1.1
  | nil =>
    cases us with
    | cons u us =>
      rcases hus u (by simp) with hu | ⟨n, bs, r, rfl, hn⟩
      · obtain ⟨bs, r, rfl⟩ := elem_head hu
        simp only [List.flatten_cons, List.flatten_nil, List.nil_append, List.cons_append, List.cons.injEq, Event.start.injEq] at h
        exact hne _ _ (by decide +kernel) h.2.2.1.1
      · simp only [List.flatten_cons, List.flatten_nil, List.nil_append, List.cons_append, List.cons.injEq, Event.start.injEq] at h
        exact hn (by rw [← h.2.2.1.1])
    | nil =>
      cases vs with
      | nil => simp at h
      | cons v vs =>
        obtain ⟨bs, r, rfl, -, p, q, rfl, hp, hq⟩ := hvs v (by simp)
        have hpq : ∃ n cs t, p ++ q = .start n cs :: t := by
          rcases hp with rfl | hp
          · rcases hq with hq | hq <;> obtain ⟨cs, t, rfl⟩ := elem_head hq <;> exact ⟨_, cs, t, rfl⟩
          · obtain ⟨cs, t, rfl⟩ := elem_head hp
            exact ⟨_, cs, t ++ q, rfl⟩
        obtain ⟨n, cs, t, hpq⟩ := hpq
        rw [hpq] at h
        simp at h

end Go3mf
