import Verif.Lemmas.WellFormed
import Verif.Lemmas.RtChild
import Verif.Lemmas.RtPkg
import Verif.Props.C102

/-!
# C104 What is written is a well-formed document

The parts of models and child models are well-formed in the sense of XML 1.0, all prefixes are declared, and other
programs read them as this one does.
-/

namespace Go3mf

open Spec

section
variable {env : Env} {m : Model} {c : ChildModel} {prec : Int}

/-- The items of a document with its header. -/
theorem wellFormed_header {s : Str} {n : Name} {as : List Attr} {body : List MarkupItem} (ht : XmlText s)
    (hm : MarkupOf .common s (.start n as :: (body ++ [.stop n]))) (hb : ContentOf body) (hs : s.head? = some 0x3C)
    (hp : PrefixesDeclared (.start n as :: (body ++ [.stop n])))
    (hu : ∀ k bs, MarkupItem.start k bs ∈ MarkupItem.start n as :: (body ++ [.stop n]) → (bs.map (·.name)).Nodup) :
    ∃ is, WellFormed (xmlHeader ++ s) is ∧ PrefixesDeclared is ∧ MarkupOf .common (xmlHeader ++ s) is := by
  have hh := header_markup hm hs
  refine ⟨_, ⟨(XmlText.ascii (by decide +kernel)).append ht, hh.of_common, ?_, ?_⟩, ?_, hh⟩
  · refine ⟨[.other, .chars b!"\n"], n, as, body, [], rfl, hb, ?_, fun _ h => nomatch h⟩
    intro i hi
    simp only [List.mem_cons, List.not_mem_nil, or_false] at hi
    rcases hi with rfl | rfl
    · trivial
    · show White _
      decide +kernel
  · intro k bs hk
    rcases List.mem_cons.1 hk with hk | hk
    · exact nomatch hk
    · rcases List.mem_cons.1 hk with hk | hk
      · exact nomatch hk
      · exact hu k bs hk
  · obtain ⟨before, k, bs, rest, he, hb', hall⟩ := hp
    refine ⟨.other :: .chars b!"\n" :: before, k, bs, rest, by rw [he]; rfl, ?_, ?_⟩
    · intro i hi
      simp only [List.mem_cons] at hi
      rcases hi with rfl | rfl | hi
      · trivial
      · show White _
        decide +kernel
      · exact hb' i hi
    · intro k' bs' hk
      rcases List.mem_cons.1 hk with hk | hk
      · exact nomatch hk
      · rcases List.mem_cons.1 hk with hk | hk
        · exact nomatch hk
        · exact hall k' bs' hk

theorem document_head {root : Str} {as : List Attr} {ops : List Op} :
    (printOps (fun _ => []) (document root as ops)).head? = some 0x3C := by
  simp [document, printOps, printOp, printStart]

theorem Model.ops_document : m.ops prec = document b!"model" (m.rootAttrs true) (m.bodyOps prec) := by
  simp [document, Model.ops, opStart, coreName]

theorem model_markup_items (hw : Writable env m) (h : DistinctModel m) :
    ∃ n as body, MarkupOf .common (printOps (fun _ => []) (m.ops prec)) (.start n as :: (body ++ [.stop n])) ∧
      ContentOf body ∧ PrefixesDeclared (.start n as :: (body ++ [.stop n])) ∧
      ∀ k bs, MarkupItem.start k bs ∈ MarkupItem.start n as :: (body ++ [.stop n]) →
        (bs.map (·.name)).Nodup := by
  have hd := writable_dom hw
  have h1 : RootOK (shown (m.rootAttrs true)) := by rw [root_shown hd.root]; exact rootOK hd.root true
  have h2 : ∀ op ∈ m.bodyOps prec, OpOK (decls (shown (m.rootAttrs true))) (defaultNs (shown (m.rootAttrs true))) op := by
    rw [root_shown hd.root, decls_root hd.root, root_default hd.root]; exact hd.good.ok
  have h3 : openOps [] (m.bodyOps prec) = some [] := by
    have := hd.good (prec := prec) |>.nest [] []; rw [List.append_nil] at this; rw [this]; rfl
  obtain ⟨as, body, hb, hm, hp⟩ := document_markup b!"model" _ _ (by decide +kernel) (by decide +kernel) h1 h2 h3
  have hu := document_unique b!"model" _ _ (by decide +kernel) (by decide +kernel) h1 h2 h3
    (by rw [← Model.ops_document]; exact C103_model_partial h prec) hm
  rw [← Model.ops_document] at hm
  exact ⟨_, as, body, hm, hb, hp, hu⟩

/-- **C104** (encoder.go:146-180): the part of a model is a well-formed document, in the common language of XML 1.0 and the
reader. -/
theorem C104_part_partial (env : Env) (hw : Writable env m) (hn : NamedModel m) (h : DistinctModel m) (prec : Int) :
    ∃ is, WellFormed (m.partBytes prec) is ∧ PrefixesDeclared is ∧ MarkupOf .common (m.partBytes prec) is := by
  obtain ⟨n, as, body, hm, hb, hp, hu⟩ := model_markup_items (prec := prec) hw h
  exact wellFormed_header (printOps_text (fun _ => XmlText.nil) (Model.text hn)) hm hb
    (by rw [Model.ops_document]; exact document_head) hp hu

/-- **C104** (encoder.go:98-104): and so is the result of `MarshalModel`. -/
theorem C104_marshal_partial (env : Env) (hw : Writable env m) (hn : NamedModel m) (h : DistinctModel m) :
    ∃ is, WellFormed (marshalModel m) is ∧ PrefixesDeclared is ∧ MarkupOf .common (marshalModel m) is := by
  obtain ⟨n, as, body, hm, hb, hp, hu⟩ := model_markup_items (prec := 4) hw h
  exact ⟨_, ⟨C102_marshal_partial hn, hm.of_common, ⟨[], n, as, body, [], rfl, hb, (fun _ h => nomatch h), fun _ h => nomatch h⟩,
    hu⟩, hp, hm⟩

/-- **C104** (encoder.go:182-205): and so is the part of a child model. -/
theorem C104_child_partial (env : Env) (hw : Writable env m) (hc : ChildWritable env m.extensions c) (hn : NamedRoot m)
    (hnc : NamedChild c) (h : DistinctRoot m) (hdc : DistinctChild c) (prec : Int) :
    ∃ is, WellFormed (c.partBytes prec m) is ∧ PrefixesDeclared is ∧ MarkupOf .common (c.partBytes prec m) is := by
  have hd := childWritable_dom hw hc
  have h1 : RootOK (shown (m.rootAttrs false)) := by rw [root_shown hd.root]; exact rootOK hd.root false
  have h2 : ∀ op ∈ c.bodyOps prec, OpOK (decls (shown (m.rootAttrs false))) (defaultNs (shown (m.rootAttrs false))) op := by
    rw [root_shown hd.root, decls_root hd.root, root_default hd.root]; exact hd.good.ok
  have h3 : openOps [] (c.bodyOps prec) = some [] := by
    have := hd.good (prec := prec) |>.nest [] []; rw [List.append_nil] at this; rw [this]; rfl
  obtain ⟨as, body, hb, hm, hp⟩ := document_markup b!"model" _ _ (by decide +kernel) (by decide +kernel) h1 h2 h3
  have hu := document_unique b!"model" _ _ (by decide +kernel) (by decide +kernel) h1 h2 h3
    (by rw [← ChildModel.ops_eq]; exact C103_child_partial h hdc prec) hm
  have ht := printOps_text (fun _ => XmlText.nil) (ChildModel.text (prec := prec) hn hnc)
  rw [ChildModel.partBytes, ChildModel.ops_eq]
  rw [ChildModel.ops_eq] at ht
  exact wellFormed_header ht hm hb document_head hp hu

/-- **C104** (encoder.go:98-104): the items that XML 1.0 finds in the result of `MarshalModel` are those
that the reader of this repository finds. -/
theorem C104_alike_partial (env : Env) (hw : Writable env m) (hn : NamedModel m) (h : DistinctModel m) :
    ∃ is, WellFormed (marshalModel m) is ∧ PrefixesDeclared is ∧ rawTags .eof (marshalModel m) = (is.map MarkupItem.event, .eof) ∧
      lex .eof (.new (marshalModel m)) = resolveAll [] (is.map MarkupItem.event) .eof := by
  obtain ⟨is, h1, hp, h2⟩ := C104_marshal_partial env hw hn h
  exact ⟨is, h1, hp, (C59_xml_partial .eof h2).2⟩

end

/-- **C104** (`xml.EscapeText`, internal/xml/printer.go:61-84): whatever the string, what is written for it is character data
and a value between double quotes, and XML 1.0 gives both the string, cleaned. -/
theorem C104_escape (s : Str) :
    TextOf .xml none (escape s) (cleanText s) ∧ TextOf .xml (some 0x22) (escape s) (cleanText s) :=
  ⟨((escaped s).text none (Or.inl rfl)).of_common, ((escaped s).text _ (Or.inr rfl)).of_common⟩

/-! ## A case -/

theorem exModel_named : NamedModel exModel := by
  have hn : NamedAttrs [] := fun s as h => nomatch h
  have ha : NamedAttrs exAttrs := by
    intro s as h a ha
    simp only [exAttrs, List.mem_singleton, AttrGroup.unknown.injEq] at h
    rw [h.2, List.mem_singleton] at ha
    subst ha
    exact ⟨XmlText.ascii (by decide +kernel), XmlText.ascii (by decide +kernel)⟩
  refine ⟨⟨hn, ?_⟩, ⟨hn, ?_, ?_⟩, (fun _ h => nomatch h), hn, ?_⟩
  · intro x hx
    simp only [exModel, exExts, List.mem_singleton] at hx
    subst hx
    exact XmlText.ascii (by decide +kernel)
  · intro a h
    simp only [exModel, List.mem_singleton] at h
    subst h
    refine ⟨hn, fun b hb => ?_⟩
    simp only [List.mem_cons, List.not_mem_nil, or_false] at hb
    rcases hb with rfl | rfl <;> exact hn
  · intro o h
    simp only [exModel, List.mem_cons, List.not_mem_nil, or_false] at h
    rcases h with rfl | rfl
    · refine ⟨ha, hn, fun m hm => ?_, fun cs hc => nomatch hc⟩
      simp only [Option.some.injEq] at hm
      subst hm
      refine ⟨ha, hn, hn, (fun _ h => nomatch h), fun t ht => ?_⟩
      simp only [exMesh, List.mem_cons, List.not_mem_nil, or_false] at ht
      rcases ht with rfl | rfl <;> exact fun g hg => nomatch hg
    · refine ⟨hn, hn, (fun m hm => nomatch hm), fun cs hc => ?_⟩
      simp only [Option.some.injEq] at hc
      subst hc
      refine ⟨hn, fun c h => ?_⟩
      simp only [List.mem_singleton] at h
      subst h
      exact hn
  · intro i h
    simp only [exModel, List.mem_singleton] at h
    subst h
    exact ⟨hn, hn⟩

example : ∃ is, WellFormed (exModel.partBytes 4) is ∧ PrefixesDeclared is ∧ MarkupOf .common (exModel.partBytes 4) is :=
  C104_part_partial exEnv exWritable exModel_named exModel_distinct 4

/-- A child model that has the materials of the model. -/
def c104Child : ChildModel := { ChildModel.zero with resources := { exModel.resources with objects := [] } }

example : ∃ is, WellFormed (c104Child.partBytes 4 exModel) is ∧ PrefixesDeclared is ∧ MarkupOf .common (c104Child.partBytes 4 exModel) is :=
  C104_child_partial exEnv exWritable ⟨exWritable.assets, (by simp [c104Child]), exWritable.resourcesAttrs, rfl⟩ exModel_named.1
    ⟨⟨exModel_named.2.1.1, exModel_named.2.1.2.1, by simp [c104Child]⟩,
      by simp [c104Child, NamedAny, DistinctAny, ChildModel.zero]⟩ exModel_distinct.1
    ⟨⟨exModel_distinct.2.1.1, exModel_distinct.2.1.2.1, by simp [c104Child]⟩,
      by simp [c104Child, NamedAny, DistinctAny, ChildModel.zero]⟩ 4

/-! ## What is not checked -/

/-- **C104** is violated: a prefix is written as it is. -/
theorem C104_prefix_false : ∃ m : Model, m.anyAttr = [] ∧ m.any = [] ∧ m.resources.objects = [] ∧
    ¬ ∃ is, WellFormed (marshalModel m) is := by
  obtain ⟨m, h1, h2, h3, h4⟩ := C102_prefix_false
  exact ⟨m, h1, h2, h3, fun ⟨_, h⟩ => h4 h.text⟩

/-- **C104** is violated: the values of the attributes of triangles are not escaped. -/
theorem C104_triangle_false : ∃ v, ¬ ∃ is, WellFormed (marshalModel (triangleModel v)) is := by
  obtain ⟨v, h⟩ := C102_triangle_false
  exact ⟨v, fun ⟨_, h'⟩ => h h'.text⟩

end Go3mf
