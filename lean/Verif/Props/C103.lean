import Verif.Lemmas.Uniq

/-!
# C103: no tag that is written has the same attribute twice

XML forbids two attributes of the same name in a tag, and conforming parsers refuse such a document; the reader of this
repository does not check it.  The encoder puts a tag together from the attributes of the specification, those of the
extensions and those that it does not know.  If the additional attributes of every element are distinct and in a name space,
the prefixes are distinct and no triangle has additional attributes, then no start element passed to the XML writer has two
attributes of the same name.
-/

namespace Go3mf

open Spec
open scoped List

theorem Model.rootAttrs_uniq {m : Model} (h : DistinctRoot m) (isRoot : Bool) : UniqAttrs (m.rootAttrs isRoot) := by
  obtain ⟨h1, h2, h3⟩ := h
  have hcore : CoreAttrs ([attr b!"xmlns" nsCore, attr b!"unit" m.units.str] ++
      attrIf (isRoot && m.thumbnail ≠ []) b!"thumbnail" m.thumbnail ++
      attrIf (m.requiredNames ≠ []) b!"requiredextensions" (Str.join b!" " m.requiredNames)) := by core_attrs
  have hany : ∀ n ∈ (encodeAnyAttr m.anyAttr).map (·.name), n ∈ m.anyAttr.flatMap groupNames :=
    fun n hn => (anyAttr_names _).subset hn
  unfold UniqAttrs
  have hp : (m.rootAttrs isRoot).map (·.name) ~
      ([attr b!"xmlns" nsCore, attr b!"unit" m.units.str] ++
        attrIf (isRoot && m.thumbnail ≠ []) b!"thumbnail" m.thumbnail ++
        attrIf (m.requiredNames ≠ []) b!"requiredextensions" (Str.join b!" " m.requiredNames)).map (·.name) ++
      ((⟨nsXML, b!"lang"⟩ : Name) :: ((m.extensions.map fun x => (⟨b!"xmlns", x.localName⟩ : Name)) ++
        (encodeAnyAttr m.anyAttr).map (·.name))) := by
    rw [List.perm_iff_count]
    intro a
    unfold Model.rootAttrs
    simp only [List.map_append, List.map_cons, List.map_map, List.count_append, List.count_cons, List.map_nil,
      List.count_nil, Function.comp_def]
    omega
  rw [hp.nodup_iff]
  refine List.Nodup.append hcore.1 (List.nodup_cons.2 ⟨?_, List.Nodup.append ?_ (anyAttr_uniq h1) ?_⟩) ?_
  · intro hm
    rcases List.mem_append.1 hm with hm | hm
    · obtain ⟨x, -, e⟩ := List.mem_map.1 hm
      exact absurd (congrArg Name.space e) (by simp only; decide)
    · exact (h3 _ (hany _ hm)).2 rfl
  · have : (m.extensions.map fun x => (⟨b!"xmlns", x.localName⟩ : Name)) =
        (m.extensions.map (·.localName)).map fun l => ⟨b!"xmlns", l⟩ := by simp
    rw [this]
    exact h2.map fun a b e => by simpa using e
  · intro n hn hn'
    obtain ⟨x, -, rfl⟩ := List.mem_map.1 hn
    exact (h3 _ (hany _ hn')).1 rfl
  · intro n hn hn'
    obtain ⟨a, ha, rfl⟩ := List.mem_map.1 hn
    have hs := hcore.2 a ha
    rcases List.mem_cons.1 hn' with hn' | hn'
    · exact absurd (hs.symm.trans (congrArg Name.space hn')) (by decide)
    · rcases List.mem_append.1 hn' with hn' | hn'
      · obtain ⟨x, -, e⟩ := List.mem_map.1 hn'
        exact absurd (hs.symm.trans (congrArg Name.space e.symm)) (by simp)
      · exact h1.2 _ (hany _ hn') hs

/-- **C103** (encoder.go:266-281 and the encoders below it): no start element of a model has two attributes of the same
name. -/
theorem C103_model_partial {m : Model} (h : DistinctModel m) (prec : Int) (n : Name) (as : List Attr) (auto skip : Bool)
    (ho : Op.start n as auto skip ∈ m.ops prec) : (as.map (·.name)).Nodup := by
  have hall : OpsUniq (m.ops prec) := by
    obtain ⟨h1, h2, h3, h4, h5⟩ := h
    have := Model.rootAttrs_uniq h1 true
    have := anyAttr_uniq h4
    have := encodeMetadata_uniq m.metadata
    have := Resources.uniq (prec := prec) h2
    have := any_uniq (prec := prec) h3
    unfold Model.ops Model.bodyOps Build.ops
    uniq_ops
    exact Item.uniq (h5 _ ‹_›).1 (h5 _ ‹_›).2
  exact hall _ ho

/-- **C103** (encoder.go:250-264): nor does one of a child model. -/
theorem C103_child_partial {m : Model} {c : ChildModel} (h : DistinctRoot m) (hc : DistinctChild c) (prec : Int) (n : Name)
    (as : List Attr) (auto skip : Bool) (ho : Op.start n as auto skip ∈ c.ops prec m) : (as.map (·.name)).Nodup := by
  have hall : OpsUniq (c.ops prec m) := by
    have := Model.rootAttrs_uniq h false
    have := Resources.uniq (prec := prec) hc.1
    have := any_uniq (prec := prec) hc.2
    unfold ChildModel.ops
    uniq_ops
  exact hall _ ho

/-! ## A case -/

/-- A model with an item that has a path, a UUID and an unknown attribute. -/
def uniqModel : Model :=
  { Model.zero with
    extensions := [⟨nsProduction, b!"p", true⟩, ⟨b!"http://example.com", b!"q", false⟩]
    build := ⟨[⟨1, .identity, b!"part", ⟨[], []⟩, [.prodItem b!"u" b!"/other.model",
      .unknown b!"http://example.com" [⟨⟨b!"http://example.com", b!"path"⟩, b!"v"⟩]]⟩], [.prodBuild b!"w"]⟩ }

theorem uniqModel_distinct : DistinctModel uniqModel := by
  have hn : DistinctAttrs [] := ⟨by decide, by decide⟩
  refine ⟨⟨hn, by decide, (fun _ h => nomatch h)⟩, ⟨hn, (fun _ h => nomatch h), (fun _ h => nomatch h)⟩, (fun _ h => nomatch h),
    ⟨by decide, by decide⟩, ?_⟩
  intro i hi
  simp only [uniqModel, List.mem_singleton] at hi
  subst hi
  exact ⟨⟨by decide +kernel, by decide +kernel⟩, hn⟩

example : Op.start ⟨[], b!"item"⟩ [⟨⟨[], b!"objectid"⟩, b!"1"⟩, ⟨⟨[], b!"partnumber"⟩, b!"part"⟩,
    ⟨⟨nsProduction, b!"path"⟩, b!"/other.model"⟩, ⟨⟨nsProduction, b!"UUID"⟩, b!"u"⟩,
    ⟨⟨b!"http://example.com", b!"path"⟩, b!"v"⟩] true false ∈ uniqModel.ops 4 := by decide +kernel

/-! ## What goes wrong -/

/-- Two triangles, each with one additional attribute; the second one has a property. -/
def noteModel : Model :=
  { Model.zero with
    extensions := [⟨b!"http://example.com", b!"q", false⟩]
    resources := ⟨[], [⟨1, [], [], [], 0, 0, .model, ⟨[], []⟩,
      some ⟨[], [],
        [⟨0, 1, 2, 0, 0, 0, 0, [.unknown b!"http://example.com" [⟨⟨b!"http://example.com", b!"note"⟩, b!"a"⟩]]⟩,
         ⟨0, 2, 1, 5, 7, 7, 7, [.unknown b!"http://example.com" [⟨⟨b!"http://example.com", b!"note"⟩, b!"b"⟩]]⟩],
        [], [], []⟩,
      none, []⟩], []⟩ }

/-- **C103** is violated (encoder.go:473-501): triangles share an array of attributes, and an additional attribute of one
takes the place of `pid` in the next.  The second triangle is written with the attribute `q:note` twice and without `pid`. -/
theorem C103_triangle_false :
    b!"<triangle v1=\"0\" v2=\"2\" v3=\"1\" q:note=\"5\" p1=\"7\" q:note=\"b\"/>" <:+: marshalModel noteModel := by
  decide +kernel

/-- **C103** is violated (encoder.go:232-234): two extensions with the same prefix are both declared. -/
theorem C103_prefix_false :
    b!" xmlns:p=\"http://a\" xmlns:p=\"http://b\"" <:+: marshalModel
      { Model.zero with extensions := [⟨b!"http://a", b!"p", false⟩, ⟨b!"http://b", b!"p", false⟩] } := by
  decide +kernel

end Go3mf
