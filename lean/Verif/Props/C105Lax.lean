import Verif.Props.C106

/-!
# C105: there are no other deviations from the schema

Apart from the thumbnail of the root element and from empty objects, every model follows the schema.
-/

namespace Go3mf

open Spec Spec.Lang

section
variable {env : Env} {exts : List Extension} {prec : Int} {other : Lang} {m : Model}

theorem elem_mono {l : Str} {A B : List Attr → Prop} {P Q : Lang} (hA : ∀ as, A as → B as) (hP : ∀ s, P s → Q s) :
    ∀ s, Elem l A P s → Elem l B Q s := by
  rintro s ⟨as, body, rfl, ha, hb⟩
  exact ⟨as, body, rfl, hA _ ha, hP _ hb⟩

theorem cat_mono {P P' Q Q' : Lang} (hP : ∀ s, P s → P' s) (hQ : ∀ s, Q s → Q' s) : ∀ s, Cat P Q s → Cat P' Q' s := by
  rintro s ⟨a, b, rfl, ha, hb⟩
  exact ⟨a, b, rfl, hP _ ha, hQ _ hb⟩

theorem object_lax {known : List Extension} {o : Object} (hO : Others env exts prec other) (hw : ObjectWritable env exts known o)
    (h : DistinctObject o) : Schema.objectLax other (tags (o.ops prec)) := by
  by_cases hs : o.mesh ≠ none ∨ o.components ≠ none
  · exact elem_mono (fun _ h => h) (cat_mono (fun _ h => h) fun _ h => .inr h) _ (object_schema hO hw h hs)
  · simp only [not_or, not_not] at hs
    obtain ⟨h1, h2, -, -⟩ := h
    have ha : Attrs [b!"id"] [b!"type", b!"pid", b!"pindex", b!"thumbnail", b!"partnumber", b!"name"] (readAttrs o.attrs) := by
      unfold Object.attrs
      split <;> schema_attrs h1
    have hg : Opt Schema.metadatagroup (tags (if o.metadata.metadata ≠ [] then o.metadata.ops else [])) := by
      split
      · exact .inr (group_schema h2)
      · exact .inl rfl
    have hb : Opt (Alt (Schema.mesh other) Schema.components) (tags (o.shapeOps prec)) := by
      unfold Object.shapeOps
      rw [hs.1, hs.2]
      exact .inl rfl
    have := elem_tags (l := b!"object") ha (cat_tags hg hb)
    simpa only [Schema.objectLax, Object.ops, List.append_assoc, List.cons_append] using this

theorem root_lax {isRoot : Bool} (h : DistinctAttrs m.anyAttr) :
    Attrs [] [b!"unit", b!"requiredextensions", b!"recommendedextensions", b!"xmlns", b!"thumbnail"]
      (readAttrs (m.rootAttrs isRoot)) := by
  refine attrs_read (by decide +kernel) ?_
  have hl (as : List Attr) : coreNames (⟨⟨nsXML, b!"lang"⟩, m.language⟩ :: as) = coreNames as := by simp [coreNames, nsXML]
  unfold Model.rootAttrs Attrs
  simp only [List.cons_append, List.nil_append, coreNames_attr, coreNames_append, coreNames_if, coreNames_any h,
    coreNames_decls, coreNames_nil, hl]
  refine ⟨by simp, fun l hl => ?_⟩
  simp only [List.mem_cons, List.mem_append, List.mem_ite_nil_right, List.not_mem_nil, or_false, false_or] at hl ⊢
  tauto

theorem model_lax (hO : Others env m.extensions prec other) (hw : Writable env m) (h : DistinctModel m) :
    Schema.modelLax other (tags (m.ops prec)) := by
  obtain ⟨h1, ⟨r1, r2, r3⟩, -, h4, h5⟩ := h
  have hr : Elem b!"resources" (Attrs [] []) (Cat (Star (Alt Schema.basematerials other)) (Star (Schema.objectLax other)))
      (tags (m.resources.ops prec)) := by
    have := elem_tags (l := b!"resources") (A := Attrs [] []) (as := encodeAnyAttr m.resources.anyAttr) (by schema_attrs r1)
      (cat_tags (star_flatMap (f := Asset.ops prec) fun a h => asset_schema hO (hw.assets a h) (r2 a h))
        (star_flatMap (f := Object.ops prec) fun o h => object_lax hO (hw.objects o h) (r3 o h)))
    simpa only [Resources.ops, List.append_assoc, List.cons_append] using this
  have := elem_tags (l := b!"model") (root_lax (isRoot := true) h1.1)
    (cat_tags (metadatas_schema m.metadata) (cat_tags hr (cat_tags (build_schema h4 h5) (any_schema hO hw.any))))
  simpa only [Schema.modelLax, Model.ops, Model.bodyOps, List.append_assoc, List.cons_append] using this

end

/-- **C105** (encoder.go:98-104, 220-543): the thumbnail of the root element and empty objects are the only deviations from the schema
in the result of `MarshalModel`. -/
theorem C105_only_partial (env : Env) {m : Model} (hw : Writable env m) (h : DistinctModel m) :
    ∃ evs, lex .eof (.new (marshalModel m)) = (evs, .eof) ∧ Schema.modelLax Other (tagsOf evs) := by
  refine ⟨_, lex_marshal (writable_dom hw), ?_⟩
  rw [tagsOf_readOps]
  exact model_lax others_other hw h

/-- **C106** (encoder.go:98-104): and there are none in the elements of the extensions. -/
theorem C106_only_partial (env : Env) (h1 : env.materials = true) (h2 : env.slices = true) (h3 : env.beamlattice = true)
    (h4 : env.production = true) {m : Model} (hw : Writable env m) (h : DistinctModel m) :
    ∃ evs, lex .eof (.new (marshalModel m)) = (evs, .eof) ∧ Schema.modelLax Schema.extension (tagsOf evs) := by
  refine ⟨_, lex_marshal (writable_dom hw), ?_⟩
  rw [tagsOf_readOps]
  exact model_lax (others_extension h1 h2 h3 h4) hw h

/-- The model of C55 has a thumbnail. -/
example : c55Model.thumbnail ≠ [] ∧
    ∃ evs, lex .eof (.new (marshalModel c55Model)) = (evs, .eof) ∧ Schema.modelLax Schema.extension (tagsOf evs) :=
  ⟨by simp [c55Model], C106_only_partial exEnv rfl rfl rfl rfl c55_writable exModel_distinct⟩

end Go3mf
