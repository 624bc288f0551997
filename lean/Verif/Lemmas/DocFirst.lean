import Verif.Lemmas.DocStart
import Verif.Lemmas.Decode

/-!
# Elements with one attribute, metadata and the root element
-/

namespace Go3mf
open Spec

/-! ## One attribute -/

theorem attrFaults_other {env : Env} {k : Kind} {l : Str} {ty : AttrType} {req : Bool} (hk : attributes k = [(l, ty, req)])
    (h1 : productionAttributes k = []) (h2 : sliceAttributes k = []) {a : Attr} (ha : a.name ≠ ⟨[], l⟩) :
    attrFault env k a = [] := by
  by_cases hs : a.name.space = []
  · obtain ⟨⟨sp, l'⟩, v⟩ := a
    simp only at hs; subst hs
    have : ¬ l' = l := by rintro rfl; exact ha rfl
    simp [attrFault_core, hk, lookup_if, this, faultOf]
  · exact attrFault_noExt hs h1 h2

theorem first_faults {env : Env} {k : Kind} {l : Str} {ty : AttrType} {req : Bool} (hk : attributes k = [(l, ty, req)])
    (h1 : productionAttributes k = []) (h2 : sliceAttributes k = []) : ∀ {as : List Attr}, (as.map (·.name)).Nodup →
    attrFaults env k as = match plain? as l with
      | some v => List.replicate (mistakes ty v) (.parseAttr l req)
      | none => []
  | [], _ => rfl
  | a :: as, hd => by
    rw [List.map_cons, List.nodup_cons] at hd
    have ih := first_faults (env := env) hk h1 h2 hd.2
    unfold attrFaults at ih ⊢
    rw [List.flatMap_cons, ih]
    by_cases ha : a.name = ⟨[], l⟩
    · have hn : plain? as l = none := plain?_fresh (by rw [← ha]; exact hd.1)
      have hp : plain? (a :: as) l = some a.value := by simp [plain?, attr?, ha]
      rw [hn, hp]
      obtain ⟨n, v⟩ := a
      simp only at ha; subst ha
      simp [attrFault_core, hk, lookup_if, faultOf]
    · have hp : plain? (a :: as) l = plain? as l := by simp [plain?, attr?, ha]
      rw [attrFaults_other hk h1 h2 ha, hp, List.nil_append]

/-- The first attribute with the name. -/
theorem find_plain {as : List Attr} {l : Str} {p : Attr → Bool} (h : ∀ a ∈ as, p a = true ↔ a.name = ⟨[], l⟩) :
    (as.find? p = none ∧ plain? as l = none) ∨
      ∃ a, as.find? p = some a ∧ a.name = ⟨[], l⟩ ∧ plain? as l = some a.value := by
  have e : as.find? p = as.find? fun a => a.name = ⟨[], l⟩ := by
    induction as with
    | nil => rfl
    | cons a as ih =>
      rw [List.find?_cons, List.find?_cons, ih fun b hb => h b (by simp [hb])]
      have : p a = decide (a.name = ⟨[], l⟩) := by
        rw [Bool.eq_iff_iff, h a (by simp)]; simp
      rw [this]
  unfold plain? attr?
  rw [e]
  cases hf : as.find? fun a => a.name = ⟨[], l⟩ with
  | none => left; simp
  | some a => right; exact ⟨a, rfl, by simpa using List.find?_some hf, rfl⟩

theorem plain_iff {a : Attr} {l : Str} : (decide (a.name.space = [] ∧ a.name.loc = l)) = true ↔ a.name = ⟨[], l⟩ := by
  rw [decide_eq_true_eq, Name.eq_iff]

theorem first_uint {env : Env} {k : Kind} {l : Str} (hk : attributes k = [(l, .uint, true)])
    (h1 : productionAttributes k = []) (h2 : sliceAttributes k = []) {as : List Attr} (h : AttrsFit env k as)
    {p : Attr → Bool} (hp : ∀ a ∈ as, p a = true ↔ a.name = ⟨[], l⟩) :
    firstUint as p = (uintAt as l, attrFaults env k as) := by
  rw [first_faults hk h1 h2 h.distinct]
  rcases find_plain hp with ⟨e1, e2⟩ | ⟨a, e1, e2, e3⟩
  · simp [firstUint, e1, e2, uintAt]
  · simp [firstUint, e1, e3, uintAt, Prod.ext_iff, uintAttr_val, uint_faults, e2]

theorem beamRef_start {env : Env} {as : List Attr} (h : AttrsFit env .beamRef as) :
    firstUint as (fun a => a.name.space = [] ∧ a.name.loc = b!"index") =
      (uintAt as b!"index", attrFaults env .beamRef as) :=
  first_uint rfl rfl rfl h fun _ _ => plain_iff

theorem polygon_start {env : Env} {as : List Attr} (h : AttrsFit env .polygon as) :
    firstUint as (fun a => a.name.loc = b!"startv") = (uintAt as b!"startv", attrFaults env .polygon as) := by
  refine first_uint rfl rfl rfl h fun a ha => ?_
  rw [decide_eq_true_eq, Name.eq_iff]
  exact ⟨fun e => ⟨h.plain rfl a ha, e⟩, fun e => e.2⟩

theorem slice_start {env : Env} {as : List Attr} (h : AttrsFit env .slice as) :
    Slice.start ⟨.zero, [], []⟩ as = (sliceOf (as, []), attrFaults env .slice as) := by
  have hp : ∀ a ∈ as, (decide (a.name.loc = b!"ztop")) = true ↔ a.name = ⟨[], b!"ztop"⟩ := by
    intro a ha
    rw [decide_eq_true_eq, Name.eq_iff]
    exact ⟨fun e => ⟨h.plain rfl a ha, e⟩, fun e => e.2⟩
  rw [first_faults (l := b!"ztop") rfl rfl rfl h.distinct]
  rcases find_plain hp with ⟨e1, e2⟩ | ⟨a, e1, e2, e3⟩
  · simp [Slice.start, e1, e2, sliceOf, floatAt, child?, children]
  · simp [Slice.start, e1, e3, sliceOf, floatAt, child?, children, Prod.ext_iff, floatAttr_val, float_faults, e2]

theorem firstID_cases (as : List Attr) : (firstID as = none ∧ plain? as b!"id" = none) ∨
    ∃ a, firstID as = some a ∧ a.name = ⟨[], b!"id"⟩ ∧ plain? as b!"id" = some a.value :=
  find_plain fun _ _ => plain_iff

theorem colorGroup_start {env : Env} {as : List Attr} (h : AttrsFit env .colorGroup as) :
    ColorGroup.start ⟨0, []⟩ as = (colorGroupOf (as, []), attrFaults env .colorGroup as) := by
  rw [first_faults (l := b!"id") rfl rfl rfl h.distinct]
  rcases firstID_cases as with ⟨e1, e2⟩ | ⟨a, e1, e2, e3⟩
  · simp [ColorGroup.start, e1, e2, colorGroupOf, uintAt, children]
  · simp [ColorGroup.start, e1, e3, colorGroupOf, uintAt, children, Prod.ext_iff, uintAttr_val, uint_faults, e2]

theorem color_start {env : Env} {as : List Attr} (h : AttrsFit env .color as) :
    colorStart as = ([(parseRGBA (textAt as b!"color")).1], attrFaults env .color as) := by
  have hc := h.color rfl
  rw [first_faults (l := b!"color") rfl rfl rfl h.distinct]
  rcases find_plain (as := as) (l := b!"color") fun _ _ => plain_iff with ⟨e1, e2⟩ | ⟨a, e1, e2, e3⟩
  · rw [e2] at hc; simp at hc
  · simp only [colorStart, e1, e3, textAt, Option.getD_some, colorAttr_val, color_faults, e2]

/-! ## Other elements -/

theorem beamSet_start {as : List Attr} (h : (as.map (·.name)).Nodup) :
    as.foldl beamSetAttr ⟨[], [], []⟩ = beamSetOf (as, []) := by
  induction as using List.reverseRecOn with
  | nil => rfl
  | append_singleton q a ih =>
    have hf : a.name ∉ q.map (·.name) := fresh_of h rfl
    rw [List.foldl_append, List.foldl_cons, List.foldl_nil,
      ih (by rw [List.map_append, List.nodup_append] at h; exact h.1)]
    by_cases hs : a.name.space = []
    · obtain ⟨⟨sp, l⟩, v⟩ := a
      simp only at hs; subst hs
      simp only [beamSetAttr, ne_eq, not_true_eq_false, if_false]
      repeat' split
      all_goals
        subst_vars
        doc_attr [beamSetOf, plain?_core hf]
    · simp [beamSetAttr, hs, beamSetOf, textAt, plain?_ext hf hs]

theorem beamSet_faults {env : Env} {k : Kind} {as : List Attr} (hk : ∀ p ∈ attributes k, p.2.1 = .text)
    (h1 : productionAttributes k = []) (h2 : sliceAttributes k = []) : attrFaults env k as = [] := by
  unfold attrFaults
  rw [List.flatMap_eq_nil_iff]
  intro a _
  by_cases hs : a.name.space = []
  · obtain ⟨⟨sp, l⟩, v⟩ := a
    simp only at hs; subst hs
    rw [attrFault_core]
    cases hl : (attributes k).lookup l with
    | none => rfl
    | some p =>
      obtain ⟨ty, req⟩ := p
      have hm : (l, ty, req) ∈ attributes k := by
        have := List.lookup_eq_some_iff.1 hl
        obtain ⟨l1, l2, e, _⟩ := this
        rw [e]; simp
      have := hk _ hm
      simp only at this
      subst this
      simp [faultOf, mistakes]
  · exact attrFault_noExt hs h1 h2

theorem cutColon_eq : ∀ s : Str, cutColon s = match s.dropWhile (· ≠ 58) with
    | [] => none
    | _ :: l => some (s.takeWhile (· ≠ 58), l)
  | [] => rfl
  | b :: s => by
    rw [cutColon]
    by_cases h : b = 58
    · simp [h]
    · rw [if_neg h, cutColon_eq s]
      have hd : (b :: s).dropWhile (· ≠ 58) = s.dropWhile (· ≠ 58) := by simp [h]
      have ht : (b :: s).takeWhile (· ≠ 58) = b :: s.takeWhile (· ≠ 58) := by simp [h]
      rw [hd, ht]
      cases s.dropWhile (· ≠ 58) <;> rfl

theorem hasPrefix_mem (exts : List Extension) (p : Str) : hasPrefix exts p = true ↔ p ∈ exts.map (·.localName) := by
  simp [hasPrefix]

theorem name_step (exts : List Extension) (md : Metadata) (v : Str) :
    metadataAttr exts md ⟨⟨[], b!"name"⟩, v⟩ = { md with name := metaName exts v } := by
  simp only [metadataAttr, ne_eq, not_true_eq_false, if_false, if_true, cutColon_eq, metaName]
  cases v.dropWhile (· ≠ 58) with
  | nil => rfl
  | cons x l =>
    simp only
    by_cases h : v.takeWhile (· ≠ 58) ∈ exts.map (·.localName)
    · rw [if_pos h, if_pos ((hasPrefix_mem _ _).2 h)]
    · rw [if_neg h, if_neg (fun e => h ((hasPrefix_mem _ _).1 e))]

theorem metadata_start {exts : List Extension} {as : List Attr} (h : (as.map (·.name)).Nodup) :
    as.foldl (metadataAttr exts) .zero = metadataOf exts (as, []) := by
  induction as using List.reverseRecOn with
  | nil => simp [metadataOf, Metadata.zero, plain?, attr?, textAt, docText]
  | append_singleton q a ih =>
    have hf : a.name ∉ q.map (·.name) := fresh_of h rfl
    rw [List.foldl_append, List.foldl_cons, List.foldl_nil,
      ih (by rw [List.map_append, List.nodup_append] at h; exact h.1)]
    by_cases hs : a.name.space = []
    · obtain ⟨⟨sp, l⟩, v⟩ := a
      simp only at hs; subst hs
      by_cases hn : l = b!"name"
      · subst hn
        rw [name_step]
        doc_attr [metadataOf, plain?_core hf]
      · simp only [metadataAttr, ne_eq, not_true_eq_false, if_false, hn]
        repeat' split
        all_goals
          subst_vars
          doc_attr [metadataOf, plain?_core hf, parseBool]
    · simp [metadataAttr, hs, metadataOf, textAt, plain?_ext hf hs]

/-! ## The root element -/

theorem markRequired_all {l : Str} : ∀ {xs : List Extension}, (xs.map (·.localName)).Nodup →
    markRequired l xs = xs.map fun x => { x with isRequired := x.isRequired || decide (x.localName = l) }
  | [], _ => rfl
  | x :: xs, h => by
    rw [List.map_cons, List.nodup_cons] at h
    rw [markRequired]
    by_cases hx : x.localName = l
    · rw [if_pos hx, List.map_cons]
      have : xs.map (fun x => { x with isRequired := x.isRequired || decide (x.localName = l) }) = xs := by
        conv_rhs => rw [← List.map_id xs]
        refine List.map_congr_left fun y hy => ?_
        have : y.localName ≠ l := by
          rintro rfl; exact h.1 (List.mem_map.2 ⟨y, hy, hx.symm⟩)
        simp [this]
      rw [this]; simp [hx]
    · rw [if_neg hx, List.map_cons, markRequired_all h.2]; simp [hx]

theorem markAll_map : ∀ {req : List Str} {xs : List Extension}, (xs.map (·.localName)).Nodup →
    req.foldl (fun xs l => markRequired l xs) xs =
      xs.map fun x => { x with isRequired := x.isRequired || decide (x.localName ∈ req) }
  | [], xs, _ => by simp
  | l :: req, xs, h => by
    rw [List.foldl_cons, markRequired_all h, markAll_map (by simpa [Function.comp_def] using h), List.map_map]
    refine List.map_congr_left fun x _ => ?_
    simp [Bool.or_assoc]

/-- The extensions before it is known which of them are required. -/
def declaredExts (as : List Attr) : List Extension :=
  (as.filter fun a => a.name.space = b!"xmlns").map fun a => ⟨a.value, a.name.loc, false⟩

/-- The root element after the attributes. -/
def docRootAttrs (env : Env) (m : Model) (as : List Attr) : ModelAttrs :=
  ({ m with
      units := wordAt newUnits .millimeter as b!"unit"
      thumbnail := textAt as b!"thumbnail"
      language := (attr? as ⟨nsXML, b!"lang"⟩).getD []
      extensions := declaredExts as
      anyAttr := modelAttrs env as }, fields (textAt as b!"requiredextensions"))

theorem xml_ne : (nsXML : Str) ≠ [] ∧ (b!"xmlns" : Str) ≠ [] ∧ (nsXML : Str) ≠ b!"xmlns" := by decide +kernel

/-- What a model has before its root part is read. -/
structure FreshRoot (m : Model) : Prop where
  units : m.units = .millimeter
  thumbnail : m.thumbnail = []
  language : m.language = []
  extensions : m.extensions = []
  anyAttr : m.anyAttr = []

theorem docRoot_attrs {env : Env} {m : Model} {as : List Attr} (hm : FreshRoot m) (h : AttrsFit env .model as) :
    attrFold (modelAttr env) (m, []) as = some (docRootAttrs env m as, attrFaults env .model as) := by
  have h0 : (m, []) = docRootAttrs env m [] := by
    obtain ⟨h1, h2, h3, h4, h5⟩ := hm
    obtain ⟨a, b, c, d, e, f, g, i, j, k, l, m, n, o⟩ := m
    simp only at h1 h2 h3 h4 h5
    subst h1 h2 h3 h4 h5
    rfl
  rw [h0]
  refine attrFold_spec (g := docRootAttrs env m) as [] ?_
  intro q a s e
  rw [List.nil_append] at e
  have hf := fresh_of h.distinct e
  by_cases hs : a.name.space = []
  · obtain ⟨⟨sp, l⟩, v⟩ := a
    simp only at hs; subst hs
    have hl : attr? (q ++ [⟨⟨[], l⟩, v⟩]) ⟨nsXML, b!"lang"⟩ = attr? q ⟨nsXML, b!"lang"⟩ := by
      rw [attr?_snoc (a := ⟨⟨[], l⟩, v⟩) hf, if_neg]; intro e; exact xml_ne.1 (Name.mk.inj e).1.symm
    have hd : declaredExts (q ++ [⟨⟨[], l⟩, v⟩]) = declaredExts q := by simp [declaredExts]
    have hg : modelAttrs env (q ++ [⟨⟨[], l⟩, v⟩]) = modelAttrs env q := by simp [modelAttrs]
    simp only [modelAttr, if_true, attrFault_core]
    repeat' split
    all_goals
      subst_vars
      doc_attr [docRootAttrs, plain?_core hf, hl, hd, hg]
  · have hfault : attrFault env .model a = [] := attrFault_noExt hs rfl rfl
    have hp := plain?_ext hf hs
    rw [hfault]
    by_cases hx : a.name.space = nsXML
    · have hd : declaredExts (q ++ [a]) = declaredExts q := by simp [declaredExts, hx, xml_ne.2.2]
      have hg : modelAttrs env (q ++ [a]) = modelAttrs env q := by simp [modelAttrs, hx]
      by_cases hl : a.name.loc = b!"lang"
      · have : a.name = ⟨nsXML, b!"lang"⟩ := Name.eq_iff.2 ⟨hx, hl⟩
        simp [modelAttr, hx, xml_ne.1, hl, docRootAttrs, wordAt, textAt, hp, hd, hg, attr?_snoc hf, this]
      · have : a.name ≠ ⟨nsXML, b!"lang"⟩ := fun e => hl (by rw [e])
        simp [modelAttr, hx, xml_ne.1, hl, docRootAttrs, wordAt, textAt, hp, hd, hg, attr?_snoc hf, this]
    · have hla : attr? (q ++ [a]) ⟨nsXML, b!"lang"⟩ = attr? q ⟨nsXML, b!"lang"⟩ := by
        rw [attr?_snoc hf, if_neg]; intro e; exact hx (by rw [e])
      by_cases hn : a.name.space = b!"xmlns"
      · have hd : declaredExts (q ++ [a]) = declaredExts q ++ [⟨a.value, a.name.loc, false⟩] := by simp [declaredExts, hn]
        have hg : modelAttrs env (q ++ [a]) = modelAttrs env q := by simp [modelAttrs, hn]
        simp only [modelAttr, if_neg hs, if_neg hx, if_pos hn, docRootAttrs, wordAt, textAt, hp, hd, hg, hla]
      · have hd : declaredExts (q ++ [a]) = declaredExts q := by simp [declaredExts, hn]
        have hg : anyAttrAdd env b!"model" (modelAttrs env q) a = some (modelAttrs env (q ++ [a]), []) := by
          have h1 : (q ++ [a]).filter (fun a => a.name.space ≠ [] ∧ a.name.space ≠ nsXML ∧ a.name.space ≠ b!"xmlns") =
              q.filter (fun a => a.name.space ≠ [] ∧ a.name.space ≠ nsXML ∧ a.name.space ≠ b!"xmlns") ++ [a] := by
            simp [hs, hx, hn]
          unfold modelAttrs
          rw [h1, groups_step (k := .model) rfl]
          · rw [extFault, if_neg hs, hfault]
          · intro b hb
            refine h.allowed rfl b ?_
            rw [e]
            simp only [List.mem_append, List.mem_filter, List.mem_cons, List.not_mem_nil, or_false] at hb ⊢
            tauto
          · intro hm
            obtain ⟨b, hb, eb⟩ := List.mem_map.1 hm
            exact hf (List.mem_map.2 ⟨b, (List.mem_filter.1 hb).1, eb⟩)
        simp only [modelAttr, if_neg hs, if_neg hx, if_neg hn, docRootAttrs, hg, wordAt, textAt, hp, hd, hla]

theorem docRoot_start {env : Env} {m : Model} {as : List Attr} (hm : FreshRoot m) (h : AttrsFit env .model as) :
    modelStart env m as = some ({ (docRootAttrs env m as).1 with extensions := extensionsOf as }, attrFaults env .model as) := by
  rw [modelStart, docRoot_attrs hm h]
  have hd : ((declaredExts as).map (·.localName)).Nodup := by
    have h1 := h.distinct
    unfold declaredExts
    rw [List.map_map]
    rw [List.Nodup, List.pairwise_map] at h1 ⊢
    refine List.Pairwise.imp_of_mem ?_ (h1.filter _)
    intro a b ha hb hab e
    refine hab ?_
    have ha' := (List.mem_filter.1 ha).2
    have hb' := (List.mem_filter.1 hb).2
    simp only [decide_eq_true_eq] at ha' hb'
    simp only [Function.comp_apply] at e
    cases ha2 : a.name; cases hb2 : b.name
    simp_all
  have : (fields (textAt as b!"requiredextensions")).foldl (fun xs l => markRequired l xs) (declaredExts as) =
      extensionsOf as := by
    rw [markAll_map hd]
    simp [declaredExts, extensionsOf]
  simp only [docRootAttrs, this]

end Go3mf
