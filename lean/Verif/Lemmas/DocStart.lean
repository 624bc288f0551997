import Verif.Lemmas.DocAttr

/-!
# The attributes of each element of a document
-/

namespace Go3mf
open Spec

theorem lookup_if {β : Type} (l x : Str) (y : β) (t : List (Str × β)) :
    List.lookup l ((x, y) :: t) = if l = x then some y else List.lookup l t := by
  rw [List.lookup_cons]
  by_cases h : l = x
  · simp [h]
  · have : (l == x) = false := by simpa using h
    simp [h, this]

/-- The faults of an attribute, given what the table says about it. -/
def faultOf (l v : Str) : Option (AttrType × Bool) → List Leaf
  | some (ty, req) => List.replicate (mistakes ty v) (.parseAttr l req)
  | none => []

theorem attrFault_core (env : Env) (k : Kind) (l v : Str) :
    attrFault env k ⟨⟨[], l⟩, v⟩ = faultOf l v ((attributes k).lookup l) := by
  simp only [attrFault, attrType, if_true]
  cases (attributes k).lookup l <;> rfl

theorem plain?_core {q : List Attr} {l v : Str} (h : (⟨[], l⟩ : Name) ∉ q.map (·.name)) (l' : Str) :
    plain? (q ++ [⟨⟨[], l⟩, v⟩]) l' = if l = l' then some v else plain? q l' := by
  rw [plain?_snoc (a := ⟨⟨[], l⟩, v⟩) h]
  simp

theorem plain?_ext {q : List Attr} {a : Attr} (h : a.name ∉ q.map (·.name)) (hs : a.name.space ≠ []) (l : Str) :
    plain? (q ++ [a]) l = plain? q l := by
  rw [plain?_snoc h, if_neg]
  intro e; exact hs (by rw [e])

theorem plain?_fresh {q : List Attr} {l : Str} (h : (⟨[], l⟩ : Name) ∉ q.map (·.name)) : plain? q l = none :=
  attr?_fresh h

theorem attrFault_noExt {env : Env} {k : Kind} {a : Attr} (hs : a.name.space ≠ []) (h1 : productionAttributes k = [])
    (h2 : sliceAttributes k = []) : attrFault env k a = [] := by
  unfold attrFault attrType
  rw [if_neg hs]
  cases hl : env.load a.name.space with
  | none => rfl
  | some x => cases x <;> simp [h1, h2]

theorem fields_nil : fields [] = [] := by decide +kernel

theorem uintAttr_val (req : Bool) (a : Attr) : (uintAttr req a).1 = parseUintVal a.value := rfl

theorem floatAttr_val (req : Bool) (a : Attr) : (floatAttr req a).1 = parseFloatVal a.value := rfl

theorem colorAttr_val (a : Attr) : (colorAttr a).1 = (parseRGBA a.value).1 := rfl

theorem uintsAttr_val (a : Attr) : (uintsAttr a).1 = (fields a.value).map parseUintVal := rfl

theorem floatsAttr_val (a : Attr) : (floatsAttr a).1 = (fields a.value).map parseFloatVal := rfl

/-- What the tables and the values say about an attribute. -/
macro "doc_attr" "[" ls:Lean.Parser.Tactic.simpLemma,* "]" : tactic =>
  `(tactic| simp [$ls,*, uintAt, floatAt, matrixAt, wordAt, textAt, uintsAt, floatsAt, ext_same, attributes, lookup_if,
    faultOf, mistakes, uint_faults, float_faults, color_faults, uints_faults, floats_faults, matrixAttr, enum_faults,
    enum_value, uintAttr_val, floatAttr_val, colorAttr_val, uintsAttr_val, floatsAttr_val, *])

/-! ## Core elements -/

theorem item_start {env : Env} {as : List Attr} (exts : List Extension) (h : AttrsFit env .item as) :
    attrFold (itemAttr env) .zero as = some (itemOf env exts (as, []), attrFaults env .item as) := by
  refine attrFold_spec (g := fun q => itemOf env exts (q, [])) as [] ?_
  intro q a s e
  rw [List.nil_append] at e
  have hf := fresh_of h.distinct e
  by_cases hs : a.name.space = []
  · obtain ⟨⟨sp, l⟩, v⟩ := a
    simp only at hs; subst hs
    simp only [itemAttr, itemCore, if_true, attrFault_core]
    repeat' split
    all_goals
      subst_vars
      doc_attr [itemOf, plain?_core hf]
  · simp only [itemAttr, if_neg hs]
    rw [show (itemOf env exts (q, [])).anyAttr = extAttrs env .item q from rfl, ext_step rfl h e hs]
    simp only [itemOf, uintAt, floatAt, matrixAt, wordAt, textAt, plain?_ext hf hs, Option.map_some]

theorem baseMaterials_start {env : Env} {as : List Attr} (h : AttrsFit env .baseMaterials as) :
    attrFold (baseMaterialsAttr env) .zero as = some (baseMaterialsOf env (as, []), attrFaults env .baseMaterials as) := by
  refine attrFold_spec (g := fun q => baseMaterialsOf env (q, [])) as [] ?_
  intro q a s e
  rw [List.nil_append] at e
  have hf := fresh_of h.distinct e
  by_cases hs : a.name.space = []
  · obtain ⟨⟨sp, l⟩, v⟩ := a
    simp only at hs; subst hs
    simp only [baseMaterialsAttr, if_true, attrFault_core]
    repeat' split
    all_goals
      subst_vars
      doc_attr [baseMaterialsOf, plain?_core hf]
  · simp only [baseMaterialsAttr, if_neg hs]
    rw [show (baseMaterialsOf env (q, [])).anyAttr = extAttrs env .baseMaterials q from rfl, ext_step rfl h e hs]
    simp only [baseMaterialsOf, uintAt, floatAt, matrixAt, wordAt, textAt, plain?_ext hf hs, Option.map_some]

theorem base_start {env : Env} {as : List Attr} (h : AttrsFit env .base as) :
    attrFold (baseAttr env) ⟨[], .zero, []⟩ as = some (baseOf env (as, []), attrFaults env .base as) := by
  refine attrFold_spec (g := fun q => baseOf env (q, [])) as [] ?_
  intro q a s e
  rw [List.nil_append] at e
  have hf := fresh_of h.distinct e
  by_cases hs : a.name.space = []
  · obtain ⟨⟨sp, l⟩, v⟩ := a
    simp only at hs; subst hs
    simp only [baseAttr, if_true, attrFault_core]
    repeat' split
    all_goals
      subst_vars
      doc_attr [baseOf, plain?_core hf]
  · simp only [baseAttr, if_neg hs]
    rw [show (baseOf env (q, [])).anyAttr = extAttrs env .base q from rfl, ext_step rfl h e hs]
    simp only [baseOf, uintAt, floatAt, matrixAt, wordAt, textAt, plain?_ext hf hs, Option.map_some]

theorem object_start {env : Env} {as : List Attr} (exts : List Extension) (h : AttrsFit env .object as) :
    attrFold (objectAttr env) .zero as = some (objectOf env exts (as, []), attrFaults env .object as) := by
  refine attrFold_spec (g := fun q => objectOf env exts (q, [])) as [] ?_
  intro q a s e
  rw [List.nil_append] at e
  have hf := fresh_of h.distinct e
  by_cases hs : a.name.space = []
  · obtain ⟨⟨sp, l⟩, v⟩ := a
    simp only at hs; subst hs
    simp only [objectAttr, objectCore, if_true, attrFault_core]
    repeat' split
    all_goals
      subst_vars
      doc_attr [objectOf, child?, children, plain?_core hf]
  · simp only [objectAttr, if_neg hs]
    rw [show (objectOf env exts (q, [])).anyAttr = extAttrs env .object q from rfl, ext_step rfl h e hs]
    simp only [objectOf, uintAt, floatAt, matrixAt, wordAt, textAt, plain?_ext hf hs, Option.map_some]

theorem component_start {env : Env} {as : List Attr} (h : AttrsFit env .component as) :
    attrFold (componentAttr env) .zero as = some (componentOf env as, attrFaults env .component as) := by
  refine attrFold_spec (g := fun q => componentOf env q) as [] ?_
  intro q a s e
  rw [List.nil_append] at e
  have hf := fresh_of h.distinct e
  by_cases hs : a.name.space = []
  · obtain ⟨⟨sp, l⟩, v⟩ := a
    simp only at hs; subst hs
    simp only [componentAttr, if_true, attrFault_core]
    repeat' split
    all_goals
      subst_vars
      doc_attr [componentOf, plain?_core hf]
  · simp only [componentAttr, if_neg hs]
    rw [show (componentOf env q).anyAttr = extAttrs env .component q from rfl, ext_step rfl h e hs]
    simp only [componentOf, uintAt, floatAt, matrixAt, wordAt, textAt, plain?_ext hf hs, Option.map_some]

/-- The variables of a triangle after the attributes. -/
def triangleVars (env : Env) (as : List Attr) : TriangleVars where
  v1 := uintAt as b!"v1"
  v2 := uintAt as b!"v2"
  v3 := uintAt as b!"v3"
  pid := (plain? as b!"pid").map parseUintVal
  p1 := (plain? as b!"p1").map parseUintVal
  p2 := (plain? as b!"p2").map parseUintVal
  p3 := (plain? as b!"p3").map parseUintVal
  anyAttr := extAttrs env .triangle as

theorem triangleVars_triangle (env : Env) (as : List Attr) (pid pindex : UInt32) :
    (triangleVars env as).triangle pid pindex = triangleOf env pid pindex as := rfl

theorem triangle_start {env : Env} {as : List Attr} (h : AttrsFit env .triangle as) :
    attrFold (triangleAttr env) {} as = some (triangleVars env as, attrFaults env .triangle as) := by
  refine attrFold_spec (g := fun q => triangleVars env q) as [] ?_
  intro q a s e
  rw [List.nil_append] at e
  have hf := fresh_of h.distinct e
  by_cases hs : a.name.space = []
  · obtain ⟨⟨sp, l⟩, v⟩ := a
    simp only at hs; subst hs
    have hc := h.closed rfl ⟨⟨[], l⟩, v⟩ (by rw [e]; simp) rfl
    simp only [attributes, List.map_cons, List.map_nil, List.mem_cons, List.not_mem_nil, or_false] at hc
    simp only [triangleAttr, if_true, attrFault_core]
    repeat' split
    rotate_right
    · exfalso; tauto
    all_goals
      clear hc
      subst_vars
      doc_attr [triangleVars, plain?_core hf]
  · simp only [triangleAttr, if_neg hs]
    rw [show (triangleVars env q).anyAttr = extAttrs env .triangle q from rfl, ext_step rfl h e hs]
    simp only [triangleVars, uintAt, floatAt, matrixAt, wordAt, textAt, plain?_ext hf hs, Option.map_some]

theorem vertex_start {env : Env} {as : List Attr} (h : AttrsFit env .vertex as) :
    attrLoop vertexAttr ⟨.zero, .zero, .zero⟩ as = (vertexOf as, attrFaults env .vertex as) := by
  refine attrLoop_spec (g := fun q => vertexOf q) as [] ?_
  intro q a s e
  rw [List.nil_append] at e
  have hf := fresh_of h.distinct e
  by_cases hs : a.name.space = []
  · obtain ⟨⟨sp, l⟩, v⟩ := a
    simp only at hs; subst hs
    have hc := h.closed rfl ⟨⟨[], l⟩, v⟩ (by rw [e]; simp) rfl
    simp only [attributes, List.map_cons, List.map_nil, List.mem_cons, List.not_mem_nil, or_false] at hc
    simp only [vertexAttr, ne_eq, not_true_eq_false, if_false, true_and, attrFault_core]
    repeat' split
    rotate_right
    · exfalso; tauto
    all_goals
      clear hc
      have hn := plain?_fresh hf
      subst_vars
      doc_attr [vertexOf, plain?_core hf, hn, fields_nil]
  · rw [attrFault_noExt hs rfl rfl]
    simp [vertexAttr, vertexOf, uintAt, floatAt, uintsAt, floatsAt, matrixAt, wordAt, textAt, plain?_ext hf hs, hs]

/-! ## Materials -/

theorem coord_start {env : Env} {as : List Attr} (h : AttrsFit env .tex2Coord as) :
    attrLoop coordAttr ⟨.zero, .zero⟩ as = ((⟨floatAt as b!"u", floatAt as b!"v"⟩ : Point2D), attrFaults env .tex2Coord as) := by
  refine attrLoop_spec (g := fun q => (⟨floatAt q b!"u", floatAt q b!"v"⟩ : Point2D)) as [] ?_
  intro q a s e
  rw [List.nil_append] at e
  have hf := fresh_of h.distinct e
  by_cases hs : a.name.space = []
  · obtain ⟨⟨sp, l⟩, v⟩ := a
    simp only at hs; subst hs
    have hc := h.closed rfl ⟨⟨[], l⟩, v⟩ (by rw [e]; simp) rfl
    simp only [attributes, List.map_cons, List.map_nil, List.mem_cons, List.not_mem_nil, or_false] at hc
    simp only [coordAttr, ne_eq, not_true_eq_false, if_false, true_and, attrFault_core]
    repeat' split
    rotate_right
    · exfalso; tauto
    all_goals
      clear hc
      have hn := plain?_fresh hf
      subst_vars
      doc_attr [eq_self, plain?_core hf, hn, fields_nil]
  · rw [attrFault_noExt hs rfl rfl]
    simp [coordAttr, eq_self, uintAt, floatAt, uintsAt, floatsAt, matrixAt, wordAt, textAt, plain?_ext hf hs, hs]

theorem texture2DGroup_start {env : Env} {as : List Attr} (h : AttrsFit env .texture2DGroup as) :
    attrLoop texture2DGroupAttr ⟨0, 0, []⟩ as = (texture2DGroupOf (as, []), attrFaults env .texture2DGroup as) := by
  refine attrLoop_spec (g := fun q => texture2DGroupOf (q, [])) as [] ?_
  intro q a s e
  rw [List.nil_append] at e
  have hf := fresh_of h.distinct e
  by_cases hs : a.name.space = []
  · obtain ⟨⟨sp, l⟩, v⟩ := a
    simp only at hs; subst hs
    simp only [texture2DGroupAttr, ne_eq, not_true_eq_false, if_false, true_and, attrFault_core]
    repeat' split
    all_goals
      have hn := plain?_fresh hf
      subst_vars
      doc_attr [texture2DGroupOf, plain?_core hf, hn, fields_nil]
  · rw [attrFault_noExt hs rfl rfl]
    simp [texture2DGroupAttr, texture2DGroupOf, uintAt, floatAt, uintsAt, floatsAt, matrixAt, wordAt, textAt, plain?_ext hf hs, hs]

theorem texture2D_start {env : Env} {as : List Attr} (h : AttrsFit env .texture2D as) :
    attrLoop texture2DAttr ⟨0, [], .unset, .wrap, .wrap, .auto⟩ as = (texture2DOf as, attrFaults env .texture2D as) := by
  refine attrLoop_spec (g := fun q => texture2DOf q) as [] ?_
  intro q a s e
  rw [List.nil_append] at e
  have hf := fresh_of h.distinct e
  by_cases hs : a.name.space = []
  · obtain ⟨⟨sp, l⟩, v⟩ := a
    simp only at hs; subst hs
    simp only [texture2DAttr, ne_eq, not_true_eq_false, if_false, true_and, attrFault_core]
    repeat' split
    all_goals
      have hn := plain?_fresh hf
      subst_vars
      doc_attr [texture2DOf, plain?_core hf, hn, fields_nil]
  · rw [attrFault_noExt hs rfl rfl]
    simp [texture2DAttr, texture2DOf, uintAt, floatAt, uintsAt, floatsAt, matrixAt, wordAt, textAt, plain?_ext hf hs, hs]

theorem compositeMaterials_start {env : Env} {as : List Attr} (h : AttrsFit env .compositeMaterials as) :
    attrLoop compositeMaterialsAttr ⟨0, 0, [], []⟩ as = (compositeMaterialsOf (as, []), attrFaults env .compositeMaterials as) := by
  refine attrLoop_spec (g := fun q => compositeMaterialsOf (q, [])) as [] ?_
  intro q a s e
  rw [List.nil_append] at e
  have hf := fresh_of h.distinct e
  by_cases hs : a.name.space = []
  · obtain ⟨⟨sp, l⟩, v⟩ := a
    simp only at hs; subst hs
    simp only [compositeMaterialsAttr, ne_eq, not_true_eq_false, if_false, true_and, attrFault_core]
    repeat' split
    all_goals
      have hn := plain?_fresh hf
      subst_vars
      doc_attr [compositeMaterialsOf, plain?_core hf, hn, fields_nil]
  · rw [attrFault_noExt hs rfl rfl]
    simp [compositeMaterialsAttr, compositeMaterialsOf, uintAt, floatAt, uintsAt, floatsAt, matrixAt, wordAt, textAt, plain?_ext hf hs, hs]

theorem composite_start {env : Env} {as : List Attr} (h : AttrsFit env .composite as) :
    attrLoop compositeAttr [] as = (floatsAt as b!"values", attrFaults env .composite as) := by
  refine attrLoop_spec (g := fun q => floatsAt q b!"values") as [] ?_
  intro q a s e
  rw [List.nil_append] at e
  have hf := fresh_of h.distinct e
  by_cases hs : a.name.space = []
  · obtain ⟨⟨sp, l⟩, v⟩ := a
    simp only at hs; subst hs
    simp only [compositeAttr, ne_eq, not_true_eq_false, if_false, true_and, attrFault_core]
    repeat' split
    all_goals
      have hn := plain?_fresh hf
      subst_vars
      doc_attr [eq_self, plain?_core hf, hn, fields_nil]
  · rw [attrFault_noExt hs rfl rfl]
    simp [compositeAttr, eq_self, uintAt, floatAt, uintsAt, floatsAt, matrixAt, wordAt, textAt, plain?_ext hf hs, hs]

theorem multiProperties_start {env : Env} {as : List Attr} (h : AttrsFit env .multiProperties as) :
    attrLoop multiPropertiesAttr ⟨0, [], [], []⟩ as = (multiPropertiesOf (as, []), attrFaults env .multiProperties as) := by
  refine attrLoop_spec (g := fun q => multiPropertiesOf (q, [])) as [] ?_
  intro q a s e
  rw [List.nil_append] at e
  have hf := fresh_of h.distinct e
  by_cases hs : a.name.space = []
  · obtain ⟨⟨sp, l⟩, v⟩ := a
    simp only at hs; subst hs
    simp only [multiPropertiesAttr, ne_eq, not_true_eq_false, if_false, true_and, attrFault_core]
    repeat' split
    all_goals
      have hn := plain?_fresh hf
      subst_vars
      doc_attr [multiPropertiesOf, plain?_core hf, hn, fields_nil]
  · rw [attrFault_noExt hs rfl rfl]
    simp [multiPropertiesAttr, multiPropertiesOf, uintAt, floatAt, uintsAt, floatsAt, matrixAt, wordAt, textAt, plain?_ext hf hs, hs]

theorem multi_start {env : Env} {as : List Attr} (h : AttrsFit env .multi as) :
    attrLoop multiAttr [] as = (uintsAt as b!"pindices", attrFaults env .multi as) := by
  refine attrLoop_spec (g := fun q => uintsAt q b!"pindices") as [] ?_
  intro q a s e
  rw [List.nil_append] at e
  have hf := fresh_of h.distinct e
  by_cases hs : a.name.space = []
  · obtain ⟨⟨sp, l⟩, v⟩ := a
    simp only at hs; subst hs
    simp only [multiAttr, ne_eq, not_true_eq_false, if_false, true_and, attrFault_core]
    repeat' split
    all_goals
      have hn := plain?_fresh hf
      subst_vars
      doc_attr [eq_self, plain?_core hf, hn, fields_nil]
  · rw [attrFault_noExt hs rfl rfl]
    simp [multiAttr, eq_self, uintAt, floatAt, uintsAt, floatsAt, matrixAt, wordAt, textAt, plain?_ext hf hs, hs]

/-! ## Slices -/

theorem sliceStack_start {env : Env} {as : List Attr} (h : AttrsFit env .sliceStack as) :
    attrLoop sliceStackAttr ⟨0, .zero, [], []⟩ as = (sliceStackOf (as, []), attrFaults env .sliceStack as) := by
  refine attrLoop_spec (g := fun q => sliceStackOf (q, [])) as [] ?_
  intro q a s e
  rw [List.nil_append] at e
  have hf := fresh_of h.distinct e
  have hs := h.plain rfl a (by rw [e]; simp)
  obtain ⟨⟨sp, l⟩, v⟩ := a
  simp only at hs; subst hs
  simp only [sliceStackAttr, ne_eq, not_true_eq_false, if_false, true_and, attrFault_core]
  repeat' split
  all_goals
    have hn := plain?_fresh hf
    subst_vars
    doc_attr [sliceStackOf, plain?_core hf, hn, fields_nil]

theorem sliceRef_start {env : Env} {as : List Attr} (h : AttrsFit env .sliceRef as) :
    attrLoop sliceRefAttr ⟨0, []⟩ as = (sliceRefOf as, attrFaults env .sliceRef as) := by
  refine attrLoop_spec (g := fun q => sliceRefOf q) as [] ?_
  intro q a s e
  rw [List.nil_append] at e
  have hf := fresh_of h.distinct e
  have hs := h.plain rfl a (by rw [e]; simp)
  obtain ⟨⟨sp, l⟩, v⟩ := a
  simp only at hs; subst hs
  simp only [sliceRefAttr, ne_eq, not_true_eq_false, if_false, true_and, attrFault_core]
  repeat' split
  all_goals
    have hn := plain?_fresh hf
    subst_vars
    doc_attr [sliceRefOf, plain?_core hf, hn, fields_nil]

theorem polygonVertex_start {env : Env} {as : List Attr} (h : AttrsFit env .polygonVertex as) :
    attrLoop pVertexAttr ⟨.zero, .zero⟩ as = (polygonVertexOf as, attrFaults env .polygonVertex as) := by
  refine attrLoop_spec (g := fun q => polygonVertexOf q) as [] ?_
  intro q a s e
  rw [List.nil_append] at e
  have hf := fresh_of h.distinct e
  have hs := h.plain rfl a (by rw [e]; simp)
  obtain ⟨⟨sp, l⟩, v⟩ := a
  simp only at hs; subst hs
  have hc := h.closed rfl ⟨⟨[], l⟩, v⟩ (by rw [e]; simp) rfl
  simp only [attributes, List.map_cons, List.map_nil, List.mem_cons, List.not_mem_nil, or_false] at hc
  simp only [pVertexAttr, ne_eq, not_true_eq_false, if_false, true_and, attrFault_core]
  repeat' split
  rotate_right
  · exfalso; tauto
  all_goals
    clear hc
    have hn := plain?_fresh hf
    subst_vars
    doc_attr [polygonVertexOf, plain?_core hf, hn, fields_nil]

/-- The variables of a segment after the attributes. -/
def segmentVars (as : List Attr) : SegmentVars where
  seg := segmentOf as
  hasP1 := (plain? as b!"p1").isSome
  hasP2 := (plain? as b!"p2").isSome

theorem segment_start {env : Env} {as : List Attr} (h : AttrsFit env .segment as) :
    attrLoop segmentAttr {} as = (segmentVars as, attrFaults env .segment as) := by
  refine attrLoop_spec (g := fun q => segmentVars q) as [] ?_
  intro q a s e
  rw [List.nil_append] at e
  have hf := fresh_of h.distinct e
  have hs := h.plain rfl a (by rw [e]; simp)
  obtain ⟨⟨sp, l⟩, v⟩ := a
  simp only at hs; subst hs
  have hc := h.closed rfl ⟨⟨[], l⟩, v⟩ (by rw [e]; simp) rfl
  simp only [attributes, List.map_cons, List.map_nil, List.mem_cons, List.not_mem_nil, or_false] at hc
  simp only [segmentAttr, ne_eq, not_true_eq_false, if_false, true_and, attrFault_core]
  repeat' split
  rotate_right
  · exfalso; tauto
  all_goals
    clear hc
    have hn := plain?_fresh hf
    subst_vars
    cases hp1 : plain? q b!"p1" <;> cases hp2 : plain? q b!"p2" <;>
      doc_attr [segmentVars, segmentOf, SegmentVars.fill, plain?_core hf, hn, hp1, hp2] <;>
      simp_all

/-! ## Beam lattice -/

theorem beamLattice_start {env : Env} {as : List Attr} (h : AttrsFit env .beamLattice as) :
    attrLoop beamLatticeAttr ⟨.none, 0, 0, [], [], .zero, .zero, .sphere⟩ as =
      (beamLatticeOf (as, []), attrFaults env .beamLattice as) := by
  refine attrLoop_spec (g := fun q => beamLatticeOf (q, [])) as [] ?_
  intro q a s e
  rw [List.nil_append] at e
  have hf := fresh_of h.distinct e
  have hl := h.lattice rfl
  -- an attribute that is there before is there in the end
  have hmono : ∀ l, (plain? q l).isSome = true → (plain? as l).isSome = true := by
    intro l hq
    rw [e, plain?, attr?, List.find?_append]
    rw [plain?, attr?] at hq
    cases hx : q.find? (fun a => a.name = ⟨[], l⟩) with
    | none => rw [hx] at hq; simp at hq
    | some x => simp
  have hlast : ∀ l, a.name = ⟨[], l⟩ → (plain? as l).isSome = true := by
    intro l hn
    rw [e, plain?, attr?, Option.isSome_map, List.find?_isSome]
    exact ⟨a, by simp, by simp [hn]⟩
  have hno : ∀ l l', ¬ ((plain? as l).isSome ∧ (plain? as l').isSome) → a.name = ⟨[], l⟩ → plain? q l' = none := by
    intro l l' hb hn
    cases hx : plain? q l' with
    | none => rfl
    | some x => exact absurd ⟨hlast l hn, hmono l' (by rw [hx]; rfl)⟩ hb
  by_cases hs : a.name.space = []
  · obtain ⟨⟨sp, l⟩, v⟩ := a
    simp only at hs; subst hs
    have hn := plain?_fresh hf
    have n1 : l = b!"minlength" → plain? q b!"precision" = none := by rintro rfl; exact hno _ _ hl.1 rfl
    have n2 : l = b!"precision" → plain? q b!"minlength" = none := by
      rintro rfl; exact hno _ _ (fun x => hl.1 ⟨x.2, x.1⟩) rfl
    have n3 : l = b!"clippingmode" → plain? q b!"clipping" = none := by rintro rfl; exact hno _ _ hl.2 rfl
    have n4 : l = b!"clipping" → plain? q b!"clippingmode" = none := by
      rintro rfl; exact hno _ _ (fun x => hl.2 ⟨x.2, x.1⟩) rfl
    clear hno hlast hmono hl h e
    simp only [beamLatticeAttr, ne_eq, not_true_eq_false, if_false, attrFault_core]
    repeat' split
    all_goals
      first
        | rename_i hor
          rcases hor with hor | hor
          all_goals
            subst hor
            simp only [true_implies] at n1 n2 n3 n4
            doc_attr [beamLatticeOf, child?, children, plain?_core hf]
        | subst_vars
          try simp only [not_or] at *
          doc_attr [beamLatticeOf, child?, children, plain?_core hf]
  · rw [attrFault_noExt hs rfl rfl]
    simp [beamLatticeAttr, beamLatticeOf, uintAt, floatAt, wordAt, plain?_ext hf hs, hs]

/-- The variables of a beam after the attributes. -/
def beamVars (as : List Attr) : BeamVars where
  v1 := uintAt as b!"v1"
  v2 := uintAt as b!"v2"
  r1 := floatAt as b!"r1"
  r2 := floatAt as b!"r2"
  cap1 := (plain? as b!"cap1").bind newCapMode
  cap2 := (plain? as b!"cap2").bind newCapMode

theorem beamVars_beam (as : List Attr) (radius : F32) (cap : CapMode) :
    (beamVars as).beam radius cap = beamOf radius cap as := rfl

theorem beam_start {env : Env} {as : List Attr} (h : AttrsFit env .beam as) :
    attrLoop beamAttr {} as = (beamVars as, attrFaults env .beam as) := by
  refine attrLoop_spec (g := fun q => beamVars q) as [] ?_
  intro q a s e
  rw [List.nil_append] at e
  have hf := fresh_of h.distinct e
  by_cases hs : a.name.space = []
  · obtain ⟨⟨sp, l⟩, v⟩ := a
    simp only at hs; subst hs
    simp only [beamAttr, ne_eq, not_true_eq_false, if_false, true_and, attrFault_core]
    repeat' split
    all_goals
      have hn := plain?_fresh hf
      subst_vars
      doc_attr [beamVars, plain?_core hf, hn, fields_nil]
  · rw [attrFault_noExt hs rfl rfl]
    simp [beamAttr, beamVars, uintAt, floatAt, uintsAt, floatsAt, matrixAt, wordAt, textAt, plain?_ext hf hs, hs]

end Go3mf
