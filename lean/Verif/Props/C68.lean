import Verif.Lemmas.Savable
import Verif.Props.C60
import Verif.Props.C65

/-!
# C68: a file that was read can be saved and read again

A document whose names and texts are those of XML, and whose name spaces have their prefixes in the root element, is read as a
model that can be saved; what is saved can be read again without errors, and describes the same.  This holds for malformed
documents, too: attributes may be missing or malformed, and elements may be where they have no meaning.  XML allows to declare
prefixes anywhere.  Files that do so are read, but what is saved then cannot be read any more (`C68_element_false`,
`C68_attribute_false`).
-/

namespace Go3mf
open Spec

/-- The bytes of `MarshalModel`. -/
local notation "saved" => fun (prec : Int) (m : Model) => printOps (fun _ => []) (Model.ops prec m)

/-- **C68**: the model of a document can be written. -/
theorem C68_writable_partial (env : Env) (kept : Prop) (m : Model) (as : List Attr) (c : List Node) (ha : AttrsFit env .model as)
    (hr : RootClean as) (hc : ContentOk env kept .model (core b!"model") c) (hl : ContentClean env (extensionsOf as) .model c) :
    Writable env (modelOf env m (as, c)) := by
  have hx := extensions_writable hr
  have hkids : ∀ {l : Str} {k' : Kind} {mu : Mult}, (elements .model).lookup (core l) = some (k', mu) →
      ∀ {x : List Attr × List Node}, x ∈ children (core l) c → Sub env kept (extensionsOf as) k' (core l) x :=
    fun hk _ hx => sub_of hc hl (children_mem hx) (by rw [kind_core, hk])
  have htext : ∀ a ∈ as, Text a.value := by
    intro a h
    by_cases hs : a.name.space = b!"xmlns"
    · exact (hr.decls a h hs).2.2.2.2.1
    · exact (hr.attrs a h hs).2.2
  have hallow := ha.allowed rfl
  have hspaces : ∀ a ∈ as.filter (fun a => a.name.space ≠ [] ∧ a.name.space ≠ nsXML ∧ a.name.space ≠ b!"xmlns"),
      a ∈ as ∧ a.name.space ≠ [] ∧ a.name.space ≠ nsXML ∧ a.name.space ≠ b!"xmlns" := by
    intro a h
    simpa using h
  refine ⟨hx, extensions_distinct ha, attr_text htext, textAt_text htext _, ?_, ?_, ?_, ?_, ?_, ?_, ?_, ?_,
    any_writable rfl (by simp) hc hl⟩
  · refine groups_writable rfl (fun a h => hallow a (hspaces a h).1) (fun a h => ?_) ?_
    · obtain ⟨h1, h2, _, h4⟩ := hspaces a h
      obtain ⟨g1, g2, g3⟩ := hr.attrs a h1 h4
      exact ⟨g1.resolve_left h2, g2, g3⟩
    · rintro ⟨a, h, hl⟩
      exact absurd (production_kind (hallow a (hspaces a h).1) hl) (by decide)
  · intro g hg
    obtain ⟨ns, h1, rfl⟩ := List.mem_map.1 hg
    obtain ⟨a, h2, rfl⟩ := List.mem_map.1 (List.mem_eraseDups.1 h1)
    obtain ⟨h3, _, h4, _⟩ := hspaces a h2
    have h5 := groupOf_ns (p := as.filter (fun a => a.name.space ≠ [] ∧ a.name.space ≠ nsXML ∧ a.name.space ≠ b!"xmlns")) (hallow a h3)
    intro h6
    refine h4 ?_
    rw [← h5]
    exact (show ∀ g : AttrGroup, groupSpace g = xmlSpace → g.ns = nsXML from fun g => by cases g <;> exact id) _ h6
  · intro md hmd
    obtain ⟨z, hz, rfl⟩ := List.mem_map.1 hmd
    exact metadata_writable hx (hkids (k' := .metadata) (mu := .many) rfl hz)
  · intro a h
    simp only [modelOf, resourcesOf] at h
    split at h
    next e he => exact asset_writable (hkids (k' := .resources) (mu := .single) rfl (child_mem he)) a h
    · simp at h
  · intro o h
    simp only [modelOf, resourcesOf] at h
    split at h
    next e he =>
      obtain ⟨z, hz, rfl⟩ := List.mem_map.1 h
      exact object_writable hx ((hkids (k' := .resources) (mu := .single) rfl (child_mem he)).children (k' := .object) (mu := .many) rfl hz)
    · simp at h
  · simp only [modelOf, resourcesOf]
    split
    next e he => exact (hkids (k' := .resources) (mu := .single) rfl (child_mem he)).groups rfl (by simp)
    · exact ⟨by simp, by simp⟩
  · intro i h
    simp only [modelOf, buildOf] at h
    split at h
    next e he =>
      obtain ⟨z, hz, rfl⟩ := List.mem_map.1 h
      exact item_writable hx ((hkids (k' := .build) (mu := .single) rfl (child_mem he)).children (k' := .item) (mu := .many) rfl hz)
    · simp at h
  · simp only [modelOf, buildOf]
    split
    next e he => exact (hkids (k' := .build) (mu := .single) rfl (child_mem he)).groups rfl (by simp)
    · exact ⟨by simp, by simp⟩

/-- **C68** (reading, saving and reading again, on bytes): the model `m1` of a document can be saved; what is saved is read
without error, as a model that is the same up to the precision of the numbers; and saving again changes nothing after that. -/
theorem C68_saved_partial (env : Env) (mem mem2 mem3 mem4 : Nat → Str → Str) (prec : Int) (data : Str) (pre post c : List Node) (as : List Attr)
    (hl : lex .eof (.new data) = (treeEvents (wholeDoc pre as c post), .eof))
    (hpre : NoElements pre) (hpost : NoElements post) (ha : AttrsFit env .model as) (ho : Once env .model c)
    (hc : ContentOk env False .model (core b!"model") c) (hr : RootClean as) (hcl : ContentClean env (extensionsOf as) .model c) :
    ∃ m1 m2 m3, unmarshalModel env mem data .zero = some (m1, report (partFaults env .model (as, c))) ∧
      m1 = modelOf env .zero (as, c) ∧
      unmarshalModel env mem2 (saved prec m1) .zero = some (m2, .ok) ∧ (ModelOk prec m1 → NearModel prec m1 m2) ∧
      unmarshalModel env mem3 (saved prec m2) .zero = some (m3, .ok) ∧
      unmarshalModel env mem4 (saved prec m3) .zero = some (m3, .ok) := by
  have h1 := C60_bytes env mem False False.elim .zero ⟨⟨rfl, rfl, rfl, rfl, rfl⟩, rfl, rfl, rfl, rfl⟩ (Or.inl rfl) data pre post c as hl
    hpre hpost ha ho hc
  have hw := C68_writable_partial env False .zero as c ha hr hc hcl
  have hb := model_back_writable (prec := prec) hw
  have hb2 := model_back_writable (prec := prec) hb
  refine ⟨_, _, _, h1, rfl, decode_marshal (writable_dom hw) False.elim, fun hk => near_model hk,
    decode_marshal (writable_dom hb) False.elim, ?_⟩
  have := decode_marshal (prec := prec) (writable_dom hb2) (mem := mem4) False.elim
  rw [Model.back_thrice] at this
  exact this

/-! ## Declarations below the root element -/

/-- Read, save, and read again: what was read first, and how the second reading ends. -/
def c68Again (data : Str) : Option (Model × DecodeResult × Option DecodeResult) :=
  (unmarshalModel exEnv (fun _ t => t) data .zero).map fun p =>
    (p.1, p.2, (unmarshalModel exEnv (fun _ t => t) (printOps (fun _ => []) (p.1.ops 4)) .zero).map (·.2))

/-- **C68** is false for an element that declares its own prefix: it is read, with the declaration, and saved with the prefix in
its end tag only, so that the file cannot be read any more (internal/xml/printer.go:50-97). -/
theorem C68_element_false :
    (c68Again b!"<model xmlns=\"http://schemas.microsoft.com/3dmanufacturing/core/2015/02\"><v:a xmlns:v=\"u\"/></model>").map
      (fun r => (r.1.any.map (fun e => match e with | .tokens ts => ts | _ => []), (match r.2.1 with | .ok => true | _ => false), r.2.2.map
        (fun d => match d with | .token e => some e | _ => none))) =
      some ([[.start ⟨b!"u", b!"a"⟩ [⟨⟨b!"xmlns", b!"v"⟩, b!"u"⟩], .stop ⟨b!"u", b!"a"⟩]], true, some (some .syntax)) := by
  decide +kernel

/-- **C68** is false for an attribute with a prefix that its own element declares: it is read, and saved with the name space in
place of the prefix, so that the file cannot be read any more (internal/xml/printer.go:21-41). -/
theorem C68_attribute_false :
    (c68Again b!"<model xmlns=\"http://schemas.microsoft.com/3dmanufacturing/core/2015/02\"><build><item objectid=\"1\" v:k=\"1\" xmlns:v=\"http://u\"/></build></model>").map
      (fun r => (r.1.build.items.map (·.anyAttr), (match r.2.1 with | .ok => true | _ => false), r.2.2.map
        (fun d => match d with | .token e => some e | _ => none))) =
      some ([[.unknown b!"http://u" [⟨⟨b!"http://u", b!"k"⟩, b!"1"⟩], .unknown b!"xmlns" [⟨⟨b!"xmlns", b!"v"⟩, b!"http://u"⟩]]], true,
        some (some .syntax)) := by
  decide +kernel

/-! ## Non-vacuity -/

/-- Printable ASCII. -/
def asciiB (s : Str) : Bool := s.all fun b => 32 ≤ b && b < 127

/-- A name of ASCII letters and digits. -/
def plainB (s : Str) : Bool := !s.isEmpty && s.all fun b => (48 ≤ b && b ≤ 57) || (65 ≤ b && b ≤ 90) || (97 ≤ b && b ≤ 122)

theorem plain_of {s : Str} (h : plainB s = true) : PlainName s := by
  simp only [plainB, Bool.and_eq_true, Bool.or_eq_true, List.all_eq_true, decide_eq_true_eq, Bool.not_eq_true', List.isEmpty_eq_false_iff] at h
  exact ⟨h.1, fun b hb => by rcases h.2 b hb with (h | h) | h <;> simp [h]⟩

def declaredB (exts : List Extension) (ns : Str) : Bool := !ns.isEmpty && exts.any fun x => x.ns = ns

theorem declared_of {exts : List Extension} {ns : Str} (h : declaredB exts ns = true) : Declared exts ns := by
  simpa [declaredB, Declared] using h

def elemAttrB (exts : List Extension) (a : Attr) : Bool :=
  (a.name.space.isEmpty || decide (a.name.space = xmlSpace) || declaredB exts a.name.space) && plainB a.name.loc &&
  (!a.name.space.isEmpty || decide (a.name.loc ≠ b!"xmlns")) && asciiB a.value

theorem elemAttr_of {exts : List Extension} {a : Attr} (h : elemAttrB exts a = true) : Spec.ElemAttr exts a := by
  simp only [elemAttrB, Bool.and_eq_true, Bool.or_eq_true, decide_eq_true_eq, List.isEmpty_iff, Bool.not_eq_true', List.isEmpty_eq_false_iff] at h
  obtain ⟨⟨⟨h1, h2⟩, h3⟩, h4⟩ := h
  refine ⟨?_, plain_of h2, fun e => h3.resolve_left (fun h => h e), text_closed h4⟩
  rcases h1 with (h1 | h1) | h1
  · exact Or.inl h1
  · exact Or.inr (Or.inl h1)
  · exact Or.inr (Or.inr (declared_of h1))

def storableB (env : Env) (k : Kind) (as : List Attr) (c : List Node) : Bool :=
  (!(as.any fun a => env.load a.name.space = some .production) || (match attr? as ⟨nsProduction, b!"UUID"⟩ with
    | some v => uuidValid v && decide (v.length ≠ 38)
    | none => false)) &&
  (!decide (k ∈ ([.metadataGroup, .build, .resources, .mesh, .vertices, .triangles, .components] : List Kind)) ||
    as.all fun a => a.name.space ≠ []) &&
  (!decide (k = .triangle) || as.all fun a => a.name.space = []) &&
  (!decide (k = .metadataGroup) || !(children (core b!"metadata") c).isEmpty || as.isEmpty) &&
  (!decide (k = .foreignAsset) || (attrFaults env k as).isEmpty)

theorem storable_of {env : Env} {k : Kind} {as : List Attr} {c : List Node} (h : storableB env k as c = true) : Storable env k as c := by
  simp only [storableB, Bool.and_eq_true, Bool.or_eq_true, Bool.not_eq_true', decide_eq_false_iff_not, List.all_eq_true,
    decide_eq_true_eq, List.isEmpty_iff, List.isEmpty_eq_false_iff] at h
  obtain ⟨⟨⟨⟨h1, h2⟩, h3⟩, h4⟩, h5⟩ := h
  refine ⟨fun _ ⟨a, ha, hl⟩ => ?_, fun hk => h2.resolve_left (fun h => h hk), fun hk => h3.resolve_left (fun h => h hk), fun hk he => ?_,
    fun hk => h5.resolve_left (fun h => h hk)⟩
  · rcases h1 with h1 | h1
    · rw [List.any_eq_false] at h1
      exact absurd (by simpa using hl) (h1 a ha)
    · split at h1
      next v hv =>
        simp only [Bool.and_eq_true, decide_eq_true_eq] at h1
        exact ⟨v, hv, (C19_rejects_partial v h1.2).1 h1.1⟩
      · cases h1
  · rcases h4 with (h4 | h4) | h4
    · exact absurd hk h4
    · exact absurd he h4
    · exact h4

mutual
def nodeCleanB (env : Env) (exts : List Extension) (k : Kind) : Node → Bool
  | .elem n as c => (decide (n.space = nsCore) || declaredB exts n.space) && plainB n.loc && decide (n.loc ≠ b!"xmlns") &&
    as.all (elemAttrB exts) &&
    match childKind env k n with
    | none => contentCleanB env exts k c
    | some (k', _) => storableB env k' as c && contentCleanB env exts k' c
  | .text t => asciiB t && !k.isForeign
  | .other => true

def contentCleanB (env : Env) (exts : List Extension) (k : Kind) : List Node → Bool
  | [] => true
  | x :: xs => nodeCleanB env exts k x && contentCleanB env exts k xs
end

mutual
theorem nodeClean_of {env : Env} {exts : List Extension} {k : Kind} : ∀ x, nodeCleanB env exts k x = true → NodeClean env exts k x
  | .elem n as c, h => by
    simp only [nodeCleanB, Bool.and_eq_true, Bool.or_eq_true, decide_eq_true_eq, List.all_eq_true] at h
    obtain ⟨⟨⟨⟨h1, h2⟩, h3⟩, h4⟩, h5⟩ := h
    rw [NodeClean]
    refine ⟨⟨h1.imp id declared_of, plain_of h2, h3⟩, fun a ha => elemAttr_of (h4 a ha), ?_⟩
    cases hk : childKind env k n with
    | none =>
      rw [hk] at h5
      exact contentClean_of c h5
    | some p =>
      obtain ⟨k', mu⟩ := p
      rw [hk] at h5
      simp only [Bool.and_eq_true] at h5
      exact ⟨storable_of h5.1, contentClean_of c h5.2⟩
  | .text t, h => by
    simp only [nodeCleanB, Bool.and_eq_true, Bool.not_eq_true'] at h
    rw [NodeClean]
    exact ⟨text_closed h.1, h.2⟩
  | .other, _ => by rw [NodeClean]; trivial

theorem contentClean_of {env : Env} {exts : List Extension} {k : Kind} : ∀ c, contentCleanB env exts k c = true → ContentClean env exts k c
  | [], _ => by rw [ContentClean]; trivial
  | x :: xs, h => by
    simp only [contentCleanB, Bool.and_eq_true] at h
    rw [ContentClean]
    exact ⟨nodeClean_of x h.1, contentClean_of xs h.2⟩
end

mutual
theorem passed_clean {env : Env} {exts : List Extension} {k : Kind} {n : Name} :
    ∀ x, Passed env True k n x → NodeClean env exts k x → Passed env False k n x
  | .elem m as c, h, hc => by
    rw [Passed] at h ⊢
    rw [NodeClean, h.1] at hc
    exact ⟨h.1, h.2.1, passedAll_clean c h.2.2 hc.2.2⟩
  | .text t, _, hc => by
    rw [NodeClean] at hc
    rw [Passed, hc.2]
    simp
  | .other, _, _ => by rw [Passed]; trivial

theorem passedAll_clean {env : Env} {exts : List Extension} {k : Kind} {n : Name} :
    ∀ c, PassedAll env True k n c → ContentClean env exts k c → PassedAll env False k n c
  | [], _, _ => by rw [PassedAll]; trivial
  | x :: xs, h, hc => by
    rw [PassedAll] at h ⊢
    rw [ContentClean] at hc
    exact ⟨passed_clean x h.1 hc.1, passedAll_clean xs h.2 hc.2⟩
end

mutual
theorem nodeOk_clean {env : Env} {exts : List Extension} {k : Kind} {n : Name} :
    ∀ x, NodeOk env True k n x → NodeClean env exts k x → NodeOk env False k n x
  | .elem m as c, h, hc => by
    rw [NodeOk] at h ⊢
    rw [NodeClean] at hc
    cases hk : childKind env k m with
    | none =>
      rw [hk] at h hc
      exact ⟨h.1, h.2.1, passedAll_clean c h.2.2 hc.2.2⟩
    | some p =>
      obtain ⟨k', mu⟩ := p
      rw [hk] at h hc
      exact ⟨h.1, h.2.1, h.2.2.1, contentOk_clean c h.2.2.2 hc.2.2.2⟩
  | .text t, _, hc => by
    rw [NodeClean] at hc
    rw [NodeOk, hc.2]
    simp
  | .other, _, _ => by rw [NodeOk]; trivial

/-- There is no text that would have to be kept. -/
theorem contentOk_clean {env : Env} {exts : List Extension} {k : Kind} {n : Name} :
    ∀ c, ContentOk env True k n c → ContentClean env exts k c → ContentOk env False k n c
  | [], _, _ => by rw [ContentOk]; trivial
  | x :: xs, h, hc => by
    rw [ContentOk] at h ⊢
    rw [ContentClean] at hc
    exact ⟨nodeOk_clean x h.1 hc.1, contentOk_clean xs h.2 hc.2⟩
end

/-- The attributes of a root element. -/
def cleanAttrs : List Attr :=
  [pl b!"xmlns" nsCore, pl b!"unit" b!"inch", ⟨⟨nsXML, b!"lang"⟩, b!"de"⟩, ⟨⟨b!"xmlns", b!"p"⟩, nsProduction⟩,
   ⟨⟨b!"xmlns", b!"m"⟩, nsMaterials⟩, ⟨⟨b!"xmlns", b!"s"⟩, nsSlices⟩, ⟨⟨b!"xmlns", b!"b"⟩, nsBeam⟩, ⟨⟨b!"xmlns", b!"v"⟩, b!"http://u"⟩,
   pl b!"requiredextensions" b!"p m", ⟨⟨b!"http://u", b!"z"⟩, b!"1"⟩, pl b!"other" b!"2"]

/-- A document with elements of all extensions, an unknown element, unknown attributes and faults. -/
def cleanDoc : List Node :=
  [.text b!" ", .elem (core b!"metadata") [pl b!"name" b!"v:Title", pl b!"preserve" b!"T"] [.text b!"a & b"],
   .elem (core b!"resources") []
    [.elem (mat b!"colorgroup") [pl b!"id" b!"1"] [.elem (mat b!"color") [pl b!"color" b!"#010203"] [], .text b!" ",
       .elem (mat b!"color") [pl b!"color" b!"red"] []],
     .elem (core b!"basematerials") [pl b!"id" b!"2"] [.elem (core b!"base") [pl b!"name" b!"n", pl b!"displaycolor" b!"#0a"] []],
     .elem (slc b!"slicestack") [pl b!"id" b!"3", pl b!"zbottom" b!"x"] [.elem (slc b!"slice") [pl b!"ztop" b!"1"]
       [.elem (slc b!"vertices") [] [.elem (slc b!"vertex") [pl b!"x" b!"1", pl b!"y" b!"2"] []],
        .elem (slc b!"polygon") [pl b!"startv" b!"0"] [.elem (slc b!"segment") [pl b!"v2" b!"0"] []]]],
     .elem ⟨b!"http://u", b!"asset"⟩ [pl b!"id" b!"9"] [.elem ⟨b!"http://u", b!"b"⟩ [⟨⟨b!"http://u", b!"c"⟩, b!"<"⟩] [.other]],
     .elem (core b!"object") [pl b!"id" b!"4", pl b!"type" b!"odd", pl b!"pid" b!"1",
        ⟨⟨nsProduction, b!"UUID"⟩, b!"f81d4fae-7dec-11d0-a765-00a0c91e6bf6"⟩]
      [.elem (core b!"unknown") [] [.elem (core b!"vertices") [] []],
       .elem (core b!"metadatagroup") [⟨⟨b!"http://u", b!"g"⟩, b!"7"⟩] [.elem (core b!"metadata") [pl b!"name" b!"q:r"] []],
       .elem (core b!"mesh") []
        [.elem (core b!"vertices") [⟨⟨b!"http://u", b!"n"⟩, b!"1"⟩] [.elem (core b!"vertex") [pl b!"x" b!"1", pl b!"y" b!"2", pl b!"z" b!"3"] []],
         .elem (core b!"triangles") [] [.elem (core b!"triangle") [pl b!"v1" b!"1", pl b!"v2" b!"2", pl b!"v3" b!"3", pl b!"p1" b!"1"] []],
         .elem (bml b!"beamlattice") [pl b!"radius" b!"1", pl b!"minlength" b!"2"]
          [.elem (bml b!"beams") [] [.elem (bml b!"beam") [pl b!"v1" b!"0", pl b!"v2" b!"1"] []]]]]],
   .elem (core b!"build") [] [.elem (core b!"item") [pl b!"objectid" b!"4", pl b!"transform" b!"1 0"] [], .other]]

/-- The root element of the document meets the conditions. -/
theorem cleanAttrs_ok : RootClean cleanAttrs := by
  refine ⟨fun a ha hs => ?_, fun a ha hs => ?_⟩
  · have : (plainB a.name.loc && asciiB a.name.loc && decide (a.name.loc ≠ b!"xml") && decide (a.name.loc ≠ b!"xmlns") && asciiB a.value &&
        decide (a.value ≠ b!"xmlns")) = true := by
      revert a
      decide +kernel
    simp only [Bool.and_eq_true, decide_eq_true_eq] at this
    obtain ⟨⟨⟨⟨⟨h1, h2⟩, h3⟩, h4⟩, h5⟩, h6⟩ := this
    exact ⟨plain_of h1, text_closed h2, h3, h4, text_closed h5, h6⟩
  · have : ((a.name.space.isEmpty || decide (a.name.space = xmlSpace) || declaredB (extensionsOf cleanAttrs) a.name.space) && plainB a.name.loc &&
        asciiB a.value) = true := by
      revert a
      decide +kernel
    simp only [Bool.and_eq_true, Bool.or_eq_true, decide_eq_true_eq, List.isEmpty_iff] at this
    obtain ⟨⟨h1, h2⟩, h3⟩ := this
    refine ⟨?_, plain_of h2, text_closed h3⟩
    rcases h1 with (h1 | h1) | h1
    · exact Or.inl h1
    · exact Or.inr (Or.inl h1)
    · exact Or.inr (Or.inr (declared_of h1))

/-- So does its content. -/
theorem cleanDoc_ok : AttrsFit exEnv .model cleanAttrs ∧ Once exEnv .model cleanDoc ∧
    ContentOk exEnv True .model (core b!"model") cleanDoc ∧ ContentClean exEnv (extensionsOf cleanAttrs) .model cleanDoc :=
  ⟨attrsFit_of (by decide +kernel), once_of (by decide +kernel), contentOk_of _ (by decide +kernel), contentClean_of _ (by decide +kernel)⟩

example : Writable exEnv (modelOf exEnv .zero (cleanAttrs, cleanDoc)) :=
  C68_writable_partial _ True _ _ _ cleanDoc_ok.1 cleanAttrs_ok cleanDoc_ok.2.2.1 cleanDoc_ok.2.2.2

/-- A file that meets all the conditions. -/
def cleanFile : Str :=
  b!"<?xml version=\"1.0\"?><model xmlns=\"http://schemas.microsoft.com/3dmanufacturing/core/2015/02\" xmlns:v=\"http://u\" v:z=\"1\"><metadata name=\"v:Title\">a b</metadata><v:w v:c=\"2\"/><build><item objectid=\"x\"/></build></model>"

def cleanFileAttrs : List Attr := [pl b!"xmlns" nsCore, ⟨⟨b!"xmlns", b!"v"⟩, b!"http://u"⟩, ⟨⟨b!"http://u", b!"z"⟩, b!"1"⟩]

def cleanFileDoc : List Node :=
  [.elem (core b!"metadata") [pl b!"name" b!"v:Title"] [.text b!"a b"],
   .elem ⟨b!"http://u", b!"w"⟩ [⟨⟨b!"http://u", b!"c"⟩, b!"2"⟩] [],
   .elem (core b!"build") [] [.elem (core b!"item") [pl b!"objectid" b!"x"] []]]

example : ∃ m1 m2, unmarshalModel exEnv (fun _ t => t) cleanFile .zero = some (m1, report (partFaults exEnv .model (cleanFileAttrs, cleanFileDoc))) ∧
    m1.any.length = 1 ∧ partFaults exEnv .model (cleanFileAttrs, cleanFileDoc) ≠ [] ∧
    unmarshalModel exEnv (fun _ t => t) (saved 4 m1) .zero = some (m2, .ok) := by
  have hr : RootClean cleanFileAttrs := by
    refine ⟨fun a ha hs => ?_, fun a ha hs => ?_⟩
    · obtain rfl : a = ⟨⟨b!"xmlns", b!"v"⟩, b!"http://u"⟩ := by
        revert a
        decide +kernel
      exact ⟨plain_of (by decide +kernel), text_closed (by decide +kernel), by decide, by decide, text_closed (by decide +kernel), by decide⟩
    · have : ((a.name.space.isEmpty || declaredB (extensionsOf cleanFileAttrs) a.name.space) && plainB a.name.loc && asciiB a.value) = true := by
        revert a
        decide +kernel
      simp only [Bool.and_eq_true, Bool.or_eq_true, List.isEmpty_iff] at this
      exact ⟨this.1.1.elim Or.inl fun h => Or.inr (Or.inr (declared_of h)), plain_of this.1.2, text_closed this.2⟩
  have hcl : ContentClean exEnv (extensionsOf cleanFileAttrs) .model cleanFileDoc := contentClean_of _ (by decide +kernel)
  have hn : NoElements [.other] := by simp [NoElements]
  obtain ⟨m1, m2, _, h1, h2, h3, _⟩ := C68_saved_partial exEnv (fun _ t => t) (fun _ t => t) (fun _ t => t) (fun _ t => t) 4 cleanFile [.other] []
    cleanFileDoc cleanFileAttrs (by decide +kernel) hn (by simp [NoElements]) (attrsFit_of (by decide +kernel)) (once_of (by decide +kernel))
    (contentOk_clean _ (contentOk_of _ (by decide +kernel)) hcl) hr hcl
  refine ⟨m1, m2, h1, ?_, by decide +kernel, h3⟩
  rw [h2]
  decide +kernel

end Go3mf
