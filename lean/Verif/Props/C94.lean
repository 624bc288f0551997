import Verif.Lemmas.PresentationValue
import Verif.Props.C60
import Verif.Props.C62

/-!
# C94: the presentation of a document does not matter

XML gives no meaning to the order of attributes, and the 3MF schemas give none to white space between elements and to the
order of elements with different names.  Two documents that differ only in these are read as the same model, with the same errors.
-/

namespace Go3mf
open Spec

theorem report_errors (fs : List Fault) : (report fs).errors = fs.map fun f => .wrapped f.1 (.leaf f.2) [] := by
  match fs with
  | [] => rfl
  | [_] => rfl
  | _ :: _ :: _ => rfl

theorem Spec.SameElem.partFaults {env : Env} {k : Kind} {e e' : List Attr × List Node} (h : SameElem env k e e') :
    (Spec.partFaults env k e).Perm (Spec.partFaults env k e') :=
  .map _ (.append (.map _ (h.1.faults env k)) (h.2.faults fun _ _ _ _ _ => rfl))

/-- **C94** (root part): documents that differ in the presentation only are read as the same model, and the errors are the same but
for their order. -/
theorem C94_root (env : Env) (mem mem' : Nat → Str → Str) (kept : Prop) (hk : kept → ∀ i t, mem i t = t) (hk' : kept → ∀ i t, mem' i t = t)
    (m : Model) (hm : FreshModel m) (path : Str) (hp : path = m.path ∨ m.path = [] ∧ path = defaultModelPath)
    (pre post c pre' post' c' : List Node) (as as' : List Attr) (hpre : NoElements pre) (hpost : NoElements post)
    (hpre' : NoElements pre') (hpost' : NoElements post') (ha : AttrsFit env .model as) (ha' : AttrsFit env .model as')
    (ho : Once env .model c) (ho' : Once env .model c') (hc : ContentOk env kept .model (core b!"model") c)
    (hc' : ContentOk env kept .model (core b!"model") c') (h : SameAttrs .model as as') (h' : SameContent env .model c c') :
    ∃ m1 r r', decodeEvents ⟨env, true, mem⟩ false (fun _ => false) m path (treeEvents (wholeDoc pre as c post)) .eof = some (m1, r) ∧
      decodeEvents ⟨env, true, mem'⟩ false (fun _ => false) m path (treeEvents (wholeDoc pre' as' c' post')) .eof = some (m1, r') ∧
      r.errors.Perm r'.errors := by
  have hs : SameElem env .model (as, c) (as', c') := ⟨h, h'⟩
  refine ⟨_, _, report (Spec.partFaults env .model (as', c')), C60_root env mem kept hk m hm path hp pre post c as hpre hpost ha ho hc, ?_, ?_⟩
  · rw [hs.model]
    exact C60_root env mem' kept hk' m hm path hp pre' post' c' as' hpre' hpost' ha' ho' hc'
  · rw [report_errors, report_errors]
    exact hs.partFaults.map _

/-- **C94** (child parts). -/
theorem C94_child (env : Env) (mem mem' : Nat → Str → Str) (kept : Prop) (hk : kept → ∀ i t, mem i t = t) (hk' : kept → ∀ i t, mem' i t = t)
    (m : Model) (path : Str) (hp : ¬ (path = [] ∨ path = m.path ∨ (m.path = [] ∧ path = defaultModelPath)))
    (hf : m.findResources path = some ⟨[], [], []⟩) (pre post c pre' post' c' : List Node) (as as' : List Attr) (hpre : NoElements pre)
    (hpost : NoElements post) (hpre' : NoElements pre') (hpost' : NoElements post') (ho : Once env .childModel c)
    (ho' : Once env .childModel c') (hc : ContentOk env kept .childModel (core b!"model") c)
    (hc' : ContentOk env kept .childModel (core b!"model") c') (h' : SameContent env .childModel c c') :
    ∃ m1 r r', decodeEvents ⟨env, false, mem⟩ false (fun _ => false) m path (treeEvents (wholeDoc pre as c post)) .eof = some (m1, r) ∧
      decodeEvents ⟨env, false, mem'⟩ false (fun _ => false) m path (treeEvents (wholeDoc pre' as' c' post')) .eof = some (m1, r') ∧
      r.errors.Perm r'.errors := by
  have hs : SameElem env .childModel ([], c) ([], c') := ⟨.inl rfl, h'⟩
  refine ⟨_, _, report (Spec.partFaults env .childModel ([], c')), C60_child env mem kept hk m path hp hf pre post c as hpre hpost ho hc, ?_, ?_⟩
  · rw [h'.any (.inr (.inl rfl)), SameElem.optResources h' rfl]
    exact C60_child env mem' kept hk' m path hp hf pre' post' c' as' hpre' hpost' ho' hc'
  · rw [report_errors, report_errors]
    exact hs.partFaults.map _

/-- **C94** (bytes): the same for two texts with the tokens of such documents. -/
theorem C94_bytes (env : Env) (mem mem' : Nat → Str → Str) (kept : Prop) (hk : kept → ∀ i t, mem i t = t) (hk' : kept → ∀ i t, mem' i t = t)
    (data data' : Str) (pre post c pre' post' c' : List Node) (as as' : List Attr)
    (hl : lex .eof (.new data) = (treeEvents (wholeDoc pre as c post), .eof))
    (hl' : lex .eof (.new data') = (treeEvents (wholeDoc pre' as' c' post'), .eof)) (hpre : NoElements pre) (hpost : NoElements post)
    (hpre' : NoElements pre') (hpost' : NoElements post') (ha : AttrsFit env .model as) (ha' : AttrsFit env .model as')
    (ho : Once env .model c) (ho' : Once env .model c') (hc : ContentOk env kept .model (core b!"model") c)
    (hc' : ContentOk env kept .model (core b!"model") c') (h : SameAttrs .model as as') (h' : SameContent env .model c c') :
    ∃ m1 r r', unmarshalModel env mem data .zero = some (m1, r) ∧ unmarshalModel env mem' data' .zero = some (m1, r') ∧
      r.errors.Perm r'.errors := by
  rw [unmarshalModel, unmarshalModel, hl, hl']
  exact C94_root env mem mem' kept hk hk' .zero ⟨⟨rfl, rfl, rfl, rfl, rfl⟩, rfl, rfl, rfl, rfl⟩ defaultModelPath (.inr ⟨rfl, rfl⟩)
    pre post c pre' post' c' as as' hpre hpost hpre' hpost' ha ha' ho ho' hc hc' h h'

/-! ## The violations -/

/-- **C94 is violated**: the order of the attributes of a slice decides which of them counts, as the name space is not looked at
(slices/decoder.go:72-91). -/
theorem C94_order_false :
    let a : Attr := ⟨⟨[], b!"ztop"⟩, b!"1"⟩
    let b : Attr := ⟨⟨b!"u", b!"ztop"⟩, b!"2"⟩
    let doc (as : List Attr) := [Node.elem (core b!"resources") [] [.elem (slc b!"slicestack") [⟨⟨[], b!"id"⟩, b!"1"⟩] [.elem (slc b!"slice") as []]]]
    SameContent allExt .model (doc [a, b]) (doc [b, a]) ∧
    (readDoc (doc [a, b])).map (fun p => p.1.resources.assets) ≠ (readDoc (doc [b, a])).map (fun p => p.1.resources.assets) := by
  refine ⟨?_, by decide +kernel⟩
  refine .elem (k' := .resources) (mu := .single) (by decide) rfl (.inl rfl) ?_ .nil
  refine .elem (k' := .sliceStack) (mu := .asset) (by decide) rfl (.inl rfl) ?_ .nil
  exact .elem (k' := .slice) (mu := .many) (by decide) rfl (.inr ⟨by decide, .swap .., by decide⟩) .nil .nil

/-- **C94 is violated**: of the two names of the minimal length of beams the last one counts. -/
theorem C94_alias_false :
    let a : Attr := ⟨⟨[], b!"minlength"⟩, b!"1"⟩
    let b : Attr := ⟨⟨[], b!"precision"⟩, b!"2"⟩
    let doc (as : List Attr) := meshDoc [.elem (bml b!"beamlattice") as []]
    SameContent allExt .model (doc [a, b]) (doc [b, a]) ∧
    (readDoc (doc [a, b])).map (fun p => p.1.resources.objects) ≠ (readDoc (doc [b, a])).map (fun p => p.1.resources.objects) := by
  refine ⟨?_, by decide +kernel⟩
  refine .elem (k' := .resources) (mu := .single) (by decide) rfl (.inl rfl) ?_ .nil
  refine .elem (k' := .object) (mu := .many) (by decide) rfl (.inl rfl) ?_ .nil
  refine .elem (k' := .mesh) (mu := .single) (by decide) rfl (.inl rfl) ?_ .nil
  exact .elem (k' := .beamLattice) (mu := .free) (by decide) rfl (.inr ⟨by decide, .swap .., by decide⟩) .nil .nil

/-- **C94 is violated**: a processing instruction in the text of metadata takes away what is before it, and a comment between elements
ends the reading (internal/xml/xml.go, C59). -/
theorem C94_comment_false :
    (unmarshalModel allExt (fun _ t => t) b!"<model xmlns=\"http://schemas.microsoft.com/3dmanufacturing/core/2015/02\"><metadata name=\"Title\">ab</metadata></model>"
      .zero).map (fun p => p.1.metadata.map (·.value)) = some [b!"ab"] ∧
    (unmarshalModel allExt (fun _ t => t) b!"<model xmlns=\"http://schemas.microsoft.com/3dmanufacturing/core/2015/02\"><metadata name=\"Title\">a<?p?>b</metadata></model>"
      .zero).map (fun p => p.1.metadata.map (·.value)) = some [b!"b"] ∧
    (unmarshalModel allExt (fun _ t => t) b!"<model xmlns=\"http://schemas.microsoft.com/3dmanufacturing/core/2015/02\"><!-- --><metadata name=\"Title\">ab</metadata></model>"
      .zero).map (fun p => p.1.metadata.map (·.value)) = some [] := by decide +kernel

/-- **C94 is violated**: an element without a meaning ends the element around it if it has the same name: a triangle is lost. -/
theorem C94_name_false :
    let t : Node := .elem (core b!"triangle") [pl b!"v1" b!"0", pl b!"v2" b!"1", pl b!"v3" b!"2"] []
    let doc (x : List Node) := meshDoc [.elem (core b!"triangles") [] (x ++ [t])]
    SameContent allExt .model (doc []) (doc [.elem (core b!"triangles") [] []]) ∧
    (readDoc (doc [])).map (fun p => p.1.resources.objects.map fun o => (o.mesh.map fun m => m.triangles.length)) = some [some 1] ∧
    (readDoc (doc [.elem (core b!"triangles") [] []])).map (fun p => p.1.resources.objects.map fun o => (o.mesh.map fun m => m.triangles.length)) =
      some [some 0] := by
  refine ⟨?_, by decide +kernel, by decide +kernel⟩
  refine .elem (k' := .resources) (mu := .single) (by decide) rfl (.inl rfl) ?_ .nil
  refine .elem (k' := .object) (mu := .many) (by decide) rfl (.inl rfl) ?_ .nil
  refine .elem (k' := .mesh) (mu := .single) (by decide) rfl (.inl rfl) ?_ .nil
  refine .elem (k' := .triangles) (mu := .single) (by decide) rfl (.inl rfl) ?_ .nil
  exact .insert (show childKind allExt .triangles (core b!"triangles") = none by decide) (.refl _)

/-! ## Example -/

namespace Spec

/-- The document of C60 in another presentation: the attributes of the root, of the base material and of the object in another order, the
build first, objects before assets, no texts between elements, other elements without a meaning. -/
def docOther : List Node :=
  [.elem (core b!"build") [] [.elem (core b!"item") [pl b!"transform" b!"1 0", pl b!"objectid" b!"4"] []],
   .elem (core b!"metadata") [pl b!"preserve" b!"T", pl b!"name" b!"Title"] [.text b!"t"],
   .elem (core b!"resources") []
    [.elem (core b!"object") [pl b!"pid" b!"1", ⟨⟨nsProduction, b!"UUID"⟩, b!"no"⟩, pl b!"type" b!"odd", pl b!"id" b!"4"]
      [.elem (core b!"mesh") []
        [.elem (core b!"triangles") [] [.elem (core b!"triangle") [pl b!"p1" b!"1", pl b!"v1" b!"1", pl b!"v2" b!"2", pl b!"v3" b!"3"] []],
         .elem (core b!"vertices") [] [.elem (core b!"vertex") [pl b!"x" b!"1", pl b!"y" b!"2", pl b!"z" b!"3"] []],
         .elem (bml b!"beamlattice") [pl b!"radius" b!"1", pl b!"minlength" b!"2"]
          [.elem (bml b!"beams") [] [.elem (bml b!"beam") [pl b!"v1" b!"0", pl b!"v2" b!"1"] []]]]],
     .elem (mat b!"colorgroup") [pl b!"id" b!"1"] [.elem (mat b!"color") [pl b!"color" b!"#010203"] [],
       .elem (mat b!"color") [pl b!"color" b!"red"] []],
     .elem (core b!"basematerials") [pl b!"id" b!"2"] [.elem (core b!"base") [pl b!"displaycolor" b!"#0a", pl b!"name" b!"n"] []],
     .elem (slc b!"slicestack") [pl b!"id" b!"3", pl b!"zbottom" b!"x"] [.elem (slc b!"slice") [pl b!"ztop" b!"1"]
       [.elem (slc b!"vertices") [] [.elem (slc b!"vertex") [pl b!"x" b!"1", pl b!"y" b!"2"] []],
        .elem (slc b!"polygon") [pl b!"startv" b!"0"] [.elem (slc b!"segment") [pl b!"v2" b!"0"] []]]],
     .elem ⟨b!"u", b!"asset"⟩ [pl b!"id" b!"9"] [.elem ⟨b!"u", b!"b"⟩ [] [.text b!"c"]]],
   .elem (core b!"new") [pl b!"a" b!"b"] []]

/-- The attributes of the root element in another order. -/
def docAttrsOther : List Attr :=
  [⟨⟨nsXML, b!"lang"⟩, b!"de"⟩, pl b!"requiredextensions" b!"p", ⟨⟨b!"xmlns", b!"p"⟩, nsProduction⟩, ⟨⟨b!"u", b!"z"⟩, b!"1"⟩,
   pl b!"unit" b!"inch", pl b!"other" b!"2"]

end Spec

theorem docOther_ok : AttrsFit allExt .model docAttrsOther ∧ Once allExt .model docOther ∧
    ContentOk allExt True .model (core b!"model") docOther :=
  ⟨attrsFit_of (by decide +kernel), once_of (by decide +kernel), contentOk_of _ (by decide +kernel)⟩

theorem docOther_attrs : SameAttrs .model docAttrs docAttrsOther :=
  .inr ⟨by decide +kernel, by decide +kernel, by decide +kernel⟩

theorem docOther_same : SameContent allExt .model docContent docOther := by
  have hb : childKind allExt .model (core b!"build") = some (.build, .single) := by decide +kernel
  have hr : childKind allExt .model (core b!"resources") = some (.resources, .single) := by decide +kernel
  refine .drop (by simp [Idle]) ?_
  refine .trans (.same (.back hb (.inl rfl) (by simp [Node.named]; decide))) ?_
  refine .trans (.back hb (.inl rfl) (by simp [Node.named]; decide)) ?_
  refine .elem hb rfl (.inl rfl) ?_ ?_
  · exact .elem (k' := .item) (mu := .many) (by decide +kernel) rfl (.inr ⟨by decide +kernel, by decide +kernel, by decide +kernel⟩) .nil
      (.drop (x := .other) trivial .nil)
  refine .elem (k' := .metadata) (mu := .many) (by decide +kernel) rfl (.inr ⟨by decide +kernel, by decide +kernel, by decide +kernel⟩) (.refl _) ?_
  refine .elem hr rfl (.inl rfl) ?_ (.insert (x := .elem (core b!"new") _ _) (show childKind allExt .model (core b!"new") = none by decide +kernel) .nil)
  have ho : childKind allExt .resources (core b!"object") = some (.object, .many) := by decide +kernel
  refine .trans (.same (.same (.same (.back ho (.inr rfl) (by simp [Node.named]; decide))))) ?_
  refine .trans (.same (.same (.back ho (.inr rfl) (by simp [Node.named]; decide)))) ?_
  refine .trans (.same (.back ho (.inr rfl) (by simp [Node.named]; decide))) ?_
  refine .trans (.back ho (.inr rfl) (by simp [Node.named]; decide)) ?_
  refine .elem ho rfl (.inr ⟨by decide +kernel, by decide +kernel, by decide +kernel⟩) ?_ ?_
  · refine .drop (show childKind allExt .object (core b!"unknown") = none by decide +kernel) ?_
    refine .elem (k' := .mesh) (mu := .single) (by decide +kernel) rfl (.inl rfl) ?_ .nil
    refine .trans (.move (k' := .vertices) (mu := .single) (by decide +kernel) (.inl rfl) (by simp [Node.named]; decide)) ?_
    refine .elem (k' := .triangles) (mu := .single) (by decide +kernel) rfl (.inl rfl) ?_ (.refl _)
    exact .elem (k' := .triangle) (mu := .many) (by decide +kernel) rfl (.inr ⟨by decide +kernel, by decide +kernel, by decide +kernel⟩) .nil .nil
  refine .elem (k' := .colorGroup) (mu := .asset) (by decide +kernel) rfl (.inl rfl) (.same (.drop (by simp [Idle]) (.refl _))) ?_
  refine .elem (k' := .baseMaterials) (mu := .asset) (by decide +kernel) rfl (.inl rfl) ?_ (.refl _)
  exact .elem (k' := .base) (mu := .many) (by decide +kernel) rfl (.inr ⟨by decide +kernel, by decide +kernel, by decide +kernel⟩) .nil .nil

/-- The two documents, with six faults each. -/
example : ∃ m1 r r', decodeEvents ⟨allExt, true, fun _ t => t⟩ false (fun _ => false) .zero defaultModelPath
      (treeEvents (wholeDoc [.other] docAttrs docContent [])) .eof = some (m1, r) ∧
    decodeEvents ⟨allExt, true, fun _ t => t⟩ false (fun _ => false) .zero defaultModelPath
      (treeEvents (wholeDoc [] docAttrsOther docOther [])) .eof = some (m1, r') ∧ r.errors.Perm r'.errors :=
  C94_root allExt _ _ True (fun _ _ _ => rfl) (fun _ _ _ => rfl) .zero ⟨⟨rfl, rfl, rfl, rfl, rfl⟩, rfl, rfl, rfl, rfl⟩ _ (.inr ⟨rfl, rfl⟩)
    _ _ _ _ _ _ _ _ (by simp [NoElements]) (by simp [NoElements]) (by simp [NoElements]) (by simp [NoElements]) docContent_ok.1 docOther_ok.1
    docContent_ok.2.1 docOther_ok.2.1 docContent_ok.2.2 docOther_ok.2.2 docOther_attrs docOther_same

end Go3mf
