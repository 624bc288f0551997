import Verif.Lemmas.DocCheck
import Verif.Props.C27
import Verif.Props.C53

/-!
# C60: a document is read as what it means

`Spec.Document` says what a document means: the model that its elements and attributes describe, and its faults with the
paths of names and indices of the elements around them.  The decoder is a machine with one stack and a few registers that
goes through the tokens.  For every document that meets the conditions of `Spec.AttrsFit`, `Spec.Once` and `Spec.ContentOk`
the machine ends with this model, and it reports these faults and no others, in the order of the document.  The document may
be as malformed as it likes otherwise: attributes may be missing, malformed or unknown, and unknown elements and texts may
be anywhere.  Each condition that a valid document can break has a witness below.
-/

namespace Go3mf
open Spec

namespace Spec

/-- What may be around the root element: texts, comments and instructions. -/
def NoElements (c : List Node) : Prop := ∀ x ∈ c, match x with
  | .elem _ _ _ => False
  | _ => True

/-- The faults of a part with the root element `model`; the attributes of the root element of other parts are not read. -/
def partFaults (env : Env) (k : Kind) (e : List Attr × List Node) : List Fault :=
  ((attrFaults env k e.1).map (fun l => (([], l) : Fault)) ++ contentFaults env k [] e.2).map (Fault.up ⟨b!"model", -1⟩)

/-- How faults are reported. -/
def report : List Fault → DecodeResult
  | [] => .ok
  | [f] => .first (.wrapped f.1 (.leaf f.2) [])
  | fs => .list (fs.map fun f => .wrapped f.1 (.leaf f.2) [])

/-- The document with the root element `model`. -/
def wholeDoc (pre : List Node) (as : List Attr) (c post : List Node) : List Node :=
  pre ++ .elem (core b!"model") as c :: post

end Spec

theorem treeEvents_append : ∀ (a b : List Node), treeEvents (a ++ b) = treeEvents a ++ treeEvents b
  | [], b => by simp [treeEvents]
  | x :: a, b => by simp [treeEvents, treeEvents_append a b]

/-- Texts and instructions before or after the root element do nothing. -/
theorem run_around {cfg : DecCfg} {fin : LexErr} {s : DState} (hs : ∀ t, s.regs.addToken s.cur t = s.regs)
    (hm : ∀ l, s.cur ≠ .metadata l) :
    ∀ (c : List Node) (i : Nat) (rest : List (Option Event)), NoElements c →
      runTokens cfg false (fun _ => false) fin i s (treeEvents c ++ rest) =
        runTokens cfg false (fun _ => false) fin (i + (treeEvents c).length) s rest
  | [], i, rest, _ => by simp [treeEvents]
  | x :: c, i, rest, h => by
    have ih := fun j => run_around (cfg := cfg) (fin := fin) hs hm c j rest fun y hy => h y (List.mem_cons_of_mem _ hy)
    have hx := h x List.mem_cons_self
    cases x with
    | elem m as c => exact absurd hx (by simp)
    | text t =>
      rw [treeEvents, Node.events, List.append_assoc, List.singleton_append, run_step (s' := s), ih]
      · congr 1; simp; omega
      · obtain ⟨r, d, n, st, es⟩ := s
        cases d <;> first | exact absurd rfl (hm _) | (simp only [DState.step, DState.onChar]; simp only at hs; rw [hs])
    | other =>
      rw [treeEvents, Node.events, List.append_assoc, List.singleton_append, run_step (s' := s), ih]
      · congr 1; simp; omega
      · rfl

theorem decodeResult_report (fs : List Fault) :
    decodeResult false (fs.map (faultErr [])) (.token .eof) = report fs := by
  match fs with
  | [] => rfl
  | [f] => simp [decodeResult, report, faultErr]
  | f :: g :: fs => simp [decodeResult, report, faultErr]

/-- The whole document, given the run over the content of its root element. -/
theorem decode_wholeDoc {cfg : DecCfg} {m : Model} {path : Str} {pre post c : List Node} {as : List Attr} {r2 r3 : Regs}
    {es : List Leaf} {fs : List Fault} (hpre : NoElements pre) (hpost : NoElements post)
    (h1 : start cfg { model := m, res := m.findResources path } .model as = some (r2, es))
    (h2 : Runs cfg .model (core b!"model") r2 (treeEvents c) r3 fs) :
    decodeEvents cfg false (fun _ => false) m path (treeEvents (wholeDoc pre as c post)) .eof =
      some ((DState.mk r3 .model (core b!"model") [] []).result path,
        report ((es.map (fun l => (([], l) : Fault)) ++ fs).map (Fault.up ⟨b!"model", -1⟩))) := by
  have e1 : treeEvents (wholeDoc pre as c post) = treeEvents pre ++ (some (.start (core b!"model") as) ::
      (treeEvents c ++ (some (.stop (core b!"model")) :: (treeEvents post ++ [])))) := by
    rw [wholeDoc, treeEvents_append, treeEvents, Node.events]
    simp
  have e2 : ∀ i, DState.step cfg (DState.init m path) i (some (.start (core b!"model") as)) =
      some ⟨r2, .model, core b!"model", [⟨.model, core b!"model", -1⟩],
        es.map (wrapStack [⟨.model, core b!"model", -1⟩])⟩ := by
    intro i
    have : (Dec.top).hasChild = true := rfl
    simp [DState.step, DState.onStart, DState.init, this, child, onlyChild, core, h1]
  have e3 : ∀ i E, DState.step cfg ⟨r3, .model, core b!"model", [⟨.model, core b!"model", -1⟩], E⟩ i
      (some (.stop (core b!"model"))) = some ⟨r3, .model, core b!"model", [], E⟩ := by
    intro i E
    simp [DState.step, DState.onEnd, stop]
  rw [decodeEvents, e1, run_around (s := DState.init m path) (fun t => rfl) (by simp [DState.init]) pre _ _ hpre,
    run_step (e2 _), h2, run_step (e3 _ _), run_around (by intro t; rfl) (by simp) post _ _ hpost]
  have e4 : es.map (wrapStack [⟨.model, core b!"model", -1⟩]) ++ fs.map (faultErr [⟨.model, core b!"model", -1⟩]) =
      ((es.map (fun l => (([], l) : Fault)) ++ fs).map (Fault.up ⟨b!"model", -1⟩)).map (faultErr []) := by
    simp only [List.map_append, List.map_map]
    congr 1
    exact List.map_congr_left fun f _ => (faultErr_up [] ⟨.model, core b!"model", -1⟩ f).symm
  rw [e4]
  simp only [runTokens, Option.map_some, decodeResult_report]
  rfl

/-- The model is as it is before its root part is read: of its own it has nothing but the parts that were read before. -/
structure FreshModel (m : Model) : Prop extends FreshRoot m where
  metadata : m.metadata = []
  build : m.build = ⟨[], []⟩
  any : m.any = []
  resources : m.resources = ⟨[], [], []⟩

/-- The root part is read as what it means, and exactly its faults are reported. -/
theorem C60_root (env : Env) (mem : Nat → Str → Str) (kept : Prop) (hk : kept → ∀ i t, mem i t = t) (m : Model) (hm : FreshModel m)
    (path : Str) (hp : path = m.path ∨ m.path = [] ∧ path = defaultModelPath) (pre post c : List Node) (as : List Attr)
    (hpre : NoElements pre) (hpost : NoElements post) (ha : AttrsFit env .model as) (ho : Once env .model c)
    (hc : ContentOk env kept .model (core b!"model") c) :
    decodeEvents ⟨env, true, mem⟩ false (fun _ => false) m path (treeEvents (wholeDoc pre as c post)) .eof =
      some (modelOf env m (as, c), report (partFaults env .model (as, c))) := by
  have hf : m.findResources path = some m.resources := by
    rw [Model.findResources, if_pos (Or.inr hp)]
  obtain ⟨r', w, g1, g2⟩ := model_runs (cfg := ⟨env, true, mem⟩) (kept := kept) (n := core b!"model") (c := c)
    (r := { model := { (docRootAttrs env m as).1 with extensions := extensionsOf as }, res := some m.resources })
    rfl hk (by rw [hm.resources]) hm.metadata hm.build hm.any ho hc
  rw [decode_wholeDoc hpre hpost (es := attrFaults env .model as) ?_ w]
  · congr 2
    simp only [DState.result, g2, g1]
    rw [Model.setResources, if_pos (by exact Or.inr hp)]
    rfl
  · simp only [start, if_true, docRoot_start hm.toFreshRoot ha, hf]
    rfl

/-- Another part is read as what it means, and exactly its faults are reported. -/
theorem C60_child (env : Env) (mem : Nat → Str → Str) (kept : Prop) (hk : kept → ∀ i t, mem i t = t) (m : Model)
    (path : Str) (hp : ¬ (path = [] ∨ path = m.path ∨ (m.path = [] ∧ path = defaultModelPath)))
    (hf : m.findResources path = some ⟨[], [], []⟩) (pre post c : List Node) (as : List Attr)
    (hpre : NoElements pre) (hpost : NoElements post) (ho : Once env .childModel c)
    (hc : ContentOk env kept .childModel (core b!"model") c) :
    decodeEvents ⟨env, false, mem⟩ false (fun _ => false) m path (treeEvents (wholeDoc pre as c post)) .eof =
      some ({ m with
          any := m.any ++ c.filterMap (anyOf env .childModel)
          childs := m.childs.map fun p => if p.1 = path then
            (p.1, { p.2 with resources := resourcesOf env m.extensions (child? (core b!"resources") c) }) else p },
        report (partFaults env .childModel ([], c))) := by
  obtain ⟨r', w, g1, g2⟩ := childModel_runs (cfg := ⟨env, false, mem⟩) (kept := kept) (n := core b!"model") (c := c)
    (r := { model := m, res := some ⟨[], [], []⟩ }) rfl hk rfl ho hc
  rw [decode_wholeDoc hpre hpost (es := []) ?_ w]
  · congr 2
    simp only [DState.result, g2, g1]
    rw [Model.setResources, if_neg (by exact hp)]
  · simp [start, hf]

/-- In strict mode a document without faults is read as in the lenient mode; otherwise the first fault is reported. -/
theorem C60_strict (env : Env) (mem : Nat → Str → Str) (kept : Prop) (hk : kept → ∀ i t, mem i t = t) (m : Model) (hm : FreshModel m)
    (path : Str) (hp : path = m.path ∨ m.path = [] ∧ path = defaultModelPath) (pre post c : List Node) (as : List Attr)
    (hpre : NoElements pre) (hpost : NoElements post) (ha : AttrsFit env .model as) (ho : Once env .model c)
    (hc : ContentOk env kept .model (core b!"model") c) :
    ∃ m', decodeEvents ⟨env, true, mem⟩ true (fun _ => false) m path (treeEvents (wholeDoc pre as c post)) .eof =
      some (m', match partFaults env .model (as, c) with
        | [] => .ok
        | f :: _ => .first (.wrapped f.1 (.leaf f.2) [])) ∧ (partFaults env .model (as, c) = [] → m' = modelOf env m (as, c)) := by
  have h := C60_root env mem kept hk m hm path hp pre post c as hpre hpost ha ho hc
  obtain ⟨m1, h1⟩ := C27_first _ m path _ _ _ h
  obtain ⟨m2, r2, h2, h3, h4⟩ := C27_fails _ (fun _ => false) m path _ _ _ _ h
  rw [h1] at h2
  obtain ⟨rfl, rfl⟩ := Prod.mk.inj (Option.some.inj h2)
  refine ⟨m1, ?_, fun he => h4 (by rw [he]; rfl)⟩
  rw [h1]
  match partFaults env .model (as, c) with
  | [] => rfl
  | [f] => rfl
  | f :: g :: fs => rfl

/-- The same for the bytes of a file: if the XML reader finds the tokens of a document in them. -/
theorem C60_bytes (env : Env) (mem : Nat → Str → Str) (kept : Prop) (hk : kept → ∀ i t, mem i t = t) (m : Model) (hm : FreshModel m)
    (hp : m.path = [] ∨ m.path = defaultModelPath) (data : Str) (pre post c : List Node) (as : List Attr)
    (hl : lex .eof (.new data) = (treeEvents (wholeDoc pre as c post), .eof))
    (hpre : NoElements pre) (hpost : NoElements post) (ha : AttrsFit env .model as) (ho : Once env .model c)
    (hc : ContentOk env kept .model (core b!"model") c) :
    unmarshalModel env mem data m = some (modelOf env m (as, c), report (partFaults env .model (as, c))) := by
  rw [unmarshalModel, hl]
  exact C60_root env mem kept hk m hm defaultModelPath (by rcases hp with h | h <;> simp [h]) pre post c as hpre hpost ha ho hc

/-! ## The conditions are needed -/

/-- Read a document with the given content of the root element. -/
def readDoc (c : List Node) : Option (Model × DecodeResult) :=
  decodeEvents ⟨allExt, true, fun _ t => t⟩ false (fun _ => false) .zero [] (treeEvents (wholeDoc [] [] c [])) .eof

/-- An object with a mesh. -/
def meshDoc (c : List Node) : List Node :=
  [.elem (core b!"resources") [] [.elem (core b!"object") [⟨⟨[], b!"id"⟩, b!"1"⟩] [.elem (core b!"mesh") [] c]]]

/-- **C60** is false: attributes of vertices and triangles that are not in the schema are parsed as numbers
(decoder.go:464-488, 530-587). -/
theorem C60_closed_false :
    let c := meshDoc [.elem (core b!"vertices") [] [.elem (core b!"vertex") [⟨⟨[], b!"x"⟩, b!"1"⟩, ⟨⟨[], b!"w"⟩, b!"a"⟩] []],
      .elem (core b!"triangles") [] [.elem (core b!"triangle") [⟨⟨[], b!"v1"⟩, b!"1"⟩, ⟨⟨[], b!"w"⟩, b!"a"⟩] []]]
    partFaults allExt .model ([], c) = [] ∧
    (readDoc c).map (fun p => p.2.errors.length) = some 2 := by
  decide +kernel

/-- **C60** is false: the elements of slices read attributes of any name space (slices/decoder.go:72-91). -/
theorem C60_slices_false :
    let c := [Node.elem (core b!"resources") [] [.elem (slc b!"slicestack") [⟨⟨b!"u", b!"id"⟩, b!"7"⟩] []]]
    (resourcesOf allExt [] (child? (core b!"resources") c)).assets.map Asset.identify = [0] ∧
    (readDoc c).map (fun p => p.1.resources.assets.map Asset.identify) = some [7] := by
  decide +kernel

/-- **C60** is false: only the last piece of the text of metadata is kept (decoder.go:180-182). -/
theorem C60_text_false :
    let c := [Node.elem (core b!"metadata") [⟨⟨[], b!"name"⟩, b!"Title"⟩] [.text b!"a", .other, .text b!"b"]]
    (modelOf allExt .zero ([], c)).metadata.map (·.value) = [b!"ab"] ∧
    (readDoc c).map (fun p => p.1.metadata.map (·.value)) = some [b!"b"] := by
  decide +kernel

/-- **C60** is false: an element of an unknown extension ends with the first element in it that has the same name
(read.go:110-122). -/
theorem C60_nested_false :
    let c := [Node.elem ⟨b!"u", b!"a"⟩ [] [.elem ⟨b!"u", b!"a"⟩ [] [], .text b!"b"]]
    (modelOf allExt .zero ([], c)).any = [.tokens [.start ⟨b!"u", b!"a"⟩ [], .start ⟨b!"u", b!"a"⟩ [], .stop ⟨b!"u", b!"a"⟩,
      .chars b!"b", .stop ⟨b!"u", b!"a"⟩]] ∧
    (readDoc c).map (fun p => p.1.any) = some [.tokens [.start ⟨b!"u", b!"a"⟩ [], .start ⟨b!"u", b!"a"⟩ [],
      .stop ⟨b!"u", b!"a"⟩]] := by
  decide +kernel

/-- **C60** is false: if an object has two meshes, which the schema forbids, nothing is reported and the first one is
lost (decoder.go:397-398, 626-627). -/
theorem C60_twice_false :
    let mesh (x : Str) := Node.elem (core b!"mesh") [] [.elem (core b!"vertices") []
      [.elem (core b!"vertex") [⟨⟨[], b!"x"⟩, x⟩, ⟨⟨[], b!"y"⟩, b!"0"⟩, ⟨⟨[], b!"z"⟩, b!"0"⟩] []]]
    let c := [Node.elem (core b!"resources") [] [.elem (core b!"object") [⟨⟨[], b!"id"⟩, b!"1"⟩] [mesh b!"1", mesh b!"2"]]]
    let lone := [Node.elem (core b!"resources") [] [.elem (core b!"object") [⟨⟨[], b!"id"⟩, b!"1"⟩] [mesh b!"2"]]]
    (readDoc c).map (fun p => p.2.errors.length) = some 0 ∧
    (readDoc c).map (fun p => p.1.resources.objects.map Object.mesh) =
      (readDoc lone).map (fun p => p.1.resources.objects.map Object.mesh) ∧
    (readDoc lone).map (fun p => p.1.resources.objects.map fun o => (o.mesh.map fun m => m.vertices.length)) = some [some 1] := by
  decide +kernel

/-! ## Non-vacuity -/

/-- An attribute without name space. -/
def pl (l v : Str) : Attr := ⟨⟨[], l⟩, v⟩

/-- The attributes of a root element. -/
def docAttrs : List Attr :=
  [pl b!"unit" b!"inch", ⟨⟨nsXML, b!"lang"⟩, b!"de"⟩, ⟨⟨b!"xmlns", b!"p"⟩, nsProduction⟩, pl b!"requiredextensions" b!"p",
   ⟨⟨b!"u", b!"z"⟩, b!"1"⟩, pl b!"other" b!"2"]

/-- A document with elements of all extensions, an unknown element, unknown attributes and six faults. -/
def docContent : List Node :=
  [.text b!" ", .elem (core b!"metadata") [pl b!"name" b!"Title", pl b!"preserve" b!"T"] [.text b!"t"],
   .elem (core b!"resources") []
    [.elem (mat b!"colorgroup") [pl b!"id" b!"1"] [.elem (mat b!"color") [pl b!"color" b!"#010203"] [], .text b!" ",
       .elem (mat b!"color") [pl b!"color" b!"red"] []],
     .elem (core b!"basematerials") [pl b!"id" b!"2"] [.elem (core b!"base") [pl b!"name" b!"n", pl b!"displaycolor" b!"#0a"] []],
     .elem (slc b!"slicestack") [pl b!"id" b!"3", pl b!"zbottom" b!"x"] [.elem (slc b!"slice") [pl b!"ztop" b!"1"]
       [.elem (slc b!"vertices") [] [.elem (slc b!"vertex") [pl b!"x" b!"1", pl b!"y" b!"2"] []],
        .elem (slc b!"polygon") [pl b!"startv" b!"0"] [.elem (slc b!"segment") [pl b!"v2" b!"0"] []]]],
     .elem ⟨b!"u", b!"asset"⟩ [pl b!"id" b!"9"] [.elem ⟨b!"u", b!"b"⟩ [] [.text b!"c"]],
     .elem (core b!"object") [pl b!"id" b!"4", pl b!"type" b!"odd", pl b!"pid" b!"1", ⟨⟨nsProduction, b!"UUID"⟩, b!"no"⟩]
      [.elem (core b!"unknown") [] [.elem (core b!"vertices") [] []],
       .elem (core b!"mesh") []
        [.elem (core b!"vertices") [] [.elem (core b!"vertex") [pl b!"x" b!"1", pl b!"y" b!"2", pl b!"z" b!"3"] []],
         .elem (core b!"triangles") [] [.elem (core b!"triangle") [pl b!"v1" b!"1", pl b!"v2" b!"2", pl b!"v3" b!"3", pl b!"p1" b!"1"] []],
         .elem (bml b!"beamlattice") [pl b!"radius" b!"1", pl b!"minlength" b!"2"]
          [.elem (bml b!"beams") [] [.elem (bml b!"beam") [pl b!"v1" b!"0", pl b!"v2" b!"1"] []]]]]],
   .elem (core b!"build") [] [.elem (core b!"item") [pl b!"objectid" b!"4", pl b!"transform" b!"1 0"] [], .other]]

/-- The document meets the conditions. -/
theorem docContent_ok : AttrsFit allExt .model docAttrs ∧ Once allExt .model docContent ∧
    ContentOk allExt True .model (core b!"model") docContent :=
  ⟨attrsFit_of (by decide +kernel), once_of (by decide +kernel), contentOk_of _ (by decide +kernel)⟩

/-- Its faults. -/
example : (partFaults allExt .model (docAttrs, docContent)).map (fun f => (f.1.map (·.index), f.2)) =
    [([1, 0, -1, -1], .parseAttr b!"color" true), ([0, 1, -1, -1], .parseAttr b!"displaycolor" true),
     ([2, -1, -1], .parseAttr b!"zbottom" false), ([0, -1, -1], .parseAttr b!"type" false),
     ([0, -1, -1], .parseAttr b!"UUID" true), ([0, -1, -1], .parseAttr b!"transform" false)] := by decide +kernel

/-- It is read as it should. -/
example : decodeEvents ⟨allExt, true, fun _ t => t⟩ false (fun _ => false) .zero defaultModelPath
    (treeEvents (wholeDoc [.other] docAttrs docContent [.text b!"\n"])) .eof =
      some (modelOf allExt .zero (docAttrs, docContent), report (partFaults allExt .model (docAttrs, docContent))) := by
  have h : ∀ x, NoElements [x] ↔ (match x with | .elem _ _ _ => False | _ => True) := by intro x; simp [NoElements]
  exact C60_root allExt _ True (fun _ _ _ => rfl) .zero ⟨⟨rfl, rfl, rfl, rfl, rfl⟩, rfl, rfl, rfl, rfl⟩ _ (Or.inr ⟨rfl, rfl⟩) _ _ _ _
    ((h _).2 trivial) ((h _).2 trivial) docContent_ok.1 docContent_ok.2.1 docContent_ok.2.2

/-- A child part. -/
example : ContentOk allExt True .childModel (core b!"model") docContent ∧ Once allExt .childModel docContent :=
  ⟨contentOk_of _ (by decide +kernel), once_of (by decide +kernel)⟩

/-- Bytes with the tokens of a document. -/
example : lex .eof (.new b!"<?xml version=\"1.0\"?><model xmlns=\"http://schemas.microsoft.com/3dmanufacturing/core/2015/02\" unit=\"inch\"><build> </build></model>") =
    (treeEvents (wholeDoc [.other] [pl b!"xmlns" nsCore, pl b!"unit" b!"inch"] [.elem (core b!"build") [] [.text b!" "]] []), .eof) := by
  decide +kernel

end Go3mf
