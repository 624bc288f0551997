import Verif.Lemmas.RtWritable

/-!
# C28: models survive encode then decode

`Spec.Writable` are the conditions on texts and names, `Spec.ModelOk` the ones on what has a written form, and
`Spec.NearModel` says that the models agree up to the precision of the numbers.  The theorems cover the parts of the model
that belong to extensions, too.
-/

namespace Go3mf

open Spec

/-- What is read from the root model part. -/
theorem part_back {env : Env} {mem : Nat → Str → Str} {strict : Bool} {prec : Int} {m m0 : Model} {path : Str} (hw : Writable env m)
    (h0 : m0 = m0.over .zero) (hpath : path = m0.path) :
    decodeEvents ⟨env, true, mem⟩ strict (fun _ => false) m0 path (lex .eof (.new (m.partBytes prec))).1
      (lex .eof (.new (m.partBytes prec))).2 = some (m0.over (m.back prec), .ok) := by
  rw [h0, show m0.over .zero = (m0.over .zero).over .zero from rfl]
  exact decode_part (writable_dom hw) False.elim strict (Or.inr (Or.inl (by rw [hpath]; rfl)))

/-- **C28**: decoding the root model part that `Encode` writes gives no error and gives the model back, with the numbers
rounded.  The decoder starts, as after `processOPC`, with a model that has only a path, the other parts and the
relationships; these are kept.  The mode, the registered extensions and what happens to aliased texts are arbitrary. -/
theorem C28_part (env : Env) (mem : Nat → Str → Str) (strict : Bool) (prec : Int) (m m0 : Model) (path : Str)
    (hw : Writable env m) (hk : ModelOk prec m)
    (h0 : m0 = { Model.zero with
      path := m0.path, attachments := m0.attachments, childs := m0.childs, rootRelationships := m0.rootRelationships
      relationships := m0.relationships })
    (hpath : path = m0.path) :
    ∃ m', decodeEvents ⟨env, true, mem⟩ strict (fun _ => false) m0 path (lex .eof (.new (m.partBytes prec))).1
        (lex .eof (.new (m.partBytes prec))).2 = some (m', .ok) ∧
      NearModel prec m m' ∧ m'.path = m0.path ∧ m'.attachments = m0.attachments ∧ m'.childs = m0.childs ∧
      m'.rootRelationships = m0.rootRelationships ∧ m'.relationships = m0.relationships := by
  refine ⟨m0.over (m.back prec), part_back hw h0 hpath, ?_, rfl, rfl, rfl, rfl, rfl⟩
  · obtain ⟨h1, h2, h3, h4, h5, h6, h7, h8, h9⟩ := near_model hk
    exact ⟨h1, h2, h3, h4, h5, h6, h7, h8, h9⟩

/-- **C28**: the same for `MarshalModel` and `UnmarshalModel`. -/
theorem C28_marshal (env : Env) (mem : Nat → Str → Str) (prec : Int) (m : Model) (hw : Writable env m) (hk : ModelOk prec m) :
    ∃ m', unmarshalModel env mem (printOps (fun _ => []) (m.ops prec)) .zero = some (m', .ok) ∧ NearModel prec m m' :=
  ⟨m.back prec, decode_marshal (writable_dom hw) False.elim, near_model hk⟩

/-! ## A model that meets the conditions -/

section Examples

theorem attrsOk_nil {env : Env} {exts : List Extension} {parent : Str} : AttrsOk env exts parent [] := ⟨by simp, by simp⟩

theorem groupWritable_nil {env : Env} {exts known : List Extension} : GroupWritable env exts known ⟨[], []⟩ := ⟨by simp, attrsOk_nil, by simp⟩

/-- A closed text. -/
theorem text_closed {s : Str} (h : (s.all fun b => 32 ≤ b && b < 127) = true) : Text s := by
  rw [List.all_eq_true] at h
  exact text_ascii fun b hb => by simpa using h b hb

/-- A prefix of the model and a name space nobody knows. -/
def exExts : List Extension := [⟨b!"http://example.com/v", b!"v", true⟩]

/-- The attributes of the extension. -/
def exAttrs : AnyAttr := [.unknown b!"http://example.com/v" [⟨⟨b!"http://example.com/v", b!"a"⟩, b!"x<y"⟩]]

def exMesh : Mesh :=
  { vertices := [⟨.zero, .zero, .zero⟩, ⟨.one, .zero, .zero⟩, ⟨.one, .one, .zero⟩, ⟨.zero, .one, .ofBits 0x3dcccccd⟩]
    verticesAttr := exAttrs
    triangles := [⟨0, 1, 2, 0, 0, 0, 0, []⟩, ⟨0, 1, 3, 1, 0, 1, 0, []⟩]
    trianglesAttr := []
    anyAttr := []
    any := [] }

/-- Metadata, base materials, a mesh with properties, a component with a transform and an item. -/
def exModel : Model :=
  { Model.zero with
    language := b!"en"
    units := .inch
    extensions := exExts
    metadata := [⟨⟨[], b!"Title"⟩, b!"A & B", b!"", true⟩, ⟨⟨b!"v", b!"k"⟩, b!"1", b!"xs:int", false⟩]
    resources :=
      { assets := [.base ⟨1, [⟨b!"red", ⟨255, 0, 0, 255⟩, []⟩, ⟨b!"blue", ⟨0, 0, 255, 128⟩, []⟩], []⟩]
        objects := [
          { id := 2, name := b!"box", partNumber := b!"p", thumbnail := [], pid := 1, pindex := 1, type := .model
            metadata := ⟨[], []⟩, mesh := some exMesh, components := none, anyAttr := exAttrs },
          { id := 3, name := [], partNumber := [], thumbnail := [], pid := 0, pindex := 0, type := .support
            metadata := ⟨[], []⟩, mesh := none
            components := some ⟨[⟨2, { Matrix.identity with m12 := .ofBits 0x41200000 }, []⟩], []⟩, anyAttr := [] }]
        anyAttr := [] }
    build := ⟨[⟨3, .zero, b!"q", ⟨[], []⟩, []⟩], []⟩ }

def exEnv : Env := ⟨id, true, true, true, true⟩

theorem exAttrs_ok (parent : Str) : AttrsOk exEnv exExts parent exAttrs := by
  refine ⟨by simp [exAttrs], ?_⟩
  intro g hg
  simp only [exAttrs, List.mem_singleton] at hg
  subst hg
  refine ⟨by unfold Known; decide +kernel, by simp, fun a ha => ?_⟩
  simp only [List.mem_singleton] at ha
  subst ha
  exact ⟨rfl, Or.inr ⟨by simp, _, List.mem_singleton.2 rfl, rfl⟩, ⟨by simp, by decide +kernel⟩, text_closed (by decide +kernel)⟩

theorem exMetadata : ∀ md ∈ exModel.metadata, MetadataWritable exExts md := by
  intro md hmd
  simp only [exModel, List.mem_cons, List.not_mem_nil, or_false] at hmd
  rcases hmd with rfl | rfl
  · refine ⟨text_closed (by decide +kernel), text_closed (by decide +kernel), text_closed (by decide +kernel),
      text_closed (by decide +kernel), Or.inr ⟨rfl, fun p l h => ?_⟩⟩
    have : (58 : Byte) ∈ b!"Title" := by
      have h' : b!"Title" = p ++ b!":" ++ l := h
      rw [h']
      simp
    exact absurd this (by decide)
  · exact ⟨text_closed (by decide +kernel), text_closed (by decide +kernel), text_closed (by decide +kernel),
      text_closed (by decide +kernel), Or.inl ⟨by simp, by decide, _, List.mem_singleton.2 rfl, rfl⟩⟩

theorem exMesh_ok : MeshWritable exEnv exExts exMesh := by
  refine ⟨attrsOk_nil, exAttrs_ok _, attrsOk_nil, ?_, by simp [exMesh]⟩
  intro t ht
  simp only [exMesh, List.mem_cons, List.not_mem_nil, or_false] at ht
  rcases ht with rfl | rfl <;> exact ⟨attrsOk_nil, by simp [unknownValues]⟩

theorem exWritable : Writable exEnv exModel := by
  refine ⟨?_, by simp [exModel, exExts], text_closed (by decide +kernel), text_closed (by decide +kernel), attrsOk_nil, by simp [exModel, Model.zero],
    exMetadata, ?_, ?_, attrsOk_nil, ?_, attrsOk_nil, by simp [exModel, Model.zero]⟩
  · intro x hx
    simp only [exModel, exExts, List.mem_singleton] at hx
    subst hx
    refine ⟨⟨by simp, by decide +kernel⟩, text_closed (by decide +kernel), by decide +kernel, ⟨text_closed (by decide +kernel), by decide +kernel⟩,
      fun _ => ⟨by simp, by decide +kernel⟩⟩
  · intro a ha
    simp only [exModel, List.mem_singleton] at ha
    subst ha
    refine ⟨attrsOk_nil, fun b hb => ?_⟩
    simp only [List.mem_cons, List.not_mem_nil, or_false] at hb
    rcases hb with rfl | rfl <;> exact ⟨text_closed (by decide +kernel), attrsOk_nil⟩
  · intro o ho
    simp only [exModel, List.mem_cons, List.not_mem_nil, or_false] at ho
    rcases ho with rfl | rfl
    · refine ⟨text_closed (by decide +kernel), text_closed (by decide +kernel), text_closed (by decide +kernel), groupWritable_nil, ?_, by simp, exAttrs_ok _,
        by rintro x ⟨⟩; exact undisturbed_plain (by simp [exMesh])⟩
      rintro x ⟨⟩
      exact exMesh_ok
    · refine ⟨text_closed (by decide +kernel), text_closed (by decide +kernel), text_closed (by decide +kernel), groupWritable_nil, by simp, ?_, attrsOk_nil, by simp⟩
      rintro x ⟨⟩
      refine ⟨attrsOk_nil, fun c hc => ?_⟩
      simp only [List.mem_singleton] at hc
      subst hc
      exact attrsOk_nil
  · intro i hi
    simp only [exModel, List.mem_singleton] at hi
    subst hi
    exact ⟨text_closed (by decide +kernel), groupWritable_nil, attrsOk_nil⟩

theorem exOk (prec : Int) : ModelOk prec exModel := by
  refine ⟨?_, ?_, ⟨by simp [exModel, Model.zero], by simp [exModel, Model.zero]⟩⟩
  · intro a ha
    simp only [exModel, List.mem_singleton] at ha
    subst ha
    trivial
  · intro o ho
    simp only [exModel, List.mem_cons, List.not_mem_nil, or_false] at ho
    rcases ho with rfl | rfl
    · refine ⟨Or.inr rfl, by simp, ?_⟩
      rintro x ⟨⟩
      exact ⟨by simp [exMesh], by simp [exMesh]⟩
    · exact ⟨Or.inl rfl, fun _ => ⟨rfl, rfl⟩, by simp⟩

/-- The model is written and read back; the first triangle gets the property of its object. -/
example (mem : Nat → Str → Str) :
    ∃ m', unmarshalModel exEnv mem (printOps (fun _ => []) (exModel.ops 3)) .zero = some (m', .ok) ∧ NearModel 3 exModel m' :=
  C28_marshal exEnv mem 3 exModel exWritable (exOk 3)

/-! ## What is lost -/

/-- A components object with a property. -/
def exLost : Model :=
  { Model.zero with
    resources :=
      { assets := []
        objects := [
          { id := 3, name := [], partNumber := [], thumbnail := [], pid := 1, pindex := 1, type := .model
            metadata := ⟨[], []⟩, mesh := none, components := some ⟨[⟨2, .zero, []⟩], []⟩, anyAttr := [] },
          { id := 4, name := [], partNumber := [], thumbnail := [], pid := 0, pindex := 0, type := .model
            metadata := ⟨[], []⟩, mesh := some ⟨[], [], [⟨0, 1, 2, 0, 0, 0, 0, []⟩], [], [], []⟩
            components := some ⟨[⟨2, .zero, []⟩], []⟩, anyAttr := [] },
          { id := 5, name := [], partNumber := [], thumbnail := [], pid := 1, pindex := 2, type := .model
            metadata := ⟨[], []⟩, mesh := some ⟨[], [], [⟨0, 1, 2, 0, 0, 0, 0, []⟩], [], [], []⟩, components := none, anyAttr := [] }]
        anyAttr := [] } }

theorem exLost_writable : Writable exEnv exLost := by
  refine ⟨by simp [exLost, Model.zero], by simp [exLost, Model.zero], Text.nil, Text.nil, attrsOk_nil, by simp [exLost, Model.zero],
    by simp [exLost, Model.zero], by simp [exLost], ?_, attrsOk_nil, by simp [exLost, Model.zero, Build.zero], attrsOk_nil, by simp [exLost, Model.zero]⟩
  have hc : ComponentsWritable exEnv exLost.extensions ⟨[⟨2, .zero, []⟩], []⟩ := by
    refine ⟨attrsOk_nil, fun c hc => ?_⟩
    simp only [List.mem_singleton] at hc
    subst hc
    exact attrsOk_nil
  have hm : MeshWritable exEnv exLost.extensions ⟨[], [], [⟨0, 1, 2, 0, 0, 0, 0, []⟩], [], [], []⟩ := by
    refine ⟨attrsOk_nil, attrsOk_nil, attrsOk_nil, fun t ht => ?_, by simp⟩
    simp only [List.mem_singleton] at ht
    subst ht
    exact ⟨attrsOk_nil, by simp [unknownValues]⟩
  intro o ho
  simp only [exLost, List.mem_cons, List.not_mem_nil, or_false] at ho
  rcases ho with rfl | rfl | rfl
  · refine ⟨Text.nil, Text.nil, Text.nil, groupWritable_nil, by simp, ?_, attrsOk_nil, by simp⟩
    rintro x ⟨⟩; exact hc
  · refine ⟨Text.nil, Text.nil, Text.nil, groupWritable_nil, ?_, ?_, attrsOk_nil, by rintro x ⟨⟩; exact undisturbed_plain (by simp)⟩
    · rintro x ⟨⟩; exact hm
    · rintro x ⟨⟩; exact hc
  · refine ⟨Text.nil, Text.nil, Text.nil, groupWritable_nil, ?_, by simp, attrsOk_nil, by rintro x ⟨⟩; exact undisturbed_plain (by simp)⟩
    rintro x ⟨⟩; exact hm

/-- The decoded `exLost`. -/
theorem exLost_decoded (mem : Nat → Str → Str) :
    unmarshalModel exEnv mem (printOps (fun _ => []) (exLost.ops 4)) .zero = some (exLost.back 4, .ok) :=
  decode_marshal (writable_dom exLost_writable) False.elim

/-- An object with components loses its property. -/
theorem C28_components_false (mem : Nat → Str → Str) : ∃ m m' o o', Writable exEnv m ∧
    unmarshalModel exEnv mem (printOps (fun _ => []) (m.ops 4)) .zero = some (m', .ok) ∧
    m.resources.objects[0]? = some o ∧ m'.resources.objects[0]? = some o' ∧ o.pid = 1 ∧ o'.pid = 0 :=
  ⟨exLost, _, _, _, exLost_writable, exLost_decoded mem, rfl, rfl, rfl, rfl⟩

/-- An object with a mesh and components loses the components. -/
theorem C28_both_false (mem : Nat → Str → Str) : ∃ m m' o o', Writable exEnv m ∧
    unmarshalModel exEnv mem (printOps (fun _ => []) (m.ops 4)) .zero = some (m', .ok) ∧
    m.resources.objects[1]? = some o ∧ m'.resources.objects[1]? = some o' ∧ o.components ≠ none ∧ o'.components = none :=
  ⟨exLost, _, _, _, exLost_writable, exLost_decoded mem, rfl, rfl, by simp, rfl⟩

/-- A triangle without a property comes back with the one of its object. -/
theorem C28_default_false (mem : Nat → Str → Str) : ∃ m m' o o' x x' t t', Writable exEnv m ∧
    unmarshalModel exEnv mem (printOps (fun _ => []) (m.ops 4)) .zero = some (m', .ok) ∧
    m.resources.objects[2]? = some o ∧ m'.resources.objects[2]? = some o' ∧ o.mesh = some x ∧ o'.mesh = some x' ∧
    x.triangles = [t] ∧ x'.triangles = [t'] ∧ t.pid = 0 ∧ t'.pid = 1 ∧ t'.p1 = 2 :=
  ⟨exLost, _, _, _, _, _, _, _, exLost_writable, exLost_decoded mem, rfl, rfl, rfl, rfl, rfl, rfl, rfl, rfl, rfl⟩

end Examples

end Go3mf
