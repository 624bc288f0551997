import Verif.Lemmas.XmlText
import Verif.Props.C26

/-!
# C102: what is written is UTF-8 and consists of XML characters

The header of every part promises UTF-8, and a document with a byte sequence or a character that XML forbids is not well
formed: no parser reads it.  Whatever bytes the values and texts of a model consist of, the part written for it is UTF-8 and
has only characters of XML, provided that this holds of the names that the model brings along and of the additional
attributes of triangles, the values of which are not escaped.
-/

namespace Go3mf

open Spec

/-- **C102** (internal/xml/printer.go, encoder.go:160-169): the part of a root model consists of XML characters in UTF-8. -/
theorem C102_part_partial {m : Model} (h : NamedModel m) (prec : Int) : XmlText (m.partBytes prec) :=
  (XmlText.ascii (by decide +kernel)).append (printOps_text (fun _ => XmlText.nil) (Model.text h))

/-- **C102** (encoder.go:190-195): and so does the part of a child model. -/
theorem C102_child_partial {m : Model} {c : ChildModel} (h : NamedRoot m) (hc : NamedChild c) (prec : Int) :
    XmlText (c.partBytes prec m) :=
  (XmlText.ascii (by decide +kernel)).append (printOps_text (fun _ => XmlText.nil) (ChildModel.text h hc))

/-- **C102** (encoder.go:98-104): and so does the result of `MarshalModel`. -/
theorem C102_marshal_partial {m : Model} (h : NamedModel m) : XmlText (marshalModel m) :=
  printOps_text (fun _ => XmlText.nil) (Model.text h)

/-- **C102** (`xml.EscapeText`): arbitrary bytes become a text. -/
theorem C102_escape (s : Str) : XmlText (escape s) := escape_text s

/-! ## A case -/

/-- A model with forbidden characters and invalid bytes in its texts and values, and with an unknown attribute whose name is
`é`. -/
def textModel : Model :=
  { Model.zero with
    language := [0xFF, 0xFE]
    metadata := [⟨⟨[], b!"Title"⟩, [0, 0xC3], [], true⟩]
    extensions := [⟨b!"http://example.com", b!"ex", false⟩]
    anyAttr := [.unknown b!"http://example.com" [⟨⟨b!"http://example.com", [0xC3, 0xA9]⟩, [0x80]⟩]] }

theorem textModel_named : NamedModel textModel := by
  have he : XmlText [0xC3, 0xA9] := ⟨[0xE9], by decide, by decide⟩
  have hn : NamedAttrs [] := fun s as h => nomatch h
  have hx : XmlText b!"http://example.com" := XmlText.ascii (by decide)
  refine ⟨⟨?_, ?_⟩, ⟨hn, ?_, ?_⟩, ?_, hn, ?_⟩
  · intro s as h a ha
    simp only [textModel, List.mem_singleton, AttrGroup.unknown.injEq] at h
    rw [h.2, List.mem_singleton] at ha
    subst ha
    exact ⟨he, hx⟩
  · intro x hx
    simp only [textModel, List.mem_singleton] at hx
    subst hx
    exact XmlText.ascii (s := b!"ex") (by decide)
  all_goals exact fun _ h => nomatch h

example : XmlText (textModel.partBytes 4) := C102_part_partial textModel_named 4

/-! ## What is not checked -/

theorem utf8_no255 {c : Nat} (h : XmlChar c) : (0xFF : Byte) ∉ utf8 c := by
  have hlt : c < 0x110000 := by unfold XmlChar at h; omega
  have hne : ∀ n : Nat, n < 255 → (0xFF : Byte) ≠ UInt8.ofNat n := by
    intro n hn he
    have := congrArg UInt8.toNat he
    rw [toNat_ofNat_lt (by omega)] at this
    have h255 : (0xFF : Byte).toNat = 255 := rfl
    omega
  intro hm
  unfold utf8 utf8Nat at hm
  obtain ⟨n, hn, he⟩ := List.mem_map.1 hm
  refine hne n ?_ he.symm
  split at hn
  · simp at hn; omega
  · split at hn
    · simp at hn; omega
    · split at hn <;> simp at hn <;> omega

theorem Spec.XmlText.no255 {s : Str} (h : XmlText s) : (0xFF : Byte) ∉ s := by
  obtain ⟨cs, hc, rfl⟩ := h
  intro hm
  obtain ⟨c, hcs, hb⟩ := List.mem_flatMap.1 hm
  exact utf8_no255 (hc c hcs) hb

/-- **C102** is violated: a prefix is written as it is. -/
theorem C102_prefix_false : ∃ m : Model, m.anyAttr = [] ∧ m.any = [] ∧ m.resources.objects = [] ∧
    ¬ XmlText (marshalModel m) :=
  ⟨{ Model.zero with extensions := [⟨b!"http://example.com", [0xFF], false⟩] }, rfl, rfl, rfl,
    fun h => h.no255 (by decide +kernel)⟩

/-- A model with one triangle, which has an additional attribute. -/
def triangleModel (v : Str) : Model :=
  { Model.zero with
    extensions := [⟨nsProduction, b!"p", false⟩]
    resources := ⟨[], [⟨1, [], [], [], 0, 0, .model, ⟨[], []⟩,
      some ⟨[], [], [⟨0, 1, 2, 0, 0, 0, 0, [.unknown nsProduction [⟨⟨nsProduction, b!"note"⟩, v⟩]]⟩], [], [], []⟩,
      none, []⟩], []⟩ }

/-- **C102** is violated (encoder.go:466-508): the value of an additional attribute of a triangle is written as it is, though
all names are texts. -/
theorem C102_triangle_false : ∃ v, ¬ XmlText (marshalModel (triangleModel v)) :=
  ⟨[0xFF], fun h => h.no255 (by decide +kernel)⟩

/-- A document with an invalid byte as a prefix. -/
def prefixDoc : Str :=
  b!"<model xmlns=\"http://schemas.microsoft.com/3dmanufacturing/core/2015/02\" xmlns:" ++ [0xFF] ++
    b!"=\"http://example.com\"></model>"

set_option maxRecDepth 8000 in
/-- **C102** is violated also by a model that has been read: the reader takes any byte beyond ASCII for a part of a name. -/
theorem C102_reread_false : ∃ m, unmarshalModel allExt (fun _ t => t) prefixDoc .zero = some (m, .ok) ∧
    ¬ XmlText (marshalModel m) := by
  have h : ((unmarshalModel allExt (fun _ t => t) prefixDoc .zero).map fun r =>
      (decide ((0xFF : Byte) ∈ marshalModel r.1), match r.2 with | .ok => true | _ => false)) = some (true, true) := by
    decide +kernel
  obtain ⟨⟨m, r⟩, hm, hr⟩ := Option.map_eq_some_iff.1 h
  simp only [Prod.mk.injEq, decide_eq_true_eq] at hr
  cases r with
  | ok => exact ⟨m, hm, fun ht => ht.no255 hr.1⟩
  | _ => exact nomatch hr.2

end Go3mf
