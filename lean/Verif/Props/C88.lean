import Mathlib.Tactic.FinCases
import Verif.Model.EnumNums
import Verif.Model.Attrs
import Verif.Props.C21

/-!
# C88: numbers that are not values of an enumeration
-/

namespace Go3mf

/-- The attributes of a tag are read one after the other. -/
def Spec.readAttrs {σ : Type} (f : σ → Attr → σ × List Leaf) : List Attr → σ → σ × List Leaf
  | [], s => (s, [])
  | a :: as, s => ((readAttrs f as (f s a).1).1, (f s a).2 ++ (readAttrs f as (f s a).1).2)

/-- A number that is the value of a constant. -/
def GoEnum.Named {α : Type} (e : GoEnum α) (n : UInt8) : Prop := ∃ v, e.code v = n

/-- The constants are different numbers, their texts are those of `str`, and other numbers have an empty text. -/
def GoEnum.Texts {α : Type} (e : GoEnum α) (str : α → Str) : Prop :=
  (∀ v w, e.code v = e.code w → v = w) ∧ (∀ v, e.string (e.code v) = str v) ∧ ∀ n, ¬ e.Named n → e.string n = []

theorem lookupName_other : ∀ {t : List (UInt8 × Str)} {n : UInt8}, (∀ x ∈ t, x.1 ≠ n) → lookupName t n = []
  | [], _, _ => rfl
  | (k, s) :: t, n, h => by
    rw [lookupName, if_neg (h (k, s) (by simp)), lookupName_other fun x hx => h x (by simp [hx])]

theorem texts_of {α : Type} {e : GoEnum α} {str : α → Str} (h1 : ∀ v w, e.code v = e.code w → v = w) (h2 : ∀ v, e.string (e.code v) = str v)
    (h3 : ∀ x ∈ e.names, ∃ v, e.code v = x.1) : e.Texts str :=
  ⟨h1, h2, fun _ hn => lookupName_other fun x hx hx' => hn (by obtain ⟨v, hv⟩ := h3 x hx; exact ⟨v, hv.trans hx'⟩)⟩

/-- **C88**: the constants of an enumeration have different numbers and the texts of the specification, and any other number has an
empty text, which no constant has. -/
theorem C88_texts : unitsEnum.Texts Units.str ∧ objectTypeEnum.Texts ObjectType.str ∧ meshResolutionEnum.Texts MeshResolution.str ∧
    clipModeEnum.Texts ClipMode.str ∧ capModeEnum.Texts CapMode.str ∧ texture2DTypeEnum.Texts Texture2DType.str ∧
    tileStyleEnum.Texts TileStyle.str ∧ textureFilterEnum.Texts TextureFilter.str ∧ blendMethodEnum.Texts BlendMethod.str := by
  refine ⟨texts_of ?_ ?_ ?_, texts_of ?_ ?_ ?_, texts_of ?_ ?_ ?_, texts_of ?_ ?_ ?_, texts_of ?_ ?_ ?_, texts_of ?_ ?_ ?_,
    texts_of ?_ ?_ ?_, texts_of ?_ ?_ ?_, texts_of ?_ ?_ ?_⟩
  · intro v w; cases v <;> cases w <;> decide
  · intro v; cases v <;> decide
  · intro x hx
    fin_cases hx
    exacts [⟨.millimeter, rfl⟩, ⟨.micrometer, rfl⟩, ⟨.centimeter, rfl⟩, ⟨.inch, rfl⟩, ⟨.foot, rfl⟩, ⟨.meter, rfl⟩]
  · intro v w; cases v <;> cases w <;> decide
  · intro v; cases v <;> decide
  · intro x hx
    fin_cases hx
    exacts [⟨.model, rfl⟩, ⟨.other, rfl⟩, ⟨.support, rfl⟩, ⟨.solidSupport, rfl⟩, ⟨.surface, rfl⟩]
  · intro v w; cases v <;> cases w <;> decide
  · intro v; cases v <;> decide
  · intro x hx
    fin_cases hx
    exacts [⟨.full, rfl⟩, ⟨.low, rfl⟩]
  · intro v w; cases v <;> cases w <;> decide
  · intro v; cases v <;> decide
  · intro x hx
    fin_cases hx
    exacts [⟨.none, rfl⟩, ⟨.inside, rfl⟩, ⟨.outside, rfl⟩]
  · intro v w; cases v <;> cases w <;> decide
  · intro v; cases v <;> decide
  · intro x hx
    fin_cases hx
    exacts [⟨.sphere, rfl⟩, ⟨.hemisphere, rfl⟩, ⟨.butt, rfl⟩]
  · intro v w; cases v <;> cases w <;> decide
  · intro v; cases v <;> decide
  · intro x hx
    fin_cases hx
    exacts [⟨.png, rfl⟩, ⟨.jpeg, rfl⟩]
  · intro v w; cases v <;> cases w <;> decide
  · intro v; cases v <;> decide
  · intro x hx
    fin_cases hx
    exacts [⟨.wrap, rfl⟩, ⟨.mirror, rfl⟩, ⟨.clamp, rfl⟩, ⟨.none, rfl⟩]
  · intro v w; cases v <;> cases w <;> decide
  · intro v; cases v <;> decide
  · intro x hx
    fin_cases hx
    exacts [⟨.auto, rfl⟩, ⟨.linear, rfl⟩, ⟨.nearest, rfl⟩]
  · intro v w; cases v <;> cases w <;> decide
  · intro v; cases v <;> decide
  · intro x hx
    fin_cases hx
    exacts [⟨.mix, rfl⟩, ⟨.multiply, rfl⟩]

/-- The zero value of each type is the value that a missing attribute means. -/
theorem C88_zero : unitsEnum.code .millimeter = 0 ∧ objectTypeEnum.code .model = 0 ∧ meshResolutionEnum.code .full = 0 ∧
    clipModeEnum.code .none = 0 ∧ capModeEnum.code .sphere = 0 ∧ texture2DTypeEnum.code .unset = 0 ∧ tileStyleEnum.code .wrap = 0 ∧
    textureFilterEnum.code .auto = 0 ∧ blendMethodEnum.code .mix = 0 := by decide

/-- What is read back: the value, or an error if there is none with this number. -/
theorem read_back {α : Type} {e : GoEnum α} {str : α → Str} {parse : Str → Option α} (ht : e.Texts str)
    (hp : ∀ s v, parse s = some v ↔ s = str v) (hne : ∀ v, str v ≠ []) (n : UInt8) :
    (∃ v, e.code v = n ∧ parse (e.string n) = some v) ∨ (¬ e.Named n ∧ parse (e.string n) = none) := by
  by_cases h : e.Named n
  · obtain ⟨v, rfl⟩ := h
    exact .inl ⟨v, rfl, (hp _ _).2 (ht.2.1 v)⟩
  · refine .inr ⟨h, ?_⟩
    rw [ht.2.2 n h]
    cases hh : parse [] with
    | none => rfl
    | some v => exact absurd ((hp _ _).1 hh).symm (hne v)

/-- The unit of a model is read back, or reported if it is none. -/
theorem C88_units_partial (env : Env) (s : ModelAttrs) (n : UInt8) (a : Attr) (ha : a ∈ enumAlways unitsEnum ⟨[], b!"unit"⟩ n) :
    ∃ s' errs, modelAttr env s a = some (s', errs) ∧
      ((unitsEnum.Named n ∧ errs = [] ∧ unitsEnum.code s'.1.units = n) ∨ (¬ unitsEnum.Named n ∧ errs = [.parseAttr b!"unit" false])) := by
  rw [enumAlways, List.mem_singleton] at ha
  subst ha
  refine ⟨_, _, by rw [modelAttr, if_pos rfl, if_pos rfl], ?_⟩
  rcases read_back C88_texts.1 C21_units (fun v => by cases v <;> decide) n with ⟨v, h1, h2⟩ | ⟨h1, h2⟩
  · refine .inl ⟨⟨v, h1⟩, ?_, ?_⟩ <;> simp only [enumAttr, h2, h1]
  · exact .inr ⟨h1, by simp only [enumAttr, h2]⟩

/-- The type of an object is read back, or reported. -/
theorem C88_type_partial (o : Object) (ho : o.type = .model) (n : UInt8) :
    let r := Spec.readAttrs objectCore (enumUnlessZero objectTypeEnum ⟨[], b!"type"⟩ n) o;
    (objectTypeEnum.Named n ∧ r.2 = [] ∧ objectTypeEnum.code r.1.type = n) ∨
    (¬ objectTypeEnum.Named n ∧ r.2 = [.parseAttr b!"type" false]) := by
  by_cases h0 : n = 0
  · subst h0
    exact .inl ⟨⟨.model, rfl⟩, rfl, by show objectTypeEnum.code o.type = 0; rw [ho]; rfl⟩
  · have e : ∀ a : Attr, a.name = ⟨[], b!"type"⟩ → objectCore o a =
        ({ o with type := (enumAttr (newObjectType a.value) .model a).1 }, (enumAttr (newObjectType a.value) .model a).2) := by
      intro a ha
      rw [objectCore, ha, if_neg (by decide), if_pos rfl]
    simp only [enumUnlessZero, if_pos h0, ne_eq, Spec.readAttrs, e, List.append_nil]
    rcases read_back C88_texts.2.1 C21_objectType (fun v => by cases v <;> decide) n with ⟨v, h1, h2⟩ | ⟨h1, h2⟩
    · refine .inl ⟨⟨v, h1⟩, ?_, ?_⟩ <;> simp only [enumAttr, h2, h1]
    · exact .inr ⟨h1, by simp only [enumAttr, h2]⟩

/-- The mesh resolution of an object is read back, or reported. -/
theorem C88_resolution_partial (id : UInt32) (n : UInt8) :
    let r := Spec.readAttrs AttrGroup.unmarshal (enumAlways meshResolutionEnum ⟨nsSlices, b!"meshresolution"⟩ n) (.sliceObject id .full);
    (meshResolutionEnum.Named n ∧ r.2 = [] ∧ ∃ v, r.1 = .sliceObject id v ∧ meshResolutionEnum.code v = n) ∨
    (¬ meshResolutionEnum.Named n ∧ r.2 = [.parseAttr b!"meshresolution" false]) := by
  simp only [enumAlways, Spec.readAttrs, List.append_nil]
  rcases read_back C88_texts.2.2.1 C21_meshResolution (fun v => by cases v <;> decide) n with ⟨v, h1, h2⟩ | ⟨h1, h2⟩
  · refine .inl ⟨⟨v, h1⟩, ?_, v, ?_, h1⟩ <;> simp [AttrGroup.unmarshal, h2]
  · exact .inr ⟨h1, by simp [AttrGroup.unmarshal, h2]⟩

/-- The modes of a beam lattice are read back, or reported. -/
theorem C88_lattice_partial (r : BeamLattice) (hc : r.clipMode = .none) (hk : r.capMode = .sphere) (n : UInt8) :
    (let x := Spec.readAttrs beamLatticeAttr (enumUnlessZero clipModeEnum ⟨[], b!"clippingmode"⟩ n) r;
      (clipModeEnum.Named n ∧ x.2 = [] ∧ clipModeEnum.code x.1.clipMode = n) ∨
      (¬ clipModeEnum.Named n ∧ x.2 = [.parseAttr b!"clippingmode" false])) ∧
    let x := Spec.readAttrs beamLatticeAttr (enumUnlessZero capModeEnum ⟨[], b!"cap"⟩ n) r;
      (capModeEnum.Named n ∧ x.2 = [] ∧ capModeEnum.code x.1.capMode = n) ∨
      (¬ capModeEnum.Named n ∧ x.2 = [.parseAttr b!"cap" false]) := by
  constructor
  · by_cases h0 : n = 0
    · subst h0
      exact .inl ⟨⟨.none, rfl⟩, rfl, by show clipModeEnum.code r.clipMode = 0; rw [hc]; rfl⟩
    · simp only [enumUnlessZero, ne_eq, h0, not_false_eq_true, if_true, Spec.readAttrs, List.append_nil]
      rcases read_back C88_texts.2.2.2.1 C21_clipMode (fun v => by cases v <;> decide) n with ⟨v, h1, h2⟩ | ⟨h1, h2⟩
      · refine .inl ⟨⟨v, h1⟩, ?_, ?_⟩ <;> simp [beamLatticeAttr, enumAttr, h2, h1]
      · exact .inr ⟨h1, by simp [beamLatticeAttr, enumAttr, h2]⟩
  · by_cases h0 : n = 0
    · subst h0
      exact .inl ⟨⟨.sphere, rfl⟩, rfl, by show capModeEnum.code r.capMode = 0; rw [hk]; rfl⟩
    · simp only [enumUnlessZero, ne_eq, h0, not_false_eq_true, if_true, Spec.readAttrs, List.append_nil]
      rcases read_back C88_texts.2.2.2.2.1 C21_capMode (fun v => by cases v <;> decide) n with ⟨v, h1, h2⟩ | ⟨h1, h2⟩
      · refine .inl ⟨⟨v, h1⟩, ?_, ?_⟩ <;> simp [beamLatticeAttr, enumAttr, h2, h1]
      · exact .inr ⟨h1, by simp [beamLatticeAttr, enumAttr, h2]⟩

/-- **C88 does not hold for textures**: a tile style, a filter or a content type that is none is read back without an error as the zero value. -/
theorem C88_texture_false (r : Texture2D) (hu : r.tileU = .wrap) (hf : r.filter = .auto) (hc : r.contentType = .unset) :
    (¬ tileStyleEnum.Named 7 ∧ Spec.readAttrs texture2DAttr (enumUnlessZero tileStyleEnum ⟨[], b!"tilestyleu"⟩ 7) r = (r, [])) ∧
    (¬ textureFilterEnum.Named 7 ∧ Spec.readAttrs texture2DAttr (enumUnlessZero textureFilterEnum ⟨[], b!"filter"⟩ 7) r = (r, [])) ∧
    (¬ texture2DTypeEnum.Named 7 ∧ Spec.readAttrs texture2DAttr (enumAlways texture2DTypeEnum ⟨[], b!"contenttype"⟩ 7) r = (r, [])) := by
  obtain ⟨id, path, ct, tu, tv, f⟩ := r
  simp only at hu hf hc
  subst hu hf hc
  refine ⟨⟨?_, rfl⟩, ⟨?_, rfl⟩, ?_, rfl⟩ <;> (rintro ⟨v, hv⟩; cases v <;> revert hv <;> decide)

/-- **Nor for the caps of a beam**, which is read back with the cap mode of the lattice. -/
theorem C88_cap_false (r : BeamVars) (hr : r.cap1 = none) : ¬ capModeEnum.Named 7 ∧
    Spec.readAttrs beamAttr [⟨⟨[], b!"cap1"⟩, capModeEnum.string 7⟩] r = (r, []) := by
  obtain ⟨v1, v2, r1, r2, c1, c2⟩ := r
  simp only at hr
  subst hr
  refine ⟨?_, rfl⟩
  rintro ⟨v, hv⟩; cases v <;> revert hv <;> decide

/-- **Nor for blend methods**: a method that is none vanishes, and the methods of the following layers are read back for the layers before
them, without an error. -/
theorem C88_blend_false (r : MultiProperties) (hr : r.blend = []) : ¬ blendMethodEnum.Named 7 ∧
    Spec.readAttrs multiPropertiesAttr [blendAttr [7, 1]] r = ({ r with blend := [.multiply] }, []) := by
  obtain ⟨id, pids, blend, multis⟩ := r
  simp only at hr
  subst hr
  refine ⟨?_, rfl⟩
  rintro ⟨v, hv⟩; cases v <;> revert hv <;> decide

/-- Numbers that are constants, and one that is none. -/
example : unitsEnum.Named 5 ∧ ¬ unitsEnum.Named 6 ∧ unitsEnum.string 5 = b!"meter" ∧ unitsEnum.string 6 = [] := by
  refine ⟨⟨.meter, rfl⟩, ?_, rfl, rfl⟩
  rintro ⟨v, hv⟩; cases v <;> revert hv <;> decide

end Go3mf
