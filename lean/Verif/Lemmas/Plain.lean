import Verif.Model.Encode
import Verif.Props.C16
import Verif.Props.C17
import Verif.Props.C21
import Verif.Props.C22

/-!
# Texts that the writer copies and the reader reads unchanged
-/

namespace Go3mf

open F32

/-- A printable ASCII character other than the five markup characters. -/
def plainByte (b : Byte) : Bool := 32 ≤ b && b ≤ 126 && b != 34 && b != 39 && b != 38 && b != 60 && b != 62

/-- A text of such characters. -/
def Plain (s : Str) : Prop := ∀ b ∈ s, plainByte b = true

theorem plainByte_escape : ∀ b : Byte, plainByte b = true → b < 0x80 ∧ escapeASCII b = [b] ∧ cleanASCII b = [b] :=
  forall_byte (by decide +kernel)

theorem Plain.escape : ∀ {s : Str}, Plain s → escape s = s
  | [], _ => rfl
  | b :: s, h => by
    obtain ⟨h1, h2, -⟩ := plainByte_escape b (h b (by simp))
    have ih := Plain.escape (s := s) (fun c hc => h c (by simp [hc]))
    unfold Go3mf.escape at ih ⊢
    rw [escapeGo, if_pos h1, h2, ih]
    rfl

theorem Plain.clean : ∀ {s : Str}, Plain s → cleanText s = s
  | [], _ => rfl
  | b :: s, h => by
    obtain ⟨h1, -, h2⟩ := plainByte_escape b (h b (by simp))
    have ih := Plain.clean (s := s) (fun c hc => h c (by simp [hc]))
    unfold cleanText at ih ⊢
    rw [cleanGo, if_pos h1, h2, ih]
    rfl

theorem Plain.append {s t : Str} (hs : Plain s) (ht : Plain t) : Plain (s ++ t) := by
  intro b hb
  rcases List.mem_append.1 hb with h | h
  · exact hs b h
  · exact ht b h

theorem plain_join {fs : List Str} (h : ∀ f ∈ fs, Plain f) : Plain (Str.join b!" " fs) := by
  induction fs with
  | nil => intro b hb; simp [Str.join] at hb
  | cons f fs ih =>
    cases fs with
    | nil => rw [Str.join]; exact h f (by simp)
    | cons g gs =>
      rw [Str.join]
      · exact ((h f (by simp)).append (by unfold Plain; decide)).append (ih fun x hx => h x (by simp [hx]))
      · simp

theorem digit_plain : ∀ b : Byte, isDigit b = true → plainByte b = true := forall_byte (by decide +kernel)

theorem plain_formatUint (x : UInt32) : Plain (formatUint x) := fun b hb => digit_plain b (natDigits_digits _ b hb)

theorem plain_format (prec : Int) (x : F32) : Plain (F32.format prec x) := by
  cases x with
  | nan => unfold Plain; simp only [F32.format]; decide
  | inf n => cases n <;> (unfold Plain; simp only [F32.format]; decide)
  | fin neg mag h =>
    rw [F32.format]
    generalize (written prec mag).1 = n
    have hd : ∀ d, ∀ b ∈ padZero (n + 1) (natDigits d), isDigit b = true :=
      fun d => padZero_digits _ _ (natDigits_digits d)
    refine Plain.append ?_ ?_
    · cases neg <;> (unfold Plain; decide)
    · unfold fixedDigits
      by_cases hp : n = 0
      · simp only [hp, if_true]
        subst hp
        exact fun b hb => digit_plain b (hd _ b hb)
      · simp only [hp, if_false]
        intro b hb
        rw [List.mem_append, List.mem_cons] at hb
        rcases hb with hb | rfl | hb
        · exact digit_plain b (hd _ b (List.mem_of_mem_take hb))
        · decide
        · exact digit_plain b (hd _ b (List.mem_of_mem_drop hb))

theorem hex2_plain : ∀ x : Byte, ∀ b ∈ hex2 x, plainByte b = true := forall_byte (by decide +kernel)

theorem plain_formatRGBA (c : RGBA) : Plain (formatRGBA c) := by
  unfold formatRGBA
  have h0 : Plain b!"#" := by unfold Plain; decide
  by_cases h : c.a = 255
  · rw [if_pos h]
    exact ((h0.append (hex2_plain _)).append (hex2_plain _)).append (hex2_plain _)
  · rw [if_neg h]
    exact (((h0.append (hex2_plain _)).append (hex2_plain _)).append (hex2_plain _)).append (hex2_plain _)

theorem plain_matrix (m : Matrix) : Plain m.str := by
  unfold Matrix.str
  refine plain_join fun f hf => ?_
  obtain ⟨x, -, rfl⟩ := List.mem_map.1 hf
  exact plain_format 3 x

theorem plain_joinWords {α : Type} {f : α → Str} (h : ∀ x, Plain (f x)) (xs : List α) : Plain (joinWords f xs) := by
  refine plain_join fun s hs => ?_
  obtain ⟨x, -, rfl⟩ := List.mem_map.1 hs
  exact h x

theorem plain_units (x : Units) : Plain x.str := by cases x <;> (unfold Plain; decide)
theorem plain_objectType (x : ObjectType) : Plain x.str := by cases x <;> (unfold Plain; decide)
theorem plain_meshResolution (x : MeshResolution) : Plain x.str := by cases x <;> (unfold Plain; decide)
theorem plain_clipMode (x : ClipMode) : Plain x.str := by cases x <;> (unfold Plain; decide)
theorem plain_capMode (x : CapMode) : Plain x.str := by cases x <;> (unfold Plain; decide)
theorem plain_texture2DType (x : Texture2DType) : Plain x.str := by cases x <;> (unfold Plain; decide)
theorem plain_tileStyle (x : TileStyle) : Plain x.str := by cases x <;> (unfold Plain; decide)
theorem plain_textureFilter (x : TextureFilter) : Plain x.str := by cases x <;> (unfold Plain; decide)
theorem plain_blendMethod (x : BlendMethod) : Plain x.str := by cases x <;> (unfold Plain; decide)

/-! ## Numbers written and read back -/

/-- What a number becomes when it is written with `prec` decimals and read back. -/
def F32.back (prec : Int) : F32 → F32
  | .fin neg mag h => .fin neg (reread prec mag) (rep_reread prec mag h)
  | x => x

theorem parse_back (prec : Int) (x : F32) : parseFloat (F32.format prec x) = .ok (x.back prec) := by
  cases x with
  | fin neg mag h => exact parse_format_fin prec neg mag h
  | inf n => exact C20_special prec _ rfl
  | nan => exact C20_special prec _ rfl

theorem parseVal_back (prec : Int) (x : F32) : parseFloatVal (F32.format prec x) = x.back prec := by
  unfold parseFloatVal
  rw [parse_back]

theorem format_back (prec : Int) (x : F32) : F32.format prec (x.back prec) = F32.format prec x := by
  cases x with
  | fin neg mag h => simp only [F32.back, F32.format, written_reread prec mag h]
  | inf n => rfl
  | nan => rfl

theorem back_neg {prec : Int} (hp : prec < 0) (x : F32) : x.back prec = x := by
  cases x with
  | fin neg mag h =>
    have := reread_neg hp h
    simp only [F32.back]
    congr
  | inf n => rfl
  | nan => rfl

theorem back_close (prec : Nat) (x : F32) (h : x.isFinite) :
    |Spec.floatVal (x.back prec) - Spec.floatVal x| ≤ 1 / 10 ^ prec := by
  obtain ⟨y, h1, h2, -⟩ := C20_stable prec x h
  rw [parse_back] at h1
  obtain rfl := Except.ok.inj h1
  exact h2

theorem back_special (prec : Int) (x : F32) (h : x.isFinite = false) : x.back prec = x := by
  cases x with
  | fin neg mag h' => simp [F32.isFinite] at h
  | inf n => rfl
  | nan => rfl

theorem parseUintVal_format (x : UInt32) : parseUintVal (formatUint x) = x := by
  unfold parseUintVal
  rw [C20_uint]

/-- What a transform becomes. -/
def Matrix.back (m : Matrix) : Matrix :=
  Spec.affine (m.m0.back 3) (m.m1.back 3) (m.m2.back 3) (m.m4.back 3) (m.m5.back 3) (m.m6.back 3) (m.m8.back 3)
    (m.m9.back 3) (m.m10.back 3) (m.m12.back 3) (m.m13.back 3) (m.m14.back 3)

theorem parse_matrix_back (m : Matrix) : parseMatrix m.str = some m.back := by
  rw [C17_language]
  refine ⟨_, _, _, _, _, _, _, _, _, _, _, _, _, split_join _ ?_, ?_, rfl⟩
  · intro f hf
    obtain ⟨x, -, rfl⟩ := List.mem_map.1 hf
    exact word_format 3 x
  · simp only [List.map_cons, List.map_nil, List.forall₂_cons, List.Forall₂.nil, parse_back, and_self]

/-- The words of a list of words. -/
theorem fields_joinWords {α : Type} {f : α → Str} (h : ∀ x, Spec.Word (f x)) (xs : List α) :
    fields (joinWords f xs) = xs.map f := by
  refine fields_of_split (split_join _ fun s hs => ?_)
  obtain ⟨x, -, rfl⟩ := List.mem_map.1 hs
  exact h x

theorem word_formatUint (x : UInt32) : Spec.Word (formatUint x) := by
  refine word_of_ascii _ ?_ fun b hb => digit_ascii b (natDigits_digits _ b hb)
  exact ((C20_uint_language _ x).1 (C20_uint x)).1

theorem word_blendMethod (x : BlendMethod) : Spec.Word x.str := by
  cases x <;> exact word_of_ascii _ (by decide) (by decide)

end Go3mf
