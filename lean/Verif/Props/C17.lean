import Verif.Model.Text
import Verif.Props.C20
import Mathlib.Data.List.Forall2

/-!
# C17: transforms, exact language and round trip
-/

namespace Go3mf

open F32

/-- The UTF-8 encodings of the Unicode white space characters: U+0009–U+000D, U+0020, U+0085, U+00A0, U+1680,
U+2000–U+200A, U+2028, U+2029, U+202F, U+205F, U+3000. -/
def Spec.blanks : List Str :=
  [[9], [10], [11], [12], [13], [32], [0xC2, 0x85], [0xC2, 0xA0], [0xE1, 0x9A, 0x80],
   [0xE2, 0x80, 0x80], [0xE2, 0x80, 0x81], [0xE2, 0x80, 0x82], [0xE2, 0x80, 0x83], [0xE2, 0x80, 0x84],
   [0xE2, 0x80, 0x85], [0xE2, 0x80, 0x86], [0xE2, 0x80, 0x87], [0xE2, 0x80, 0x88], [0xE2, 0x80, 0x89],
   [0xE2, 0x80, 0x8A], [0xE2, 0x80, 0xA8], [0xE2, 0x80, 0xA9], [0xE2, 0x80, 0xAF], [0xE2, 0x81, 0x9F],
   [0xE3, 0x80, 0x80]]

/-- A non-empty string without white space. -/
def Spec.Word (f : Str) : Prop := f ≠ [] ∧ ∀ w ∈ Spec.blanks, ¬ w <:+: f

/-- `s` is made of the words `fs`, in order, with white space between any two of them and possibly around. -/
inductive Spec.Split : Str → List Str → Prop
  | nil : Split [] []
  | blank {w s fs} : w ∈ Spec.blanks → Split s fs → Split (w ++ s) fs
  | last {f} : Spec.Word f → Split f [f]
  | word {f w s fs} : Spec.Word f → w ∈ Spec.blanks → Split s fs → Split (f ++ (w ++ s)) (f :: fs)

theorem spaceLen_blank (w t : Str) (h : w ∈ Spec.blanks) : spaceLen (w ++ t) = w.length := by
  simp only [Spec.blanks, List.mem_cons, List.not_mem_nil, or_false] at h
  rcases h with h | h | h | h | h | h | h | h | h | h | h | h | h | h | h | h | h | h | h | h | h | h | h | h | h <;>
    subst h <;> simp [spaceLen]

theorem e280_bytes : ∀ b : Byte, ((0x80 ≤ b ∧ b ≤ 0x8A) ∨ b = 0xA8 ∨ b = 0xA9 ∨ b = 0xAF) →
    [0xE2, 0x80, b] ∈ Spec.blanks := forall_byte (by decide +kernel)

theorem spaceLen_pos (s : Str) (h : spaceLen s ≠ 0) : ∃ w ∈ Spec.blanks, ∃ t, s = w ++ t := by
  unfold spaceLen at h
  split at h
  case h_7 b t =>
    split at h
    next hb =>
      rcases hb with rfl | rfl
      · exact ⟨[0xC2, 0x85], by decide, t, rfl⟩
      · exact ⟨[0xC2, 0xA0], by decide, t, rfl⟩
    next => simp at h
  case h_9 b t =>
    split at h
    next hb => exact ⟨_, e280_bytes b hb, t, rfl⟩
    next => simp at h
  case h_12 => simp at h
  all_goals
    next t => first
      | exact ⟨[9], by decide, t, rfl⟩ | exact ⟨[10], by decide, t, rfl⟩ | exact ⟨[11], by decide, t, rfl⟩
      | exact ⟨[12], by decide, t, rfl⟩ | exact ⟨[13], by decide, t, rfl⟩ | exact ⟨[32], by decide, t, rfl⟩
      | exact ⟨[0xE1, 0x9A, 0x80], by decide, t, rfl⟩ | exact ⟨[0xE2, 0x81, 0x9F], by decide, t, rfl⟩
      | exact ⟨[0xE3, 0x80, 0x80], by decide, t, rfl⟩

theorem blank_ne_nil : ∀ w ∈ Spec.blanks, w ≠ [] := by decide

theorem spaceLen_eq_zero (s : Str) : spaceLen s = 0 ↔ ∀ w ∈ Spec.blanks, ¬ w <+: s := by
  constructor
  · rintro h w hw ⟨t, rfl⟩
    rw [spaceLen_blank w t hw] at h
    exact blank_ne_nil w hw (List.eq_nil_of_length_eq_zero h)
  · intro h
    by_contra hn
    obtain ⟨w, hw, t, rfl⟩ := spaceLen_pos s hn
    exact h w hw ⟨t, rfl⟩

theorem blank_heads : ∀ w' ∈ Spec.blanks, ∀ c ∈ w'.tail, ∀ w ∈ Spec.blanks, w.head? ≠ some c := by decide +kernel

/-- A white space character cannot straddle the end of a word. -/
theorem no_straddle (u w t : Str) (hu : u ≠ []) (hn : ∀ v ∈ Spec.blanks, ¬ v <+: u) (hw : w ∈ Spec.blanks) :
    spaceLen (u ++ (w ++ t)) = 0 := by
  rw [spaceLen_eq_zero]
  intro v hv hp
  rcases List.prefix_or_prefix_of_prefix hp (List.prefix_append u (w ++ t)) with h | ⟨r, hr⟩
  · exact hn v hv h
  · subst hr
    rw [List.prefix_append_right_inj] at hp
    cases r with
    | nil => rw [List.append_nil] at hv; exact hn u hv (List.prefix_rfl)
    | cons c r =>
      have hc : c ∈ (u ++ c :: r).tail := by
        cases u with
        | nil => exact absurd rfl hu
        | cons a u => simp
      refine blank_heads _ hv c hc w hw ?_
      cases w with
      | nil => exact absurd rfl (blank_ne_nil _ hw)
      | cons a w =>
        rw [List.cons_append, List.cons_prefix_cons] at hp
        rw [hp.1]; rfl

theorem fieldsGo_skip (k : Nat) (cur v t : Str) (h : v.length = k) : fieldsGo k cur (v ++ t) = fieldsGo 0 cur t := by
  induction k generalizing v with
  | zero => rw [List.eq_nil_of_length_eq_zero h]; rfl
  | succ k ih =>
    cases v with
    | nil => simp at h
    | cons a v => rw [List.cons_append, fieldsGo]; exact ih v (by simpa using h)

theorem fieldsGo_blank (cur w t : Str) (hw : w ∈ Spec.blanks) :
    fieldsGo 0 cur (w ++ t) = flushField cur ++ fieldsGo 0 [] t := by
  have h := spaceLen_blank w t hw
  cases w with
  | nil => exact absurd rfl (blank_ne_nil _ hw)
  | cons a v =>
    rw [List.cons_append] at h ⊢
    rw [fieldsGo, h]
    simp only [List.length_cons]
    rw [fieldsGo_skip _ _ _ _ rfl]

theorem fieldsGo_word (cur f t : Str) (h : ∀ u, u ≠ [] → u <:+ f → spaceLen (u ++ t) = 0) :
    fieldsGo 0 cur (f ++ t) = fieldsGo 0 (cur ++ f) t := by
  induction f generalizing cur with
  | nil => simp
  | cons c f ih =>
    have h0 := h (c :: f) (by simp) List.suffix_rfl
    rw [List.cons_append] at h0 ⊢
    rw [fieldsGo, h0]
    simp only
    rw [ih _ (fun u hu hs => h u hu (hs.trans (List.suffix_cons c f)))]
    simp

theorem word_suffix {f u : Str} (hf : Spec.Word f) (hs : u <:+ f) : ∀ v ∈ Spec.blanks, ¬ v <+: u :=
  fun v hv hp => hf.2 v hv (hp.isInfix.trans hs.isInfix)

theorem fields_of_split {s : Str} {fs : List Str} (h : Spec.Split s fs) : fields s = fs := by
  unfold fields
  induction h with
  | nil => rfl
  | blank hw _ ih => rw [fieldsGo_blank _ _ _ hw, ih]; rfl
  | @last f hf =>
    have := fieldsGo_word [] f [] (fun u _ hs => by
      rw [List.append_nil, spaceLen_eq_zero]; exact word_suffix hf hs)
    rw [List.append_nil] at this
    rw [this, List.nil_append, fieldsGo]
    simp [flushField, hf.1]
  | @word f w s fs hf hw _ ih =>
    rw [fieldsGo_word [] f _ (fun u hu hs => no_straddle u w s hu (word_suffix hf hs) hw),
      fieldsGo_blank _ _ _ hw, ih]
    simp [flushField, hf.1]

theorem word_of_suffixes {cur : Str} (t : Str) (hne : cur ≠ []) (h : ∀ u, u ≠ [] → u <:+ cur → spaceLen (u ++ t) = 0) :
    Spec.Word cur := by
  refine ⟨hne, ?_⟩
  rintro w hw ⟨a, b, hab⟩
  have h1 := h (w ++ b) (by simp [blank_ne_nil w hw]) ⟨a, by rw [← hab, List.append_assoc]⟩
  rw [spaceLen_eq_zero] at h1
  exact h1 w hw ⟨b ++ t, by simp⟩

theorem split_fieldsGo (n : Nat) : ∀ (s cur : Str), s.length ≤ n →
    (∀ u, u ≠ [] → u <:+ cur → spaceLen (u ++ s) = 0) → Spec.Split (cur ++ s) (fieldsGo 0 cur s) := by
  induction n with
  | zero =>
    intro s cur hs h
    obtain rfl := List.eq_nil_of_length_eq_zero (Nat.le_zero.1 hs)
    rw [List.append_nil, fieldsGo]
    by_cases hc : cur = []
    · subst hc; exact .nil
    · simp only [flushField, List.isEmpty_iff, hc, if_false]
      exact .last (word_of_suffixes [] hc h)
  | succ n ih =>
    intro s cur hs h
    cases s with
    | nil =>
      rw [List.append_nil, fieldsGo]
      by_cases hc : cur = []
      · subst hc; exact .nil
      · simp only [flushField, List.isEmpty_iff, hc, if_false]
        exact .last (word_of_suffixes [] hc h)
    | cons c cs =>
      by_cases h0 : spaceLen (c :: cs) = 0
      · rw [fieldsGo, h0]
        simp only
        have := ih cs (cur ++ [c]) (by simpa using hs) (by
          intro u hu hsuf
          rcases List.eq_nil_or_concat u with rfl | ⟨v, d, rfl⟩
          · exact absurd rfl hu
          · rw [List.concat_eq_append] at hsuf hu ⊢
            have hd : d = c := by
              obtain ⟨a, ha⟩ := hsuf
              rw [← List.append_assoc] at ha
              exact (List.append_inj' ha rfl).2 |> List.cons.inj |>.1
            subst hd
            rw [List.append_assoc]
            by_cases hv : v = []
            · subst hv; exact h0
            · refine h v hv ?_
              obtain ⟨a, ha⟩ := hsuf
              rw [← List.append_assoc] at ha
              exact ⟨a, (List.append_inj' ha rfl).1⟩)
        rw [List.append_assoc] at this
        exact this
      · obtain ⟨w, hw, t, ht⟩ := spaceLen_pos _ h0
        rw [ht, fieldsGo_blank _ _ _ hw]
        have hl : t.length ≤ n := by
          have h1 := congrArg List.length ht
          have h2 : 0 < w.length := List.length_pos_iff.2 (blank_ne_nil w hw)
          simp only [List.length_append, List.length_cons] at h1 hs
          omega
        have := ih t [] hl (fun u hu hs => absurd (List.suffix_nil.1 hs) hu)
        rw [List.nil_append] at this
        by_cases hc : cur = []
        · subst hc
          rw [List.nil_append]
          exact Spec.Split.blank hw this
        · simp only [flushField, List.isEmpty_iff, hc, if_false]
          exact .word (word_of_suffixes _ hc h) hw this

/-- `strings.Fields` returns the words of the string. -/
theorem fields_iff (s : Str) (fs : List Str) : fields s = fs ↔ Spec.Split s fs := by
  refine ⟨fun h => ?_, fields_of_split⟩
  rw [← h]
  exact split_fieldsGo s.length s [] (Nat.le_refl _) (fun u hu hs => absurd (List.suffix_nil.1 hs) hu)

theorem parseFloats_iff (fs : List Str) (vs : List F32) :
    parseFloats fs = some vs ↔ List.Forall₂ (fun f v => parseFloat f = .ok v) fs vs := by
  induction fs generalizing vs with
  | nil => cases vs <;> simp [parseFloats]
  | cons f fs ih =>
    cases hf : parseFloat f with
    | error e => simp [parseFloats, hf, List.forall₂_cons_left_iff]
    | ok v =>
      cases hr : parseFloats fs with
      | none =>
        simp only [parseFloats, hf, hr, List.forall₂_cons_left_iff]
        constructor
        · intro h; cases h
        · rintro ⟨b, u, -, h, -⟩
          rw [← ih, hr] at h; cases h
      | some ws =>
        simp only [parseFloats, hf, hr, List.forall₂_cons_left_iff, Option.some.injEq, Except.ok.injEq]
        constructor
        · rintro rfl
          exact ⟨v, ws, rfl, (ih ws).1 hr, rfl⟩
        · rintro ⟨b, u, rfl, h, rfl⟩
          rw [← ih, hr, Option.some.injEq] at h
          rw [h]

/-- The 4×4 row-major matrix with the twelve given cells and the fixed last column 0, 0, 0, 1. -/
def Spec.affine (t0 t1 t2 t3 t4 t5 t6 t7 t8 t9 t10 t11 : F32) : Matrix :=
  { m0 := t0,  m1 := t1,   m2 := t2,   m3 := .zero
    m4 := t3,  m5 := t4,   m6 := t5,   m7 := .zero
    m8 := t6,  m9 := t7,   m10 := t8,  m11 := .zero
    m12 := t9, m13 := t10, m14 := t11, m15 := .one }

/-- **C17**, language: `ParseMatrix` accepts exactly the strings made of twelve words, each a parseable number,
separated by white space, and puts the numbers in row-major order. -/
theorem C17_language (s : Str) (m : Matrix) :
    parseMatrix s = some m ↔
      ∃ (fs : List Str) (t0 t1 t2 t3 t4 t5 t6 t7 t8 t9 t10 t11 : F32), Spec.Split s fs ∧
        List.Forall₂ (fun f v => parseFloat f = .ok v) fs [t0, t1, t2, t3, t4, t5, t6, t7, t8, t9, t10, t11] ∧
        m = Spec.affine t0 t1 t2 t3 t4 t5 t6 t7 t8 t9 t10 t11 := by
  constructor
  · intro h
    unfold parseMatrix at h
    split at h
    next t0 t1 t2 t3 t4 t5 t6 t7 t8 t9 t10 t11 heq =>
      refine ⟨fields s, t0, t1, t2, t3, t4, t5, t6, t7, t8, t9, t10, t11, (fields_iff s _).1 rfl, (parseFloats_iff _ _).1 heq, ?_⟩
      exact (Option.some.inj h).symm
    next => cases h
  · rintro ⟨fs, t0, t1, t2, t3, t4, t5, t6, t7, t8, t9, t10, t11, h1, h2, rfl⟩
    rw [← parseFloats_iff] at h2
    rw [← fields_iff] at h1
    simp only [parseMatrix, h1, h2]
    rfl

/-! ## Round trip -/

theorem blank_head_range : ∀ w ∈ Spec.blanks, ∃ c, w.head? = some c ∧ ¬ (33 ≤ c ∧ c ≤ 126) := by
  intro w hw
  have h1 : ∀ w ∈ Spec.blanks, ¬ (33 ≤ w.head?.getD 0 ∧ w.head?.getD 0 ≤ 126) := by decide +kernel
  cases w with
  | nil => exact absurd rfl (blank_ne_nil _ hw)
  | cons a v => exact ⟨a, rfl, h1 _ hw⟩

theorem word_of_ascii (f : Str) (hne : f ≠ []) (h : ∀ b ∈ f, 33 ≤ b ∧ b ≤ 126) : Spec.Word f := by
  refine ⟨hne, ?_⟩
  intro w hw hi
  obtain ⟨c, hc, hr⟩ := blank_head_range w hw
  refine hr (h c (hi.subset ?_))
  exact List.mem_of_mem_head? hc


theorem digit_ascii : ∀ b : Byte, isDigit b = true → 33 ≤ b ∧ b ≤ 126 := forall_byte (by decide +kernel)

theorem fixedDigits_ascii (prec d : Nat) : fixedDigits prec d ≠ [] ∧ ∀ b ∈ fixedDigits prec d, 33 ≤ b ∧ b ≤ 126 := by
  have hd : ∀ b ∈ padZero (prec + 1) (natDigits d), isDigit b = true := padZero_digits _ _ (natDigits_digits d)
  have hl := length_padZero (prec + 1) (natDigits d)
  unfold fixedDigits
  by_cases hp : prec = 0
  · simp only [hp, if_true]
    subst hp
    refine ⟨?_, fun b hb => digit_ascii b (hd b hb)⟩
    intro h
    rw [h] at hl
    simp at hl
  · simp only [hp, if_false]
    refine ⟨by simp, ?_⟩
    intro b hb
    rw [List.mem_append, List.mem_cons] at hb
    rcases hb with hb | rfl | hb
    · exact digit_ascii b (hd b (List.mem_of_mem_take hb))
    · decide
    · exact digit_ascii b (hd b (List.mem_of_mem_drop hb))

/-- A formatted number is one word. -/
theorem word_format (prec : Int) (x : F32) : Spec.Word (F32.format prec x) := by
  cases x with
  | nan => exact word_of_ascii _ (by simp [F32.format]) (by simp only [F32.format]; decide)
  | inf n => cases n <;> exact word_of_ascii _ (by simp [F32.format]) (by simp only [F32.format]; decide)
  | fin neg mag h =>
    have := fixedDigits_ascii (written prec mag).1 (written prec mag).2
    refine word_of_ascii _ (by simp [F32.format, this.1]) ?_
    intro b hb
    simp only [F32.format, List.mem_append] at hb
    rcases hb with hb | hb
    · cases neg
      · simp at hb
      · simp only [if_true, List.mem_singleton] at hb; subst hb; decide
    · exact this.2 b hb

theorem split_join (fs : List Str) (h : ∀ f ∈ fs, Spec.Word f) : Spec.Split (Str.join b!" " fs) fs := by
  induction fs with
  | nil => exact .nil
  | cons f fs ih =>
    cases fs with
    | nil => exact .last (h f (by simp))
    | cons g gs =>
      have := ih (fun x hx => h x (by simp [hx]))
      rw [Str.join, List.append_assoc]
      · exact .word (h f (by simp)) (by decide) this
      · simp

/-- The twelve cells written by `Matrix.String`. -/
def Spec.cells (m : Matrix) : List F32 :=
  [m.m0, m.m1, m.m2, m.m4, m.m5, m.m6, m.m8, m.m9, m.m10, m.m12, m.m13, m.m14]

/-- What one number becomes when written with three decimals and read back. -/
theorem reread_exists (x : F32) : ∃ y, parseFloat (F32.format 3 x) = .ok y ∧ F32.format 3 y = F32.format 3 x ∧
    y.isFinite = x.isFinite ∧ (x.isFinite → |Spec.floatVal y - Spec.floatVal x| ≤ 1 / 1000) ∧ (x.isFinite = false → y = x) := by
  by_cases hx : x.isFinite = true
  · obtain ⟨q, y, -, h1, h2, hf, -, h3, h4⟩ := C20_roundtrip 3 x hx
    obtain ⟨z, h5, h6, -⟩ := C20_stable 3 x hx
    rw [h2] at h5
    obtain rfl := Except.ok.inj h5
    refine ⟨y, h2, h4, by rw [hf, hx], fun _ => ?_, by simp [hx]⟩
    have e : (1 : ℚ) / 10 ^ 3 = 1 / 1000 := by norm_num
    rwa [e] at h6
  · rw [Bool.not_eq_true] at hx
    exact ⟨x, C20_special 3 x hx, rfl, rfl, by simp [hx], fun _ => rfl⟩

/-- **C17**, round trip: parsing `m.String()` succeeds for every matrix (infinities and NaN included), the twelve
cells are the originals to within a thousandth (non-finite ones exactly), the last column is 0, 0, 0, 1, and
writing the result gives the same text, so a second round trip changes nothing. -/
theorem C17_roundtrip (m : Matrix) : ∃ m', parseMatrix m.str = some m' ∧
    List.Forall₂ (fun x y => (x.isFinite → |Spec.floatVal y - Spec.floatVal x| ≤ 1 / 1000) ∧ (x.isFinite = false → y = x))
      (Spec.cells m) (Spec.cells m') ∧
    (m'.m3 = .zero ∧ m'.m7 = .zero ∧ m'.m11 = .zero ∧ m'.m15 = .one) ∧
    m'.str = m.str ∧ parseMatrix m'.str = some m' := by
  obtain ⟨y0, a0, b0, -, c0⟩ := reread_exists m.m0
  obtain ⟨y1, a1, b1, -, c1⟩ := reread_exists m.m1
  obtain ⟨y2, a2, b2, -, c2⟩ := reread_exists m.m2
  obtain ⟨y4, a4, b4, -, c4⟩ := reread_exists m.m4
  obtain ⟨y5, a5, b5, -, c5⟩ := reread_exists m.m5
  obtain ⟨y6, a6, b6, -, c6⟩ := reread_exists m.m6
  obtain ⟨y8, a8, b8, -, c8⟩ := reread_exists m.m8
  obtain ⟨y9, a9, b9, -, c9⟩ := reread_exists m.m9
  obtain ⟨y10, a10, b10, -, c10⟩ := reread_exists m.m10
  obtain ⟨y12, a12, b12, -, c12⟩ := reread_exists m.m12
  obtain ⟨y13, a13, b13, -, c13⟩ := reread_exists m.m13
  obtain ⟨y14, a14, b14, -, c14⟩ := reread_exists m.m14
  have hp : parseMatrix m.str = some (Spec.affine y0 y1 y2 y4 y5 y6 y8 y9 y10 y12 y13 y14) := by
    rw [C17_language]
    refine ⟨_, y0, y1, y2, y4, y5, y6, y8, y9, y10, y12, y13, y14, split_join _ ?_, ?_, rfl⟩
    · intro f hf
      obtain ⟨x, -, rfl⟩ := List.mem_map.1 hf
      exact word_format 3 x
    · simp only [List.map_cons, List.map_nil, List.forall₂_cons, List.Forall₂.nil, and_true]
      exact ⟨a0, a1, a2, a4, a5, a6, a8, a9, a10, a12, a13, a14⟩
  have hs : (Spec.affine y0 y1 y2 y4 y5 y6 y8 y9 y10 y12 y13 y14).str = m.str := by
    simp only [Matrix.str, Spec.affine, List.map_cons, List.map_nil, b0, b1, b2, b4, b5, b6, b8, b9, b10, b12, b13, b14]
  refine ⟨_, hp, ?_, ⟨rfl, rfl, rfl, rfl⟩, hs, by rw [hs, hp]⟩
  simp only [Spec.cells, Spec.affine, List.forall₂_cons, List.Forall₂.nil, and_true]
  exact ⟨c0, c1, c2, c4, c5, c6, c8, c9, c10, c12, c13, c14⟩

/-- Non-vacuity: a transform with tabs, a no-break space and a trailing newline. -/
example : (parseMatrix (b!"1 0\t0 0 1.5 0  0 0 1 -2e1 " ++ [0xC2, 0xA0] ++ b!"0.5 7\n")).map (fun m => (m.m5, m.m12, m.m14)) =
    some (F32.ofBits 0x3fc00000, F32.ofBits 0xc1a00000, F32.ofBits 0x40e00000) := by decide +kernel
example : parseMatrix b!"1 0 0 0 1 0 0 0 1 0 0" = none := by decide +kernel

end Go3mf
