import Verif.Model.Text
import Verif.Props.C16

/-!
# C18: `uuid.New`, C19: `uuid.Validate`
-/

namespace Go3mf

/-- A hexadecimal digit, either case. -/
def Spec.IsHex (b : Byte) : Prop := (Spec.hexValue b).isSome

instance (b : Byte) : Decidable (Spec.IsHex b) := inferInstanceAs (Decidable (_ = true))

/-- `n` hexadecimal digits. -/
def Spec.HexRun (n : Nat) (s : Str) : Prop := s.length = n ∧ ∀ b ∈ s, Spec.IsHex b

/-- xxxxxxxx-xxxx-xxxx-xxxx-xxxxxxxxxxxx -/
def Spec.Canonical (s : Str) : Prop :=
  ∃ a b c d e, s = a ++ b!"-" ++ b ++ b!"-" ++ c ++ b!"-" ++ d ++ b!"-" ++ e ∧
    Spec.HexRun 8 a ∧ Spec.HexRun 4 b ∧ Spec.HexRun 4 c ∧ Spec.HexRun 4 d ∧ Spec.HexRun 12 e

/-- `urn:uuid:` in any case. -/
def Spec.IsURN (s : Str) : Prop := s.map asciiLower = b!"urn:uuid:"

/-- The four documented forms. -/
def Spec.IsUUID (s : Str) : Prop :=
  Spec.Canonical s ∨ (∃ p t, s = p ++ t ∧ Spec.IsURN p ∧ Spec.Canonical t) ∨
  (∃ t, s = b!"{" ++ t ++ b!"}" ∧ Spec.Canonical t) ∨ Spec.HexRun 32 s

/-- What the code accepts: as above, but the bytes around a 36-byte form are not checked. -/
def Spec.IsUUIDLoose (s : Str) : Prop :=
  Spec.Canonical s ∨ (∃ p t, s = p ++ t ∧ Spec.IsURN p ∧ Spec.Canonical t) ∨
  (∃ x y t, s = [x] ++ t ++ [y] ∧ Spec.Canonical t) ∨ Spec.HexRun 32 s

theorem xvalue_isSome : ∀ b : Byte, (xvalue b).isSome = true ↔ Spec.IsHex b :=
  forall_byte (by decide +kernel)

theorem canonical_length {s : Str} (h : Spec.Canonical s) : s.length = 36 := by
  obtain ⟨a, b, c, d, e, rfl, ⟨h1, -⟩, ⟨h2, -⟩, ⟨h3, -⟩, ⟨h4, -⟩, ⟨h5, -⟩⟩ := h
  simp [h1, h2, h3, h4, h5]

/-- Peel a list of known length. -/
theorem exists_cons_of_length {α : Type} {l : List α} {n : Nat} (h : l.length = n + 1) :
    ∃ a t, l = a :: t ∧ t.length = n := by
  cases l with
  | nil => simp at h
  | cons a t => exact ⟨a, t, rfl, by simpa using h⟩

theorem hexRun_iff (n : Nat) (s : Str) : Spec.HexRun n s ↔ s.length = n ∧ s.all (fun b => (xvalue b).isSome) = true := by
  simp only [Spec.HexRun, List.all_eq_true, xvalue_isSome]

theorem check36_of_canonical (s rest : Str) (h : Spec.Canonical s) : checkUUID36 (s ++ rest) = true := by
  obtain ⟨a, b, c, d, e, rfl, h1, h2, h3, h4, h5⟩ := h
  rw [hexRun_iff] at h1 h2 h3 h4 h5
  obtain ⟨ha, h1⟩ := h1
  obtain ⟨hb, h2⟩ := h2
  obtain ⟨hc, h3⟩ := h3
  obtain ⟨hd, h4⟩ := h4
  obtain ⟨he, h5⟩ := h5
  obtain ⟨x0, a1, rfl, ha1⟩ := exists_cons_of_length ha
  obtain ⟨x1, a2, rfl, ha2⟩ := exists_cons_of_length ha1
  obtain ⟨x2, a3, rfl, ha3⟩ := exists_cons_of_length ha2
  obtain ⟨x3, a4, rfl, ha4⟩ := exists_cons_of_length ha3
  obtain ⟨x4, a5, rfl, ha5⟩ := exists_cons_of_length ha4
  obtain ⟨x5, a6, rfl, ha6⟩ := exists_cons_of_length ha5
  obtain ⟨x6, a7, rfl, ha7⟩ := exists_cons_of_length ha6
  obtain ⟨x7, a8, rfl, ha8⟩ := exists_cons_of_length ha7
  obtain rfl := List.eq_nil_of_length_eq_zero ha8
  obtain ⟨x8, b1, rfl, hb1⟩ := exists_cons_of_length hb
  obtain ⟨x9, b2, rfl, hb2⟩ := exists_cons_of_length hb1
  obtain ⟨x10, b3, rfl, hb3⟩ := exists_cons_of_length hb2
  obtain ⟨x11, b4, rfl, hb4⟩ := exists_cons_of_length hb3
  obtain rfl := List.eq_nil_of_length_eq_zero hb4
  obtain ⟨x12, c1, rfl, hc1⟩ := exists_cons_of_length hc
  obtain ⟨x13, c2, rfl, hc2⟩ := exists_cons_of_length hc1
  obtain ⟨x14, c3, rfl, hc3⟩ := exists_cons_of_length hc2
  obtain ⟨x15, c4, rfl, hc4⟩ := exists_cons_of_length hc3
  obtain rfl := List.eq_nil_of_length_eq_zero hc4
  obtain ⟨x16, d1, rfl, hd1⟩ := exists_cons_of_length hd
  obtain ⟨x17, d2, rfl, hd2⟩ := exists_cons_of_length hd1
  obtain ⟨x18, d3, rfl, hd3⟩ := exists_cons_of_length hd2
  obtain ⟨x19, d4, rfl, hd4⟩ := exists_cons_of_length hd3
  obtain rfl := List.eq_nil_of_length_eq_zero hd4
  obtain ⟨x20, e1, rfl, he1⟩ := exists_cons_of_length he
  obtain ⟨x21, e2, rfl, he2⟩ := exists_cons_of_length he1
  obtain ⟨x22, e3, rfl, he3⟩ := exists_cons_of_length he2
  obtain ⟨x23, e4, rfl, he4⟩ := exists_cons_of_length he3
  obtain ⟨x24, e5, rfl, he5⟩ := exists_cons_of_length he4
  obtain ⟨x25, e6, rfl, he6⟩ := exists_cons_of_length he5
  obtain ⟨x26, e7, rfl, he7⟩ := exists_cons_of_length he6
  obtain ⟨x27, e8, rfl, he8⟩ := exists_cons_of_length he7
  obtain ⟨x28, e9, rfl, he9⟩ := exists_cons_of_length he8
  obtain ⟨x29, e10, rfl, he10⟩ := exists_cons_of_length he9
  obtain ⟨x30, e11, rfl, he11⟩ := exists_cons_of_length he10
  obtain ⟨x31, e12, rfl, he12⟩ := exists_cons_of_length he11
  obtain rfl := List.eq_nil_of_length_eq_zero he12
  simp only [List.all_cons, List.all_nil, Bool.and_true, Bool.and_eq_true] at h1 h2 h3 h4 h5
  simp only [checkUUID36, xtobOK, List.cons_append, List.nil_append, List.all_cons, List.all_nil, List.getD_cons_zero, List.getD_cons_succ, Nat.reduceAdd]
  simp only [h1, h2, h3, h4, h5, Bool.and_true, decide_true]

theorem canonical_of_check36 (s : Str) (hs : s.length = 36) (rest : Str) (h : checkUUID36 (s ++ rest) = true) :
    Spec.Canonical s := by
  obtain ⟨x0, s1, rfl, hs1⟩ := exists_cons_of_length hs
  obtain ⟨x1, s2, rfl, hs2⟩ := exists_cons_of_length hs1
  obtain ⟨x2, s3, rfl, hs3⟩ := exists_cons_of_length hs2
  obtain ⟨x3, s4, rfl, hs4⟩ := exists_cons_of_length hs3
  obtain ⟨x4, s5, rfl, hs5⟩ := exists_cons_of_length hs4
  obtain ⟨x5, s6, rfl, hs6⟩ := exists_cons_of_length hs5
  obtain ⟨x6, s7, rfl, hs7⟩ := exists_cons_of_length hs6
  obtain ⟨x7, s8, rfl, hs8⟩ := exists_cons_of_length hs7
  obtain ⟨x8, s9, rfl, hs9⟩ := exists_cons_of_length hs8
  obtain ⟨x9, s10, rfl, hs10⟩ := exists_cons_of_length hs9
  obtain ⟨x10, s11, rfl, hs11⟩ := exists_cons_of_length hs10
  obtain ⟨x11, s12, rfl, hs12⟩ := exists_cons_of_length hs11
  obtain ⟨x12, s13, rfl, hs13⟩ := exists_cons_of_length hs12
  obtain ⟨x13, s14, rfl, hs14⟩ := exists_cons_of_length hs13
  obtain ⟨x14, s15, rfl, hs15⟩ := exists_cons_of_length hs14
  obtain ⟨x15, s16, rfl, hs16⟩ := exists_cons_of_length hs15
  obtain ⟨x16, s17, rfl, hs17⟩ := exists_cons_of_length hs16
  obtain ⟨x17, s18, rfl, hs18⟩ := exists_cons_of_length hs17
  obtain ⟨x18, s19, rfl, hs19⟩ := exists_cons_of_length hs18
  obtain ⟨x19, s20, rfl, hs20⟩ := exists_cons_of_length hs19
  obtain ⟨x20, s21, rfl, hs21⟩ := exists_cons_of_length hs20
  obtain ⟨x21, s22, rfl, hs22⟩ := exists_cons_of_length hs21
  obtain ⟨x22, s23, rfl, hs23⟩ := exists_cons_of_length hs22
  obtain ⟨x23, s24, rfl, hs24⟩ := exists_cons_of_length hs23
  obtain ⟨x24, s25, rfl, hs25⟩ := exists_cons_of_length hs24
  obtain ⟨x25, s26, rfl, hs26⟩ := exists_cons_of_length hs25
  obtain ⟨x26, s27, rfl, hs27⟩ := exists_cons_of_length hs26
  obtain ⟨x27, s28, rfl, hs28⟩ := exists_cons_of_length hs27
  obtain ⟨x28, s29, rfl, hs29⟩ := exists_cons_of_length hs28
  obtain ⟨x29, s30, rfl, hs30⟩ := exists_cons_of_length hs29
  obtain ⟨x30, s31, rfl, hs31⟩ := exists_cons_of_length hs30
  obtain ⟨x31, s32, rfl, hs32⟩ := exists_cons_of_length hs31
  obtain ⟨x32, s33, rfl, hs33⟩ := exists_cons_of_length hs32
  obtain ⟨x33, s34, rfl, hs34⟩ := exists_cons_of_length hs33
  obtain ⟨x34, s35, rfl, hs35⟩ := exists_cons_of_length hs34
  obtain ⟨x35, s36, rfl, hs36⟩ := exists_cons_of_length hs35
  obtain rfl := List.eq_nil_of_length_eq_zero hs36
  simp only [checkUUID36, xtobOK, List.cons_append, List.nil_append, List.all_cons, List.all_nil, List.getD_cons_zero, List.getD_cons_succ, Nat.reduceAdd, Bool.and_true, Bool.and_eq_true, decide_eq_true_eq] at h
  refine ⟨[x0, x1, x2, x3, x4, x5, x6, x7], [x9, x10, x11, x12], [x14, x15, x16, x17], [x19, x20, x21, x22], [x24, x25, x26, x27, x28, x29, x30, x31, x32, x33, x34, x35], ?_, ?_, ?_, ?_, ?_, ?_⟩
  · simp only [List.cons_append, List.nil_append, h]
  all_goals
    rw [hexRun_iff]
    refine ⟨rfl, ?_⟩
    simp only [List.all_cons, List.all_nil, h, Bool.and_true]

theorem check36_iff (s rest : Str) (hs : s.length = 36) : checkUUID36 (s ++ rest) = true ↔ Spec.Canonical s :=
  ⟨canonical_of_check36 s hs rest, check36_of_canonical s rest⟩

theorem check32_iff (s : Str) (hs : s.length = 32) :
    [0, 1, 2, 3, 4, 5, 6, 7, 8, 9, 10, 11, 12, 13, 14, 15].all (fun i => xtobOK s (i * 2)) = true ↔
      Spec.HexRun 32 s := by
  rw [hexRun_iff]
  simp only [hs, true_and]
  obtain ⟨x0, s1, rfl, hs1⟩ := exists_cons_of_length hs
  obtain ⟨x1, s2, rfl, hs2⟩ := exists_cons_of_length hs1
  obtain ⟨x2, s3, rfl, hs3⟩ := exists_cons_of_length hs2
  obtain ⟨x3, s4, rfl, hs4⟩ := exists_cons_of_length hs3
  obtain ⟨x4, s5, rfl, hs5⟩ := exists_cons_of_length hs4
  obtain ⟨x5, s6, rfl, hs6⟩ := exists_cons_of_length hs5
  obtain ⟨x6, s7, rfl, hs7⟩ := exists_cons_of_length hs6
  obtain ⟨x7, s8, rfl, hs8⟩ := exists_cons_of_length hs7
  obtain ⟨x8, s9, rfl, hs9⟩ := exists_cons_of_length hs8
  obtain ⟨x9, s10, rfl, hs10⟩ := exists_cons_of_length hs9
  obtain ⟨x10, s11, rfl, hs11⟩ := exists_cons_of_length hs10
  obtain ⟨x11, s12, rfl, hs12⟩ := exists_cons_of_length hs11
  obtain ⟨x12, s13, rfl, hs13⟩ := exists_cons_of_length hs12
  obtain ⟨x13, s14, rfl, hs14⟩ := exists_cons_of_length hs13
  obtain ⟨x14, s15, rfl, hs15⟩ := exists_cons_of_length hs14
  obtain ⟨x15, s16, rfl, hs16⟩ := exists_cons_of_length hs15
  obtain ⟨x16, s17, rfl, hs17⟩ := exists_cons_of_length hs16
  obtain ⟨x17, s18, rfl, hs18⟩ := exists_cons_of_length hs17
  obtain ⟨x18, s19, rfl, hs19⟩ := exists_cons_of_length hs18
  obtain ⟨x19, s20, rfl, hs20⟩ := exists_cons_of_length hs19
  obtain ⟨x20, s21, rfl, hs21⟩ := exists_cons_of_length hs20
  obtain ⟨x21, s22, rfl, hs22⟩ := exists_cons_of_length hs21
  obtain ⟨x22, s23, rfl, hs23⟩ := exists_cons_of_length hs22
  obtain ⟨x23, s24, rfl, hs24⟩ := exists_cons_of_length hs23
  obtain ⟨x24, s25, rfl, hs25⟩ := exists_cons_of_length hs24
  obtain ⟨x25, s26, rfl, hs26⟩ := exists_cons_of_length hs25
  obtain ⟨x26, s27, rfl, hs27⟩ := exists_cons_of_length hs26
  obtain ⟨x27, s28, rfl, hs28⟩ := exists_cons_of_length hs27
  obtain ⟨x28, s29, rfl, hs29⟩ := exists_cons_of_length hs28
  obtain ⟨x29, s30, rfl, hs30⟩ := exists_cons_of_length hs29
  obtain ⟨x30, s31, rfl, hs31⟩ := exists_cons_of_length hs30
  obtain ⟨x31, s32, rfl, hs32⟩ := exists_cons_of_length hs31
  obtain rfl := List.eq_nil_of_length_eq_zero hs32
  simp only [xtobOK, List.all_cons, List.all_nil, List.getD_cons_zero, List.getD_cons_succ, Nat.reduceAdd, Nat.reduceMul, Bool.and_true, Bool.and_assoc]

/-- **C19** (partial): `uuid.Validate` accepts exactly the canonical form, the canonical form after `urn:uuid:` in any
case, 32 hexadecimal digits, and the canonical form between any two bytes.  Missing: the bytes of the 38-byte form are
not required to be braces, see `C19_braces_false`. -/
theorem C19_validate_partial (s : Str) : uuidValid s = true ↔ Spec.IsUUIDLoose s := by
  have len : Spec.IsUUIDLoose s → s.length = 36 ∧ Spec.Canonical s ∨ s.length = 45 ∧ (∃ p t, s = p ++ t ∧ Spec.IsURN p ∧ Spec.Canonical t)
      ∨ s.length = 38 ∧ (∃ x y t, s = [x] ++ t ++ [y] ∧ Spec.Canonical t) ∨ s.length = 32 ∧ Spec.HexRun 32 s := by
    rintro (h | h | h | h)
    · exact .inl ⟨canonical_length h, h⟩
    · refine .inr (.inl ⟨?_, h⟩)
      obtain ⟨p, t, rfl, hp, ht⟩ := h
      have := congrArg List.length hp
      simp only [List.length_map] at this
      rw [List.length_append, this, canonical_length ht]
      rfl
    · refine .inr (.inr (.inl ⟨?_, h⟩))
      obtain ⟨x, y, t, rfl, ht⟩ := h
      simp [canonical_length ht]
    · exact .inr (.inr (.inr ⟨h.1, h⟩))
  unfold uuidValid
  by_cases h36 : s.length = 36
  · rw [if_pos h36]
    have := check36_iff s [] h36
    rw [List.append_nil] at this
    rw [this]
    constructor
    · exact .inl
    · intro h
      rcases len h with h | h | h | h <;> first | exact h.2 | omega
  rw [if_neg h36]
  by_cases h45 : s.length = 45
  · rw [if_pos h45]
    have ht : (s.drop 9).length = 36 := by simp [h45]
    have := check36_iff (s.drop 9) [] ht
    rw [List.append_nil] at this
    rw [Bool.and_eq_true, this]
    constructor
    · rintro ⟨h1, h2⟩
      exact .inr (.inl ⟨s.take 9, s.drop 9, (List.take_append_drop 9 s).symm, by simpa [isURNPrefix, Spec.IsURN] using h1, h2⟩)
    · intro h
      rcases len h with h | h | h | h <;> try omega
      obtain ⟨-, p, t, rfl, hp, ht⟩ := h
      have hl : p.length = 9 := by
        have := congrArg List.length hp
        simpa using this
      rw [← hl, List.drop_left]
      refine ⟨?_, ht⟩
      simpa [isURNPrefix, ← hl, List.take_left, Spec.IsURN] using hp
  rw [if_neg h45]
  by_cases h38 : s.length = 38
  · rw [if_pos h38]
    have split : s = [s.getD 0 0] ++ (s.drop 1).take 36 ++ [s.getD 37 0] := by
      obtain ⟨x, t, rfl, h⟩ := exists_cons_of_length h38
      simp only [List.getD_cons_zero, List.getD_cons_succ, List.drop_succ_cons, List.drop_zero, List.singleton_append, List.cons_append, List.cons.injEq, true_and]
      have e := (List.take_append_drop 36 t).symm
      have hl : (t.drop 36).length = 1 := by simp [h]
      obtain ⟨y, u, hu, h0⟩ := exists_cons_of_length hl
      obtain rfl := List.eq_nil_of_length_eq_zero h0
      have : t.getD 36 0 = y := by
        rw [List.getD_eq_getElem?_getD]
        have : (t.drop 36)[0]? = some y := by rw [hu]; rfl
        rw [List.getElem?_drop] at this
        simp only [Nat.add_zero] at this
        rw [this]; rfl
      rw [this, ← hu]
      exact e
    have d1 : s.drop 1 = (s.drop 1).take 36 ++ (s.drop 1).drop 36 := (List.take_append_drop 36 _).symm
    have hl : ((s.drop 1).take 36).length = 36 := by simp [h38]
    rw [d1, check36_iff _ _ hl]
    constructor
    · intro h
      exact .inr (.inr (.inl ⟨_, _, _, split, h⟩))
    · intro h
      rcases len h with h | h | h | h <;> try omega
      obtain ⟨-, x, y, t, rfl, ht⟩ := h
      have hl := canonical_length ht
      have : (([x] ++ t ++ [y]).drop 1).take 36 = t := by
        simp only [List.cons_append, List.nil_append, List.drop_succ_cons, List.drop_zero]
        rw [← hl, List.take_left]
      rw [this]; exact ht
  rw [if_neg h38]
  by_cases h32 : s.length = 32
  · rw [if_pos h32, check32_iff s h32]
    constructor
    · intro h; exact .inr (.inr (.inr h))
    · intro h
      rcases len h with h | h | h | h <;> first | exact h.2 | omega
  · rw [if_neg h32]
    constructor
    · intro h; cases h
    · intro h
      rcases len h with h | h | h | h <;> omega

/-- The documented forms are accepted. -/
theorem C19_accepts (s : Str) (h : Spec.IsUUID s) : uuidValid s = true := by
  rw [C19_validate_partial]
  rcases h with h | h | ⟨t, rfl, h⟩ | h
  · exact .inl h
  · exact .inr (.inl h)
  · exact .inr (.inr (.inl ⟨_, _, t, rfl, h⟩))
  · exact .inr (.inr (.inr h))

/-- Outside the 38-byte strings, only the documented forms are accepted. -/
theorem C19_rejects_partial (s : Str) (hl : s.length ≠ 38) : uuidValid s = true ↔ Spec.IsUUID s := by
  refine ⟨fun h => ?_, C19_accepts s⟩
  rw [C19_validate_partial] at h
  rcases h with h | h | ⟨x, y, t, rfl, h⟩ | h
  · exact .inl h
  · exact .inr (.inl h)
  · exact absurd (by simp [canonical_length h]) hl
  · exact .inr (.inr (.inr h))

/-- **C19** fails as stated: the brace form accepts any first and last byte (uuid/uuid.go:107-108). -/
theorem C19_braces_false : ∃ s, uuidValid s = true ∧ ¬ Spec.IsUUID s := by
  refine ⟨b!"[f81d4fae-7dec-11d0-a765-00a0c91e6bf6)", by decide +kernel, ?_⟩
  rintro (h | ⟨p, t, h, hp, ht⟩ | ⟨t, h, -⟩ | h)
  · exact absurd (canonical_length h) (by decide)
  · have h1 := congrArg List.length h
    have h2 := congrArg List.length hp
    rw [List.length_append, canonical_length ht] at h1
    simp only [List.length_map] at h2
    rw [h2] at h1
    exact absurd h1 (by decide)
  · simp only [List.cons_append, List.cons.injEq] at h
    exact absurd h.1 (by decide)
  · exact absurd h.1 (by decide)

/-! ## C18 -/

theorem hex2_form : ∀ b : Byte, (hex2 b).length = 2 ∧ ∀ c ∈ hex2 b, Spec.IsHex c ∧ ¬ (65 ≤ c ∧ c ≤ 90) :=
  forall_byte (by decide +kernel)

theorem hexRun_flatMap (n : Nat) (l : List UInt8) (h : l.length = n) : Spec.HexRun (2 * n) (l.flatMap hex2) := by
  subst h
  constructor
  · induction l with
    | nil => rfl
    | cons a l ih => rw [List.flatMap_cons, List.length_append, ih, (hex2_form a).1, List.length_cons]; omega
  · intro b hb
    obtain ⟨a, -, hb⟩ := List.mem_flatMap.1 hb
    exact ((hex2_form a).2 b hb).1

theorem lower_flatMap (l : List UInt8) : ∀ c ∈ l.flatMap hex2, ¬ (65 ≤ c ∧ c ≤ 90) := by
  intro b hb
  obtain ⟨a, -, hb⟩ := List.mem_flatMap.1 hb
  exact ((hex2_form a).2 b hb).2

theorem encodeHex_canonical (u : UUIDBytes) (h : u.length = 16) : Spec.Canonical (encodeHex u) :=
  ⟨_, _, _, _, _, rfl, hexRun_flatMap 4 _ (by simp [h]), hexRun_flatMap 2 _ (by simp [h]),
    hexRun_flatMap 2 _ (by simp [h]), hexRun_flatMap 2 _ (by simp [h]), hexRun_flatMap 6 _ (by simp [h])⟩

/-- **C18**: whatever the random bytes, `uuid.New` returns the canonical 36-character form. -/
theorem C18_canonical (u : UUIDBytes) (h : u.length = 16) : Spec.Canonical (uuidNew u) :=
  encodeHex_canonical _ (by simp [h])

/-- **C18**: without upper-case letters. -/
theorem C18_lower (u : UUIDBytes) : ∀ c ∈ uuidNew u, ¬ (65 ≤ c ∧ c ≤ 90) := by
  intro c hc
  simp only [uuidNew, encodeHex, List.mem_append] at hc
  have dash : ∀ c ∈ b!"-", ¬ (65 ≤ c ∧ c ≤ 90) := by decide
  rcases hc with (((((((hc | hc) | hc) | hc) | hc) | hc) | hc) | hc) | hc
  all_goals first | exact lower_flatMap _ c hc | exact dash c hc

/-- **C18**: `uuid.Validate` accepts what `uuid.New` returns. -/
theorem C18_valid (u : UUIDBytes) (h : u.length = 16) : uuidValid (uuidNew u) = true :=
  C19_accepts _ (.inl (C18_canonical u h))

theorem hex2_version : ∀ b : Byte, (hex2 ((b &&& 0x0f) ||| 0x40)).getD 0 0 = 52 :=
  forall_byte (by decide +kernel)

theorem hex2_variant : ∀ b : Byte, (hex2 ((b &&& 0x3f) ||| 0x80)).getD 0 0 ∈ b!"89ab" :=
  forall_byte (by decide +kernel)

theorem hex2_cons (b : Byte) : hex2 b = [hexDigit (b >>> 4), hexDigit (b &&& 0x0f)] := rfl

/-- **C18**: the version digit (position 14) is 4 and the variant digit (position 19) is one of 8, 9, a, b. -/
theorem C18_version (u : UUIDBytes) (h : u.length = 16) :
    (uuidNew u)[14]? = some 52 ∧ ∃ c ∈ b!"89ab", (uuidNew u)[19]? = some c := by
  obtain ⟨x0, u1, rfl, hu1⟩ := exists_cons_of_length h
  obtain ⟨x1, u2, rfl, hu2⟩ := exists_cons_of_length hu1
  obtain ⟨x2, u3, rfl, hu3⟩ := exists_cons_of_length hu2
  obtain ⟨x3, u4, rfl, hu4⟩ := exists_cons_of_length hu3
  obtain ⟨x4, u5, rfl, hu5⟩ := exists_cons_of_length hu4
  obtain ⟨x5, u6, rfl, hu6⟩ := exists_cons_of_length hu5
  obtain ⟨x6, u7, rfl, hu7⟩ := exists_cons_of_length hu6
  obtain ⟨x7, u8, rfl, hu8⟩ := exists_cons_of_length hu7
  obtain ⟨x8, u9, rfl, hu9⟩ := exists_cons_of_length hu8
  obtain ⟨x9, u10, rfl, hu10⟩ := exists_cons_of_length hu9
  obtain ⟨x10, u11, rfl, hu11⟩ := exists_cons_of_length hu10
  obtain ⟨x11, u12, rfl, hu12⟩ := exists_cons_of_length hu11
  obtain ⟨x12, u13, rfl, hu13⟩ := exists_cons_of_length hu12
  obtain ⟨x13, u14, rfl, hu14⟩ := exists_cons_of_length hu13
  obtain ⟨x14, u15, rfl, hu15⟩ := exists_cons_of_length hu14
  obtain ⟨x15, u16, rfl, hu16⟩ := exists_cons_of_length hu15
  obtain rfl := List.eq_nil_of_length_eq_zero hu16
  have v := hex2_version x6
  have w := hex2_variant x8
  simp only [hex2_cons, List.getD_cons_zero] at v w
  refine ⟨?_, _, w, ?_⟩
  · rw [← v]
    simp [uuidNew, encodeHex, hex2_cons]
  · simp [uuidNew, encodeHex, hex2_cons]

theorem hex2_inj (a b : Byte) (h : hexDigit (a >>> 4) = hexDigit (b >>> 4) ∧ hexDigit (a &&& 15) = hexDigit (b &&& 15)) :
    a = b := by
  have h1 := hexPair_hex2 a
  have h2 := hexPair_hex2 b
  rw [h.1, h.2, h2] at h1
  exact (Prod.mk.inj h1).1.symm

theorem version_bits : ∀ b : Byte, ((b &&& 0x0f) ||| 0x40) &&& 0x0f = b &&& 0x0f := forall_byte (by decide +kernel)

theorem variant_bits : ∀ b : Byte, ((b &&& 0x3f) ||| 0x80) &&& 0x3f = b &&& 0x3f := forall_byte (by decide +kernel)

/-- The 122 random bits of 16 bytes: all but the high nibble of byte 6 and the two high bits of byte 8. -/
def Spec.freeBits (u : List UInt8) : List UInt8 :=
  u.mapIdx fun i b => if i = 6 then b &&& 0x0f else if i = 8 then b &&& 0x3f else b

/-- **C18**: two results are equal only if the 122 free random bits are. -/
theorem C18_injective (u v : UUIDBytes) (hu : u.length = 16) (hv : v.length = 16)
    (h : uuidNew u = uuidNew v) : Spec.freeBits u = Spec.freeBits v := by
  obtain ⟨x0, u1, rfl, hu1⟩ := exists_cons_of_length hu
  obtain ⟨x1, u2, rfl, hu2⟩ := exists_cons_of_length hu1
  obtain ⟨x2, u3, rfl, hu3⟩ := exists_cons_of_length hu2
  obtain ⟨x3, u4, rfl, hu4⟩ := exists_cons_of_length hu3
  obtain ⟨x4, u5, rfl, hu5⟩ := exists_cons_of_length hu4
  obtain ⟨x5, u6, rfl, hu6⟩ := exists_cons_of_length hu5
  obtain ⟨x6, u7, rfl, hu7⟩ := exists_cons_of_length hu6
  obtain ⟨x7, u8, rfl, hu8⟩ := exists_cons_of_length hu7
  obtain ⟨x8, u9, rfl, hu9⟩ := exists_cons_of_length hu8
  obtain ⟨x9, u10, rfl, hu10⟩ := exists_cons_of_length hu9
  obtain ⟨x10, u11, rfl, hu11⟩ := exists_cons_of_length hu10
  obtain ⟨x11, u12, rfl, hu12⟩ := exists_cons_of_length hu11
  obtain ⟨x12, u13, rfl, hu13⟩ := exists_cons_of_length hu12
  obtain ⟨x13, u14, rfl, hu14⟩ := exists_cons_of_length hu13
  obtain ⟨x14, u15, rfl, hu15⟩ := exists_cons_of_length hu14
  obtain ⟨x15, u16, rfl, hu16⟩ := exists_cons_of_length hu15
  obtain rfl := List.eq_nil_of_length_eq_zero hu16
  obtain ⟨y0, v1, rfl, hv1⟩ := exists_cons_of_length hv
  obtain ⟨y1, v2, rfl, hv2⟩ := exists_cons_of_length hv1
  obtain ⟨y2, v3, rfl, hv3⟩ := exists_cons_of_length hv2
  obtain ⟨y3, v4, rfl, hv4⟩ := exists_cons_of_length hv3
  obtain ⟨y4, v5, rfl, hv5⟩ := exists_cons_of_length hv4
  obtain ⟨y5, v6, rfl, hv6⟩ := exists_cons_of_length hv5
  obtain ⟨y6, v7, rfl, hv7⟩ := exists_cons_of_length hv6
  obtain ⟨y7, v8, rfl, hv8⟩ := exists_cons_of_length hv7
  obtain ⟨y8, v9, rfl, hv9⟩ := exists_cons_of_length hv8
  obtain ⟨y9, v10, rfl, hv10⟩ := exists_cons_of_length hv9
  obtain ⟨y10, v11, rfl, hv11⟩ := exists_cons_of_length hv10
  obtain ⟨y11, v12, rfl, hv12⟩ := exists_cons_of_length hv11
  obtain ⟨y12, v13, rfl, hv13⟩ := exists_cons_of_length hv12
  obtain ⟨y13, v14, rfl, hv14⟩ := exists_cons_of_length hv13
  obtain ⟨y14, v15, rfl, hv15⟩ := exists_cons_of_length hv14
  obtain ⟨y15, v16, rfl, hv16⟩ := exists_cons_of_length hv15
  obtain rfl := List.eq_nil_of_length_eq_zero hv16
  simp only [uuidNew, encodeHex, hex2_cons, List.getD_cons_zero, List.getD_cons_succ, List.set_cons_succ,
    List.set_cons_zero, List.take_succ_cons, List.take_zero, List.drop_succ_cons, List.drop_zero,
    List.flatMap_cons, List.flatMap_nil, List.cons_append, List.nil_append, List.append_nil, List.cons.injEq, true_and, and_true] at h
  obtain ⟨a0, b0, a1, b1, a2, b2, a3, b3, a4, b4, a5, b5, a6, b6, a7, b7, a8, b8, a9, b9, a10, b10, a11, b11, a12, b12, a13, b13, a14, b14, a15, b15⟩ := h
  have e0 := hex2_inj _ _ ⟨a0, b0⟩
  have e1 := hex2_inj _ _ ⟨a1, b1⟩
  have e2 := hex2_inj _ _ ⟨a2, b2⟩
  have e3 := hex2_inj _ _ ⟨a3, b3⟩
  have e4 := hex2_inj _ _ ⟨a4, b4⟩
  have e5 := hex2_inj _ _ ⟨a5, b5⟩
  have e6 := hex2_inj _ _ ⟨a6, b6⟩
  have e7 := hex2_inj _ _ ⟨a7, b7⟩
  have e8 := hex2_inj _ _ ⟨a8, b8⟩
  have e9 := hex2_inj _ _ ⟨a9, b9⟩
  have e10 := hex2_inj _ _ ⟨a10, b10⟩
  have e11 := hex2_inj _ _ ⟨a11, b11⟩
  have e12 := hex2_inj _ _ ⟨a12, b12⟩
  have e13 := hex2_inj _ _ ⟨a13, b13⟩
  have e14 := hex2_inj _ _ ⟨a14, b14⟩
  have e15 := hex2_inj _ _ ⟨a15, b15⟩
  have f6 := congrArg (· &&& 0x0f) e6
  have f8 := congrArg (· &&& 0x3f) e8
  simp only [version_bits, variant_bits] at f6 f8
  subst e0
  subst e1
  subst e2
  subst e3
  subst e4
  subst e5
  subst e7
  subst e9
  subst e10
  subst e11
  subst e12
  subst e13
  subst e14
  subst e15
  simp [Spec.freeBits, f6, f8]

/-- Non-vacuity. -/
example : uuidNew [0, 1, 2, 3, 4, 5, 0xff, 7, 0xff, 9, 10, 11, 12, 13, 14, 255] = b!"00010203-0405-4f07-bf09-0a0b0c0d0eff" := by
  decide +kernel
example : uuidValid b!"URN:uuid:f81d4fae-7dec-11d0-a765-00a0c91e6bF6" = true := by decide +kernel
example : uuidValid b!"f81d4fae-7dec-11d0-a765-00a0c91e6bg6" = false := by decide +kernel
example : Spec.Canonical b!"f81d4fae-7dec-11d0-a765-00a0c91e6bf6" :=
  canonical_of_check36 _ (by decide) [] (by decide +kernel)

end Go3mf
