import Verif.Model.Text

/-!
# C16: colours
-/

namespace Go3mf

/-- The value of a hexadecimal digit, in either case. -/
def Spec.hexValue (b : Byte) : Option Nat :=
  let n := b.toNat
  if 48 ≤ n ∧ n ≤ 57 then some (n - 48)            -- '0'..'9'
  else if 97 ≤ n ∧ n ≤ 102 then some (n - 97 + 10)  -- 'a'..'f'
  else if 65 ≤ n ∧ n ≤ 70 then some (n - 65 + 10)   -- 'A'..'F'
  else none

/-- Two hexadecimal digits with value `v`. -/
def Spec.HexByte (v x y : Byte) : Prop :=
  ∃ a b, Spec.hexValue x = some a ∧ Spec.hexValue y = some b ∧ v.toNat = 16 * a + b

/-- `s` is `#RRGGBB` or `#RRGGBBAA` and denotes `c`; without alpha the colour is opaque. -/
def Spec.Denotes (s : Str) (c : RGBA) : Prop :=
  ∃ r1 r2 g1 g2 b1 b2, Spec.HexByte c.r r1 r2 ∧ Spec.HexByte c.g g1 g2 ∧ Spec.HexByte c.b b1 b2 ∧
    ((s = [35, r1, r2, g1, g2, b1, b2] ∧ c.a = 255) ∨
     ∃ a1 a2, s = [35, r1, r2, g1, g2, b1, b2, a1, a2] ∧ Spec.HexByte c.a a1 a2)

theorem hexToByte_spec : ∀ b : Byte,
    (hexToByte b).2 = (Spec.hexValue b).isNone ∧
    ∀ a, Spec.hexValue b = some a → (hexToByte b).1.toNat = a ∧ a < 16 := by
  apply forall_byte
  intro n
  have h1 : ∀ n : Fin 256, (hexToByte (UInt8.ofNat n.val)).2 = (Spec.hexValue (UInt8.ofNat n.val)).isNone := by
    decide +kernel
  have h2 : ∀ n : Fin 256, Spec.hexValue (UInt8.ofNat n.val) = none ∨
      (Spec.hexValue (UInt8.ofNat n.val) = some (hexToByte (UInt8.ofNat n.val)).1.toNat ∧
        (hexToByte (UInt8.ofNat n.val)).1.toNat < 16) := by decide +kernel
  refine ⟨h1 n, fun a ha => ?_⟩
  rcases h2 n with h | ⟨h, h'⟩
  · rw [ha] at h; cases h
  · rw [ha] at h
    simp only [Option.some.injEq] at h
    exact ⟨h.symm, by omega⟩

theorem hexPair_spec (x y v : Byte) :
    Spec.HexByte v x y ↔ (hexPair x y).2 = false ∧ (hexPair x y).1 = v := by
  obtain ⟨hx1, hx2⟩ := hexToByte_spec x
  obtain ⟨hy1, hy2⟩ := hexToByte_spec y
  simp only [hexPair, hx1, hy1, Spec.HexByte]
  have arith : ∀ a b : Byte, a.toNat < 16 → b.toNat < 16 → ((a <<< 4) + b).toNat = 16 * a.toNat + b.toNat := by
    intro a b ha hb
    rw [UInt8.toNat_add, UInt8.toNat_shiftLeft]
    simp [Nat.shiftLeft_eq]
    omega
  constructor
  · rintro ⟨a, b, ha, hb, hv⟩
    obtain ⟨e1, l1⟩ := hx2 a ha
    obtain ⟨e2, l2⟩ := hy2 b hb
    refine ⟨by simp [ha, hb], UInt8.toNat_inj.1 ?_⟩
    rw [arith _ _ (by omega) (by omega), hv, e1, e2]
  · rintro ⟨h1, rfl⟩
    simp only [Bool.or_eq_false_iff, Option.isNone_eq_false_iff, Option.isSome_iff_exists] at h1
    obtain ⟨⟨a, ha⟩, ⟨b, hb⟩⟩ := h1
    obtain ⟨e1, l1⟩ := hx2 a ha
    obtain ⟨e2, l2⟩ := hy2 b hb
    exact ⟨a, b, ha, hb, by rw [arith _ _ (by omega) (by omega), e1, e2]⟩

/-- `ParseRGBA` succeeds with colour `c` exactly on the strings that denote `c`. -/
theorem C16_language (s : Str) (c : RGBA) : parseRGBA s = (c, false) ↔ Spec.Denotes s c := by
  constructor
  · intro h
    unfold parseRGBA at h
    split at h
    · split at h
      · simp at h
      · rename_i h' r1 r2 g1 g2 b1 b2 a1 a2 hh
        simp only [Prod.mk.injEq, Bool.or_eq_false_iff] at h
        obtain ⟨rfl, ⟨⟨h1, h2⟩, h3⟩, h4⟩ := h
        refine ⟨r1, r2, g1, g2, b1, b2, (hexPair_spec ..).2 ⟨h1, rfl⟩, (hexPair_spec ..).2 ⟨h2, rfl⟩,
          (hexPair_spec ..).2 ⟨h3, rfl⟩, .inr ⟨a1, a2, ?_, (hexPair_spec ..).2 ⟨h4, rfl⟩⟩⟩
        simp at hh; rw [hh]
    · split at h
      · simp at h
      · rename_i h' r1 r2 g1 g2 b1 b2 hh
        simp only [Prod.mk.injEq, Bool.or_eq_false_iff] at h
        obtain ⟨rfl, ⟨h1, h2⟩, h3⟩ := h
        refine ⟨r1, r2, g1, g2, b1, b2, (hexPair_spec ..).2 ⟨h1, rfl⟩, (hexPair_spec ..).2 ⟨h2, rfl⟩,
          (hexPair_spec ..).2 ⟨h3, rfl⟩, .inl ⟨?_, rfl⟩⟩
        simp at hh; rw [hh]
    · simp at h
  · rintro ⟨r1, r2, g1, g2, b1, b2, hr, hg, hb, ⟨rfl, ha⟩ | ⟨a1, a2, rfl, ha⟩⟩
    · rw [hexPair_spec] at hr hg hb
      simp [parseRGBA, hr.1, hg.1, hb.1, hr.2, hg.2, hb.2]
      cases c; simp_all
    · rw [hexPair_spec] at hr hg hb ha
      simp [parseRGBA, hr.1, hg.1, hb.1, ha.1, hr.2, hg.2, hb.2, ha.2]

theorem hexPair_hex2 : ∀ b : Byte,
    hexPair (hexDigit (b >>> 4)) (hexDigit (b &&& 15)) = (b, false) :=
  forall_byte (by decide +kernel)

/-- Formatting then parsing gives the colour back. -/
theorem C16_roundtrip (c : RGBA) : parseRGBA (formatRGBA c) = (c, false) := by
  obtain ⟨r, g, b, a⟩ := c
  unfold formatRGBA
  split
  · rename_i h
    simp only at h
    subst h
    simp [hex2, parseRGBA, hexPair_hex2]
  · simp [hex2, parseRGBA, hexPair_hex2]

/- Upper and lower case, with and without alpha. -/
example : Spec.Denotes b!"#aB0102" ⟨0xab, 1, 2, 255⟩ ∧ parseRGBA b!"#01020304" = (⟨1, 2, 3, 4⟩, false) ∧
    (parseRGBA b!"#0102030").2 = true ∧ (parseRGBA b!"#01020g").2 = true := by
  refine ⟨(C16_language _ _).1 ?_, ?_⟩ <;> decide

end Go3mf
