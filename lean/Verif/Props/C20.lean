import Verif.Lemmas.NumRat

/-!
# C20: numbers survive encode/decode up to the written precision, stably

`F32.format` models `strconv.FormatFloat(x, 'f', prec, 32)` (encoder.go:466, 487; math.go:112) and
`parseFloat` models `strconv.ParseFloat(s, 32)` (decoder.go vertexDecoder; spec/utils.go:61).
-/

namespace Go3mf

open F32

/-- Writing a finite number `x` with `prec` decimals gives a numeral of a rational `q` at most half a
unit of the last decimal from `x`; reading it back gives a finite `y` of the same sign bit, no farther
from `q` than `x` is, and writing `y` gives the same text. -/
theorem C20_roundtrip (prec : Nat) (x : F32) (hx : x.isFinite) :
    ∃ (q : ℚ) (y : F32),
      Spec.IsNumeral prec (format prec x) q ∧
      |q - Spec.floatVal x| ≤ 1 / 2 / 10 ^ prec ∧
      parseFloat (format prec x) = .ok y ∧ y.isFinite ∧ y.signBit = x.signBit ∧
      |q - Spec.floatVal y| ≤ |q - Spec.floatVal x| ∧
      format prec y = format prec x := by
  cases x with
  | inf n => simp [isFinite] at hx
  | nan => simp [isFinite] at hx
  | fin neg mag h =>
    refine ⟨_, .fin neg (reread prec mag) (rep_reread prec mag h), isNumeral_format prec neg mag h, ?_,
      parse_format_fin prec neg mag h, by simp only [isFinite], by simp only [signBit], ?_, ?_⟩
    · rw [floatVal_fin, abs_sign]
      exact decimal_close_rat prec mag
    · rw [floatVal_fin, floatVal_fin, abs_sign, abs_sign]
      exact close_rat' _ _ _ _ _ scale_pos (reread_close prec mag h)
    · simp only [format, written_reread prec mag h]

/-- Consequently the distance between the original and what is read back is at most one unit of the last
decimal, and a second round trip changes nothing at all. -/
theorem C20_stable (prec : Nat) (x : F32) (hx : x.isFinite) :
    ∃ y, parseFloat (format prec x) = .ok y ∧ |Spec.floatVal y - Spec.floatVal x| ≤ 1 / 10 ^ prec ∧
      parseFloat (format prec y) = .ok y := by
  obtain ⟨q, y, -, h1, h2, -, -, h3, h4⟩ := C20_roundtrip prec x hx
  refine ⟨y, h2, ?_, by rw [h4, h2]⟩
  have h5 := abs_sub_le (Spec.floatVal y) q (Spec.floatVal x)
  rw [abs_sub_comm (Spec.floatVal y) q] at h5
  have : (1 : ℚ) / 10 ^ prec = 1 / 2 / 10 ^ prec + 1 / 2 / 10 ^ prec := by ring
  linarith

/-- A value that is a decimal with at most `prec` digits after the point is read back exactly. -/
theorem C20_exact (prec : Nat) (neg : Bool) (mag : Nat) (h : Rep mag) (hx : scale ∣ mag * 10 ^ prec) :
    parseFloat (format prec (.fin neg mag h)) = .ok (.fin neg mag h) := by
  rw [parse_format_fin]
  congr 1
  have := reread_exact prec mag h hx
  congr

/-- The special values survive too. -/
theorem C20_special (prec : Int) (x : F32) (hx : x.isFinite = false) :
    parseFloat (format prec x) = .ok x := by
  cases x with
  | fin _ _ _ => simp [isFinite] at hx
  | inf n => cases n <;> (simp only [format]; decide +kernel)
  | nan => simp only [format]; decide +kernel

/-- Identifiers and indices (`strconv.FormatUint`/`ParseUint`) are read back exactly. -/
theorem C20_uint (x : UInt32) : parseUint (formatUint x) = .ok x := parseUint_formatUint x

/-- The value of a string of decimal digits. -/
def decimalValue (s : Str) : Nat := s.foldl (fun n b => n * 10 + (b.toNat - 48)) 0

theorem decimalValue_le (s : Str) : ∀ n : Nat, n ≤ s.foldl (fun n b => n * 10 + (b.toNat - 48)) n := by
  induction s with
  | nil => intro n; exact Nat.le_refl n
  | cons b s ih =>
    intro n
    rw [List.foldl_cons]
    exact Nat.le_trans (by omega) (ih _)

theorem parseUintLoop_ok (s : Str) : ∀ (n : Nat) (x : UInt32), n < 2 ^ 32 → (parseUintLoop s n = .ok x ↔
    (∀ b ∈ s, 48 ≤ b ∧ b ≤ 57) ∧ x.toNat = s.foldl (fun n b => n * 10 + (b.toNat - 48)) n) := by
  induction s with
  | nil =>
    intro n x hn
    simp only [parseUintLoop, List.foldl_nil, List.not_mem_nil, false_implies, implies_true, true_and]
    rw [Except.ok.injEq, ← UInt32.toNat_inj, UInt32.toNat_ofNat', Nat.mod_eq_of_lt hn]
    exact eq_comm
  | cons b s ih =>
    intro n x hn
    simp only [parseUintLoop, List.foldl_cons, List.forall_mem_cons]
    have hd : isDigit b = true ↔ 48 ≤ b ∧ b ≤ 57 := by simp [isDigit]
    by_cases hb : isDigit b = true
    · rw [if_pos hb]
      by_cases hr : n * 10 + (b.toNat - 48) ≥ 2 ^ 32
      · rw [if_pos hr]
        have h1 := decimalValue_le s (n * 10 + (b.toNat - 48))
        have h2 := x.toNat_lt
        constructor
        · intro h
          exact absurd h (by simp)
        · rintro ⟨-, h⟩
          omega
      · rw [if_neg hr, ih _ x (by omega)]
        simp [hd.1 hb]
    · rw [if_neg hb]
      constructor
      · intro h
        exact absurd h (by simp)
      · rintro ⟨⟨h, -⟩, -⟩
        exact absurd (hd.2 h) hb

/-- A text is accepted as an identifier exactly when it consists of decimal digits whose value fits in 32 bits. -/
theorem C20_uint_language (s : Str) (x : UInt32) : parseUint s = .ok x ↔
    s ≠ [] ∧ (∀ b ∈ s, 48 ≤ b ∧ b ≤ 57) ∧ x.toNat = decimalValue s := by
  unfold parseUint
  cases s with
  | nil => simp
  | cons b s =>
    rw [if_neg (by simp), parseUintLoop_ok _ _ _ (by decide)]
    simp [decimalValue]

example : parseUint b!"4294967295" = .ok 4294967295 ∧ parseUint b!"4294967296" = .error .range := by decide +kernel
/- Non-vacuity: 0.1 (float32 0x3dcccccd) is finite and written with 3 decimals as "0.100". -/
example : (ofBits 0x3dcccccd).isFinite = true ∧ format 3 (ofBits 0x3dcccccd) = b!"0.100" := by
  decide +kernel
/- 1.5 is a decimal with one digit. -/
example : scale ∣ (3 * 2 ^ 148) * 10 ^ 1 ∧ Rep (3 * 2 ^ 148) := by decide +kernel
example : (F32.inf true).isFinite = false := rfl

end Go3mf
