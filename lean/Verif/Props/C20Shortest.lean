import Verif.Props.C20
import Verif.Props.C61

/-!
# C20 at negative precisions: the shortest text that is read back as the same number

`Encoder.FloatPrecision` is documented as the precision of `strconv.FormatFloat` (encoder.go:131-133), for which −1 stands for
the smallest number of digits necessary.
-/

namespace Go3mf

open F32

/-- At a negative precision every number is read back exactly. -/
theorem C20_shortest (prec : Int) (hp : prec < 0) (x : F32) : parseFloat (format prec x) = .ok x := by
  cases x with
  | fin neg mag h =>
    rw [parse_format_fin]
    congr 1
    have := reread_neg hp h
    congr
  | inf n => exact C20_special prec _ rfl
  | nan => exact C20_special prec _ rfl

/-- A rational is a multiple of this power of ten. -/
def Spec.MultipleOf (q : ℚ) (k : ℤ) : Prop := ∃ j : ℤ, q = j * 10 ^ k

/-- The magnitude of what a text denotes that is read as a finite number. -/
theorem read_between {s : Str} {neg neg' : Bool} {ip fp : Str} {e : ℤ} {mag : Nat} {hr : Rep mag} (h : Spec.Decimal s neg ip fp e)
    (he : |e| < 10 ^ 5) (hx : parseFloat s = .ok (.fin neg' mag hr)) :
    neg = neg' ∧ ∃ a b : Nat, 0 < b ∧ between mag a b = true ∧
      Spec.decimalRat neg ip fp e = (if neg then -1 else 1) * ((a : ℚ) / b / scale) := by
  obtain ⟨eneg, n, hen, hpf⟩ := parseFloat_decimal s neg ip fp e h
  obtain rfl := hen.1 he
  rw [hpf] at hx
  unfold finishFloat at hx
  simp only [Bool.false_eq_true, if_false] at hx
  have hb : 0 < 10 ^ fp.length * (if eneg = true then 10 ^ n else 1) := by split <;> positivity
  generalize ha' : Spec.digits (ip ++ fp) * scale * (if eneg = true then 1 else 10 ^ n) = a at hx
  generalize hb' : 10 ^ fp.length * (if eneg = true then 10 ^ n else 1) = b at hx hb
  have hS : (0 : ℚ) < (scale : ℚ) := by exact_mod_cast scale_pos
  have hq : Spec.decimalRat neg ip fp (if eneg then -(n : ℤ) else n) = (if neg then -1 else 1) * ((a : ℚ) / b / scale) := by
    unfold Spec.decimalRat
    rw [← ha', ← hb']
    congr 1
    cases eneg
    · simp only [Bool.false_eq_true, if_false]
      rw [zpow_sub₀ (by norm_num)]
      push_cast
      rw [zpow_natCast, zpow_natCast]
      field_simp
    · simp only [if_true]
      rw [zpow_sub₀ (by norm_num), zpow_neg]
      push_cast
      rw [zpow_natCast, zpow_natCast]
      field_simp
  have hm : neg = neg' ∧ roundMag a b = mag := by
    unfold ofRat at hx
    by_cases hle : roundMag a b ≤ maxMag
    · simp only [hle, if_true] at hx
      unfold mk at hx
      split at hx
      · simp only [rangeCheck, Except.ok.injEq, fin.injEq] at hx
        exact hx
      · simp [rangeCheck] at hx
    · simp only [hle, if_false] at hx
      simp [rangeCheck] at hx
  exact ⟨hm.1, a, b, hb, round_between hb hm.2, hq⟩

theorem sign_mul_multiple (neg : Bool) (q : ℚ) (k : ℤ) : Spec.MultipleOf ((if neg then -1 else 1) * q) k ↔ Spec.MultipleOf q k := by
  cases neg
  · simp [Spec.MultipleOf]
  · simp only [if_true, Spec.MultipleOf]
    constructor <;> (rintro ⟨j, hj⟩; refine ⟨-j, ?_⟩; push_cast; linarith)

theorem abs_frac (d m : ℚ) {N S : ℚ} (hN : 0 < N) (hS : 0 < S) : |d / N - m / S| = |m * N - d * S| / (N * S) := by
  have : d / N - m / S = -((m * N - d * S) / (N * S)) := by field_simp; ring
  rw [this, abs_neg, abs_div, abs_of_pos (mul_pos hN hS)]

theorem tens_cancel (d : ℚ) {n l : Nat} (h : n ≤ l) : d / 10 ^ n = d * 10 ^ (l - n) * 10 ^ (-(l : ℤ)) := by
  obtain ⟨m, rfl⟩ := Nat.exists_eq_add_of_le h
  rw [Nat.add_sub_cancel_left, zpow_neg, zpow_natCast, pow_add]
  field_simp

/-- **C20.**  At a negative precision, the text is the shortest: it is the numeral of a `q` that is a multiple of every power of
ten of which any decimal text is a multiple that is read as the same number, is as close to the number as any such text with the
same last place, and has no zeros at the end of its decimals. -/
theorem C20_shortest_min (prec : Int) (hp : prec < 0) (x : F32) (hx : x.isFinite = true) (h0 : x.eq .zero = false) :
    ∃ (n : Nat) (q : ℚ), Spec.IsNumeral n (format prec x) q ∧ (∀ m < n, ¬Spec.MultipleOf q (-(m : ℤ))) ∧
      ∀ s neg ip fp e, Spec.Decimal s neg ip fp e → |e| < 10 ^ 5 → parseFloat s = .ok x →
        ∀ k, Spec.MultipleOf (Spec.decimalRat neg ip fp e) k → Spec.MultipleOf q k ∧
          (¬Spec.MultipleOf q (k + 1) → |q - Spec.floatVal x| ≤ |Spec.decimalRat neg ip fp e - Spec.floatVal x|) := by
  cases x with
  | inf n => simp [isFinite] at hx
  | nan => simp [isFinite] at hx
  | fin neg mag hr =>
  have hS : (0 : ℚ) < (scale : ℚ) := by exact_mod_cast scale_pos
  have hm : mag ≠ 0 := by
    rintro rfl
    cases neg <;> exact absurd h0 (by simp [F32.eq, zero, key, isNaN])
  obtain ⟨g1, g2, g3⟩ := shortest_spec hr hm
  have hnum := isNumeral_written prec neg mag hr
  rw [written_neg hp] at hnum
  generalize hn : (shortest mag).1 = n at *
  generalize hd : (shortest mag).2 = d at *
  -- magnitudes that are multiples
  have hpos : ∀ (a b : Nat) (k : Nat), 0 < b → between mag a b = true → Spec.MultipleOf ((a : ℚ) / b / scale) k →
      ∃ j : Nat, between mag (j * (10 ^ k * scale)) 1 = true ∧ (a : ℚ) / b / scale = j * 10 ^ k := by
    rintro a b k hb hab ⟨j, hj⟩
    have hb' : (0 : ℚ) < b := by exact_mod_cast hb
    have hj0 : 0 ≤ j := by
      by_contra hneg
      have h1 : (j : ℚ) * 10 ^ (k : ℤ) < 0 := mul_neg_of_neg_of_pos (by exact_mod_cast not_le.1 hneg) (zpow_pos (by norm_num) _)
      have h2 : (0 : ℚ) ≤ (a : ℚ) / b / scale := by positivity
      linarith
    obtain ⟨j, rfl⟩ := Int.eq_ofNat_of_zero_le hj0
    rw [zpow_natCast, Int.cast_natCast] at hj
    refine ⟨j, ?_, hj⟩
    rw [between_same (a' := a) (b' := b) (by decide) hb]
    · exact hab
    · rw [div_div, div_eq_iff (by positivity)] at hj
      have : ((j * (10 ^ k * scale) * b : ℕ) : ℚ) = ((a * 1 : ℕ) : ℚ) := by push_cast; linarith
      exact_mod_cast this
  have hneg : ∀ (a b : Nat) (k : Nat), 0 < b → between mag a b = true → Spec.MultipleOf ((a : ℚ) / b / scale) (-(k : ℤ)) →
      ∃ j : Nat, between mag (j * scale) (10 ^ k) = true ∧ (a : ℚ) / b / scale = j / 10 ^ k := by
    rintro a b k hb hab ⟨j, hj⟩
    have hb' : (0 : ℚ) < b := by exact_mod_cast hb
    have hj0 : 0 ≤ j := by
      by_contra hneg
      have h1 : (j : ℚ) * 10 ^ (-(k : ℤ)) < 0 := mul_neg_of_neg_of_pos (by exact_mod_cast not_le.1 hneg) (zpow_pos (by norm_num) _)
      have h2 : (0 : ℚ) ≤ (a : ℚ) / b / scale := by positivity
      linarith
    obtain ⟨j, rfl⟩ := Int.eq_ofNat_of_zero_le hj0
    rw [zpow_neg, zpow_natCast, Int.cast_natCast, ← div_eq_mul_inv] at hj
    refine ⟨j, ?_, hj⟩
    rw [between_same (a' := a) (b' := b) (by positivity) hb]
    · exact hab
    · rw [div_div, div_eq_div_iff (by positivity) (by positivity)] at hj
      have : ((j * scale * b : ℕ) : ℚ) = ((a * 10 ^ k : ℕ) : ℚ) := by push_cast; linarith
      exact_mod_cast this
  have hself : ((d * scale : ℕ) : ℚ) / (10 ^ n : ℕ) / scale = d / 10 ^ n := by
    push_cast
    field_simp
  refine ⟨n, _, hnum, ?_, ?_⟩
  · intro m hmn hmul
    rw [sign_mul_multiple, ← hself] at hmul
    obtain ⟨j, hj, -⟩ := hneg _ _ m (by positivity) g1 hmul
    exact absurd (g3 m j hj).1 (by omega)
  · intro s neg' ip fp e hdec he hread k hk
    obtain ⟨rfl, a, b, hb, hab, hq⟩ := read_between hdec he hread
    rw [hq, floatVal_fin, abs_sign, abs_sign, sign_mul_multiple, sign_mul_multiple]
    rw [hq, sign_mul_multiple] at hk
    rcases lt_or_ge k 0 with hk0 | hk0
    · obtain ⟨l, rfl⟩ : ∃ l : Nat, k = -((l + 1 : ℕ) : ℤ) := ⟨(-k - 1).toNat, by omega⟩
      obtain ⟨j, hj, hj'⟩ := hneg a b (l + 1) hb hab hk
      obtain ⟨hle, hclose⟩ := g3 (l + 1) j hj
      refine ⟨⟨d * 10 ^ (l + 1 - n), ?_⟩, fun hno => ?_⟩
      · push_cast
        exact tens_cancel _ hle
      · have hnl : n = l + 1 := by
          by_contra hne
          refine hno ⟨d * 10 ^ (l - n), ?_⟩
          push_cast
          rw [show -((l : ℤ) + 1) + 1 = -(l : ℤ) by ring]
          exact tens_cancel _ (by omega)
        subst hnl
        rw [hj', abs_frac _ _ (by positivity) hS, abs_frac _ _ (by positivity) hS]
        exact div_le_div_of_nonneg_right (by exact_mod_cast hclose rfl (by omega)) (by positivity)
    · obtain ⟨l, rfl⟩ := Int.eq_ofNat_of_zero_le hk0
      obtain ⟨j, hj, hj'⟩ := hpos a b l hb hab hk
      obtain ⟨rfl, ⟨i, rfl⟩, hclose⟩ := g2 l j hj
      refine ⟨⟨i, ?_⟩, fun hno => ?_⟩
      · push_cast
        rw [zpow_natCast]
        ring
      · have := hclose (by
          rintro ⟨i', hi'⟩
          refine hno ⟨i', ?_⟩
          rw [hi']
          push_cast
          rw [← Nat.cast_succ, zpow_natCast, Nat.succ_eq_add_one]
          ring)
        rw [hj', ← div_one ((j : ℚ) * 10 ^ l), pow_zero, abs_frac _ _ (by positivity) hS, abs_frac _ _ (by positivity) hS]
        refine div_le_div_of_nonneg_right ?_ (by positivity)
        rw [mul_one, mul_assoc (j : ℚ)]
        exact_mod_cast this

/-- 0.1, of which the nearest float32 is 0.100000001490116…, 16777216, 33554450, which stands for 33554448, and the smallest and the
largest float32. -/
example : format (-1) (.ofBits 0x3dcccccd) = b!"0.1" ∧ format (-1) (.ofBits 0x4b800000) = b!"16777216" ∧
    format (-1) (.ofBits 0x4c000004) = b!"33554450" ∧ format (-1) (.ofBits 0x80000000) = b!"-0" ∧
    format (-1) (.ofBits 0x00000001) = b!"0.000000000000000000000000000000000000000000001" ∧
    format (-1) (.ofBits 0x7f7fffff) = b!"340282350000000000000000000000000000000" := by decide +kernel

/-- The conditions hold of 0.1, and of a longer text for it. -/
example : (F32.ofBits 0x3dcccccd).isFinite = true ∧ (F32.ofBits 0x3dcccccd).eq .zero = false ∧
    Spec.Decimal b!"1.00000001e-1" false b!"1" b!"00000001" (-1) ∧ parseFloat b!"1.00000001e-1" = .ok (.ofBits 0x3dcccccd) := by
  refine ⟨by decide +kernel, by decide +kernel, ⟨[], b!".", b!"e-1", by simp [Spec.Sign], ?_, ?_, by decide, Or.inr rfl, by decide⟩,
    by decide +kernel⟩
  · exact Or.inr ⟨101, b!"-", true, b!"1", Or.inl rfl, by simp [Spec.Sign], by decide, by unfold Spec.Digit; decide, by decide, by decide⟩
  · unfold Spec.Digit; decide

end Go3mf
