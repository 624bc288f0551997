import Verif.Props.C61Go

/-!
# C61: numbers with huge exponents

strconv stops to read the digits of an exponent once they are at least 10000.  For numbers with less than about 9900 digits
before and after the point this makes no difference.  For longer ones it does: a text that denotes one is read as zero.
-/

namespace Go3mf

open F32 GoNum

/-- What C61 says about a number. -/
def ReadAs (neg : Bool) (q : ℚ) (r : Except NumErr F32) : Prop :=
  (Spec.Overflows q → r = .error .range) ∧ (¬Spec.Overflows q → ∃ x, r = .ok x ∧ x.signBit = neg ∧ Spec.Nearest q x)

theorem readAs_big {neg : Bool} {q q' : ℚ} {r : Except NumErr F32} (h : Spec.Overflows q) (h' : Spec.Overflows q') (hr : ReadAs neg q' r) :
    ReadAs neg q r := ⟨fun _ => hr.1 h', fun hn => absurd h hn⟩

theorem floatVal_zero_or (x : F32) : Spec.floatVal x = 0 ∨ 1 / 2 ^ 149 ≤ |Spec.floatVal x| := by
  unfold Spec.floatVal
  by_cases h : x.key = 0
  · left; simp [h]
  · right
    have hS : (0 : ℚ) < (scale : ℚ) := by exact_mod_cast scale_pos
    rw [abs_div, abs_of_pos hS, scale_eq]
    have : (1 : ℚ) ≤ |(x.key : ℚ)| := by exact_mod_cast Int.one_le_abs h
    push_cast
    exact div_le_div_of_nonneg_right this (by norm_num)

/-- The nearest to a tiny number is zero. -/
theorem nearest_tiny {q : ℚ} {x : F32} (h : |q| < 1 / 2 ^ 150) (hx : Spec.Nearest q x) : Spec.floatVal x = 0 := by
  rcases floatVal_zero_or x with h0 | h0
  · exact h0
  · have h1 := (hx.2 .zero rfl).1
    have hz : Spec.floatVal .zero = 0 := by simp [Spec.floatVal, F32.zero, F32.key]
    rw [hz, sub_zero] at h1
    have h2 := abs_sub_abs_le_abs_sub (Spec.floatVal x) q
    rw [abs_sub_comm] at h2
    have h3 : (1 : ℚ) / 2 ^ 149 = 1 / 2 ^ 150 + 1 / 2 ^ 150 := by norm_num
    linarith

/-- And zero is the nearest to a tiny number. -/
theorem tiny_nearest {q : ℚ} {x : F32} (h : |q| < 1 / 2 ^ 150) (hf : x.isFinite = true) (hx : Spec.floatVal x = 0) : Spec.Nearest q x := by
  refine ⟨hf, fun y _ => ?_⟩
  rw [hx, sub_zero]
  rcases floatVal_zero_or y with h0 | h0
  · rw [h0, sub_zero]
    exact ⟨le_rfl, fun _ => Or.inl rfl⟩
  · have h2 := abs_sub_abs_le_abs_sub (Spec.floatVal y) q
    rw [abs_sub_comm] at h2
    have h3 : (1 : ℚ) / 2 ^ 149 = 1 / 2 ^ 150 + 1 / 2 ^ 150 := by norm_num
    exact ⟨by linarith, fun he => absurd he (by linarith)⟩

theorem not_overflows_tiny {q : ℚ} (h : |q| < 1 / 2 ^ 150) : ¬Spec.Overflows q := by
  unfold Spec.Overflows
  intro h'
  have : (1 : ℚ) / 2 ^ 150 < (2 ^ 25 - 1) * 2 ^ 103 := by norm_num
  linarith

theorem readAs_tiny {neg : Bool} {q q' : ℚ} {r : Except NumErr F32} (h : |q| < 1 / 2 ^ 150) (h' : |q'| < 1 / 2 ^ 150)
    (hr : ReadAs neg q' r) : ReadAs neg q r := by
  refine ⟨fun ho => absurd ho (not_overflows_tiny h), fun _ => ?_⟩
  obtain ⟨x, h1, h2, h3⟩ := hr.2 (not_overflows_tiny h')
  exact ⟨x, h1, h2, tiny_nearest h h3.1 (nearest_tiny h' h3)⟩

theorem abs_signed (neg : Bool) (q : ℚ) (h : 0 ≤ q) : |(if neg then -1 else 1) * q| = q := by
  rw [abs_mul, abs_of_nonneg h]
  cases neg <;> simp

/-! ## Decimal numbers -/

theorem digits_below (s : Str) (h : ∀ b ∈ s, Spec.Digit b) : Spec.digits s < 10 ^ s.length := by
  have : ∀ (s : Str) (a : Nat), (∀ b ∈ s, Spec.Digit b) → s.foldl (fun acc b => 10 * acc + (b.toNat - 48)) a < (a + 1) * 10 ^ s.length := by
    intro s
    induction s with
    | nil => intro a _; simp
    | cons b s ih =>
      intro a h
      have h2 := h b (by simp)
      unfold Spec.Digit at h2
      refine lt_of_lt_of_le (ih _ (fun c hc => h c (by simp [hc]))) ?_
      rw [List.length_cons, pow_succ, Nat.mul_comm _ 10, ← Nat.mul_assoc]
      exact Nat.mul_le_mul_right _ (by simp only; omega)
  simpa [Spec.digits] using this s 0 h

theorem decimalRat_big (neg : Bool) (ip fp : Str) (e : ℤ) (hfp : fp.length ≤ 9900) (he : 10 ^ 4 ≤ e) (hd : Spec.digits (ip ++ fp) ≠ 0) :
    Spec.Overflows (Spec.decimalRat neg ip fp e) := by
  unfold Spec.Overflows Spec.decimalRat
  rw [abs_signed _ _ (mul_nonneg (Nat.cast_nonneg _) (zpow_pos (by norm_num) _).le)]
  have h1 : (1 : ℚ) ≤ Spec.digits (ip ++ fp) := by exact_mod_cast Nat.one_le_iff_ne_zero.2 hd
  have h2 : (10 : ℚ) ^ (50 : ℤ) ≤ 10 ^ (e - fp.length) := zpow_le_zpow_right₀ (by norm_num) (by omega)
  have h3 : ((2 : ℚ) ^ 25 - 1) * 2 ^ 103 ≤ 10 ^ (50 : ℤ) := by norm_num
  calc _ ≤ (10 : ℚ) ^ (50 : ℤ) := h3
    _ ≤ 1 * 10 ^ (e - fp.length) := by rw [one_mul]; exact h2
    _ ≤ _ := by gcongr

theorem decimalRat_tiny (neg : Bool) (ip fp : Str) (e : ℤ) (hip : ip.length ≤ 9900) (he : e ≤ -10 ^ 4) (hd : ∀ b ∈ ip ++ fp, Spec.Digit b) :
    |Spec.decimalRat neg ip fp e| < 1 / 2 ^ 150 := by
  unfold Spec.decimalRat
  rw [abs_signed _ _ (mul_nonneg (Nat.cast_nonneg _) (zpow_pos (by norm_num) _).le)]
  have h1 : (Spec.digits (ip ++ fp) : ℚ) < 10 ^ (((ip ++ fp).length : ℕ) : ℤ) := by
    rw [zpow_natCast]
    exact_mod_cast digits_below _ hd
  have h2 : (10 : ℚ) ^ ((((ip ++ fp).length : ℕ) : ℤ) + (e - fp.length)) ≤ 10 ^ (-50 : ℤ) :=
    zpow_le_zpow_right₀ (by norm_num) (by rw [List.length_append]; push_cast; omega)
  have h3 : (10 : ℚ) ^ (-50 : ℤ) < 1 / 2 ^ 150 := by norm_num
  rw [zpow_add₀ (by norm_num)] at h2
  have h4 : (0 : ℚ) < 10 ^ (e - fp.length) := zpow_pos (by norm_num) _
  exact ((mul_lt_mul_of_pos_right h1 h4).trans_le h2).trans h3

/-- **C61, long exponents.**  However long the exponent is, the number is read as the nearest float32, or out of range if it is too
big, when there are not more than 9900 digits before and after the point. -/
theorem C61_long (s : Str) (neg : Bool) (ip fp : Str) (e : ℤ) (h : Spec.Decimal s neg ip fp e) (hip : ip.length ≤ 9900)
    (hfp : fp.length ≤ 9900) :
    (Spec.Overflows (Spec.decimalRat neg ip fp e) → parseFloat s = .error .range) ∧
    (¬Spec.Overflows (Spec.decimalRat neg ip fp e) →
      ∃ x, parseFloat s = .ok x ∧ x.signBit = neg ∧ Spec.Nearest (Spec.decimalRat neg ip fp e) x) := by
  by_cases he : |e| < 10 ^ 5
  · exact C61_value s neg ip fp e h he
  · obtain ⟨eneg, n, hen, hp⟩ := parseFloat_decimal s neg ip fp e h
    obtain ⟨hn, hs⟩ := hen.2.1 (not_lt.1 he)
    have hr := finishFloat_decimal neg ip fp eneg n _ rfl
    rw [← hp] at hr
    obtain ⟨-, -, -, -, -, hd, -⟩ := h
    change ReadAs neg _ (parseFloat s)
    by_cases h0 : Spec.digits (ip ++ fp) = 0
    · have hz : ∀ k, Spec.decimalRat neg ip fp k = 0 := fun k => by simp [Spec.decimalRat, h0]
      rw [hz] at hr ⊢
      exact hr
    · cases eneg with
      | false =>
        have : 0 ≤ e := by by_contra hc; exact absurd (hs.2 (by omega)) (by decide)
        rw [abs_of_nonneg this] at he
        exact readAs_big (decimalRat_big neg ip fp e hfp (by omega) h0)
          (decimalRat_big neg ip fp _ hfp (by simpa using (by exact_mod_cast hn)) h0) hr
      | true =>
        have : e < 0 := hs.1 rfl
        rw [abs_of_neg this] at he
        exact readAs_tiny (decimalRat_tiny neg ip fp e hip (by omega) hd)
          (decimalRat_tiny neg ip fp _ hip (by simp; omega) hd) hr

/-- Half of a huge number is out of range. -/
example : Spec.Decimal b!"-.5E+1234567" true [] b!"5" 1234567 ∧ parseFloat b!"-.5E+1234567" = .error .range := by
  suffices h : Spec.Decimal b!"-.5E+1234567" true [] b!"5" 1234567 from
    ⟨h, (C61_long _ _ _ _ _ h (by decide) (by decide)).1 (decimalRat_big _ _ _ _ (by decide) (by norm_num) (by decide +kernel))⟩
  refine ⟨b!"-", b!".", b!"E+1234567", Or.inr (Or.inr ⟨rfl, rfl⟩), Or.inr ⟨69, b!"+", false, b!"1234567", Or.inr rfl, Or.inr (Or.inl ⟨rfl, rfl⟩),
    by decide, ?_, rfl, by decide +kernel⟩, ?_, by decide, Or.inr rfl, rfl⟩
  · intro b hb; rw [digit_iff]; revert b; decide +kernel
  · intro b hb; rw [digit_iff]; revert b; decide +kernel

/-! ## A number that is cut off -/

/-- A number with `k` zeros before the only other digit. -/
def longOne (k : Nat) : Str := 48 :: 46 :: (List.replicate k 48 ++ [49] ++ b!"e1000001")

theorem longOne_schema (k : Nat) : Spec.SchemaNumber (longOne k) false [48] (List.replicate k 48 ++ [49]) 1000001 := by
  refine ⟨[], [46], b!"e1000001", Or.inl ⟨rfl, rfl⟩, Or.inr ⟨101, [], false, b!"1000001", Or.inl rfl, Or.inl ⟨rfl, rfl⟩, by decide, ?_, rfl,
    by decide +kernel⟩, ?_, by simp, Or.inr ⟨rfl, by simp⟩, by simp [longOne]⟩
  · intro b hb; rw [digit_iff]; revert b; decide +kernel
  · intro b hb
    simp only [List.mem_append, List.mem_singleton, List.mem_replicate] at hb
    rcases hb with rfl | ⟨-, rfl⟩ | rfl <;> exact (digit_iff _).2 (by decide)

theorem digits_longOne (k : Nat) : Spec.digits ([48] ++ (List.replicate k 48 ++ [49])) = 1 := by
  have : ∀ k : Nat, (List.replicate k (48 : Byte)).foldl (fun acc b => 10 * acc + (b.toNat - 48)) 0 = 0 := by
    intro k
    induction k with
    | zero => rfl
    | succ k ih => simpa [List.replicate_succ] using ih
  have h2 := this k
  simp only [Spec.digits, List.foldl_append, List.foldl_cons, List.foldl_nil] at h2 ⊢
  rw [show 10 * 0 + ((48 : Byte).toNat - 48) = 0 from rfl, h2]
  rfl

/-- With enough zeros it is read as zero. -/
theorem longOne_zero (k : Nat) (hk : 200000 ≤ k) : ∃ x, parseFloat (longOne k) = .ok x ∧ Spec.floatVal x = 0 := by
  obtain ⟨eneg, n, hen, hp⟩ := parseFloat_decimal _ _ _ _ _ (schema_decimal (longOne_schema k))
  have hn := hen.2.2
  have hr := finishFloat_decimal false [48] (List.replicate k 48 ++ [49]) eneg n _ rfl
  rw [← hp] at hr
  have ht : |Spec.decimalRat false [48] (List.replicate k 48 ++ [49]) (if eneg then -(n : ℤ) else n)| < 1 / 2 ^ 150 := by
    unfold Spec.decimalRat
    rw [digits_longOne, abs_signed _ _ (mul_nonneg (Nat.cast_nonneg _) (zpow_pos (by norm_num) _).le), Nat.cast_one, one_mul,
      List.length_append, List.length_replicate, List.length_singleton]
    have h3 : (10 : ℚ) ^ (-50 : ℤ) < 1 / 2 ^ 150 := by norm_num
    refine lt_of_le_of_lt (zpow_le_zpow_right₀ (by norm_num) ?_) h3
    push_cast
    split <;> omega
  obtain ⟨x, h1, -, h2⟩ := hr.2 (not_overflows_tiny ht)
  exact ⟨x, h1, nearest_tiny ht h2⟩

theorem longOne_one (k : Nat) (hk : k = 1000000) : Spec.decimalRat false [48] (List.replicate k 48 ++ [49]) 1000001 = 1 := by
  unfold Spec.decimalRat
  rw [digits_longOne, List.length_append, List.length_replicate, List.length_singleton,
    show (1000001 : ℤ) - ((k + 1 : ℕ) : ℤ) = 0 by omega]
  norm_num

/-- **C61 fails for long numbers.**  A text of the schema that denotes one is read as zero. -/
theorem C61_long_false : ∃ s neg ip fp e, Spec.SchemaNumber s neg ip fp e ∧ Spec.decimalRat neg ip fp e = 1 ∧
    ∃ x, parseFloat s = .ok x ∧ Spec.floatVal x = 0 := by
  obtain ⟨k, hk⟩ : ∃ k : Nat, k = 1000000 := ⟨_, rfl⟩
  exact ⟨longOne k, false, _, _, _, longOne_schema k, longOne_one k hk, longOne_zero k (by omega)⟩

/-! ## Hexadecimal numbers -/

theorem hexDigits_below (s : Str) (h : ∀ b ∈ s, Spec.HexDigit b) : Spec.hexDigits s < 16 ^ s.length := by
  have : ∀ (s : Str) (a : Nat), (∀ b ∈ s, Spec.HexDigit b) → s.foldl (fun acc b => 16 * acc + Spec.hexDigitVal b) a < (a + 1) * 16 ^ s.length := by
    intro s
    induction s with
    | nil => intro a _; simp
    | cons b s ih =>
      intro a h
      have h2 : Spec.hexDigitVal b < 16 := by
        have := h b (by simp)
        unfold Spec.HexDigit Spec.Digit at this
        unfold Spec.hexDigitVal
        split
        · omega
        · split <;> omega
      refine lt_of_lt_of_le (ih _ (fun c hc => h c (by simp [hc]))) ?_
      rw [List.length_cons, pow_succ, Nat.mul_comm _ 16, ← Nat.mul_assoc]
      exact Nat.mul_le_mul_right _ (by simp only; omega)
  simpa [Spec.hexDigits] using this s 0 h

theorem hexRat_big (neg : Bool) (ip fp : Str) (e : ℤ) (hfp : fp.length ≤ 2400) (he : 10 ^ 4 ≤ e) (hd : Spec.hexDigits (ip ++ fp) ≠ 0) :
    Spec.Overflows (Spec.hexRat neg ip fp e) := by
  unfold Spec.Overflows Spec.hexRat
  rw [abs_signed _ _ (mul_nonneg (Nat.cast_nonneg _) (zpow_pos (by norm_num) _).le)]
  have h1 : (1 : ℚ) ≤ Spec.hexDigits (ip ++ fp) := by exact_mod_cast Nat.one_le_iff_ne_zero.2 hd
  have h2 : (2 : ℚ) ^ (200 : ℤ) ≤ 2 ^ (e - 4 * fp.length) := zpow_le_zpow_right₀ (by norm_num) (by omega)
  have h3 : ((2 : ℚ) ^ 25 - 1) * 2 ^ 103 ≤ 2 ^ (200 : ℤ) := by norm_num
  calc _ ≤ (2 : ℚ) ^ (200 : ℤ) := h3
    _ ≤ 1 * 2 ^ (e - 4 * fp.length) := by rw [one_mul]; exact h2
    _ ≤ _ := by gcongr

theorem hexRat_tiny (neg : Bool) (ip fp : Str) (e : ℤ) (hip : ip.length ≤ 2400) (he : e ≤ -10 ^ 4) (hd : ∀ b ∈ ip ++ fp, Spec.HexDigit b) :
    |Spec.hexRat neg ip fp e| < 1 / 2 ^ 150 := by
  unfold Spec.hexRat
  rw [abs_signed _ _ (mul_nonneg (Nat.cast_nonneg _) (zpow_pos (by norm_num) _).le)]
  have h1 : (Spec.hexDigits (ip ++ fp) : ℚ) < 2 ^ (4 * (((ip ++ fp).length : ℕ) : ℤ)) := by
    rw [zpow_mul, zpow_natCast]
    have := hexDigits_below _ hd
    have h16 : ((2 : ℚ) ^ (4 : ℤ)) = 16 := by norm_num
    rw [h16]
    exact_mod_cast this
  have h2 : (2 : ℚ) ^ (4 * (((ip ++ fp).length : ℕ) : ℤ) + (e - 4 * fp.length)) ≤ 2 ^ (-200 : ℤ) :=
    zpow_le_zpow_right₀ (by norm_num) (by rw [List.length_append]; push_cast; omega)
  have h3 : (2 : ℚ) ^ (-200 : ℤ) < 1 / 2 ^ 150 := by norm_num
  rw [zpow_add₀ (by norm_num)] at h2
  have h4 : (0 : ℚ) < 2 ^ (e - 4 * fp.length) := zpow_pos (by norm_num) _
  exact ((mul_lt_mul_of_pos_right h1 h4).trans_le h2).trans h3

/-- **C61, hexadecimal numbers with long exponents.**  The same with not more than 2400 digits. -/
theorem C61_hex_long (s : Str) (neg : Bool) (ip fp : Str) (e : ℤ) (h : Spec.GoHex s neg ip fp e) (hip : ip.length ≤ 2400)
    (hfp : fp.length ≤ 2400) :
    (Spec.Overflows (Spec.hexRat neg ip fp e) → parseFloat s = .error .range) ∧
    (¬Spec.Overflows (Spec.hexRat neg ip fp e) →
      ∃ x, parseFloat s = .ok x ∧ x.signBit = neg ∧ Spec.Nearest (Spec.hexRat neg ip fp e) x) := by
  by_cases he : |e| < 10 ^ 5
  · exact C61_hex s neg ip fp e h he
  · obtain ⟨dot, ex, hp, hd, hne, hdot, hex⟩ := parseFloat_goHex h
    obtain ⟨eneg, n, hen, hc⟩ := core_body neg ip dot fp hd hne hdot hex
    obtain ⟨hn, hs⟩ := hen.2.1 (not_lt.1 he)
    have hr := finishFloat_hex neg ip fp eneg n _ rfl
    rw [mval_true _ hd] at hc
    change core true neg _ = finishFloat true neg (Spec.hexDigits (ip ++ fp)) fp.length eneg n at hc
    rw [← hc, ← hp] at hr
    have hd' : ∀ b ∈ ip ++ fp, Spec.HexDigit b := fun b hb => (dig_true_iff b).2 (hd b hb)
    change ReadAs neg _ (parseFloat s)
    by_cases h0 : Spec.hexDigits (ip ++ fp) = 0
    · have hz : ∀ k, Spec.hexRat neg ip fp k = 0 := fun k => by simp [Spec.hexRat, h0]
      rw [hz] at hr ⊢
      exact hr
    · cases eneg with
      | false =>
        have : 0 ≤ e := by by_contra hc; exact absurd (hs.2 (by omega)) (by decide)
        rw [abs_of_nonneg this] at he
        exact readAs_big (hexRat_big neg ip fp e hfp (by omega) h0)
          (hexRat_big neg ip fp _ hfp (by simpa using (by exact_mod_cast hn)) h0) hr
      | true =>
        have : e < 0 := hs.1 rfl
        rw [abs_of_neg this] at he
        exact readAs_tiny (hexRat_tiny neg ip fp e hip (by omega) hd')
          (hexRat_tiny neg ip fp _ hip (by simp; omega) hd') hr

example : Spec.GoHex b!"0x1p-999999" false b!"1" [] (-999999) := by
  refine ⟨[], 120, b!"1p-999999", [], b!"p-999999", Or.inl ⟨rfl, rfl⟩, Or.inl rfl, rfl, ?_,
    ⟨112, b!"-", true, b!"999999", Or.inl rfl, Or.inr (Or.inr ⟨rfl, rfl⟩), by decide, ?_, rfl, by decide +kernel⟩, ?_, by decide, Or.inl ⟨rfl, rfl⟩,
    by decide +kernel⟩
  · rw [sep_iff dig_true_iff, ← underscoreLoop_digit]
    decide +kernel
  · intro b hb; rw [digit_iff]; revert b; decide +kernel
  · intro b hb; rw [dig_true_iff]; revert b; decide +kernel

end Go3mf
