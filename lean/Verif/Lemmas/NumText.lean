import Verif.Lemmas.Shortest

/-! Helper lemmas: decimal numerals and parsing of formatted numbers. -/

namespace Go3mf

theorem isDigit_iff (b : Byte) : isDigit b = true ↔ 48 ≤ b.toNat ∧ b.toNat ≤ 57 := by
  simp [isDigit, UInt8.le_iff_toNat_le]

theorem digitByte_toNat {d : Nat} (h : d < 10) : (digitByte d).toNat = 48 + d := by
  unfold digitByte
  rw [UInt8.toNat_ofNat']
  omega

theorem isDigit_digitByte {d : Nat} (h : d < 10) : isDigit (digitByte d) = true := by
  rw [isDigit_iff, digitByte_toNat h]; omega

/-- Value of a digit string continued from an accumulator. -/
def digitsAcc (acc : Nat) (s : Str) : Nat := s.foldl (fun acc b => acc * 10 + (b.toNat - 48)) acc

theorem digitsVal_eq (s : Str) : digitsVal s = digitsAcc 0 s := rfl

theorem digitsAcc_append (acc : Nat) (s t : Str) :
    digitsAcc acc (s ++ t) = digitsAcc (digitsAcc acc s) t := by
  simp [digitsAcc]

theorem digitsAcc_eq (acc : Nat) (s : Str) : digitsAcc acc s = acc * 10 ^ s.length + digitsVal s := by
  induction s generalizing acc with
  | nil => simp [digitsAcc, digitsVal]
  | cons b s ih =>
    simp only [digitsAcc, digitsVal, List.foldl_cons, List.length_cons] at *
    rw [ih, ih (0 * 10 + _)]
    ring

theorem natDigitsRev_val (fuel n : Nat) (h : n < 10 ^ fuel) :
    digitsVal (natDigitsRev fuel n).reverse = n := by
  induction fuel generalizing n with
  | zero => simp at h; subst h; rfl
  | succ f ih =>
    unfold natDigitsRev
    split
    · rename_i h10
      simp [digitsVal, digitByte_toNat h10]
    · rw [List.reverse_cons, digitsVal_eq, digitsAcc_append, ← digitsVal_eq, ih]
      · simp only [digitsAcc, List.foldl_cons, List.foldl_nil]
        rw [digitByte_toNat (Nat.mod_lt _ (by decide))]
        omega
      · rw [Nat.pow_succ] at h; omega

theorem natDigitsRev_digits (fuel n : Nat) : ∀ b ∈ natDigitsRev fuel n, isDigit b = true := by
  induction fuel generalizing n with
  | zero => simp [natDigitsRev]
  | succ f ih =>
    unfold natDigitsRev
    split
    · rename_i h; simpa using isDigit_digitByte h
    · intro b hb
      rw [List.mem_cons] at hb
      rcases hb with rfl | hb
      · exact isDigit_digitByte (Nat.mod_lt _ (by decide))
      · exact ih _ _ hb

theorem lt_ten_pow_log2 (n : Nat) : n < 10 ^ (Nat.log2 n + 1) :=
  lt_of_lt_of_le Nat.lt_log2_self (Nat.pow_le_pow_left (by decide) _)

theorem digitsVal_natDigits (n : Nat) : digitsVal (natDigits n) = n :=
  natDigitsRev_val _ _ (lt_ten_pow_log2 n)

theorem natDigits_digits (n : Nat) : ∀ b ∈ natDigits n, isDigit b = true := by
  intro b hb
  exact natDigitsRev_digits _ _ b (by simpa [natDigits] using hb)

theorem natDigits_ne_nil (n : Nat) : natDigits n ≠ [] := by
  unfold natDigits natDigitsRev
  split <;> simp

/-- Value of any prefix of a digit string is bounded by the whole value. -/
theorem digitsAcc_ge (acc : Nat) (s : Str) : acc ≤ digitsAcc acc s := by
  rw [digitsAcc_eq]
  have : 0 < 10 ^ s.length := by positivity
  nlinarith

theorem parseUintLoop_digits (s : Str) (acc : Nat) (hd : ∀ b ∈ s, isDigit b = true)
    (h : digitsAcc acc s < 2 ^ 32) : parseUintLoop s acc = .ok (UInt32.ofNat (digitsAcc acc s)) := by
  induction s generalizing acc with
  | nil => rfl
  | cons b s ih =>
    unfold parseUintLoop
    have hb := hd b (by simp)
    simp only [hb, if_true]
    have h' : digitsAcc (acc * 10 + (b.toNat - 48)) s < 2 ^ 32 := h
    have hge := digitsAcc_ge (acc * 10 + (b.toNat - 48)) s
    rw [if_neg (by omega)]
    exact ih _ (fun b hb => hd b (by simp [hb])) h'

theorem parseUint_natDigits (n : Nat) (h : n < 2 ^ 32) :
    parseUint (natDigits n) = .ok (UInt32.ofNat n) := by
  unfold parseUint
  rw [if_neg (by simpa using natDigits_ne_nil n)]
  have hv := digitsVal_natDigits n
  rw [digitsVal_eq] at hv
  rw [parseUintLoop_digits _ _ (natDigits_digits n) (by rw [hv]; exact h), hv]

theorem parseUint_formatUint (x : UInt32) : parseUint (formatUint x) = .ok x := by
  unfold formatUint
  rw [parseUint_natDigits _ (UInt32.toNat_lt x)]
  simp

theorem formatUint_digits (x : UInt32) : ∀ b ∈ formatUint x, isDigit b = true := natDigits_digits _

theorem formatUint_ne_nil (x : UInt32) : formatUint x ≠ [] := natDigits_ne_nil _

/-! ### Fixed point numerals -/

theorem scale_eq : scale = 2 ^ 149 := by unfold scale; rfl

theorem scale_pos : 0 < scale := by rw [scale_eq]; positivity

namespace F32

theorem padZero_digits (n : Nat) (s : Str) (h : ∀ b ∈ s, isDigit b = true) :
    ∀ b ∈ padZero n s, isDigit b = true := by
  intro b hb
  simp only [padZero, List.mem_append, List.mem_replicate] at hb
  rcases hb with ⟨-, rfl⟩ | hb
  · decide
  · exact h b hb

theorem digitsAcc_replicate_zero (n : Nat) : digitsAcc 0 (List.replicate n 48) = 0 := by
  induction n with
  | zero => rfl
  | succ n ih => simpa [List.replicate_succ, digitsAcc] using ih

theorem digitsVal_padZero (n : Nat) (s : Str) : digitsVal (padZero n s) = digitsVal s := by
  rw [digitsVal_eq, padZero, digitsAcc_append, digitsAcc_replicate_zero]; rfl

theorem length_padZero (n : Nat) (s : Str) : n ≤ (padZero n s).length := by
  simp [padZero]; omega

end F32

/-- Mantissa scan over decimal digits. -/
theorem readMantissa_digits (s t : Str) (st : ReadFloat) (hd : ∀ b ∈ s, isDigit b = true) :
    readMantissa false (s ++ t) st = readMantissa false t { st with
      sawDigits := st.sawDigits || !s.isEmpty
      mant := digitsAcc st.mant s
      frac := if st.sawDot then st.frac + s.length else st.frac } := by
  induction s generalizing st with
  | nil => simp [digitsAcc]
  | cons b s ih =>
    have hb := hd b (by simp)
    have hb' := (isDigit_iff b).1 hb
    have h1 : b ≠ 95 := by rintro rfl; revert hb; decide
    have h2 : b ≠ 46 := by rintro rfl; revert hb; decide
    rw [List.cons_append, readMantissa, if_neg h1, if_neg h2, if_pos hb,
      ih _ (fun b hb => hd b (by simp [hb]))]
    congr 1
    cases st with
    | mk m f sd sg u =>
      cases sd <;> simp [digitsAcc] <;> omega

theorem readMantissa_dot (t : Str) (st : ReadFloat) (h : st.sawDot = false) :
    readMantissa false (46 :: t) st = readMantissa false t { st with sawDot := true } := by
  rw [readMantissa, if_neg (by decide), if_pos rfl, h]; rfl

/-- Shape of the text written for a finite float: digits, or digits '.' digits. -/
theorem fixedDigits_shape (prec d : Nat) :
    ∃ ip fp : Str, ip ≠ [] ∧ (∀ b ∈ ip, isDigit b = true) ∧ (∀ b ∈ fp, isDigit b = true) ∧
      fp.length = prec ∧ digitsVal (ip ++ fp) = d ∧
      F32.fixedDigits prec d = if prec = 0 then ip else ip ++ 46 :: fp := by
  have hdig := F32.padZero_digits (prec + 1) _ (natDigits_digits d)
  have hval := F32.digitsVal_padZero (prec + 1) (natDigits d)
  have hlen := F32.length_padZero (prec + 1) (natDigits d)
  rw [digitsVal_natDigits] at hval
  unfold F32.fixedDigits
  dsimp only
  generalize F32.padZero (prec + 1) (natDigits d) = s at *
  refine ⟨s.take (s.length - prec), s.drop (s.length - prec), ?_, ?_, ?_, ?_, ?_, ?_⟩
  · intro h
    have := congrArg List.length h
    simp at this
    omega
  · intro b hb; exact hdig b (List.mem_of_mem_take hb)
  · intro b hb; exact hdig b (List.mem_of_mem_drop hb)
  · simp; omega
  · rw [List.take_append_drop]; exact hval
  · split
    · rename_i h; subst h; simp
    · rfl

theorem lowerByte_digit : ∀ b : Byte, isDigit b = true → lowerByte b ≠ 120 :=
  forall_byte (by decide +kernel)

theorem asciiLower_digit : ∀ b : Byte, isDigit b = true → asciiLower b = b :=
  forall_byte (by decide +kernel)

/-- Parsing the text of a fixed point numeral. -/
theorem parseFloat_fixed (neg : Bool) (prec d : Nat) :
    parseFloat ((if neg then [45] else []) ++ F32.fixedDigits prec d) =
      finishFloat false neg d prec false 0 := by
  obtain ⟨ip, fp, hne, hip, hfp, hlen, hval, heq⟩ := fixedDigits_shape prec d
  obtain ⟨c, cs, rfl⟩ := List.exists_cons_of_ne_nil hne
  have hc := hip c (by simp)
  have hcn := (isDigit_iff c).1 hc
  rw [heq]
  -- the text is c :: rest
  obtain ⟨rest, hrest, hx⟩ : ∃ rest, (if prec = 0 then c :: cs else (c :: cs) ++ 46 :: fp) = c :: rest ∧
      ∀ x ∈ rest.head?, lowerByte x ≠ 120 := by
    split
    · refine ⟨cs, rfl, ?_⟩
      intro x hx
      exact lowerByte_digit x (hip x (by
        have := List.mem_of_mem_head? hx
        simp [this]))
    · refine ⟨cs ++ 46 :: fp, rfl, ?_⟩
      intro x hx
      cases cs with
      | nil => simp at hx; subst hx; decide
      | cons y ys =>
        simp at hx; subst hx
        exact lowerByte_digit _ (hip _ (by simp))
  have hspec : parseSpecial ((if neg then [45] else []) ++ c :: rest) = none := by
    have hl := asciiLower_digit c hc
    have hw : ∀ x : Byte, x.toNat < 48 ∨ 57 < x.toNat → c ≠ x := by
      rintro x hx rfl; omega
    have w1 := hw 110 (by decide)
    have w2 := hw 105 (by decide)
    have w3 := hw 43 (by decide)
    have w4 := hw 45 (by decide)
    have w5 := hw 97 (by decide)
    have h45 : asciiLower 45 = 45 := by decide
    unfold parseSpecial
    cases neg
    · simp only [Bool.false_eq_true, if_false, List.nil_append, List.map_cons, hl, List.cons.injEq,
        w1, w2, w3, w4, false_and, decide_false, Bool.or_false, if_false]
    · simp only [if_true, List.cons_append, List.nil_append, List.map_cons, hl, h45, List.cons.injEq,
        w1, w2, w5, false_and, and_false, decide_false, Bool.or_false]
      simp
  rw [hrest]
  unfold parseFloat
  rw [hspec]
  have hsign : splitSign ((if neg then [45] else []) ++ c :: rest) = (neg, c :: rest) := by
    cases neg
    · have h1 : c ≠ 43 := by rintro rfl; revert hc; decide
      have h2 : c ≠ 45 := by rintro rfl; revert hc; decide
      simp [splitSign, h1, h2]
    · simp [splitSign]
  have hhex : splitHex (c :: rest) = (false, c :: rest) := by
    rcases rest with _ | ⟨x, _ | ⟨r, rest⟩⟩
    · rfl
    · rfl
    · have := hx x (by simp)
      simp [splitHex, this]
  dsimp only
  rw [hsign]
  dsimp only
  unfold parseUnsigned
  rw [hhex]
  dsimp only
  rw [← hrest]
  have hm : readMantissa false (if prec = 0 then c :: cs else (c :: cs) ++ 46 :: fp) {} =
      ({ mant := d, frac := prec, sawDot := decide (prec ≠ 0), sawDigits := true, underscores := false }, []) := by
    split
    · rename_i hp
      have hfp0 : fp = [] := List.eq_nil_of_length_eq_zero (by omega)
      subst hfp0
      have := readMantissa_digits (c :: cs) [] {} hip
      rw [List.append_nil] at this hval
      rw [this, readMantissa]
      simp [hp, ← hval, digitsVal, digitsAcc]
    · rename_i hp
      rw [readMantissa_digits (c :: cs) (46 :: fp) {} hip, readMantissa_dot _ _ rfl]
      have := readMantissa_digits fp [] { mant := digitsAcc 0 (c :: cs), frac := 0, sawDot := true, sawDigits := true, underscores := false } hfp
      rw [List.append_nil] at this
      simp only [Bool.false_eq_true, if_false, List.isEmpty_cons, Bool.not_false, Bool.or_true]
      rw [this, readMantissa]
      simp only [hlen, ← digitsAcc_append]
      rw [← digitsVal_eq, hval]
      simp [hp]
  rw [hm]
  simp [parseExp]

theorem finishFloat_dec (neg : Bool) (d prec : Nat) :
    finishFloat false neg d prec false 0 = rangeCheck (F32.ofRat neg (d * scale) (10 ^ prec)) := by
  unfold finishFloat
  generalize d * scale = a
  simp only [Bool.false_eq_true, if_false, Nat.pow_zero, Nat.mul_one]

namespace F32

/-- What reading back a formatted finite float gives: the grid point `roundMag` of the decimal. -/
def reread (prec : Int) (mag : Nat) : Nat := roundMag ((written prec mag).2 * scale) (10 ^ (written prec mag).1)

theorem written_nat (prec mag : Nat) : written prec mag = (prec, decimalOf prec mag) := by
  unfold written
  rw [if_neg (by omega), Int.toNat_natCast]

theorem written_neg {prec : Int} (h : prec < 0) (mag : Nat) : written prec mag = shortest mag := by
  unfold written
  rw [if_pos h]

theorem reread_nat (prec mag : Nat) : reread prec mag = roundMag (decimalOf prec mag * scale) (10 ^ prec) := by
  rw [reread, written_nat]

theorem reread_neg {prec : Int} (h : prec < 0) {mag : Nat} (hr : Rep mag) : reread prec mag = mag := by
  rw [reread, written_neg h, shortest_round hr]

/-- A precision is negative or a number of decimals. -/
theorem prec_cases (prec : Int) : prec < 0 ∨ ∃ n : Nat, prec = n := by
  rcases lt_or_ge prec 0 with h | h
  · exact .inl h
  · exact .inr ⟨prec.toNat, (Int.toNat_of_nonneg h).symm⟩

theorem decimalOf_le (prec mag : Nat) (h : Rep mag) : decimalOf prec mag * scale ≤ maxMag * 10 ^ prec := by
  have h1 : decimalOf prec mag ≤ (2 ^ 24 - 1) * 2 ^ 104 * 10 ^ prec := by
    unfold decimalOf
    apply rhe_le_of_lt scale_pos
    have := Nat.mul_le_mul_right (10 ^ prec) h.1
    calc mag * 10 ^ prec ≤ maxMag * 10 ^ prec := this
      _ = _ := by rw [scale_eq]; unfold maxMag; ring
  calc _ ≤ (2 ^ 24 - 1) * 2 ^ 104 * 10 ^ prec * scale := Nat.mul_le_mul_right _ h1
    _ = _ := by rw [scale_eq]; unfold maxMag; ring

theorem rep_maxMag : Rep maxMag := by decide +kernel

theorem rep_reread (prec : Int) (mag : Nat) (h : Rep mag) : Rep (reread prec mag) := by
  rcases prec_cases prec with hp | ⟨n, rfl⟩
  · rwa [reread_neg hp h]
  · rw [reread_nat]
    apply rep_roundMag _ _ (by positivity)
    exact roundMag_le (by positivity) rep_maxMag.2 (decimalOf_le n mag h)

theorem parse_format_fin (prec : Int) (neg : Bool) (mag : Nat) (h : Rep mag) :
    parseFloat (format prec (.fin neg mag h)) = .ok (.fin neg (reread prec mag) (rep_reread prec mag h)) := by
  unfold format
  rw [parseFloat_fixed, finishFloat_dec]
  have hr := rep_reread prec mag h
  have : ofRat neg ((written prec mag).2 * scale) (10 ^ (written prec mag).1) = .fin neg (reread prec mag) hr := by
    unfold ofRat
    show (if reread prec mag ≤ maxMag then mk neg (reread prec mag) else .inf neg) = _
    rw [if_pos hr.1, mk, dif_pos hr]
  rw [this, rangeCheck]
  simp

/-- Integer rounding as a distance bound, with parity at ties. -/
theorem rhe_dist (x S : Nat) (hS : 0 < S) :
    2 * |(x : Int) - rhe x S * S| ≤ S ∧ (2 * |(x : Int) - rhe x S * S| = S → rhe x S % 2 = 0) := by
  obtain ⟨s1, s2, u1, u2⟩ := rhe_spec x S hS
  generalize rhe x S = D at *
  have h1 : (2 * x : Int) ≤ S * (2 * D + 1) := by exact_mod_cast s1
  have h2 : (2 * S * D : Int) ≤ 2 * x + S := by exact_mod_cast s2
  rcases abs_choice ((x : Int) - D * S) with hh | hh
  · rw [hh]
    refine ⟨by linarith, fun ht => u1 ?_⟩
    have : (2 * x : Int) = S * (2 * D + 1) := by linarith
    exact_mod_cast this
  · rw [hh]
    refine ⟨by linarith, fun ht => u2 ?_⟩
    have : (2 * S * D : Int) = 2 * x + S := by linarith
    exact_mod_cast this

theorem rhe_of_dist (x S D : Nat) (hS : 0 < S) (h : 2 * |(x : Int) - D * S| ≤ S)
    (ht : 2 * |(x : Int) - D * S| = S → D % 2 = 0) : rhe x S = D := by
  have h1 := le_abs_self ((x : Int) - D * S)
  have h2 := neg_abs_le ((x : Int) - D * S)
  apply rhe_unique _ _ _ hS
  · have : (2 * x : Int) ≤ S * (2 * D + 1) := by linarith
    exact_mod_cast this
  · have : (2 * S * D : Int) ≤ 2 * x + S := by linarith
    exact_mod_cast this
  · intro hE
    have : (2 * x : Int) = S * (2 * D + 1) := by exact_mod_cast hE
    apply ht
    rw [abs_of_nonneg (by linarith)]
    linarith
  · intro hE
    have : (2 * S * D : Int) = 2 * x + S := by exact_mod_cast hE
    apply ht
    rw [abs_of_nonpos (by linarith)]
    linarith

/-- Reading back is at least as close to the written decimal as the original was. -/
theorem reread_close (prec mag : Nat) (h : Rep mag) :
    |((reread prec mag * 10 ^ prec : Nat) : Int) - decimalOf prec mag * scale| ≤
      |((mag * 10 ^ prec : Nat) : Int) - decimalOf prec mag * scale| := by
  have := roundMag_nearest (decimalOf prec mag * scale) (10 ^ prec) mag (by positivity) h.2
  rw [reread_nat]
  generalize decimalOf prec mag = D at *
  generalize scale = S at *
  generalize roundMag (D * S) (10 ^ prec) = y at *
  generalize 10 ^ prec = P at *
  rw [abs_sub_comm, abs_sub_comm _ ((P : Int) * mag)] at this
  push_cast at *
  rw [Int.mul_comm y, Int.mul_comm mag]
  exact this

theorem decimalOf_close (prec mag : Nat) :
    2 * |((mag * 10 ^ prec : Nat) : Int) - decimalOf prec mag * scale| ≤ scale :=
  (rhe_dist (mag * 10 ^ prec) scale scale_pos).1

/-- Writing the value read back gives the same decimal. -/
theorem decimalOf_reread (prec mag : Nat) (h : Rep mag) :
    decimalOf prec (reread prec mag) = decimalOf prec mag := by
  have hc := reread_close prec mag h
  have hd := rhe_dist (mag * 10 ^ prec) scale scale_pos
  have hr1 : rhe (mag * 10 ^ prec) scale = decimalOf prec mag := rfl
  rw [hr1] at hd
  have hS : 0 < scale := scale_pos
  show rhe (reread prec mag * 10 ^ prec) scale = decimalOf prec mag
  generalize decimalOf prec mag = D at *
  generalize reread prec mag * 10 ^ prec = y at *
  generalize mag * 10 ^ prec = x at *
  generalize scale = S at *
  refine rhe_of_dist _ _ _ hS (by linarith) (fun ht => hd.2 ?_)
  linarith [hd.1]

/-- Writing the value read back gives the same decimal, at any precision. -/
theorem written_reread (prec : Int) (mag : Nat) (h : Rep mag) : written prec (reread prec mag) = written prec mag := by
  rcases prec_cases prec with hp | ⟨n, rfl⟩
  · rw [reread_neg hp h]
  · rw [written_nat, written_nat, decimalOf_reread n mag h]

/-- Exact when the value is a multiple of 10^−prec. -/
theorem reread_exact (prec mag : Nat) (h : Rep mag) (hx : scale ∣ mag * 10 ^ prec) :
    reread prec mag = mag := by
  obtain ⟨k, hk⟩ := hx
  rw [reread_nat, decimalOf]
  rw [hk, rhe_exact _ _ scale_pos, Nat.mul_comm k, ← hk]
  exact roundMag_exact _ _ (by positivity) h.2

end F32
end Go3mf
