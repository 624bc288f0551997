import Verif.Props.C61Huge

/-!
# C60: the values of malformed numbers

A malformed number is reported and read all the same: strconv returns a value together with its error, and the decoders keep it.
An unsigned number that is too big is read as the biggest one, a float that is too big as an infinity, and everything else as
zero.
-/

namespace Go3mf

theorem parseUintLoop_prefix (d r : Str) (n : Nat) (hn : n < 2 ^ 32) (hd : ∀ b ∈ d, isDigit b = true) (hr : ∀ c ∈ r.head?, isDigit c = false) :
    parseUintLoop (d ++ r) n =
      if 2 ^ 32 ≤ digitsAcc n d then .error .range else if r = [] then .ok (UInt32.ofNat (digitsAcc n d)) else .error .syntax := by
  induction d generalizing n with
  | nil =>
    rw [if_neg (by simpa [digitsAcc] using hn)]
    cases r with
    | nil => rfl
    | cons c r => simp [parseUintLoop, hr c rfl]
  | cons b d ih =>
    have hb := hd b (by simp)
    rw [List.cons_append, parseUintLoop, if_pos hb]
    have h2 : digitsAcc n (b :: d) = digitsAcc (n * 10 + (b.toNat - 48)) d := rfl
    by_cases h : n * 10 + (b.toNat - 48) ≥ 2 ^ 32
    · have h3 := digitsAcc_ge (n * 10 + (b.toNat - 48)) d
      simp only [h, if_true]
      rw [if_pos (by omega)]
    · simp only [h, if_false]
      rw [ih _ (by omega) (fun c hc => hd c (by simp [hc])), h2]

/-- **C60, unsigned numbers.**  With the digits `d` at the beginning, the text is read as the number if it has nothing else, as zero
otherwise; and as the biggest number as soon as the digits are too many. -/
theorem C60_uint (d r : Str) (hd : ∀ b ∈ d, Spec.Digit b) (hr : ∀ c ∈ r.head?, ¬Spec.Digit c) :
    parseUintVal (d ++ r) =
      if 2 ^ 32 ≤ Spec.digits d then 4294967295 else if r = [] then UInt32.ofNat (Spec.digits d) else 0 := by
  have h := parseUintLoop_prefix d r 0 (by norm_num) (fun b hb => (digit_iff b).1 (hd b hb))
    (fun c hc => by simpa using mt (digit_iff c).2 (hr c hc))
  rw [digits_eq]
  unfold parseUintVal parseUint
  by_cases he : d ++ r = []
  · obtain ⟨rfl, rfl⟩ := List.append_eq_nil_iff.1 he
    rfl
  · rw [if_neg (by simpa using he), h]
    change _ = if 2 ^ 32 ≤ digitsAcc 0 d then 4294967295 else if r = [] then UInt32.ofNat (digitsAcc 0 d) else 0
    by_cases h1 : 2 ^ 32 ≤ digitsAcc 0 d
    · rw [if_pos h1, if_pos h1]
      rfl
    · rw [if_neg h1, if_neg h1]
      by_cases h2 : r = []
      · rw [if_pos h2, if_pos h2]
      · rw [if_neg h2, if_neg h2]
        rfl

example : parseUintVal b!"4294967295" = 4294967295 ∧ parseUintVal b!"4294967296" = 4294967295 ∧ parseUintVal b!"99999999999x" = 4294967295 ∧
    parseUintVal b!"12x" = 0 ∧ parseUintVal b!"-1" = 0 ∧ parseUintVal b!"007" = 7 := by decide +kernel

/-- **C60, floats.**  A text that is no number of Go is read as zero. -/
theorem C60_float_malformed (s : Str) (h1 : ∀ neg ip fp e, ¬Spec.GoDecimal s neg ip fp e) (h2 : ∀ neg ip fp e, ¬Spec.GoHex s neg ip fp e)
    (h3 : ¬Spec.Special s) : parseFloatVal s = .zero := by
  have : parseFloat s = .error .syntax := by
    by_contra h
    rcases (C61_language s).1 h with ⟨neg, ip, fp, e, h⟩ | ⟨neg, ip, fp, e, h⟩ | h
    · exact h1 _ _ _ _ h
    · exact h2 _ _ _ _ h
    · exact h3 h
  unfold parseFloatVal
  rw [this]

/-- **C60, floats.**  A number that is too big is read as the infinity with its sign. -/
theorem C60_float_big (s : Str) (neg : Bool) (ip fp : Str) (e : ℤ) (h : Spec.Decimal s neg ip fp e) (hip : ip.length ≤ 9900)
    (hfp : fp.length ≤ 9900) (ho : Spec.Overflows (Spec.decimalRat neg ip fp e)) : parseFloatVal s = .inf neg := by
  unfold parseFloatVal
  rw [(C61_long s neg ip fp e h hip hfp).1 ho]
  simp only
  congr 1
  obtain ⟨sg, dot, ex, hsg, -, hdig, hne, hdot, rfl⟩ := h
  rcases hsg with ⟨rfl, rfl⟩ | ⟨rfl, rfl⟩ | ⟨rfl, rfl⟩
  · have hc : ∀ c : Byte, Spec.Digit c ∨ c = 46 → (some c == some (45 : Byte)) = false := by
      intro c hc
      rw [beq_eq_false_iff_ne]
      rintro h
      obtain rfl := Option.some.inj h
      rcases hc with hc | hc
      · exact absurd ((digit_iff _).1 hc) (by decide)
      · exact absurd hc (by decide)
    cases ip with
    | cons c ip =>
      simpa using hc c (Or.inl (hdig c (by simp)))
    | nil =>
      rcases hdot with ⟨rfl, rfl⟩ | rfl
      · exact absurd rfl hne
      · simpa using hc 46 (Or.inr rfl)
  · rfl
  · rfl

example : parseFloatVal b!"-1e39" = .inf true ∧ parseFloatVal b!"1e39" = .inf false ∧ parseFloatVal b!"1,5" = .zero := by decide +kernel

end Go3mf
