import Verif.Model.Utf8
import Verif.Spec.Utf8

/-!
# Lemmas on UTF-8
-/

namespace Go3mf

open Spec

theorem encodeRune_eq {c : Nat} (h : Scalar c) : encodeRune c = utf8 c := by
  unfold Scalar at h
  unfold encodeRune utf8 utf8Nat
  by_cases h1 : c < 0x80
  · simp [h1]
  · by_cases h2 : c < 0x800
    · simp [h1, h2]
    · rw [if_neg h1, if_neg h2, if_neg (by omega), if_neg h1, if_neg h2]
      by_cases h3 : c < 0x10000
      · simp [h3]
      · simp [h3]

theorem utf8_ne_nil (c : Nat) : utf8 c ≠ [] := by
  unfold utf8 utf8Nat
  repeat' split
  all_goals simp

theorem utf8_ascii {c : Nat} (h : c < 0x80) : utf8 c = [UInt8.ofNat c] := by
  unfold utf8 utf8Nat
  simp [h]

theorem toNat_ofNat_lt {n : Nat} (h : n < 256) : (UInt8.ofNat n).toNat = n := by
  simp [UInt8.toNat_ofNat']; omega

theorem utf8_two {c : Nat} (h : 0x80 ≤ c) (h' : c < 0x800) :
    ∃ a b : Byte, utf8 c = [a, b] ∧ a.toNat = 192 + c / 64 ∧ b.toNat = 128 + c % 64 := by
  refine ⟨_, _, by unfold utf8 utf8Nat; rw [if_neg (by omega), if_pos h']; rfl, ?_, ?_⟩ <;>
    exact toNat_ofNat_lt (by omega)

theorem utf8_three {c : Nat} (h : 0x800 ≤ c) (h' : c < 0x10000) :
    ∃ a b d : Byte, utf8 c = [a, b, d] ∧ a.toNat = 224 + c / 4096 ∧ b.toNat = 128 + c / 64 % 64 ∧
      d.toNat = 128 + c % 64 := by
  refine ⟨_, _, _, by unfold utf8 utf8Nat; rw [if_neg (by omega), if_neg (by omega), if_pos h']; rfl, ?_, ?_, ?_⟩ <;>
    exact toNat_ofNat_lt (by omega)

theorem utf8_four {c : Nat} (h : 0x10000 ≤ c) (h' : c < 0x110000) :
    ∃ a b d e : Byte, utf8 c = [a, b, d, e] ∧ a.toNat = 240 + c / 262144 ∧ b.toNat = 128 + c / 4096 % 64 ∧
      d.toNat = 128 + c / 64 % 64 ∧ e.toNat = 128 + c % 64 := by
  refine ⟨_, _, _, _, by unfold utf8 utf8Nat; rw [if_neg (by omega), if_neg (by omega), if_neg (by omega)]; rfl,
    ?_, ?_, ?_, ?_⟩ <;> exact toNat_ofNat_lt (by omega)

theorem isCont_iff {b : Byte} : isCont b = true ↔ 128 ≤ b.toNat ∧ b.toNat ≤ 191 := by
  simp [isCont, UInt8.le_iff_toNat_le]

theorem secondOK_iff {a b : Byte} : secondOK a b = true ↔
    (a.toNat = 224 → 160 ≤ b.toNat ∧ b.toNat ≤ 191) ∧ (a.toNat = 237 → 128 ≤ b.toNat ∧ b.toNat ≤ 159) ∧
    (a.toNat = 240 → 144 ≤ b.toNat ∧ b.toNat ≤ 191) ∧ (a.toNat = 244 → 128 ≤ b.toNat ∧ b.toNat ≤ 143) ∧
    (a.toNat ≠ 224 → a.toNat ≠ 237 → a.toNat ≠ 240 → a.toNat ≠ 244 → 128 ≤ b.toNat ∧ b.toNat ≤ 191) := by
  unfold secondOK
  simp only [← UInt8.toNat_inj]
  have e1 : (224 : UInt8).toNat = 224 := rfl
  have e2 : (237 : UInt8).toNat = 237 := rfl
  have e3 : (240 : UInt8).toNat = 240 := rfl
  have e4 : (244 : UInt8).toNat = 244 := rfl
  rw [e1, e2, e3, e4]
  split
  · rename_i h
    simp [h, UInt8.le_iff_toNat_le]
  · split
    · rename_i h h'
      simp [h', UInt8.le_iff_toNat_le]
    · split
      · rename_i h
        simp [h, UInt8.le_iff_toNat_le]
      · split
        · rename_i h
          simp [h, UInt8.le_iff_toNat_le]
        · rename_i h1 h2 h3 h4
          simp [h1, h2, h3, h4, isCont_iff]

/-- The numbers of the first bytes of a string, for the classification of characters. -/
theorem runeLen_cons (a : Byte) (s : Str) : runeLen (a :: s) =
    if a.toNat < 128 then 1
    else if 194 ≤ a.toNat ∧ a.toNat ≤ 223 then
      match s with
      | b :: _ => if isCont b then 2 else 0
      | _ => 0
    else if 224 ≤ a.toNat ∧ a.toNat ≤ 239 then
      match s with
      | b :: c :: _ => if secondOK a b && isCont c then 3 else 0
      | _ => 0
    else if 240 ≤ a.toNat ∧ a.toNat ≤ 244 then
      match s with
      | b :: c :: d :: _ => if secondOK a b && isCont c && isCont d then 4 else 0
      | _ => 0
    else 0 := by
  have h0 : runeLen (a :: s) =
    if a < 0x80 then 1
    else if 0xC2 ≤ a && a ≤ 0xDF then
      match s with
      | b :: _ => if isCont b then 2 else 0
      | _ => 0
    else if 0xE0 ≤ a && a ≤ 0xEF then
      match s with
      | b :: c :: _ => if secondOK a b && isCont c then 3 else 0
      | _ => 0
    else if 0xF0 ≤ a && a ≤ 0xF4 then
      match s with
      | b :: c :: d :: _ => if secondOK a b && isCont c && isCont d then 4 else 0
      | _ => 0
    else 0 := rfl
  have c1 : (a < 0x80) = (a.toNat < 128) := rfl
  have c2 : ((0xC2 ≤ a && a ≤ 0xDF) = true) = (194 ≤ a.toNat ∧ a.toNat ≤ 223) := by
    rw [Bool.and_eq_true, decide_eq_true_eq, decide_eq_true_eq]; rfl
  have c3 : ((0xE0 ≤ a && a ≤ 0xEF) = true) = (224 ≤ a.toNat ∧ a.toNat ≤ 239) := by
    rw [Bool.and_eq_true, decide_eq_true_eq, decide_eq_true_eq]; rfl
  have c4 : ((0xF0 ≤ a && a ≤ 0xF4) = true) = (240 ≤ a.toNat ∧ a.toNat ≤ 244) := by
    rw [Bool.and_eq_true, decide_eq_true_eq, decide_eq_true_eq]; rfl
  rw [h0]
  simp only [c1, c2, c3, c4]

/-- At the start of an encoded character, `utf8.DecodeRune` finds its width. -/
theorem runeLen_utf8 {c : Nat} (h : Scalar c) (s : Str) : runeLen (utf8 c ++ s) = (utf8 c).length := by
  unfold Scalar at h
  by_cases h1 : c < 0x80
  · rw [utf8_ascii h1]
    have : (UInt8.ofNat c).toNat = c := toNat_ofNat_lt (by omega)
    simp only [List.cons_append, List.nil_append]
    rw [runeLen_cons, if_pos (by omega)]
    rfl
  · by_cases h2 : c < 0x800
    · obtain ⟨a, b, he, ha, hb⟩ := utf8_two (by omega) h2
      rw [he]
      simp only [List.cons_append, List.nil_append]
      rw [runeLen_cons, if_neg (by omega), if_pos (by omega)]
      simp only
      rw [if_pos (isCont_iff.2 (by omega))]
      rfl
    · by_cases h3 : c < 0x10000
      · obtain ⟨a, b, d, he, ha, hb, hd⟩ := utf8_three (by omega) h3
        rw [he]
        simp only [List.cons_append, List.nil_append]
        rw [runeLen_cons, if_neg (by omega), if_neg (by omega), if_pos (by omega)]
        simp only
        rw [if_pos (by
          rw [Bool.and_eq_true, secondOK_iff, isCont_iff]
          omega)]
        rfl
      · obtain ⟨a, b, d, e, he, ha, hb, hd, hf⟩ := utf8_four (c := c) (by omega) (by omega)
        rw [he]
        simp only [List.cons_append, List.nil_append]
        rw [runeLen_cons, if_neg (by omega), if_neg (by omega), if_neg (by omega), if_pos (by omega)]
        simp only
        rw [if_pos (by
          rw [Bool.and_eq_true, Bool.and_eq_true, secondOK_iff, isCont_iff, isCont_iff]
          omega)]
        rfl

/-- What `utf8.DecodeRune` accepts is an encoded character. -/
theorem utf8_of_runeLen {s : Str} {n : Nat} (h : runeLen s = n + 1) :
    ∃ c, Scalar c ∧ utf8 c ++ s.drop (n + 1) = s ∧ (utf8 c).length = n + 1 := by
  cases s with
  | nil => simp [runeLen] at h
  | cons a s =>
    have ha256 := a.toNat_lt
    rw [runeLen_cons] at h
    unfold Scalar
    split at h
    · rename_i h1
      have : n = 0 := by omega
      subst this
      refine ⟨a.toNat, Or.inl (by omega), ?_, ?_⟩ <;> simp [utf8_ascii h1]
    · rename_i h1
      split at h
      · rename_i h2
        cases s with
        | nil => simp at h
        | cons b s =>
          simp only at h
          split at h
          · rename_i h3
            rw [isCont_iff] at h3
            have : n = 1 := by omega
            subst this
            obtain ⟨x, y, he, hx, hy⟩ := utf8_two (c := (a.toNat - 192) * 64 + (b.toNat - 128)) (by omega) (by omega)
            refine ⟨(a.toNat - 192) * 64 + (b.toNat - 128), Or.inl (by omega), ?_, by rw [he]; rfl⟩
            rw [he]
            have e1 : x = a := UInt8.toNat_inj.1 (by omega)
            have e2 : y = b := UInt8.toNat_inj.1 (by omega)
            simp [e1, e2]
          · omega
      · split at h
        · rename_i h2 h3
          match s, h with
          | [], h => simp at h
          | [b], h => simp at h
          | b :: d :: s, h =>
            simp only at h
            split at h
            · rename_i h4
              rw [Bool.and_eq_true, secondOK_iff, isCont_iff] at h4
              have : n = 2 := by omega
              subst this
              obtain ⟨x, y, z, he, hx, hy, hz⟩ := utf8_three
                (c := (a.toNat - 224) * 4096 + (b.toNat - 128) * 64 + (d.toNat - 128)) (by omega) (by omega)
              refine ⟨(a.toNat - 224) * 4096 + (b.toNat - 128) * 64 + (d.toNat - 128), by omega, ?_, by rw [he]; rfl⟩
              rw [he]
              have e1 : x = a := UInt8.toNat_inj.1 (by omega)
              have e2 : y = b := UInt8.toNat_inj.1 (by omega)
              have e3 : z = d := UInt8.toNat_inj.1 (by omega)
              simp [e1, e2, e3]
            · omega
        · split at h
          · rename_i h2 h3 h4
            match s, h with
            | [], h => simp at h
            | [b], h => simp at h
            | [b, d], h => simp at h
            | b :: d :: e :: s, h =>
              simp only at h
              split at h
              · rename_i h4
                rw [Bool.and_eq_true, Bool.and_eq_true, secondOK_iff, isCont_iff, isCont_iff] at h4
                have : n = 3 := by omega
                subst this
                obtain ⟨x, y, z, w, he, hx, hy, hz, hw⟩ := utf8_four
                  (c := (a.toNat - 240) * 262144 + (b.toNat - 128) * 4096 + (d.toNat - 128) * 64 + (e.toNat - 128))
                  (by omega) (by omega)
                refine ⟨(a.toNat - 240) * 262144 + (b.toNat - 128) * 4096 + (d.toNat - 128) * 64 + (e.toNat - 128), by omega, ?_,
                  by rw [he]; rfl⟩
                rw [he]
                have e1 : x = a := UInt8.toNat_inj.1 (by omega)
                have e2 : y = b := UInt8.toNat_inj.1 (by omega)
                have e3 : z = d := UInt8.toNat_inj.1 (by omega)
                have e4 : w = e := UInt8.toNat_inj.1 (by omega)
                simp [e1, e2, e3, e4]
              · omega
          · omega

theorem no_utf8_of_runeLen {s : Str} (h : runeLen s = 0) (c : Nat) (hc : Scalar c) : ¬ utf8 c <+: s := by
  rintro ⟨t, rfl⟩
  rw [runeLen_utf8 hc] at h
  exact utf8_ne_nil c (List.eq_nil_of_length_eq_zero h)

/-- The bytes of a character beyond ASCII are at least 0x80. -/
theorem utf8_high {c : Nat} (h : Scalar c) (h' : 0x80 ≤ c) : ∀ b ∈ utf8 c, 0x80 ≤ b := by
  unfold Scalar at h
  by_cases h2 : c < 0x800
  · obtain ⟨a, b, he, ha, hb⟩ := utf8_two h' h2
    rw [he]
    simp only [List.mem_cons, List.not_mem_nil, or_false, forall_eq_or_imp, forall_eq, UInt8.le_iff_toNat_le]
    change 128 ≤ _ ∧ 128 ≤ _
    omega
  · by_cases h3 : c < 0x10000
    · obtain ⟨a, b, d, he, ha, hb, hd⟩ := utf8_three (by omega) h3
      rw [he]
      simp only [List.mem_cons, List.not_mem_nil, or_false, forall_eq_or_imp, forall_eq, UInt8.le_iff_toNat_le]
      change 128 ≤ _ ∧ 128 ≤ _ ∧ 128 ≤ _
      omega
    · obtain ⟨a, b, d, e, he, ha, hb, hd, hf⟩ := utf8_four (c := c) (by omega) (by omega)
      rw [he]
      simp only [List.mem_cons, List.not_mem_nil, or_false, forall_eq_or_imp, forall_eq, UInt8.le_iff_toNat_le]
      change 128 ≤ _ ∧ 128 ≤ _ ∧ 128 ≤ _ ∧ 128 ≤ _
      omega

theorem isNonChar_utf8 {c : Nat} (h : Scalar c) (s : Str) :
    isNonChar (utf8 c ++ s) = true ↔ c = 0xFFFE ∨ c = 0xFFFF := by
  unfold Scalar at h
  have key : ∀ u : Str, isNonChar u = true ↔
      ∃ a b d t, u = a :: b :: d :: t ∧ a.toNat = 239 ∧ b.toNat = 191 ∧ (d.toNat = 190 ∨ d.toNat = 191) := by
    intro u
    constructor
    · intro hu
      unfold isNonChar at hu
      split at hu
      · rename_i d t
        refine ⟨_, _, d, t, rfl, rfl, rfl, ?_⟩
        simpa [← UInt8.toNat_inj] using hu
      · simp at hu
    · rintro ⟨a, b, d, t, rfl, ha, hb, hd⟩
      have e1 : a = 0xEF := UInt8.toNat_inj.1 ha
      have e2 : b = 0xBF := UInt8.toNat_inj.1 hb
      subst e1 e2
      simpa [isNonChar, ← UInt8.toNat_inj] using hd
  rw [key]
  by_cases h1 : c < 0x80
  · rw [utf8_ascii h1]
    have : (UInt8.ofNat c).toNat = c := toNat_ofNat_lt (by omega)
    constructor
    · rintro ⟨a, b, d, t, hu, ha, _⟩
      simp only [List.cons_append, List.cons.injEq] at hu
      rw [← hu.1] at ha
      omega
    · omega
  · by_cases h2 : c < 0x800
    · obtain ⟨a, b, he, ha, hb⟩ := utf8_two (by omega) h2
      rw [he]
      constructor
      · rintro ⟨a', b', d, t, hu, ha', _⟩
        simp only [List.cons_append, List.cons.injEq] at hu
        rw [← hu.1] at ha'
        omega
      · omega
    · by_cases h3 : c < 0x10000
      · obtain ⟨a, b, d, he, ha, hb, hd⟩ := utf8_three (by omega) h3
        rw [he]
        constructor
        · rintro ⟨a', b', d', t, hu, ha', hb', hd'⟩
          simp only [List.cons_append, List.cons.injEq] at hu
          rw [← hu.1] at ha'
          rw [← hu.2.1] at hb'
          rw [← hu.2.2.1] at hd'
          omega
        · intro hc
          exact ⟨a, b, d, s, rfl, by omega, by omega, by omega⟩
      · obtain ⟨a, b, d, e, he, ha, hb, hd, hf⟩ := utf8_four (c := c) (by omega) (by omega)
        rw [he]
        constructor
        · rintro ⟨a', b', d', t, hu, ha', hb', hd'⟩
          simp only [List.cons_append, List.cons.injEq] at hu
          rw [← hu.1] at ha'
          omega
        · omega

end Go3mf
