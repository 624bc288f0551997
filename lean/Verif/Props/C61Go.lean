import Verif.Props.C61
import Verif.Spec.GoNumber

/-!
# C61: the numbers with underscores and the hexadecimal numbers
-/

namespace Go3mf
open F32

namespace GoNum

/-- A digit of the base. -/
def dig (hex : Bool) (b : Byte) : Bool := isDigit b || (hex && (hexVal b).isSome)

theorem dig_underscore (hex : Bool) : dig hex 95 = false := by cases hex <;> decide

theorem dig_dot (hex : Bool) : dig hex 46 = false := by cases hex <;> decide

theorem dig_loop : ∀ hex : Bool, ∀ c : Byte,
    (isDigit c || (hex && (97 ≤ lowerByte c && lowerByte c ≤ 102))) = dig hex c := by
  intro hex
  cases hex
  · exact forall_byte (by decide +kernel)
  · exact forall_byte (by decide +kernel)

theorem dig_marker : ∀ hex : Bool, ∀ c : Byte, lowerByte c = (if hex then 112 else 101) → dig hex c = false := by
  intro hex
  cases hex
  · exact forall_byte (by decide +kernel)
  · exact forall_byte (by decide +kernel)

theorem dig_hex : ∀ c : Byte, dig true c = true ↔ (48 ≤ c.toNat ∧ c.toNat ≤ 57) ∨ 65 ≤ c.toNat ∧ c.toNat ≤ 70 ∨ 97 ≤ c.toNat ∧ c.toNat ≤ 102 :=
  forall_byte (by decide +kernel)

theorem dig_false (c : Byte) : dig false c = isDigit c := by simp [dig]

theorem dig_of_isDigit (hex : Bool) (c : Byte) (h : isDigit c = true) : dig hex c = true := by simp [dig, h]

theorem hexVal_digit : ∀ c : Byte, isDigit c = true → hexVal c = some (c.toNat - 48) := forall_byte (by decide +kernel)

/-! ## Underscores -/

theorem unscored_cons (c : Byte) (s : Str) (h : c ≠ 95) : Spec.unscored (c :: s) = c :: Spec.unscored s := by
  simp [Spec.unscored, h]

theorem unscored_underscore (s : Str) : Spec.unscored (95 :: s) = Spec.unscored s := by
  simp [Spec.unscored]

theorem unscored_append (s t : Str) : Spec.unscored (s ++ t) = Spec.unscored s ++ Spec.unscored t := by
  simp [Spec.unscored]

theorem unscored_mem (s : Str) : ∀ b ∈ Spec.unscored s, b ≠ 95 := by
  intro b hb
  simp [Spec.unscored] at hb
  exact hb.2

theorem unscored_self (s : Str) (h : 95 ∉ s) : Spec.unscored s = s := by
  unfold Spec.unscored
  rw [List.filter_eq_self]
  intro b hb
  simp only [ne_eq, decide_not, Bool.not_eq_true', decide_eq_false_iff_not]
  rintro rfl
  exact h hb

theorem unscored_nil (s : Str) (h : s.head? ≠ some 95) : Spec.unscored s = [] ↔ s = [] := by
  cases s with
  | nil => simp [Spec.unscored]
  | cons c s =>
    have : c ≠ 95 := by simpa using h
    simp [unscored_cons c s this]

theorem sep_drop {D : Byte → Prop} {p r : Str} (h : Spec.Separated D (p ++ r)) (hr : r.head? ≠ some 95) : Spec.Separated D r := by
  intro a b e
  obtain ⟨⟨c, hc, hd⟩, h2⟩ := h (p ++ a) b (by rw [e]; simp)
  refine ⟨⟨c, ?_, hd⟩, h2⟩
  cases a with
  | nil => rw [e] at hr; simp at hr
  | cons x a =>
    rw [List.getLast?_append] at hc
    simpa using hc

theorem sep_head {D : Byte → Prop} {c : Byte} {cs : Str} (h : Spec.Separated D (c :: cs)) (hc : ¬D c) : cs.head? ≠ some 95 := by
  intro e
  cases cs with
  | nil => simp at e
  | cons d cs =>
    simp at e
    subst e
    obtain ⟨⟨x, hx, hd⟩, -⟩ := h [c] cs rfl
    simp at hx
    subst hx
    exact hc hd

theorem sep_start {D : Byte → Prop} {s : Str} (h : Spec.Separated D s) : s.head? ≠ some 95 := by
  intro e
  cases s with
  | nil => simp at e
  | cons d cs =>
    simp at e
    subst e
    obtain ⟨⟨x, hx, hd⟩, -⟩ := h [] cs rfl
    simp at hx

theorem sep_prepend {D : Byte → Prop} {p r : Str} (hp : 95 ∉ p) (h : Spec.Separated D r) : Spec.Separated D (p ++ r) := by
  induction p with
  | nil => exact h
  | cons c p ih =>
    have hc : c ≠ 95 := by rintro rfl; exact hp (by simp)
    have ih := ih (fun h => hp (by simp [h]))
    intro a b e
    cases a with
    | nil => simp at e; exact absurd e.1 hc
    | cons x a =>
      simp only [List.cons_append, List.cons.injEq] at e
      obtain ⟨⟨y, hy, hd⟩, h2⟩ := ih a b e.2
      refine ⟨⟨y, ?_, hd⟩, h2⟩
      rw [List.getLast?_cons, hy]
      rfl

theorem underscoreLoop_iff (hex : Bool) (s : Str) (saw : Byte) : underscoreLoop hex s saw = true ↔
    (saw = 95 → ∃ d, s.head? = some d ∧ dig hex d = true) ∧
    ∀ a b, s = a ++ 95 :: b → (a = [] → saw = 48) ∧ (∀ c, a.getLast? = some c → dig hex c = true) ∧
      ∃ d, b.head? = some d ∧ dig hex d = true := by
  induction s generalizing saw with
  | nil => simp [underscoreLoop]
  | cons c cs ih =>
    rw [underscoreLoop, dig_loop]
    have split : ∀ P : Str → Str → Prop, (∀ a b, c :: cs = a ++ 95 :: b → P a b) ↔
        (c = 95 → P [] cs) ∧ ∀ a b, cs = a ++ 95 :: b → P (c :: a) b := by
      intro P
      constructor
      · intro h
        exact ⟨fun e => h [] cs (by rw [e]; rfl), fun a b e => h (c :: a) b (by rw [e]; rfl)⟩
      · rintro ⟨h1, h2⟩ a b e
        cases a with
        | nil =>
          simp only [List.nil_append, List.cons.injEq] at e
          obtain ⟨e1, rfl⟩ := e
          exact h1 e1
        | cons x a =>
          simp only [List.cons_append, List.cons.injEq] at e
          obtain ⟨rfl, e⟩ := e
          exact h2 a b e
    rw [split]
    have last : ∀ a : Str, (c :: a).getLast? = if a = [] then some c else a.getLast? := by
      intro a
      cases a <;> simp
    by_cases hd : dig hex c = true
    · have hc : c ≠ 95 := by rintro rfl; rw [dig_underscore] at hd; exact absurd hd (by decide)
      rw [if_pos hd, ih]
      constructor
      · rintro ⟨-, h⟩
        refine ⟨fun _ => ⟨c, rfl, hd⟩, fun e => absurd e hc, fun a b e => ⟨by simp, ?_, (h a b e).2.2⟩⟩
        intro y hy
        rw [last] at hy
        split at hy
        · cases hy; exact hd
        · exact (h a b e).2.1 y hy
      · rintro ⟨-, -, h⟩
        refine ⟨fun e => absurd e (by decide), fun a b e => ⟨fun _ => rfl, ?_, (h a b e).2.2⟩⟩
        intro y hy
        refine (h a b e).2.1 y ?_
        rw [last, if_neg (by rintro rfl; simp at hy)]
        exact hy
    · rw [if_neg hd]
      by_cases hc : c = 95
      · rw [if_pos hc]
        by_cases hs : saw = 48
        · rw [if_neg (by simp [hs]), ih]
          constructor
          · rintro ⟨h1, h2⟩
            refine ⟨fun e => absurd (hs.symm.trans e) (by decide), fun _ => ⟨fun _ => hs, by simp, h1 rfl⟩, ?_⟩
            intro a b e
            obtain ⟨g1, g2, g3⟩ := h2 a b e
            refine ⟨by simp, ?_, g3⟩
            intro y hy
            rw [last] at hy
            split at hy
            · rename_i ha; exact absurd (g1 ha) (by decide)
            · exact g2 y hy
          · rintro ⟨-, h1, h2⟩
            refine ⟨fun _ => (h1 hc).2.2, fun a b e => ⟨?_, ?_, (h2 a b e).2.2⟩⟩
            · intro ha
              have := (h2 a b e).2.1 c (by rw [last, if_pos ha])
              exact absurd this hd
            · intro y hy
              refine (h2 a b e).2.1 y ?_
              rw [last, if_neg (by rintro rfl; simp at hy)]
              exact hy
        · rw [if_pos (by simpa using hs)]
          simp only [Bool.false_eq_true, false_iff]
          rintro ⟨-, h1, -⟩
          exact hs ((h1 hc).1 (by simp))
      · rw [if_neg hc]
        by_cases hs : saw = 95
        · rw [if_pos hs]
          simp only [Bool.false_eq_true, false_iff]
          rintro ⟨h1, -⟩
          obtain ⟨d, e, h⟩ := h1 hs
          cases e
          exact hd h
        · rw [if_neg hs, ih]
          constructor
          · rintro ⟨-, h2⟩
            refine ⟨fun e => absurd e hs, fun e => absurd e hc, ?_⟩
            intro a b e
            obtain ⟨g1, g2, g3⟩ := h2 a b e
            refine ⟨by simp, ?_, g3⟩
            intro y hy
            rw [last] at hy
            split at hy
            · rename_i ha; exact absurd (g1 ha) (by decide)
            · exact g2 y hy
          · rintro ⟨-, -, h2⟩
            refine ⟨fun e => absurd e (by decide), fun a b e => ⟨?_, ?_, (h2 a b e).2.2⟩⟩
            · intro ha
              have := (h2 a b e).2.1 c (by rw [last, if_pos ha])
              exact absurd this hd
            · intro y hy
              refine (h2 a b e).2.1 y ?_
              rw [last, if_neg (by rintro rfl; simp at hy)]
              exact hy

theorem underscoreLoop_sep (hex : Bool) (s : Str) (saw : Byte) (h1 : saw ≠ 48) (h2 : saw ≠ 95) :
    underscoreLoop hex s saw = true ↔ Spec.Separated (fun c => dig hex c = true) s := by
  rw [underscoreLoop_iff]
  constructor
  · rintro ⟨-, h⟩ a b e
    obtain ⟨g1, g2, g3⟩ := h a b e
    refine ⟨?_, g3⟩
    cases hl : a.getLast? with
    | none => exact absurd (g1 (List.getLast?_eq_none_iff.1 hl)) h1
    | some c => exact ⟨c, rfl, g2 c hl⟩
  · intro h
    refine ⟨fun e => absurd e h2, fun a b e => ?_⟩
    obtain ⟨⟨c, hc, hd⟩, g3⟩ := h a b e
    refine ⟨by rintro rfl; simp at hc, fun y hy => ?_, g3⟩
    rw [hc] at hy
    cases hy
    exact hd

theorem underscoreLoop_digit (hex : Bool) (s : Str) :
    underscoreLoop hex s 48 = true ↔ Spec.Separated (fun c => dig hex c = true) (48 :: s) := by
  rw [← underscoreLoop_sep hex (48 :: s) 94 (by decide) (by decide), underscoreLoop, if_pos (by simp [show isDigit 48 = true by decide])]

/-! ## The scan -/

/-- The mantissa with and without its underscores. -/
theorem readMantissa_scan (hex : Bool) (s : Str) (st : ReadFloat) : ∃ p r st1, s = p ++ r ∧ readMantissa hex s st = (st1, r) ∧
    r.head? ≠ some 95 ∧ (st1.underscores = true ↔ st.underscores = true ∨ 95 ∈ p) ∧
    ∀ u, readMantissa hex (Spec.unscored s) { st with underscores := u } = ({ st1 with underscores := u }, Spec.unscored r) := by
  induction s generalizing st with
  | nil => exact ⟨[], [], st, rfl, rfl, by simp, by simp, fun u => rfl⟩
  | cons c cs ih =>
    by_cases h95 : c = 95
    · subst h95
      obtain ⟨p, r, st1, rfl, h1, h2, h3, h4⟩ := ih { st with underscores := true }
      refine ⟨95 :: p, r, st1, rfl, by rw [readMantissa, if_pos rfl, h1], h2, ?_, ?_⟩
      · rw [h3]; simp
      · intro u
        rw [unscored_underscore]
        exact h4 u
    · rw [unscored_cons c cs h95]
      have step : ∀ st' : ReadFloat, st'.underscores = st.underscores → (∀ s', readMantissa hex (c :: s') st = readMantissa hex s' st') →
          (∀ u s', readMantissa hex (c :: s') { st with underscores := u } = readMantissa hex s' { st' with underscores := u }) →
          ∃ p r st1, c :: cs = p ++ r ∧ readMantissa hex (c :: cs) st = (st1, r) ∧
            r.head? ≠ some 95 ∧ (st1.underscores = true ↔ st.underscores = true ∨ 95 ∈ p) ∧
            ∀ u, readMantissa hex (c :: Spec.unscored cs) { st with underscores := u } = ({ st1 with underscores := u }, Spec.unscored r) := by
        intro st' hu h h'
        obtain ⟨p, r, st1, hcs, h1, h2, h3, h4⟩ := ih st'
        refine ⟨c :: p, r, st1, by rw [hcs]; rfl, by rw [h, h1], h2, ?_, ?_⟩
        · rw [h3, hu]
          simp [Ne.symm h95]
        · intro u
          rw [h', h4]
      have halt : (∀ s', readMantissa hex (c :: s') st = (st, c :: s')) →
          (∀ u s', readMantissa hex (c :: s') { st with underscores := u } = ({ st with underscores := u }, c :: s')) →
          ∃ p r st1, c :: cs = p ++ r ∧ readMantissa hex (c :: cs) st = (st1, r) ∧
            r.head? ≠ some 95 ∧ (st1.underscores = true ↔ st.underscores = true ∨ 95 ∈ p) ∧
            ∀ u, readMantissa hex (c :: Spec.unscored cs) { st with underscores := u } = ({ st1 with underscores := u }, Spec.unscored r) := by
        intro h h'
        refine ⟨[], c :: cs, st, rfl, h cs, by simpa using h95, by simp, ?_⟩
        intro u
        rw [h', unscored_cons c cs h95]
      by_cases h46 : c = 46
      · by_cases hdot : st.sawDot = true
        · exact halt (fun s' => by simp [readMantissa, h95, h46, hdot]) (fun u s' => by simp [readMantissa, h95, h46, hdot])
        · exact step { st with sawDot := true } rfl (fun s' => by simp [readMantissa, h95, h46, hdot])
            (fun u s' => by simp [readMantissa, h95, h46, hdot])
      · by_cases hd : isDigit c = true
        · exact step { st with sawDigits := true, mant := st.mant * (if hex then 16 else 10) + (c.toNat - 48), frac := if st.sawDot then st.frac + 1 else st.frac } rfl (fun s' => by rw [readMantissa, if_neg h95, if_neg h46, if_pos hd])
            (fun u s' => by rw [readMantissa, if_neg h95, if_neg h46, if_pos hd])
        · cases hex with
          | false =>
            exact halt (fun s' => by rw [readMantissa, if_neg h95, if_neg h46, if_neg hd, if_neg (by decide)])
              (fun u s' => by rw [readMantissa, if_neg h95, if_neg h46, if_neg hd, if_neg (by decide)])
          | true =>
            cases hv : hexVal c with
            | none =>
              exact halt (fun s' => by rw [readMantissa, if_neg h95, if_neg h46, if_neg hd, if_pos rfl, hv])
                (fun u s' => by rw [readMantissa, if_neg h95, if_neg h46, if_neg hd, if_pos rfl, hv])
            | some v =>
              exact step { st with sawDigits := true, mant := st.mant * 16 + v, frac := if st.sawDot then st.frac + 1 else st.frac } rfl
                (fun s' => by rw [readMantissa, if_neg h95, if_neg h46, if_neg hd, if_pos rfl, hv])
                (fun u s' => by rw [readMantissa, if_neg h95, if_neg h46, if_neg hd, if_pos rfl, hv])

/-- The digits of the exponent with and without their underscores. -/
theorem readExpDigits_scan (s : Str) (e : Nat) (u : Bool) : ∃ n p r u1, s = p ++ r ∧ readExpDigits s e u = (n, u1, r) ∧
    r.head? ≠ some 95 ∧ (u1 = true ↔ u = true ∨ 95 ∈ p) ∧ ∀ v, readExpDigits (Spec.unscored s) e v = (n, v, Spec.unscored r) := by
  induction s generalizing e u with
  | nil => exact ⟨e, [], [], u, rfl, rfl, by simp, by simp, fun v => rfl⟩
  | cons c cs ih =>
    by_cases h95 : c = 95
    · subst h95
      obtain ⟨n, p, r, u1, rfl, h1, h2, h3, h4⟩ := ih e true
      refine ⟨n, 95 :: p, r, u1, rfl, by rw [readExpDigits, if_pos rfl, h1], h2, ?_, ?_⟩
      · rw [h3]; simp
      · intro v
        rw [unscored_underscore]
        exact h4 v
    · rw [unscored_cons c cs h95]
      by_cases hd : isDigit c = true
      · obtain ⟨n, p, r, u1, hcs, h1, h2, h3, h4⟩ := ih (if e < 10000 then e * 10 + (c.toNat - 48) else e) u
        refine ⟨n, c :: p, r, u1, by rw [hcs]; rfl, by rw [readExpDigits, if_neg h95, if_pos hd, h1], h2, ?_, ?_⟩
        · rw [h3]; simp [Ne.symm h95]
        · intro v
          rw [readExpDigits, if_neg h95, if_pos hd, h4]
      · refine ⟨e, [], c :: cs, u, rfl, by rw [readExpDigits, if_neg h95, if_neg hd], by simpa using h95, by simp, ?_⟩
        intro v
        rw [readExpDigits, if_neg h95, if_neg hd, unscored_cons c cs h95]

theorem splitSign_unscored (s : Str) (h : s.head? ≠ some 95) :
    splitSign (Spec.unscored s) = ((splitSign s).1, Spec.unscored (splitSign s).2) := by
  cases s with
  | nil => rfl
  | cons c cs =>
    have hc : c ≠ 95 := by simpa using h
    rw [unscored_cons c cs hc]
    unfold splitSign
    simp only
    split
    · rfl
    · split
      · rfl
      · rw [unscored_cons c cs hc]

theorem splitSign_head {D : Byte → Prop} (s : Str) (h : Spec.Separated D s) (h43 : ¬D 43) (h45 : ¬D 45) :
    (splitSign s).2.head? ≠ some 95 := by
  cases s with
  | nil => simp [splitSign]
  | cons c cs =>
    unfold splitSign
    simp only
    split
    · rename_i hc; subst hc; exact sep_head h h43
    · split
      · rename_i hc; subst hc; exact sep_head h h45
      · exact sep_start h

/-- The exponent with and without its underscores. -/
theorem parseExp_unscored (whole w2 : Str) (hex neg : Bool) (st : ReadFloat) (r : Str)
    (hr : Spec.Separated (fun c => dig hex c = true) r) (hok : underscoreOK whole = true) :
    parseExp whole hex neg st r = parseExp w2 hex neg { st with underscores := false } (Spec.unscored r) := by
  have h95 := sep_start hr
  cases r with
  | nil => simp [parseExp, hok, Spec.unscored]
  | cons c cs =>
    have hc : c ≠ 95 := by simpa using h95
    rw [unscored_cons c cs hc]
    unfold parseExp
    simp only
    by_cases hm : lowerByte c = (if hex then 112 else 101)
    · rw [if_pos hm, if_pos hm]
      have hcd : ¬dig hex c = true := by rw [dig_marker hex c hm]; decide
      have hcs := sep_head hr hcd
      have hsep : Spec.Separated (fun c => dig hex c = true) cs := sep_drop (p := [c]) hr hcs
      rw [splitSign_unscored cs hcs]
      have hes := splitSign_head cs hsep (by cases hex <;> decide) (by cases hex <;> decide)
      generalize (splitSign cs).1 = eneg at *
      generalize (splitSign cs).2 = es at *
      cases es with
      | nil => simp [Spec.unscored]
      | cons f fs =>
        have hf : f ≠ 95 := by simpa using hes
        obtain ⟨n, p, rest, u1, -, h1, h2, h3, h4⟩ := readExpDigits_scan (f :: fs) 0 st.underscores
        have h4 := h4 false
        rw [unscored_cons f fs hf] at h4 ⊢
        simp only [h1, h4]
        by_cases hfd : isDigit f = true
        · rw [if_pos hfd, if_pos hfd]
          have he : (Spec.unscored rest).isEmpty = rest.isEmpty := by
            rw [Bool.eq_iff_iff, List.isEmpty_iff, List.isEmpty_iff]
            exact unscored_nil rest h2
          rw [he]
          simp [hok]
        · rw [if_neg hfd, if_neg hfd]
    · rw [if_neg hm, if_neg hm]

/-- Underscores that are read are checked. -/
theorem parseExp_checked (whole : Str) (hex neg : Bool) (st : ReadFloat) (r : Str)
    (hp : parseExp whole hex neg st r ≠ .error .syntax) (hu : st.underscores = true ∨ 95 ∈ r) : underscoreOK whole = true := by
  cases r with
  | nil =>
    have hu : st.underscores = true := by simpa using hu
    unfold parseExp at hp
    simp only at hp
    split at hp
    · exact absurd rfl hp
    · by_contra hok
      simp only [Bool.not_eq_true] at hok
      simp [hu, hok] at hp
  | cons c cs =>
    unfold parseExp at hp
    simp only at hp
    by_cases hm : lowerByte c = (if hex then 112 else 101)
    · rw [if_pos hm] at hp
      have hc : c ≠ 95 := by
        rintro rfl
        revert hm
        cases hex <;> decide
      obtain ⟨sg, hsg, hcs⟩ := splitSign_split cs
      have hs95 : 95 ∉ sg := by rcases hsg with ⟨rfl, -⟩ | ⟨rfl, -⟩ | ⟨rfl, -⟩ <;> decide
      generalize (splitSign cs).1 = eneg at *
      generalize (splitSign cs).2 = es at *
      cases es with
      | nil => exact absurd rfl hp
      | cons f fs =>
        simp only at hp
        by_cases hf : isDigit f = true
        · rw [if_pos hf] at hp
          obtain ⟨n, p, rest, u1, hpr, h1, h2, h3, h4⟩ := readExpDigits_scan (f :: fs) 0 st.underscores
          simp only [h1] at hp
          by_cases hre : rest = []
          · have hu1 : u1 = true := by
              rw [h3]
              rcases hu with hu | hu
              · exact Or.inl hu
              · right
                rw [hcs, hpr, hre] at hu
                simpa [Ne.symm hc, hs95] using hu
            by_contra hok
            simp only [Bool.not_eq_true] at hok
            simp [hre, hu1, hok] at hp
          · rw [if_pos (by simpa using hre)] at hp
            exact absurd rfl hp
        · rw [if_neg hf] at hp
          exact absurd rfl hp
    · rw [if_neg hm] at hp
      exact absurd rfl hp

/-- The scan of a text without underscores, after the sign and the prefix. -/
def core (hex neg : Bool) (b : Str) : Except NumErr F32 :=
  if (readMantissa hex b {}).1.sawDigits then parseExp [] hex neg (readMantissa hex b {}).1 (readMantissa hex b {}).2
  else .error .syntax

theorem parseUnsigned_unscored (whole : Str) (neg : Bool) (t : Str) (hok : underscoreOK whole = true) (p : Str)
    (hsep : Spec.Separated (fun c => dig (splitHex t).1 c = true) (p ++ (splitHex t).2)) :
    parseUnsigned whole neg t = core (splitHex t).1 neg (Spec.unscored (splitHex t).2) := by
  unfold parseUnsigned core
  simp only
  generalize (splitHex t).1 = hex at *
  generalize (splitHex t).2 = q at *
  obtain ⟨a, r, st1, rfl, h1, h2, -, h4⟩ := readMantissa_scan hex q {}
  have h4 := h4 false
  rw [h1, h4]
  simp only
  rw [← List.append_assoc] at hsep
  rw [parseExp_unscored whole [] hex neg st1 r (sep_drop hsep h2) hok]

theorem parseUnsigned_checked (whole : Str) (neg : Bool) (t : Str) (hp : parseUnsigned whole neg t ≠ .error .syntax)
    (hu : 95 ∈ (splitHex t).2) : underscoreOK whole = true := by
  unfold parseUnsigned at hp
  simp only at hp
  generalize (splitHex t).1 = hex at *
  generalize (splitHex t).2 = q at *
  obtain ⟨a, r, st1, rfl, h1, h2, h3, h4⟩ := readMantissa_scan hex q {}
  rw [h1] at hp
  simp only at hp
  split at hp
  · refine parseExp_checked whole hex neg st1 r hp ?_
    rcases List.mem_append.1 hu with h | h
    · exact Or.inl (h3.2 (Or.inr h))
    · exact Or.inr h
  · exact absurd rfl hp

/-! ## Texts without underscores -/

/-- The value of digits. -/
def mval (hex : Bool) (acc : Nat) (s : Str) : Nat := s.foldl (fun n b => n * (if hex then 16 else 10) + (hexVal b).getD 0) acc

/-- The exponent. -/
def IsExp (hex : Bool) (ex : Str) (e : ℤ) : Prop := if hex then Spec.BinaryExponent ex e else Spec.Exponent ex e

theorem readMantissa_run (hex : Bool) (d r : Str) (st : ReadFloat) (hd : ∀ b ∈ d, dig hex b = true) :
    readMantissa hex (d ++ r) st = readMantissa hex r { st with
      sawDigits := st.sawDigits || !d.isEmpty
      mant := mval hex st.mant d
      frac := if st.sawDot then st.frac + d.length else st.frac } := by
  induction d generalizing st with
  | nil => simp [mval]
  | cons b d ih =>
    have hb := hd b (by simp)
    have h1 : b ≠ 95 := by rintro rfl; rw [dig_underscore] at hb; exact absurd hb (by decide)
    have h2 : b ≠ 46 := by rintro rfl; rw [dig_dot] at hb; exact absurd hb (by decide)
    have ih := fun st => ih st (fun b hb => hd b (by simp [hb]))
    by_cases hdg : isDigit b = true
    · rw [List.cons_append, readMantissa, if_neg h1, if_neg h2, if_pos hdg, ih]
      congr 1
      cases st with
      | mk m f sd sg u =>
        cases sd <;> simp [mval, hexVal_digit b hdg] <;> omega
    · unfold dig at hb
      simp only [Bool.or_eq_true, Bool.and_eq_true, Option.isSome_iff_exists] at hb
      obtain ⟨rfl, v, hv⟩ := hb.resolve_left hdg
      rw [List.cons_append, readMantissa, if_neg h1, if_neg h2, if_neg hdg, if_pos rfl, hv]
      simp only
      rw [ih]
      congr 1
      cases st with
      | mk m f sd sg u =>
        cases sd <;> simp [mval, hv] <;> omega

theorem readMantissa_point (hex : Bool) (t : Str) (st : ReadFloat) (h : st.sawDot = false) :
    readMantissa hex (46 :: t) st = readMantissa hex t { st with sawDot := true } := by
  rw [readMantissa, if_neg (by decide), if_pos rfl, h]; rfl

theorem readMantissa_halt (hex : Bool) (r : Str) (st : ReadFloat) (h1 : ∀ c ∈ r.head?, dig hex c = false) (h2 : ∀ c ∈ r.head?, c ≠ 95)
    (h3 : ∀ c ∈ r.head?, c = 46 → st.sawDot = true) : readMantissa hex r st = (st, r) := by
  cases r with
  | nil => rfl
  | cons c cs =>
    have h1 := h1 c rfl
    have h2 := h2 c rfl
    have h3 := h3 c rfl
    unfold dig at h1
    simp only [Bool.or_eq_false_iff] at h1
    rw [readMantissa, if_neg h2]
    by_cases h : c = 46
    · rw [if_pos h, if_pos (h3 h)]
    · rw [if_neg h, if_neg (by simp [h1.1])]
      cases hex with
      | false => rfl
      | true =>
        have : hexVal c = none := by simpa using h1.2
        rw [if_pos rfl, this]

theorem dig_span (hex : Bool) (s : Str) : ∃ d r, s = d ++ r ∧ (∀ b ∈ d, dig hex b = true) ∧ (∀ c ∈ r.head?, dig hex c = false) := by
  induction s with
  | nil => exact ⟨[], [], rfl, by simp, by simp⟩
  | cons c s ih =>
    obtain ⟨d, r, rfl, hd, hr⟩ := ih
    by_cases hc : dig hex c = true
    · refine ⟨c :: d, r, rfl, ?_, hr⟩
      intro b hb
      rcases List.mem_cons.1 hb with rfl | hb
      · exact hc
      · exact hd b hb
    · exact ⟨[], c :: (d ++ r), rfl, by simp, by simpa using hc⟩

theorem lowerByte_p : ∀ c : Byte, lowerByte c = 112 → c = 112 ∨ c = 80 := forall_byte (by decide +kernel)

/-- The scan of the mantissa. -/
theorem scan_mantissa (hex : Bool) (ip dot fp ex : Str) (hip : ∀ b ∈ ip ++ fp, dig hex b = true)
    (hdot : dot = [] ∧ fp = [] ∨ dot = [46]) (hex1 : ∀ st : ReadFloat, (dot = [] → st.sawDot = false) → (dot ≠ [] → st.sawDot = true) →
      readMantissa hex ex st = (st, ex)) :
    ∃ st : ReadFloat, readMantissa hex (ip ++ dot ++ fp ++ ex) {} = (st, ex) ∧ (st.sawDigits = true ↔ ip ++ fp ≠ []) ∧
      st.underscores = false ∧ st.mant = mval hex 0 (ip ++ fp) ∧ st.frac = fp.length := by
  rw [List.append_assoc, List.append_assoc, readMantissa_run hex ip _ _ (fun b hb => hip b (by simp [hb]))]
  rcases hdot with ⟨rfl, rfl⟩ | rfl
  · rw [List.nil_append, List.nil_append, hex1 _ (fun _ => rfl) (by simp)]
    refine ⟨_, rfl, ?_, rfl, ?_, rfl⟩
    · cases ip <;> simp
    · simp
  · rw [List.singleton_append, readMantissa_point _ _ _ rfl, readMantissa_run hex fp _ _ (fun b hb => hip b (by simp [hb])),
      hex1 _ (by simp) (fun _ => rfl)]
    refine ⟨_, rfl, ?_, rfl, ?_, ?_⟩
    · cases ip <;> cases fp <;> simp
    · simp [mval]
    · simp

theorem isExp_cons {hex : Bool} {ex : Str} {e : ℤ} (h : IsExp hex ex e) : hex = false ∧ ex = [] ∧ e = 0 ∨
    ∃ c sg neg ds, lowerByte c = (if hex then 112 else 101) ∧ Spec.Sign sg neg ∧ ds ≠ [] ∧ (∀ b ∈ ds, Spec.Digit b) ∧
      ex = c :: (sg ++ ds) ∧ e = if neg then -(Spec.digits ds : ℤ) else Spec.digits ds := by
  unfold IsExp at h
  cases hex with
  | false =>
    rw [if_neg (by decide)] at h
    rcases h with ⟨h1, h2⟩ | ⟨c, sg, neg, ds, hc, h⟩
    · exact Or.inl ⟨rfl, h1, h2⟩
    · exact Or.inr ⟨c, sg, neg, ds, by rcases hc with rfl | rfl <;> decide, h⟩
  | true =>
    rw [if_pos rfl] at h
    obtain ⟨c, sg, neg, ds, hc, h⟩ := h
    exact Or.inr ⟨c, sg, neg, ds, by rcases hc with rfl | rfl <;> decide, h⟩

/-- The scan of the exponent. -/
theorem scan_exp {hex : Bool} {ex : Str} {e : ℤ} (neg : Bool) (h : IsExp hex ex e) :
    ∃ eneg n, ExpRead e eneg n ∧
      (∀ c ∈ ex.head?, dig hex c = false ∧ c ≠ 95 ∧ c ≠ 46) ∧
      ∀ (st : ReadFloat), st.underscores = false → ∀ whole, parseExp whole hex neg st ex = finishFloat hex neg st.mant st.frac eneg n := by
  rcases isExp_cons h with ⟨rfl, rfl, rfl⟩ | ⟨c, sg', neg', ds, hc, hsg', hds, hdsd, rfl, rfl⟩
  · exact ⟨false, 0, by simp [ExpRead], by simp, fun st hu whole => by simp [parseExp, hu]⟩
  · have hdsd' : ∀ b ∈ ds, isDigit b = true := fun b hb => (digit_iff b).1 (hdsd b hb)
    obtain ⟨n, hr, hv, -, hl, hu⟩ := readExpDigits_digits ds 0 hdsd'
    refine ⟨neg', n, ?_, ?_, ?_⟩
    · rw [digits_eq]
      exact expRead_digits neg' _ n hv hl (hu (by norm_num))
    · intro b hb
      simp only [List.head?_cons, Option.mem_def, Option.some.injEq] at hb
      subst hb
      refine ⟨dig_marker hex c hc, ?_, ?_⟩
      · rintro rfl; revert hc; cases hex <;> decide
      · rintro rfl; revert hc; cases hex <;> decide
    · intro st hu whole
      obtain ⟨f, fs, rfl⟩ := List.exists_cons_of_ne_nil hds
      have hf := hdsd' f (by simp)
      have hs := splitSign_sign sg' neg' f fs hsg' (by rintro rfl; revert hf; decide) (by rintro rfl; revert hf; decide)
      unfold parseExp
      simp only [hc, if_true, hs, hf, hu, hr, List.isEmpty_nil, Bool.not_true, Bool.false_and, Bool.false_eq_true, if_false]

/-- What is read. -/
theorem core_body {hex : Bool} {ex : Str} {e : ℤ} (neg : Bool) (ip dot fp : Str) (hip : ∀ b ∈ ip ++ fp, dig hex b = true)
    (hne : ip ++ fp ≠ []) (hdot : dot = [] ∧ fp = [] ∨ dot = [46]) (h : IsExp hex ex e) :
    ∃ eneg n, ExpRead e eneg n ∧
      core hex neg (ip ++ dot ++ fp ++ ex) = finishFloat hex neg (mval hex 0 (ip ++ fp)) fp.length eneg n := by
  obtain ⟨eneg, n, he, hh, hp⟩ := scan_exp neg h
  refine ⟨eneg, n, he, ?_⟩
  obtain ⟨st, h1, h2, h3, h4, h5⟩ := scan_mantissa hex ip dot fp ex hip hdot (fun st _ _ =>
    readMantissa_halt hex ex st (fun c hc => (hh c hc).1) (fun c hc => (hh c hc).2.1) (fun c hc e => absurd e (hh c hc).2.2))
  unfold core
  rw [h1]
  simp only
  rw [if_pos (h2.2 hne), hp st h3, h4, h5]

theorem parseExp_shape (whole : Str) (hex neg : Bool) (st : ReadFloat) (ex : Str) (h : ∀ b ∈ ex, b ≠ 95)
    (hp : parseExp whole hex neg st ex ≠ .error .syntax) : ∃ e, IsExp hex ex e := by
  cases ex with
  | nil =>
    cases hex with
    | false => exact ⟨0, Or.inl ⟨rfl, rfl⟩⟩
    | true => exact absurd rfl hp
  | cons c cs =>
    unfold parseExp at hp
    simp only at hp
    by_cases hc : lowerByte c = (if hex then 112 else 101)
    · rw [if_pos hc] at hp
      obtain ⟨sg, hsg, hcs⟩ := splitSign_split cs
      cases hes : (splitSign cs).2 with
      | nil => simp [hes] at hp
      | cons f fs =>
        simp only [hes] at hp
        by_cases hf : isDigit f = true
        · rw [if_pos hf] at hp
          by_cases hr : (readExpDigits (f :: fs) 0 st.underscores).2.2 = []
          · rw [hes] at hcs
            have hds : ∀ b ∈ f :: fs, Spec.Digit b := by
              intro b hb
              refine (digit_iff b).2 (readExpDigits_all (f :: fs) 0 _ ?_ hr b hb)
              intro b hb
              exact h b (List.mem_cons_of_mem _ (by rw [hcs]; exact List.mem_append_right _ hb))
            unfold IsExp
            cases hex with
            | false => exact ⟨_, Or.inr ⟨c, sg, _, f :: fs, lowerByte_e c hc, hsg, by simp, hds, by rw [← hcs], rfl⟩⟩
            | true => exact ⟨_, ⟨c, sg, _, f :: fs, lowerByte_p c hc, hsg, by simp, hds, by rw [← hcs], rfl⟩⟩
          · rw [if_pos (by simpa using hr)] at hp
            exact absurd rfl hp
        · rw [if_neg hf] at hp
          exact absurd rfl hp
    · rw [if_neg hc] at hp
      exact absurd rfl hp

/-- Only that is read. -/
theorem core_shape (hex neg : Bool) (b : Str) (h : ∀ c ∈ b, c ≠ 95) (hp : core hex neg b ≠ .error .syntax) :
    ∃ ip dot fp ex e, b = ip ++ dot ++ fp ++ ex ∧ (∀ c ∈ ip ++ fp, dig hex c = true) ∧ ip ++ fp ≠ [] ∧
      (dot = [] ∧ fp = [] ∨ dot = [46]) ∧ IsExp hex ex e := by
  obtain ⟨ip, dot, fp, ex, hb, hd, hdot, h1⟩ : ∃ ip dot fp ex, b = ip ++ dot ++ fp ++ ex ∧ (∀ c ∈ ip ++ fp, dig hex c = true) ∧
      (dot = [] ∧ fp = [] ∨ dot = [46]) ∧ (∀ st : ReadFloat, (dot = [] → st.sawDot = false) → (dot ≠ [] → st.sawDot = true) →
        readMantissa hex ex st = (st, ex)) := by
    obtain ⟨ip, r, rfl, hip, hr⟩ := dig_span hex b
    by_cases hd : r.head? = some 46
    · obtain ⟨t, rfl⟩ : ∃ t, r = 46 :: t := by
        cases r with
        | nil => simp at hd
        | cons c t => simp at hd; exact ⟨t, by rw [hd]⟩
      obtain ⟨fp, r', rfl, hfp, hr'⟩ := dig_span hex t
      refine ⟨ip, [46], fp, r', by simp, ?_, Or.inr rfl, ?_⟩
      · intro b hb
        rcases List.mem_append.1 hb with hb | hb
        · exact hip b hb
        · exact hfp b hb
      · intro st _ h3
        exact readMantissa_halt hex r' st hr' (fun c hc => h c (by simp [List.mem_of_mem_head? hc])) (fun _ _ _ => h3 (by simp))
    · refine ⟨ip, [], [], r, by simp, by simpa using hip, Or.inl ⟨rfl, rfl⟩, ?_⟩
      intro st _ _
      exact readMantissa_halt hex r st hr (fun c hc => h c (by simp [List.mem_of_mem_head? hc]))
        (by rintro c hc rfl; exact absurd hc hd)
  subst hb
  obtain ⟨st, g1, g2, -, -, -⟩ := scan_mantissa hex ip dot fp ex hd hdot h1
  unfold core at hp
  rw [g1] at hp
  simp only at hp
  by_cases hs : st.sawDigits = true
  · rw [if_pos hs] at hp
    obtain ⟨e, he⟩ := parseExp_shape [] hex neg st ex (fun c hc => h c (List.mem_append_right _ hc)) hp
    exact ⟨ip, dot, fp, ex, e, rfl, hd, g2.1 hs, hdot, he⟩
  · rw [if_neg hs] at hp
    exact absurd rfl hp

/-! ## The check of the underscores -/

/-- `underscoreOK` after the sign. -/
def tailOK (t : Str) : Bool :=
  match t with
  | 48 :: x :: rest =>
    if lowerByte x = 98 || lowerByte x = 111 || lowerByte x = 120 then
      underscoreLoop (lowerByte x = 120) rest 48
    else underscoreLoop false t 94
  | _ => underscoreLoop false t 94

theorem underscoreOK_eq (s : Str) : underscoreOK s = tailOK (splitSign s).2 := by
  cases s with
  | nil => rfl
  | cons c cs =>
    by_cases h1 : c = 43
    · subst h1; rfl
    · by_cases h2 : c = 45
      · subst h2; rfl
      · have e : (decide (c = 45) || decide (c = 43)) = false := by simp [h1, h2]
        unfold underscoreOK splitSign
        simp only [e, if_neg h1, if_neg h2]
        rfl

theorem tailOK_plain (t : Str) (h : ∀ x rest, t = 48 :: x :: rest → lowerByte x ≠ 98 ∧ lowerByte x ≠ 111 ∧ lowerByte x ≠ 120) :
    tailOK t = true ↔ Spec.Separated (fun c => dig false c = true) t := by
  rw [← underscoreLoop_sep false t 94 (by decide) (by decide)]
  unfold tailOK
  split
  · rename_i x rest
    obtain ⟨h1, h2, h3⟩ := h x rest rfl
    rw [if_neg (by simp [h1, h2, h3])]
  · rfl

theorem tailOK_hex (x : Byte) (q : Str) (h : lowerByte x = 120) :
    tailOK (48 :: x :: q) = true ↔ Spec.Separated (fun c => dig true c = true) (48 :: q) := by
  rw [← underscoreLoop_digit]
  simp [tailOK, h]

theorem sep_mono {D E : Byte → Prop} (h : ∀ c, D c → E c) {s : Str} (hs : Spec.Separated D s) : Spec.Separated E s := by
  intro a b e
  obtain ⟨⟨c, hc, hd⟩, d, hd1, hd2⟩ := hs a b e
  exact ⟨⟨c, hc, h c hd⟩, d, hd1, h d hd2⟩

theorem tailOK_of_sep (t : Str) (hs : Spec.Separated (fun c => dig false c = true) t) : tailOK t = true := by
  by_cases h : ∀ x rest, t = 48 :: x :: rest → lowerByte x ≠ 98 ∧ lowerByte x ≠ 111 ∧ lowerByte x ≠ 120
  · exact (tailOK_plain t h).2 hs
  · push_neg at h
    obtain ⟨x, rest, rfl, hx⟩ := h
    have hx' : (decide (lowerByte x = 98) || decide (lowerByte x = 111) || decide (lowerByte x = 120)) = true := by
      by_cases h1 : lowerByte x = 98
      · simp [h1]
      · by_cases h2 : lowerByte x = 111
        · simp [h2]
        · simp [hx h1 h2]
    have hxd : ¬dig false x = true := by
      have : ∀ x : Byte, (decide (lowerByte x = 98) || decide (lowerByte x = 111) || decide (lowerByte x = 120)) = true → ¬dig false x = true :=
        forall_byte (by decide +kernel)
      exact this x hx'
    have h1 : Spec.Separated (fun c => dig false c = true) (x :: rest) := by
      refine sep_drop (p := [48]) hs ?_
      rintro e
      simp at e
      subst e
      exact absurd hx' (by decide)
    have h2 := sep_drop (p := [x]) h1 (sep_head h1 hxd)
    unfold tailOK
    simp only [hx', if_true]
    rw [underscoreLoop_digit]
    refine sep_prepend (p := [48]) (by decide) (sep_mono ?_ h2)
    intro c hc
    rw [dig_false] at hc
    exact dig_of_isDigit _ c hc

theorem splitHex_cases (t : Str) : (splitHex t = (false, t) ∧ ∀ x r rest, t = 48 :: x :: r :: rest → lowerByte x ≠ 120) ∨
    ∃ x r rest, t = 48 :: x :: r :: rest ∧ lowerByte x = 120 ∧ splitHex t = (true, r :: rest) := by
  unfold splitHex
  split
  · rename_i z x r rest
    by_cases h : (decide (z = 48) && decide (lowerByte x = 120)) = true
    · rw [if_pos h]
      simp only [Bool.and_eq_true, decide_eq_true_eq] at h
      obtain ⟨rfl, h⟩ := h
      exact Or.inr ⟨x, r, rest, rfl, h, rfl⟩
    · rw [if_neg h]
      refine Or.inl ⟨rfl, ?_⟩
      intro x' r' rest' e hx
      simp only [List.cons.injEq] at e
      obtain ⟨rfl, rfl, -⟩ := e
      simp [hx] at h
  · rename_i h
    refine Or.inl ⟨rfl, ?_⟩
    intro x r rest e
    exact absurd e (h _ _ _ _)

/-- Other prefixes are not read. -/
theorem parseUnsigned_prefix (whole : Str) (neg : Bool) (t x : _) (rest : Str) (h : splitHex t = (false, t)) (ht : t = 48 :: x :: rest)
    (hx : lowerByte x = 98 ∨ lowerByte x = 111 ∨ lowerByte x = 120) : parseUnsigned whole neg t = .error .syntax := by
  have hb : ∀ x : Byte, (lowerByte x = 98 ∨ lowerByte x = 111 ∨ lowerByte x = 120) → isDigit x = false ∧ x ≠ 95 ∧ x ≠ 46 ∧ lowerByte x ≠ 101 :=
    forall_byte (by decide +kernel)
  obtain ⟨h1, h2, h3, h4⟩ := hb x hx
  unfold parseUnsigned
  rw [h]
  simp only
  have : readMantissa false t {} = ({ sawDigits := true }, x :: rest) := by
    rw [ht, readMantissa, if_neg (by decide), if_neg (by decide), if_pos (by decide), readMantissa_stop (x :: rest)]
    · rfl
    · simp [h1]
    · simpa using h2
    · intro c hc e
      simp only [List.head?_cons, Option.mem_def, Option.some.injEq] at hc
      exact absurd (hc.trans e) h3
  rw [this]
  simp only [if_true]
  unfold parseExp
  simp [h4]

theorem mval_false (s : Str) (h : ∀ b ∈ s, isDigit b = true) (acc : Nat) : mval false acc s = digitsAcc acc s := by
  induction s generalizing acc with
  | nil => rfl
  | cons b s ih =>
    have := ih (fun c hc => h c (by simp [hc])) (acc * 10 + (b.toNat - 48))
    simp only [mval, digitsAcc, List.foldl_cons, hexVal_digit b (h b (by simp)), Option.getD_some] at this ⊢
    exact this

theorem hexVal_spec : ∀ b : Byte, dig true b = true → (hexVal b).getD 0 = Spec.hexDigitVal b := forall_byte (by decide +kernel)

theorem mval_true (s : Str) (h : ∀ b ∈ s, dig true b = true) (acc : Nat) :
    mval true acc s = s.foldl (fun acc b => 16 * acc + Spec.hexDigitVal b) acc := by
  induction s generalizing acc with
  | nil => rfl
  | cons b s ih =>
    have := ih (fun c hc => h c (by simp [hc])) (acc * 16 + Spec.hexDigitVal b)
    simp only [mval, List.foldl_cons, hexVal_spec b (h b (by simp)), if_true] at this ⊢
    rw [this, Nat.mul_comm]

theorem dig_true_iff (c : Byte) : Spec.HexDigit c ↔ dig true c = true := (dig_hex c).symm

theorem dig_false_iff (c : Byte) : Spec.Digit c ↔ dig false c = true := by rw [dig_false]; exact digit_iff c

theorem sign_underscore {sg : Str} {neg : Bool} (h : Spec.Sign sg neg) : 95 ∉ sg := by
  rcases h with ⟨rfl, -⟩ | ⟨rfl, -⟩ | ⟨rfl, -⟩ <;> decide

theorem sep_sign {D : Byte → Prop} {sg t : Str} {neg : Bool} (h : Spec.Sign sg neg) (h43 : ¬D 43) (h45 : ¬D 45) :
    Spec.Separated D (sg ++ t) ↔ Spec.Separated D t := by
  refine ⟨fun hs => sep_drop hs ?_, sep_prepend (sign_underscore h)⟩
  rcases h with ⟨rfl, -⟩ | ⟨rfl, -⟩ | ⟨rfl, -⟩
  · exact sep_start hs
  · exact sep_head hs h43
  · exact sep_head hs h45

theorem sep_iff {D E : Byte → Prop} (h : ∀ c, D c ↔ E c) (s : Str) : Spec.Separated D s ↔ Spec.Separated E s :=
  ⟨sep_mono fun c => (h c).1, sep_mono fun c => (h c).2⟩

/-- What is read of a decimal number. -/
theorem parseFloat_goDecimal {s : Str} {neg : Bool} {ip fp : Str} {e : ℤ} (h : Spec.GoDecimal s neg ip fp e) :
    ∃ dot ex, Spec.unscored (splitSign s).2 = ip ++ dot ++ fp ++ ex ∧ parseFloat s = core false neg (ip ++ dot ++ fp ++ ex) ∧
      (∀ b ∈ ip ++ fp, dig false b = true) ∧ ip ++ fp ≠ [] ∧ (dot = [] ∧ fp = [] ∨ dot = [46]) ∧ IsExp false ex e := by
  obtain ⟨hsep, sg, dot, ex, hsg, hex, hdig, hne, hdot, hs⟩ := h
  have hdig' : ∀ b ∈ ip ++ fp, dig false b = true := fun b hb => (dig_false_iff b).1 (hdig b hb)
  have hs : Spec.unscored s = sg ++ (ip ++ dot ++ fp ++ ex) := by rw [hs]; simp
  -- a digit
  have hspec : parseSpecial s = none := by
    apply parseSpecial_digit
    obtain ⟨b, hb⟩ := List.exists_mem_of_ne_nil _ hne
    refine ⟨b, ?_, (digit_iff b).1 (hdig b hb)⟩
    have : b ∈ Spec.unscored s := by
      rw [hs]
      simp only [List.mem_append] at hb ⊢
      rcases hb with hb | hb <;> simp [hb]
    exact (List.mem_filter.1 this).1
  -- no x
  have hx : ∀ b ∈ ip ++ dot ++ fp ++ ex, lowerByte b ≠ 120 := by
    intro b hb
    simp only [List.mem_append] at hb
    rcases hb with ((hb | hb) | hb) | hb
    · exact lowerByte_digit b ((digit_iff b).1 (hdig b (by simp [hb])))
    · rcases hdot with ⟨rfl, -⟩ | rfl <;> simp at hb
      subst hb; decide
    · exact lowerByte_digit b ((digit_iff b).1 (hdig b (by simp [hb])))
    · rcases hex with ⟨rfl, -⟩ | ⟨c, sg', neg', ds, hc, hsg', -, hds, rfl, -⟩
      · simp at hb
      · simp only [List.mem_cons, List.mem_append] at hb
        rcases hb with rfl | hb | hb
        · rcases hc with rfl | rfl <;> decide
        · rcases hsg' with ⟨rfl, -⟩ | ⟨rfl, -⟩ | ⟨rfl, -⟩ <;> simp at hb <;> subst hb <;> decide
        · exact lowerByte_digit b ((digit_iff b).1 (hds b hb))
  -- the sign
  have hsplit : splitSign (sg ++ (ip ++ dot ++ fp ++ ex)) = (neg, ip ++ dot ++ fp ++ ex) := by
    obtain ⟨c, t, hct, h1, h2⟩ : ∃ c t, ip ++ dot ++ fp ++ ex = c :: t ∧ c ≠ 43 ∧ c ≠ 45 := by
      cases ip with
      | cons c cs =>
        have := (digit_iff c).1 (hdig c (by simp))
        exact ⟨c, _, rfl, by rintro rfl; revert this; decide, by rintro rfl; revert this; decide⟩
      | nil =>
        rcases hdot with ⟨rfl, rfl⟩ | rfl
        · simp at hne
        · exact ⟨46, _, rfl, by decide, by decide⟩
    rw [hct]
    exact splitSign_sign sg neg c t hsg h1 h2
  rw [← hs, splitSign_unscored s (sep_start hsep)] at hsplit
  obtain ⟨h1, h2⟩ := Prod.mk.inj hsplit
  obtain ⟨sg0, hsg0, hs0⟩ := splitSign_split s
  have hsep' : Spec.Separated (fun c => dig false c = true) (splitSign s).2 := by
    rw [sep_iff dig_false_iff, hs0, sep_sign hsg0 (by decide) (by decide)] at hsep
    exact hsep
  have hh : splitHex (splitSign s).2 = (false, (splitSign s).2) := by
    apply splitHex_false
    intro b hb
    by_cases h95 : b = 95
    · subst h95; decide
    · refine hx b ?_
      rw [← h2]
      exact List.mem_filter.2 ⟨hb, by simpa using h95⟩
  have hok : underscoreOK s = true := by
    rw [underscoreOK_eq]
    exact tailOK_of_sep _ hsep'
  have := parseUnsigned_unscored s (splitSign s).1 (splitSign s).2 hok [] (by rw [hh]; exact hsep')
  refine ⟨dot, ex, h2, ?_, hdig', hne, hdot, hex⟩
  unfold parseFloat
  rw [hspec]
  simp only
  rw [this, hh, h1, h2]

/-- What is read of a hexadecimal number. -/
theorem parseFloat_goHex {s : Str} {neg : Bool} {ip fp : Str} {e : ℤ} (h : Spec.GoHex s neg ip fp e) :
    ∃ dot ex, parseFloat s = core true neg (ip ++ dot ++ fp ++ ex) ∧
      (∀ b ∈ ip ++ fp, dig true b = true) ∧ ip ++ fp ≠ [] ∧ (dot = [] ∧ fp = [] ∨ dot = [46]) ∧ IsExp true ex e := by
  obtain ⟨sg, x, body, dot, ex, hsg, hx, rfl, hsep, hex, hdig, hne, hdot, hb⟩ := h
  refine ⟨dot, ex, ?_, fun b hb => (dig_true_iff b).1 (hdig b hb), hne, hdot, hex⟩
  have hlx : lowerByte x = 120 := by rcases hx with rfl | rfl <;> decide
  have hspec : parseSpecial (sg ++ 48 :: x :: body) = none := by
    apply parseSpecial_digit
    exact ⟨48, by simp, by decide⟩
  have hsplit := splitSign_sign sg neg 48 (x :: body) hsg (by decide) (by decide)
  have hh : splitHex (48 :: x :: body) = (true, body) := by
    cases body with
    | nil =>
      obtain ⟨c, sg', neg', ds, -, -, -, -, rfl, -⟩ := hex
      simp [Spec.unscored] at hb
    | cons r rest => simp [splitHex, hlx]
  rw [sep_iff dig_true_iff] at hsep
  have hok : underscoreOK (sg ++ 48 :: x :: body) = true := by
    rw [underscoreOK_eq, hsplit]
    exact (tailOK_hex x body hlx).2 hsep
  have := parseUnsigned_unscored (sg ++ 48 :: x :: body) neg (48 :: x :: body) hok [48] (by rw [hh]; exact hsep)
  unfold parseFloat
  rw [hspec]
  simp only
  rw [hsplit]
  simp only
  rw [this, hh, hb]

end GoNum

open GoNum

/-- **C61, the language.**  Exactly the decimal and hexadecimal numbers of Go, with an optional sign, and the words for
infinities and NaN are read. -/
theorem C61_language (s : Str) : parseFloat s ≠ .error .syntax ↔
    (∃ neg ip fp e, Spec.GoDecimal s neg ip fp e) ∨ (∃ neg ip fp e, Spec.GoHex s neg ip fp e) ∨ Spec.Special s := by
  constructor
  · intro hp
    by_cases hs : parseSpecial s = none
    · unfold parseFloat at hp
      rw [hs] at hp
      simp only at hp
      obtain ⟨sg, hsg, hcs⟩ := splitSign_split s
      have hok := underscoreOK_eq s
      generalize (splitSign s).1 = neg at *
      generalize (splitSign s).2 = t at *
      rcases splitHex_cases t with ⟨hh, hnx⟩ | ⟨x, r, rest, ht, hx, hh⟩
      · left
        have hpre : ∀ x rest, t = 48 :: x :: rest → lowerByte x ≠ 98 ∧ lowerByte x ≠ 111 ∧ lowerByte x ≠ 120 := by
          intro x rest ht
          by_contra hc
          refine hp (parseUnsigned_prefix s neg t x rest hh ht ?_)
          by_contra h
          simp only [not_or] at h
          exact hc h
        have hsep : Spec.Separated (fun c => dig false c = true) t := by
          by_cases h95 : 95 ∈ t
          · rw [← tailOK_plain t hpre, ← hok]
            exact parseUnsigned_checked s neg t hp (by rw [hh]; exact h95)
          · intro a b e
            exact absurd (by rw [e]; simp) h95
        have hok' : underscoreOK s = true := by rw [hok]; exact tailOK_of_sep t hsep
        rw [parseUnsigned_unscored s neg t hok' [] (by rw [hh]; exact hsep), hh] at hp
        obtain ⟨ip, dot, fp, ex, e, hb, hd, hne, hdot, hex⟩ := core_shape false neg _ (unscored_mem t) hp
        refine ⟨neg, ip, fp, e, ?_, sg, dot, ex, hsg, hex, fun b hb => (dig_false_iff b).2 (hd b hb), hne, hdot, ?_⟩
        · rw [sep_iff dig_false_iff, hcs, sep_sign hsg (by decide) (by decide)]
          exact hsep
        · rw [hcs, unscored_append, unscored_self sg (sign_underscore hsg), hb]
          simp
      · right; left
        have hsep : Spec.Separated (fun c => dig true c = true) (48 :: r :: rest) := by
          by_cases h95 : 95 ∈ r :: rest
          · rw [← tailOK_hex x (r :: rest) hx, ← ht, ← hok]
            exact parseUnsigned_checked s neg t hp (by rw [hh]; exact h95)
          · intro a b e
            have : (95 : Byte) ∈ 48 :: r :: rest := by rw [e]; simp
            rcases List.mem_cons.1 this with h | h
            · exact absurd h (by decide)
            · exact absurd h h95
        have hok' : underscoreOK s = true := by rw [hok, ht]; exact (tailOK_hex x (r :: rest) hx).2 hsep
        rw [parseUnsigned_unscored s neg t hok' [48] (by rw [hh]; exact hsep), hh] at hp
        obtain ⟨ip, dot, fp, ex, e, hb, hd, hne, hdot, hex⟩ := core_shape true neg _ (unscored_mem (r :: rest)) hp
        have hx' : x = 120 ∨ x = 88 := by
          by_contra h
          simp only [not_or] at h
          exact lowerByte_x x h.1 h.2 hx
        exact ⟨neg, ip, fp, e, sg, x, r :: rest, dot, ex, hsg, hx', by rw [hcs, ht], (sep_iff dig_true_iff _).2 hsep, hex,
          fun b hb => (dig_true_iff b).2 (hd b hb), hne, hdot, hb⟩
    · exact Or.inr (Or.inr ((parseSpecial_iff s).1 hs))
  · rintro (⟨neg, ip, fp, e, h⟩ | ⟨neg, ip, fp, e, h⟩ | hs)
    · obtain ⟨dot, ex, -, hp, hd, hne, hdot, he⟩ := parseFloat_goDecimal h
      obtain ⟨eneg, n, -, hc⟩ := core_body neg ip dot fp hd hne hdot he
      rw [hp, hc]
      exact rangeCheck_ne _
    · obtain ⟨dot, ex, hp, hd, hne, hdot, he⟩ := parseFloat_goHex h
      obtain ⟨eneg, n, -, hc⟩ := core_body neg ip dot fp hd hne hdot he
      rw [hp, hc]
      exact rangeCheck_ne _
    · have := (parseSpecial_iff s).2 hs
      unfold parseFloat
      cases hv : parseSpecial s with
      | none => exact absurd hv this
      | some v => simp

/-- **C61, underscores.**  A decimal number with underscores is read as the number without them. -/
theorem C61_underscores (s : Str) (neg : Bool) (ip fp : Str) (e : ℤ) (h : Spec.GoDecimal s neg ip fp e) :
    parseFloat s = parseFloat (Spec.unscored s) := by
  have h' : Spec.GoDecimal (Spec.unscored s) neg ip fp e := by
    refine ⟨?_, ?_⟩
    · intro a b hb
      exact absurd rfl (unscored_mem s 95 (by rw [hb]; simp))
    · rw [unscored_self _ (fun hm => unscored_mem s 95 hm rfl)]
      exact h.2
  obtain ⟨dot, ex, hs, hp, -⟩ := parseFloat_goDecimal h
  obtain ⟨dot', ex', hs', hp', -⟩ := parseFloat_goDecimal h'
  rw [hp, hp', ← hs, ← hs', splitSign_unscored s (sep_start h.1),
    unscored_self (Spec.unscored (splitSign s).2) (fun hm => unscored_mem _ 95 hm rfl)]

/-- The end of the reading of a hexadecimal number. -/
theorem finishFloat_hex (neg : Bool) (ip fp : Str) (eneg : Bool) (n : Nat) (q : ℚ)
    (hq : q = Spec.hexRat neg ip fp (if eneg then -(n : ℤ) else n)) :
    (Spec.Overflows q → finishFloat true neg (Spec.hexDigits (ip ++ fp)) fp.length eneg n = .error .range) ∧
    (¬Spec.Overflows q → ∃ x, finishFloat true neg (Spec.hexDigits (ip ++ fp)) fp.length eneg n = .ok x ∧ x.signBit = neg ∧
      Spec.Nearest q x) := by
  unfold finishFloat
  simp only [if_true]
  refine rangeCheck_value neg _ _ (by split <;> positivity) _ ?_
  have hS : (0 : ℚ) < (scale : ℚ) := by exact_mod_cast scale_pos
  rw [hq]
  unfold Spec.hexRat
  congr 1
  have h16 : (2 : ℚ) ^ (4 * (fp.length : ℤ)) = 16 ^ fp.length := by
    rw [zpow_mul, zpow_natCast]
    norm_num
  cases eneg
  · simp only [Bool.false_eq_true, if_false]
    rw [zpow_sub₀ (by norm_num), h16]
    push_cast
    rw [zpow_natCast]
    field_simp
  · simp only [if_true]
    rw [zpow_sub₀ (by norm_num), zpow_neg, h16]
    push_cast
    rw [zpow_natCast]
    field_simp

/-- **C61, hexadecimal numbers.**  They are read as the nearest float32 too. -/
theorem C61_hex (s : Str) (neg : Bool) (ip fp : Str) (e : ℤ) (h : Spec.GoHex s neg ip fp e) (he : |e| < 10 ^ 5) :
    (Spec.Overflows (Spec.hexRat neg ip fp e) → parseFloat s = .error .range) ∧
    (¬Spec.Overflows (Spec.hexRat neg ip fp e) →
      ∃ x, parseFloat s = .ok x ∧ x.signBit = neg ∧ Spec.Nearest (Spec.hexRat neg ip fp e) x) := by
  obtain ⟨dot, ex, hp, hd, hne, hdot, hex⟩ := parseFloat_goHex h
  obtain ⟨eneg, n, hen, hc⟩ := core_body neg ip dot fp hd hne hdot hex
  obtain rfl := hen.1 he
  rw [hp, hc, mval_true _ hd]
  exact finishFloat_hex neg ip fp eneg n _ rfl

example : Spec.GoDecimal b!"-1_0.2_5e0_1" true b!"10" b!"25" 1 := by
  refine ⟨?_, b!"-", b!".", b!"e01", Or.inr (Or.inr ⟨rfl, rfl⟩), Or.inr ⟨101, [], false, b!"01", Or.inl rfl, Or.inl ⟨rfl, rfl⟩,
    by decide, ?_, rfl, by decide +kernel⟩, ?_, by decide, Or.inr rfl, by decide +kernel⟩
  · rw [sep_iff dig_false_iff, ← underscoreLoop_sep false _ 94 (by decide) (by decide)]
    decide +kernel
  · intro b hb; rw [digit_iff]; revert b; decide +kernel
  · intro b hb; rw [digit_iff]; revert b; decide +kernel

example : Spec.GoHex b!"+0X_1f.8p-1_0" false b!"1f" b!"8" (-10) := by
  refine ⟨b!"+", 88, b!"_1f.8p-1_0", b!".", b!"p-10", Or.inr (Or.inl ⟨rfl, rfl⟩), Or.inr rfl, rfl, ?_,
    ⟨112, b!"-", true, b!"10", Or.inl rfl, Or.inr (Or.inr ⟨rfl, rfl⟩), by decide, ?_, rfl, by decide +kernel⟩, ?_, by decide, Or.inr rfl,
    by decide +kernel⟩
  · rw [sep_iff dig_true_iff, ← underscoreLoop_digit]
    decide +kernel
  · intro b hb; rw [digit_iff]; revert b; decide +kernel
  · intro b hb; rw [dig_true_iff]; revert b; decide +kernel

/-- Not numbers: an underscore beside another one, at an end or beside the point, and a hexadecimal number without exponent. -/
example : ∀ s ∈ ([b!"1__0", b!"_1", b!"1_", b!"1_.5", b!"1e_5", b!"0x1", b!"0_x1p0", b!"0b1"] : List Str),
    parseFloat s = .error .syntax := by
  decide +kernel

end Go3mf
