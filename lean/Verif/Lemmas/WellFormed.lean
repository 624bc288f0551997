import Verif.Spec.WellFormed
import Verif.Props.C23
import Verif.Props.C59
import Verif.Props.C103Read

/-!
# What the printer writes is in the grammar of XML 1.0
-/

namespace Go3mf

open Spec

/-! ## Texts -/

theorem Spec.TextOf.append {q : Option Byte} {s t s' t' : Str} (h : TextOf .common q s t)
    (hs : ∀ b ∈ s, b ≠ 0x9 ∧ b ≠ 0xD ∧ b ≠ 0xA) (h' : TextOf .common q s' t') : TextOf .common q (s ++ s') (t ++ t') := by
  induction h with
  | nil => exact h'
  | plain h1 h2 h3 h4 h5 h6 _ ih => exact .plain h1 h2 h3 h4 h5 h6 (ih fun b hb => hs b (List.mem_cons_of_mem _ hb))
  | tab _ _ _ => exact absurd rfl (hs 0x9 (by simp)).1
  | lf _ _ _ => exact absurd rfl (hs 0xA (by simp)).2.2
  | crlf _ _ _ => exact absurd rfl (hs 0xD (by simp)).2.1
  | cr _ _ _ _ => exact absurd rfl (hs 0xD (by simp)).2.1
  | blankTab _ _ _ => exact absurd rfl (hs 0x9 (by simp)).1
  | blankLf _ _ _ => exact absurd rfl (hs 0xA (by simp)).2.2
  | blankCrlf _ _ _ => exact absurd rfl (hs 0xD (by simp)).2.1
  | blankCr _ _ _ _ => exact absurd rfl (hs 0xD (by simp)).2.1
  | ref h1 _ ih =>
    rw [List.append_assoc, List.append_assoc]
    exact .ref h1 (ih fun b hb => hs b (List.mem_append_right _ hb))

/-- Written between tags or double quotes. -/
def QuoteOK (q : Option Byte) : Prop := q = none ∨ q = some 34

/-- What is written for a string. -/
structure Escaped (s t : Str) : Prop where
  text : ∀ q, QuoteOK q → TextOf .common q s t
  flat : ∀ b ∈ s, b ≠ 0x9 ∧ b ≠ 0xD ∧ b ≠ 0xA
  empty : s = [] ↔ t = []

theorem Escaped.nil : Escaped [] [] := ⟨fun _ _ => .nil, by simp, by simp⟩

theorem Escaped.append {s t s' t' : Str} (h : Escaped s t) (h' : Escaped s' t') : Escaped (s ++ s') (t ++ t') := by
  refine ⟨fun q hq => (h.text q hq).append h.flat (h'.text q hq), fun b hb => ?_, ?_⟩
  · rcases List.mem_append.1 hb with hb | hb
    · exact h.flat b hb
    · exact h'.flat b hb
  · rw [List.append_eq_nil_iff, List.append_eq_nil_iff, h.empty, h'.empty]

theorem Escaped.plain {b : Byte} (h : b ≠ 0x3C ∧ b ≠ 0x26 ∧ b ≠ 34 ∧ b ≠ 0x9 ∧ b ≠ 0xD ∧ b ≠ 0xA) : Escaped [b] [b] := by
  refine ⟨fun q hq => ?_, ?_, by simp⟩
  · refine .plain h.1 h.2.1 ?_ h.2.2.2.1 h.2.2.2.2.1 h.2.2.2.2.2 .nil
    rcases hq with rfl | rfl
    · simp
    · simpa using fun e => h.2.2.1 e.symm
  · simp [h.2.2.2]

theorem Escaped.high {b : Byte} (h : 0x80 ≤ b) : Escaped [b] [b] := by
  have hne : ∀ c : Byte, c < 0x80 → b ≠ c := by
    rintro c hc rfl
    exact absurd hc (by simpa using h)
  exact .plain ⟨hne _ (by decide), hne _ (by decide), hne _ (by decide), hne _ (by decide), hne _ (by decide), hne _ (by decide)⟩

theorem Escaped.ref {r : Str} {c : Nat} (h : ReferenceOf .common r c) (hf : ∀ b ∈ r, b ≠ 0x9 ∧ b ≠ 0xD ∧ b ≠ 0xA)
    (hr : r ≠ []) (hc : utf8 c ≠ []) : Escaped r (utf8 c) := by
  refine ⟨fun q _ => ?_, hf, by simp [hr, hc]⟩
  have := TextOf.ref (q := q) h .nil
  simpa using this

theorem Escaped.highs : ∀ {s : Str}, (∀ b ∈ s, 0x80 ≤ b) → Escaped s s
  | [], _ => .nil
  | b :: s, h => (Escaped.high (h b (by simp))).append (Escaped.highs (s := s) fun x hx => h x (by simp [hx]))

theorem escaped_replacement : Escaped replacement replacement := .highs (by decide)

theorem escaped_ascii {b : Byte} (hb : b < 0x80) : Escaped (escapeASCII b) (cleanASCII b) := by
  have digit : ∀ {base d : Nat} {x : Byte}, d < base → ((b!"0123456789abcdef" : Str)[d]? = some x ∨
      (b!"0123456789ABCDEF" : Str)[d]? = some x) → DigitOf base x d := fun h1 h2 => ⟨h1, h2⟩
  by_cases h1 : b = 34
  · subst h1
    exact .ref (c := 34) (.dec (s := b!"34") (.snoc (s := b!"3") (.one (d := 3) (digit (by decide) (by decide)))
      (digit (d := 4) (by decide) (by decide))) (by decide)) (by decide) (by decide) (by decide)
  by_cases h2 : b = 39
  · subst h2
    exact .ref (c := 39) (.dec (s := b!"39") (.snoc (s := b!"3") (.one (d := 3) (digit (by decide) (by decide)))
      (digit (d := 9) (by decide) (by decide))) (by decide)) (by decide) (by decide) (by decide)
  by_cases h3 : b = 38
  · subst h3
    exact .ref .amp (by decide) (by decide) (by decide)
  by_cases h4 : b = 60
  · subst h4
    exact .ref .lt (by decide) (by decide) (by decide)
  by_cases h5 : b = 62
  · subst h5
    exact .ref .gt (by decide) (by decide) (by decide)
  by_cases h6 : b = 9
  · subst h6
    exact .ref (c := 9) (.hex (s := b!"9") (.one (d := 9) (digit (by decide) (by decide))) (by decide)) (by decide) (by decide)
      (by decide)
  by_cases h7 : b = 10
  · subst h7
    exact .ref (c := 10) (.hex (s := b!"A") (.one (d := 10) (digit (by decide) (by decide))) (by decide)) (by decide) (by decide)
      (by decide)
  by_cases h8 : b = 13
  · subst h8
    exact .ref (c := 13) (.hex (s := b!"D") (.one (d := 13) (digit (by decide) (by decide))) (by decide)) (by decide) (by decide)
      (by decide)
  unfold escapeASCII cleanASCII
  rw [if_neg h1, if_neg h2, if_neg h3, if_neg h4, if_neg h5, if_neg h6, if_neg h7, if_neg h8,
    if_neg (show ¬ (b = 9 ∨ b = 10 ∨ b = 13) by simp [h6, h7, h8])]
  split
  · exact escaped_replacement
  · exact .plain ⟨h4, h3, h1, h6, h8, h7⟩

theorem escaped_go : ∀ (s : Str) (k : Nat) (copy : Bool), (∀ b ∈ s.take k, 0x80 ≤ b) →
    Escaped (escapeGo k copy s) (cleanGo k copy s)
  | [], k, copy, _ => by cases k <;> exact .nil
  | b :: s, k + 1, copy, h => by
    simp only [escapeGo, cleanGo]
    have ih := escaped_go s k copy (fun x hx => h x (by simp [hx]))
    cases copy with
    | false => simpa using ih
    | true => simpa using (Escaped.high (h b (by simp))).append ih
  | b :: s, 0, copy, _ => by
    simp only [escapeGo, cleanGo]
    by_cases hb : b < 0x80
    · rw [if_pos hb, if_pos hb]
      exact (escaped_ascii hb).append (escaped_go s 0 false (by simp))
    · rw [if_neg hb, if_neg hb]
      cases hr : runeLen (b :: s) with
      | zero => exact escaped_replacement.append (escaped_go s 0 false (by simp))
      | succ n =>
        simp only
        obtain ⟨c, hc, hc', he, _⟩ := runeLen_high hb hr
        have hhigh : ∀ x ∈ s.take n, 0x80 ≤ x := fun x hx => utf8_high hc hc' x (by rw [he]; simp [hx])
        split
        · exact escaped_replacement.append (escaped_go s n false hhigh)
        · exact (Escaped.high (by simpa using hb)).append (escaped_go s n true hhigh)

theorem escaped (s : Str) : Escaped (escape s) (cleanText s) := escaped_go s 0 false (by simp)

/-! ## Tags -/

theorem ncToken_of {s : Str} (h : NCName s) : NcToken s := ⟨h.1, fun b hb => ncByte_of (h.2 b hb).1 (h.2 b hb).2⟩

theorem printName_qname {m : PrefixMap} {n : Name} (h : ElemOK m n) : QNameOf .common (printName m n) (rawName m n) := by
  obtain ⟨h1, h2⟩ := h
  unfold printName rawName
  unfold elemPrefix at h2 ⊢
  by_cases hp : n.space ≠ [] ∧ m n.space ≠ []
  · rw [if_pos hp] at h2 ⊢
    rw [if_pos hp]
    have h3 : NCName (m n.space) := h2.resolve_left hp.2
    exact .prefixed (ncToken_of h3) (ncToken_of h1)
  · rw [if_neg hp, if_neg hp]
    exact .plain (ncToken_of h1)

theorem printAttrs_of (skip : Bool) : ∀ (as : List Attr) (m : PrefixMap) (next : Bool), AttrsOK skip m as →
    AttrsOf .common next (printAttrs skip m as).1 (rawAttrs m as)
  | [], _, _, _ => .nil
  | a :: as, m, next, h => by
    rw [AttrsOK] at h
    rw [printAttrs, rawAttrs]
    by_cases hl : a.name.loc = []
    · rw [if_pos hl] at h ⊢
      rw [if_pos hl]
      exact printAttrs_of skip as m next h
    · rw [if_neg hl] at h ⊢
      rw [if_neg hl]
      obtain ⟨h1, h2, h3, h4⟩ := h
      have ih := printAttrs_of skip as (attrMap m a) true h4
      have hv : (if skip then a.value else escape a.value) = escape a.value := by
        cases skip with
        | true => simp [h3 rfl]
        | false => rfl
      have hq : QNameOf .common ((if a.name.space ≠ [] then (createAttrPrefix m a).1 ++ b!":" else []) ++ a.name.loc)
          ⟨attrPrefix m a, a.name.loc⟩ := by
        unfold attrPrefix at h2 ⊢
        by_cases hs : a.name.space ≠ []
        · rw [if_pos hs] at h2 ⊢
          rw [if_pos hs]
          exact .prefixed (ncToken_of (h2.resolve_left hs)) (ncToken_of h1)
        · rw [if_neg hs, if_neg hs]
          exact .plain (ncToken_of h1)
      have key := AttrsOf.cons (m := .common) (next := next) (w := b!" ") (e := []) (e' := []) (q := 34) (by decide +kernel)
        (Or.inl (by decide)) hq (by decide +kernel) (by decide +kernel) (Or.inl rfl) ((escaped a.value).text _ (Or.inr rfl)) ih
      simp only
      rw [hv]
      unfold attrMap at key ⊢
      by_cases hs : a.name.space ≠ []
      · simp only [if_pos hs] at key ⊢
        simpa using key
      · simp only [if_neg hs] at key ⊢
        simpa using key

/-! ## Sequences of tokens -/

/-- The text collected before a tag. -/
def flushItems (t : Str) : List MarkupItem := if t = [] then [] else [.chars t]

/-- The items written by a sequence of operations, after the text `t`. -/
def opItems (m : PrefixMap) (t : Str) : List Op → List MarkupItem
  | [] => flushItems t
  | .chars s :: ops => opItems m (t ++ cleanText s) ops
  | .start n as auto skip :: ops =>
    flushItems t ++ .start (rawName m n) (rawAttrs m as) ::
      ((if auto then [.stop (rawName m n)] else []) ++ opItems (printAttrs skip m as).2 [] ops)
  | .stop n :: ops => flushItems t ++ .stop (rawName m n) :: opItems m [] ops

theorem markup_flush {s t rest : Str} {is : List MarkupItem} (h : Escaped s t) (hr : rest = [] ∨ rest.head? = some 0x3C)
    (hm : MarkupOf .common rest is) : MarkupOf .common (s ++ rest) (flushItems t ++ is) := by
  unfold flushItems
  by_cases ht : t = []
  · rw [if_pos ht, h.empty.2 ht]
    exact hm
  · rw [if_neg ht]
    exact .chars (fun e => ht (h.empty.1 e)) (h.text none (Or.inl rfl)) hr hm

/-- What is written for a sequence of operations is in the grammar. -/
theorem printOps_markup : ∀ (ops : List Op) (m : PrefixMap) {s t : Str}, Escaped s t → OpsOK m ops →
    MarkupOf .common (s ++ printOps m ops) (opItems m t ops)
  | [], m, s, t, hs, _ => by
    have := markup_flush hs (Or.inl rfl) .nil
    simpa [printOps, opItems] using this
  | .chars c :: ops, m, s, t, hs, h => by
    have := printOps_markup ops m (hs.append (escaped c)) h
    simpa [printOps, printOp, opItems] using this
  | .start n as auto skip :: ops, m, s, t, hs, h => by
    obtain ⟨h1, h2, h3⟩ := h
    have ih := printOps_markup ops (printAttrs skip m as).2 Escaped.nil h3
    simp only [printOps, printOp, opItems]
    refine markup_flush hs (Or.inr (by simp [printStart])) ?_
    have hm : (printStart m n as auto skip).2 = (printAttrs skip m as).2 := rfl
    rw [hm]
    cases auto with
    | false =>
      have := MarkupOf.start (w := []) (printName_qname h1) (printAttrs_of skip as m false h2) (by decide +kernel) ih
      simpa [printStart] using this
    | true =>
      have := MarkupOf.empty (w := []) (printName_qname h1) (printAttrs_of skip as m false h2) (by decide +kernel) ih
      simpa [printStart] using this
  | .stop n :: ops, m, s, t, hs, h => by
    obtain ⟨h1, h2⟩ := h
    have ih := printOps_markup ops m Escaped.nil h2
    simp only [printOps, printOp, opItems]
    refine markup_flush hs (Or.inr (by simp [printEnd])) ?_
    have := MarkupOf.stop (w := []) (printName_qname h1) (by decide +kernel) ih
    simpa [printEnd] using this

/-! ## Nesting -/

/-- Contents that end the elements of a stack. -/
inductive Segs : List Name → List MarkupItem → Prop where
  | nil {is : List MarkupItem} : ContentOf is → Segs [] is
  | cons {n : Name} {st : List Name} {a b : List MarkupItem} : ContentOf a → Segs st b → Segs (n :: st) (a ++ .stop n :: b)

theorem Segs.chars {t : Str} {st : List Name} {is : List MarkupItem} (h : Segs st is) : Segs st (.chars t :: is) := by
  cases h with
  | nil h => exact .nil (.chars h)
  | cons h1 h2 => exact .cons (.chars h1) h2

theorem Segs.flush {t : Str} {st : List Name} {is : List MarkupItem} (h : Segs st is) : Segs st (flushItems t ++ is) := by
  unfold flushItems
  split
  · exact h
  · exact h.chars

theorem Segs.start {n : Name} {as : List Attr} {st : List Name} {is : List MarkupItem} (h : Segs (n :: st) is) :
    Segs st (.start n as :: is) := by
  cases h with
  | cons h1 h2 =>
    cases h2 with
    | nil h2 => exact .nil (.element h1 h2)
    | @cons k _ _ _ h2 h3 =>
      have := Segs.cons (n := k) (ContentOf.element (n := n) (as := as) h1 h2) h3
      simpa using this

theorem opItems_segs {m : PrefixMap} : ∀ (ops : List Op) (t : Str) (st : List Name),
    (∀ n as auto skip, Op.start n as auto skip ∈ ops → (printAttrs skip m as).2 = m) → openOps st ops = some [] →
    Segs (st.map (rawName m)) (opItems m t ops)
  | [], t, st, _, h => by
    simp only [openOps, Option.some.injEq] at h
    subst h
    have := Segs.flush (t := t) (Segs.nil .nil)
    simpa [opItems] using this
  | .chars s :: ops, t, st, hm, h => opItems_segs ops _ st (fun n as a k ho => hm n as a k (by simp [ho])) h
  | .stop n :: ops, t, st, hm, h => by
    cases st with
    | nil => simp [openOps] at h
    | cons k st =>
      simp only [openOps] at h
      split at h
      · rename_i e
        subst e
        have ih := opItems_segs ops [] st (fun n as a k ho => hm n as a k (by simp [ho])) h
        exact Segs.flush (.cons (a := []) .nil ih)
      · simp at h
  | .start n as auto skip :: ops, t, st, hm, h => by
    simp only [opItems]
    rw [hm n as auto skip (by simp)]
    have hm' : ∀ n as auto skip, Op.start n as auto skip ∈ ops → (printAttrs skip m as).2 = m :=
      fun n as a k ho => hm n as a k (by simp [ho])
    refine Segs.flush ?_
    cases auto with
    | true =>
      simp only [openOps, if_true] at h
      have ih := opItems_segs ops [] st hm' h
      exact Segs.start (.cons (a := []) .nil ih)
    | false =>
      simp only [openOps, Bool.false_eq_true, if_false] at h
      exact Segs.start (opItems_segs ops [] (n :: st) hm' h)

theorem opItems_stop {m : PrefixMap} {n : Name} : ∀ (ops : List Op) (t : Str),
    (∀ n as auto skip, Op.start n as auto skip ∈ ops → (printAttrs skip m as).2 = m) →
    opItems m t (ops ++ [.stop n]) = opItems m t ops ++ [.stop (rawName m n)]
  | [], t, _ => by simp [opItems, flushItems]
  | .chars s :: ops, t, hm => opItems_stop ops _ (fun n as a k ho => hm n as a k (by simp [ho]))
  | .stop k :: ops, t, hm => by
    simp [opItems, opItems_stop ops [] (fun n as a k ho => hm n as a k (by simp [ho]))]
  | .start k as auto skip :: ops, t, hm => by
    have e := hm k as auto skip (by simp)
    simp [opItems, e, opItems_stop ops [] (fun n as a k ho => hm n as a k (by simp [ho]))]

theorem start_map_unchanged {D : List (Str × Str)} {bind : Str → Option Str} {m : PrefixMap} (hb : BindOK D bind)
    (hm : Entries D m) (ht : ∀ s ∈ D.map (·.2), m s ≠ []) (hx : m b!"xmlns" = []) {ops : List Op}
    (h : ∀ op ∈ ops, OpOK D ((bind []).getD []) op) (n : Name) (as : List Attr) (auto skip : Bool)
    (ho : Op.start n as auto skip ∈ ops) : (printAttrs skip m as).2 = m := by
  obtain ⟨_, h2⟩ := h _ ho
  obtain ⟨-, i2, -, -⟩ := inner_attrs hb hm ht hx skip (shown as) h2
  rwa [printAttrs_shown] at i2

/-! ## Prefixes -/

/-- A prefix with a declaration. -/
def PrefixOf (D : List (Str × Str)) (p : Str) : Prop := p = [] ∨ p = b!"xml" ∨ ∃ s, (p, s) ∈ D

theorem attrPrefix_of {D : List (Str × Str)} {m : PrefixMap} {a : Attr} (hm : Entries D m) (hx : m b!"xmlns" = [])
    (h : a.name.space = [] ∨ a.name.space = b!"xmlns" ∨ a.name.space = nsXML ∨ m a.name.space ≠ []) :
    attrPrefix m a = b!"xmlns" ∨ PrefixOf D (attrPrefix m a) := by
  rcases attrPrefix_cases h hx with ⟨_, h2⟩ | ⟨_, h2⟩ | ⟨_, h2⟩ | ⟨_, h1, h2⟩
  · exact .inr (.inl h2)
  · exact .inl h2
  · exact .inr (.inr (.inl h2))
  · exact .inr (.inr (.inr ⟨_, by rw [h2]; exact hm _ h1⟩))

theorem rootAttrs_prefixes {as : List Attr} (h : RootOK as) : ∀ (r l : List Attr) (m : PrefixMap), as = l ++ r → TableOK l m →
    ∀ b ∈ rawAttrs m r, b.name.space = b!"xmlns" ∨ PrefixOf (decls as) b.name.space
  | [], _, _, _, _, b, hb => nomatch hb
  | a :: r, l, m, e, hm, b, hb => by
    rw [rawAttrs_cons (h.names a (by simp [e])).1] at hb
    rcases List.mem_cons.1 hb with rfl | hb
    · exact attrPrefix_of (entries_mono hm.entries (by
        intro d hd
        rw [e, decls_append]
        exact List.mem_append_left _ hd)) hm.xmlns (root_space h e hm)
    · exact rootAttrs_prefixes h r (l ++ [a]) (attrMap m a) (by simp [e]) (tableOK_step h e hm) b hb

theorem innerAttrs_prefixes {D : List (Str × Str)} {m : PrefixMap} (hm : Entries D m) (ht : ∀ s ∈ D.map (·.2), m s ≠ [])
    (hx : m b!"xmlns" = []) (skip : Bool) : ∀ (as : List Attr), (∀ a ∈ as, AttrOK D skip a) →
    ∀ b ∈ rawAttrs m as, b.name.space = b!"xmlns" ∨ PrefixOf D b.name.space
  | [], _, b, hb => nomatch hb
  | a :: as, h, b, hb => by
    obtain ⟨hloc, hdef, hs, hv⟩ := h a (by simp)
    have hmm : attrMap m a = m := attrMap_other (by
      rcases hs with h1 | h1 | h1
      · exact Or.inl h1
      · exact Or.inr (Or.inl h1)
      · exact Or.inr (Or.inr (ht _ h1)))
    rw [rawAttrs_cons hloc.1, hmm] at hb
    rcases List.mem_cons.1 hb with rfl | hb
    · refine attrPrefix_of hm hx ?_
      rcases hs with h1 | h1 | h1
      · exact Or.inl h1
      · exact Or.inr (Or.inr (Or.inl h1))
      · exact Or.inr (Or.inr (Or.inr (ht _ h1)))
    · exact innerAttrs_prefixes hm ht hx skip as (fun b hb => h b (by simp [hb])) b hb

theorem flushItems_start {t : Str} {n : Name} {as : List Attr} : MarkupItem.start n as ∉ flushItems t := by
  unfold flushItems
  split <;> simp

theorem mem_opItems {m : PrefixMap} {k : Name} {bs : List Attr} : ∀ (ops : List Op) (t : Str),
    (∀ n as auto skip, Op.start n as auto skip ∈ ops → (printAttrs skip m as).2 = m) →
    MarkupItem.start k bs ∈ opItems m t ops →
    ∃ n as auto skip, Op.start n as auto skip ∈ ops ∧ k = rawName m n ∧ bs = rawAttrs m as
  | [], t, _, h => absurd h flushItems_start
  | .chars s :: ops, t, hm, h => by
    obtain ⟨n, as, a, s, h1, h2⟩ := mem_opItems ops _ (fun n as a k ho => hm n as a k (by simp [ho])) h
    exact ⟨n, as, a, s, List.mem_cons_of_mem _ h1, h2⟩
  | .stop n :: ops, t, hm, h => by
    rw [opItems, List.mem_append, List.mem_cons] at h
    rcases h with h | h | h
    · exact absurd h flushItems_start
    · exact nomatch h
    · obtain ⟨n, as, a, s, h1, h2⟩ := mem_opItems ops _ (fun n as a k ho => hm n as a k (by simp [ho])) h
      exact ⟨n, as, a, s, List.mem_cons_of_mem _ h1, h2⟩
  | .start n as auto skip :: ops, t, hm, h => by
    rw [opItems, hm n as auto skip (by simp), List.mem_append, List.mem_cons, List.mem_append] at h
    rcases h with h | h | h | h
    · exact absurd h flushItems_start
    · simp only [MarkupItem.start.injEq] at h
      exact ⟨n, as, auto, skip, List.mem_cons_self, h.1, h.2⟩
    · split at h <;> simp at h
    · obtain ⟨n, as, a, s, h1, h2⟩ := mem_opItems ops _ (fun n as a k ho => hm n as a k (by simp [ho])) h
      exact ⟨n, as, a, s, List.mem_cons_of_mem _ h1, h2⟩

/-! ## Documents -/

/-- A document in which the name spaces are declared in the root element. -/
theorem document_markup (root : Str) (as : List Attr) (ops : List Op) (hr : NCName root) (hr2 : root ≠ b!"xmlns")
    (ha : RootOK (shown as)) (hops : ∀ op ∈ ops, OpOK (decls (shown as)) (defaultNs (shown as)) op)
    (hst : openOps [] ops = some []) :
    ∃ as' body, ContentOf body ∧ MarkupOf .common (printOps (fun _ => []) (document root as ops))
      (.start ⟨[], root⟩ as' :: (body ++ [.stop ⟨[], root⟩])) ∧
      PrefixesDeclared (.start ⟨[], root⟩ as' :: (body ++ [.stop ⟨[], root⟩])) := by
  have hb := rootBind_ok ha
  have hd := rootBind_default ha
  obtain ⟨r1, r2, r3⟩ := root_attrs ha hb (shown as) [] (fun _ => []) rfl tableOK_nil
  have hT := tableOK_all ha (shown as) [] (fun _ => []) rfl tableOK_nil
  rw [← printAttrs_map false, printAttrs_shown] at hT
  rw [attrsOK_shown] at r1
  rw [← hd] at hops
  have hroot : NameOK (decls (shown as)) ((rootBind (shown as) []).getD []) ⟨[], root⟩ := ⟨hr, hr2, Or.inl rfl⟩
  have hall : ∀ op ∈ ops ++ [Op.stop ⟨[], root⟩], OpOK (decls (shown as)) ((rootBind (shown as) []).getD []) op := by
    intro op ho
    rcases List.mem_append.1 ho with ho | ho
    · exact hops op ho
    · simp only [List.mem_singleton] at ho
      subst ho
      exact hroot
  have hemp : ∀ m : PrefixMap, rawName m ⟨[], root⟩ = ⟨[], root⟩ := fun m => by simp [rawName, elemPrefix]
  have hOK : OpsOK (fun _ => []) (document root as ops) :=
    ⟨⟨hr, Or.inl (by simp [elemPrefix])⟩, r1, opsOK hb hT.entries hT.total hT.xmlns _ hall⟩
  have hmap := start_map_unchanged hb hT.entries hT.total hT.xmlns hops
  have hseg := opItems_segs ops [] [] hmap hst
  have key := printOps_markup (document root as ops) (fun _ => []) Escaped.nil hOK
  refine ⟨rawAttrs (fun _ => []) as, opItems (printAttrs false (fun _ => []) as).2 [] ops, ?_, ?_, ?_⟩
  · cases hseg with
    | nil h => exact h
  · simp only [document, opItems] at key
    rw [opItems_stop ops [] hmap, hemp, hemp] at key
    simpa [flushItems, document] using key
  · rw [rawAttrs_shown] at r2
    have hin : ∀ p, PrefixOf (decls (shown as)) p → PrefixIn (rawAttrs (fun _ => []) as) p := by
      rintro p (h | h | ⟨s, h⟩)
      · exact .inl h
      · exact .inr (.inl h)
      · have h' : (p, s) ∈ rootDecls (shown as) := by
          unfold decls at h
          obtain ⟨a, ha, he⟩ := List.mem_filterMap.1 h
          split at he
          · rename_i hx
            exact List.mem_filterMap.2 ⟨a, ha, by rw [if_pos hx]; exact he⟩
          · simp at he
        rw [← r2] at h'
        obtain ⟨a, ha, he⟩ := List.mem_filterMap.1 h'
        unfold declOf at he
        split at he
        · rename_i hx
          simp only [Option.some.injEq, Prod.mk.injEq] at he
          refine .inr (.inr ⟨a, ha, ?_⟩)
          rw [← hx, ← he.1]
        · split at he
          · simp only [Option.some.injEq, Prod.mk.injEq] at he
            exact .inl he.1.symm
          · simp at he
    refine ⟨[], _, _, _, rfl, (fun _ h => nomatch h), fun k bs hk => ?_⟩
    rcases List.mem_cons.1 hk with hk | hk
    · simp only [MarkupItem.start.injEq] at hk
      obtain ⟨rfl, rfl⟩ := hk
      refine ⟨.inl rfl, fun b hb => ?_⟩
      rw [← rawAttrs_shown] at hb
      exact (rootAttrs_prefixes ha (shown as) [] (fun _ => []) rfl tableOK_nil b hb).imp_right (hin _)
    · rcases List.mem_append.1 hk with hk | hk
      · obtain ⟨n, as', a, s, h1, rfl, rfl⟩ := mem_opItems ops [] hmap hk
        refine ⟨hin _ ?_, fun b hb => ?_⟩
        · unfold rawName elemPrefix
          split
          · rename_i hp
            exact .inr (.inr ⟨_, hT.entries _ hp.2⟩)
          · exact .inl rfl
        · rw [← rawAttrs_shown] at hb
          exact (innerAttrs_prefixes hT.entries hT.total hT.xmlns s (shown as') (hops _ h1).2 b hb).imp_right (hin _)
      · simp at hk

/-- The attributes of its tags. -/
theorem document_unique (root : Str) (as : List Attr) (ops : List Op) (hr : NCName root) (hr2 : root ≠ b!"xmlns")
    (ha : RootOK (shown as)) (hops : ∀ op ∈ ops, OpOK (decls (shown as)) (defaultNs (shown as)) op)
    (hst : openOps [] ops = some [])
    (hu : ∀ n as' auto skip, Op.start n as' auto skip ∈ document root as ops → (as'.map (·.name)).Nodup)
    {is : List MarkupItem} (hm : MarkupOf .common (printOps (fun _ => []) (document root as ops)) is)
    (n : Name) (bs : List Attr) (hi : MarkupItem.start n bs ∈ is) : (bs.map (·.name)).Nodup := by
  obtain ⟨d1, d2⟩ := document_raw root as ops hr hr2 ha hops hst
  have hx := (C59_xml_partial .eof hm).2.1
  rw [rawTags_eq, d1] at hx
  have hev : some (Event.start n bs) ∈ rawOps (fun _ => []) [] (document root as ops) := by
    rw [(Prod.mk.inj hx).1]
    exact List.mem_map.2 ⟨_, hi, rfl⟩
  obtain ⟨n', f, hf⟩ := resolve_starts (e := .eof) (sc := []) (by rw [d2]) hev
  rw [d2] at hf
  obtain ⟨n'', as', a, k, h1, h2⟩ := mem_readOps hf
  have := hu _ _ _ _ h1
  have h4 : ((bs.map fun a => (⟨f a.name, a.value⟩ : Attr)).map (·.name)).Nodup := by
    rw [h2]
    unfold readAttrs shown
    rw [List.map_map]
    exact this.sublist (List.filter_sublist.map _)
  rw [List.map_map] at h4
  have e : (bs.map ((fun x : Attr => x.name) ∘ fun a => (⟨f a.name, a.value⟩ : Attr))) = (bs.map (·.name)).map f := by
    rw [List.map_map]; rfl
  rw [e] at h4
  exact List.Nodup.of_map f h4

/-- The header. -/
theorem header_markup {s : Str} {is : List MarkupItem} (h : MarkupOf .common s is) (hs : s.head? = some 0x3C) :
    MarkupOf .common (xmlHeader ++ s) (.other :: .chars b!"\n" :: is) := by
  have h1 : MarkupOf .common (b!"\n" ++ s) (.chars b!"\n" :: is) :=
    .chars (by decide) (.lf (Or.inl rfl) .nil) (Or.inr hs) h
  have h2 := MarkupOf.instruction (m := .common) (n := b!"xml") (w := b!" ") (body := b!"version=\"1.0\" encoding=\"UTF-8\"")
    (by decide +kernel) (by decide +kernel) (Or.inr (by decide)) (by decide +kernel) h1
  exact h2

end Go3mf
