import Verif.Lemmas.Pieces
import Verif.Props.C31

/-!
# C31: what the kept texts read as

`C31_text_false` shows a text that is lost.  Here is said what becomes of every text.
-/

namespace Go3mf

open Spec

/-- Every document that is read to its end has its pieces. -/
theorem C31_pieces {data : Str} (hend : (lex .eof (.new data)).2 = .eof) : ∃ ps, PiecesOf data ps := by
  rw [C24_resolve] at hend
  have h1 := resolveAll_eof _ _ _ hend
  obtain ⟨is, h2, _⟩ := (C59_language data (rawTags .eof data).1).1 (Prod.ext rfl h1)
  exact markup_pieces h2

/-- **C31: what a kept text reads as.**  In a document that is read to its end, the text `t` that the call number `i` of
`RawToken` has returned is overwritten with all the names, values, references and texts that follow, as long as they fit
into the array. -/
theorem C31_overwritten {data : Str} {ps : List (List Str)} (h : PiecesOf data ps)
    (hend : (lex .eof (.new data)).2 = .eof) {i : Nat} {t : Str}
    (hi : (lex .eof (.new data)).1[i]? = some (some (.chars t))) (grow : Nat → Nat) (u : Str) :
    lexMem grow data i u =
      keptAfter (capacityAfter grow 0 (ps.take (i + 1)).flatten) t (ps.drop (i + 1)).flatten := by
  obtain ⟨h1, h2⟩ := pieces_runs (grow := grow) h ((Lexer.new data).size + 1) (.new data) .zero rfl rfl hend
  obtain ⟨⟨p, hp, hl⟩, hs⟩ := h2 i t hi
  unfold lexMem
  rw [hs]
  simp only [h1]
  have hsplit : ps.flatten = (ps.take (i + 1)).flatten ++ (ps.drop (i + 1)).flatten := by
    rw [← List.flatten_append, List.take_append_drop]
  rw [hsplit, List.flatMap_append, Buf.run_append]
  have hlen : i < ps.length := (List.getElem?_eq_some_iff.1 hp).1
  have htake : ps.take (i + 1) = ps.take i ++ [p] := by
    rw [List.take_add_one, hp]; rfl
  obtain ⟨p', rfl⟩ := List.getLast?_eq_some_iff.1 hl
  have hcap := Buf.pieces_cap (grow := grow) (ps.take (i + 1)).flatten .zero
  have hlast : (ps.take (i + 1)).flatten.flatMap nameBuf =
      ((ps.take i).flatten ++ p').flatMap nameBuf ++ nameBuf t := by
    rw [htake]
    simp
  have hok : (Buf.run grow .zero ((ps.take (i + 1)).flatten.flatMap nameBuf)).Ok := Buf.run_ok (by simp [Buf.Ok, Buf.zero])
  have hby : (Buf.run grow .zero ((ps.take (i + 1)).flatten.flatMap nameBuf)).bytes = t := by
    rw [hlast, Buf.run_append, nameBuf, Buf.run_cons, Buf.writeBytes_bytes (by simp [Buf.Ok, Buf.step])]
    simp [Buf.step, Buf.bytes]
  have hbl := Buf.bytes_length hok
  rw [hby] at hbl
  rw [show (Buf.zero).arr.length = 0 from rfl] at hcap
  revert hcap hok hby hbl
  generalize Buf.run grow .zero ((ps.take (i + 1)).flatten.flatMap nameBuf) = b
  intro hcap hok hby hbl
  have hkept := Buf.kept (grow := grow) (ps.drop (i + 1)).flatten b b.len hok
  have htk : b.arr.take b.len = t := hby
  rw [← hcap]
  by_cases hne : b.arr = []
  · have h0 : b.len = 0 := by unfold Buf.Ok at hok; rw [hne] at hok; simpa using hok
    have ht : t = [] := by rw [h0] at hbl; exact List.length_eq_zero_iff.1 hbl
    rw [ht]
    have hk : ∀ (qs : List Str) (c : Nat), keptAfter c [] qs = [] := by
      intro qs
      induction qs with
      | nil => intro c; rfl
      | cons q qs ih => intro c; rw [keptAfter]; simp [overwrite, ih]
    rw [hk]
    simp [Buf.read, Buf.slice, h0]
  · have := hkept hne
    rw [htk] at this
    exact this

/-- If everything fits into the first array, what is left of the text is what nothing has been written over. -/
theorem C31_overwritten_short {data : Str} {ps : List (List Str)} (h : PiecesOf data ps)
    (hend : (lex .eof (.new data)).2 = .eof) (hshort : ∀ p ∈ ps.flatten, p.length ≤ 64) {i : Nat} {t : Str}
    (hi : (lex .eof (.new data)).1[i]? = some (some (.chars t))) (grow : Nat → Nat) (u : Str) :
    lexMem grow data i u = (ps.drop (i + 1)).flatten.foldl overwrite t := by
  rw [C31_overwritten h hend hi grow u]
  have hcap : ∀ (qs : List Str) (c : Nat), c = 0 ∨ c = 64 → (∀ p ∈ qs, p.length ≤ 64) →
      capacityAfter grow c qs = 0 ∨ capacityAfter grow c qs = 64 := by
    intro qs
    induction qs with
    | nil => intro c hc _; exact hc
    | cons q qs ih =>
      intro c hc hq
      refine ih (capacityFor grow c q.length) ?_ (fun p hp => hq p (List.mem_cons_of_mem _ hp))
      have := hq q (List.mem_cons_self ..)
      by_cases hqc : q.length ≤ c
      · rw [capacityFor_le hqc]; exact hc
      · rcases hc with rfl | rfl
        · rw [capacityFor_gt hqc, if_pos rfl, capacityFor_le this]; exact Or.inr rfl
        · exact absurd this hqc
  have hsub : ∀ {n : Nat}, ∀ p ∈ (ps.take n).flatten, p.length ≤ 64 := by
    intro n p hp
    obtain ⟨x, hx, hpx⟩ := List.mem_flatten.1 hp
    exact hshort p (List.mem_flatten.2 ⟨x, List.mem_of_mem_take hx, hpx⟩)
  have hsub' : ∀ p ∈ (ps.drop (i + 1)).flatten, p.length ≤ 64 := by
    intro p hp
    obtain ⟨x, hx, hpx⟩ := List.mem_flatten.1 hp
    exact hshort p (List.mem_flatten.2 ⟨x, List.mem_of_mem_drop hx, hpx⟩)
  have hfold : ∀ (qs : List Str) (t : Str), (∀ p ∈ qs, p.length ≤ 64) → keptAfter 64 t qs = qs.foldl overwrite t := by
    intro qs
    induction qs with
    | nil => intro t _; rfl
    | cons q qs ih =>
      intro t hq
      rw [keptAfter, if_pos (hq q (List.mem_cons_self ..)), ih _ (fun p hp => hq p (List.mem_cons_of_mem _ hp)), List.foldl_cons]
  rcases hcap (ps.take (i + 1)).flatten 0 (Or.inl rfl) hsub with h0 | h64
  · -- nothing has been written yet: the text is empty
    obtain ⟨⟨p, hp, hl⟩, _⟩ := (pieces_runs (grow := grow) h ((Lexer.new data).size + 1) (.new data) .zero rfl rfl hend).2 i t hi
    have hmem : t ∈ (ps.take (i + 1)).flatten :=
      List.mem_flatten.2 ⟨p, List.mem_iff_getElem?.2 ⟨i, by rw [List.getElem?_take_of_lt (Nat.lt_succ_self i)]; exact hp⟩,
        List.mem_of_getLast? hl⟩
    have hzero : ∀ (qs : List Str) (c : Nat), capacityAfter grow c qs = 0 → c = 0 ∧ ∀ p ∈ qs, p = [] := by
      intro qs
      induction qs with
      | nil => intro c hc; exact ⟨hc, by simp⟩
      | cons q qs ih =>
        intro c hc
        obtain ⟨h1, h2⟩ := ih (capacityFor grow c q.length) hc
        have hge : ∀ (k n c : Nat), n - c ≤ k → n ≤ capacityFor grow c n := by
          intro k
          induction k with
          | zero => intro n c hk; rw [capacityFor_le (by omega)]; omega
          | succ k ihk =>
            intro n c hk
            by_cases hn : n ≤ c
            · rw [capacityFor_le hn]; exact hn
            · rw [capacityFor_gt hn]
              exact ihk n _ (by split <;> omega)
        have := hge _ q.length c (Nat.le_refl _)
        rw [h1] at this
        have hq : q = [] := List.length_eq_zero_iff.1 (by omega)
        subst hq
        rw [List.length_nil, capacityFor_le (Nat.zero_le _)] at h1
        refine ⟨h1, ?_⟩
        intro p hp
        rcases List.mem_cons.1 hp with rfl | hp
        · rfl
        · exact h2 p hp
    have ht : t = [] := (hzero _ 0 h0).2 t hmem
    subst ht
    have hk : ∀ (qs : List Str) (c : Nat), keptAfter c [] qs = qs.foldl overwrite [] := by
      intro qs
      induction qs with
      | nil => intro c; rfl
      | cons q qs ih =>
        intro c
        have hq : overwrite [] q = [] := by simp [overwrite]
        have hz : qs.foldl overwrite [] = [] := by rw [← ih 0]; clear ih; induction qs with
          | nil => rfl
          | cons r qs ihq => rw [keptAfter]; simp [overwrite, ihq]
        rw [keptAfter, List.foldl_cons, hq, ih c]
        split
        · rfl
        · exact hz.symm
    exact hk _ _
  · rw [h64]
    exact hfold _ _ hsub'

/-- The last thing that is written is the name of the root at its end: every kept text before begins with it. -/
theorem C31_root_name {data n : Str} {qs : List (List Str)} (h : PiecesOf data (qs ++ [[n]]))
    (hend : (lex .eof (.new data)).2 = .eof) (hshort : ∀ p ∈ (qs ++ [[n]]).flatten, p.length ≤ 64) {i : Nat} {t : Str}
    (hi : (lex .eof (.new data)).1[i]? = some (some (.chars t))) (hlt : i < qs.length) (grow : Nat → Nat) (u : Str) :
    n.take t.length <+: lexMem grow data i u ∧ (lexMem grow data i u).length = t.length := by
  rw [C31_overwritten_short h hend hshort hi grow u, List.drop_append_of_le_length (by omega)]
  simp only [List.flatten_append, List.flatten_cons, List.flatten_nil, List.append_nil, List.foldl_append, List.foldl_cons, List.foldl_nil]
  have hover : ∀ t p : Str, (overwrite t p).length = t.length := by
    intro t p
    simp only [overwrite, List.length_take, List.length_append, List.length_drop]
    omega
  have hl : ∀ (ps : List Str) (t : Str), (ps.foldl overwrite t).length = t.length := by
    intro ps
    induction ps with
    | nil => intro t; rfl
    | cons p ps ih => intro t; rw [List.foldl_cons, ih, hover]
  refine ⟨?_, by rw [hover, hl]⟩
  generalize hx : (qs.drop (i + 1)).flatten.foldl overwrite t = x
  have hxl : x.length = t.length := by rw [← hx]; exact hl _ _
  unfold overwrite
  rw [hxl, List.take_append]
  exact List.prefix_append _ _

/-! ## A document -/

def c31Doc : Str := b!"<?x  a?><r k='1&lt;2'>ab&amp;cdefgh<b/>text</r>"

def c31Pieces : List (List Str) := [[b!"xa?>"], [b!"r", b!"k", b!"1&lt;", b!"1<2"], [b!"ab&amp;", b!"ab&cdefgh"], [b!"b"], [], [b!"text"]]

theorem c31Doc_pieces : PiecesOf c31Doc (c31Pieces ++ [[b!"r"]]) := by
  have plain : ∀ {q : Option Byte} {acc s : Str} {b : Byte} {ps : List Str},
      (b ≠ 0x3C ∧ b ≠ 0x26 ∧ q ≠ some b ∧ b ≠ 0xD ∧ b ≠ 0xA) → TextPieces q (acc ++ [b]) s ps → TextPieces q acc (b :: s) ps :=
    fun h => .plain h.1 h.2.1 h.2.2.1 h.2.2.2.1 h.2.2.2.2
  have hv : TextPieces (some 0x27) [] b!"1&lt;2" [b!"1&lt;", b!"1<2"] :=
    plain (by decide) (TextPieces.ref (acc := b!"1") (s := b!"2") .lt (plain (by decide) .nil))
  have ht : TextPieces none [] b!"ab&amp;cdefgh" [b!"ab&amp;", b!"ab&cdefgh"] :=
    plain (by decide) (plain (by decide) (TextPieces.ref (acc := b!"ab") (s := b!"cdefgh") .amp
      (plain (by decide) (plain (by decide) (plain (by decide) (plain (by decide) (plain (by decide) (plain (by decide) .nil))))))))
  have ht' : TextPieces none [] b!"text" [b!"text"] :=
    plain (by decide) (plain (by decide) (plain (by decide) (plain (by decide) .nil)))
  have hr : QNameOf .reader b!"r" ⟨[], b!"r"⟩ := .plain (by decide)
  have hb : QNameOf .reader b!"b" ⟨[], b!"b"⟩ := .plain (by decide)
  have ha : AttrPieces false b!" k='1&lt;2'" [b!"k", b!"1&lt;", b!"1<2"] :=
    AttrPieces.cons (w := b!" ") (n := b!"k") (e := []) (e' := []) (rest := []) (by decide) (by decide) (.plain (by decide)) (by decide) (by decide) (Or.inr rfl) hv .nil
  exact PiecesOf.instruction (n := b!"x") (w := b!"  ") (body := b!"a") (by decide) (by decide) (by decide) (by decide) (by decide) (by decide)
    (PiecesOf.start (w := []) hr ha (by decide) (PiecesOf.chars (s := b!"ab&amp;cdefgh") (by decide) ht (by decide)
      (PiecesOf.empty (a := []) (w := []) hb .nil (by decide) (PiecesOf.chars (s := b!"text") (by decide) ht' (by decide)
        (PiecesOf.stop (w := []) (rest := []) hr (by decide) .nil)))))

example : (lex .eof (.new c31Doc)).2 = .eof ∧ (∀ p ∈ (c31Pieces ++ [[b!"r"]]).flatten, p.length ≤ 64) ∧
    (lex .eof (.new c31Doc)).1[2]? = some (some (.chars b!"ab&cdefgh")) ∧
    (lex .eof (.new c31Doc)).1[5]? = some (some (.chars b!"text")) := by
  decide +kernel

/-- Both texts are lost, and the second is not what is left of the first. -/
theorem C31_overwritten_false (grow : Nat → Nat) (u : Str) :
    lexMem grow c31Doc 2 u = b!"rextdefgh" ∧ lexMem grow c31Doc 5 u = b!"rext" := by
  have hend : (lex .eof (.new c31Doc)).2 = .eof := by decide +kernel
  have hshort : ∀ p ∈ (c31Pieces ++ [[b!"r"]]).flatten, p.length ≤ 64 := by decide +kernel
  rw [C31_overwritten_short c31Doc_pieces hend hshort (i := 2) (t := b!"ab&cdefgh") (by decide +kernel),
    C31_overwritten_short c31Doc_pieces hend hshort (i := 5) (t := b!"text") (by decide +kernel)]
  decide +kernel

/-- A long name leaves the array behind: what is read before it is kept from then on. -/
theorem C31_overwritten_long : keptAfter 64 b!"hello" [b!"ab", List.replicate 65 0x78, b!"r"] = b!"xxxxx" ∧
    capacityAfter id 0 [b!"hello", List.replicate 65 0x78] = 130 := by
  refine ⟨by decide +kernel, ?_⟩
  have h1 : capacityFor id 0 (b!"hello" : Str).length = 64 := by
    rw [capacityFor_gt (by decide), if_pos rfl, capacityFor_le (by decide)]
  simp only [capacityAfter, List.foldl_cons, List.foldl_nil]
  rw [h1, capacityFor_gt (by decide), capacityFor_le (by decide)]
  decide

end Go3mf
