import Verif.Lemmas.Stl

/-!
# C46: ASCII STL files

Every stream of bytes is a sequence of lines, each followed by a line feed, and a last line, possibly empty, that is not.
-/

namespace Go3mf

/-- The point of a vertex line: a line of four words, the first of which is "vertex".  A number is read as
`strconv.ParseFloat` does, whose value in case of an error is 0 or an infinity. -/
def Spec.vertexLine (l : Str) : Option Point3D :=
  match fields l with
  | [k, a, b, c] => if k = b!"vertex" then some ⟨parseFloatVal a, parseFloatVal b, parseFloatVal c⟩ else none
  | _ => none

/-- A text with these lines. -/
def Spec.textOf (ls : List Str) (last : Str) : Str := (ls.map (· ++ [10])).flatten ++ last

/-- These are lines, and none is too long for `bufio.Scanner`. -/
def Spec.ShortLines (ls : List Str) : Prop := ∀ l ∈ ls, 10 ∉ l ∧ l.length < 65536

namespace Stl

/-! ## Lines -/

theorem linesGo_line (cur l s : Str) (h : 10 ∉ l) : linesGo cur (l ++ 10 :: s) = (cur ++ l) :: linesGo [] s := by
  induction l generalizing cur with
  | nil => simp [linesGo]
  | cons c l ih =>
    simp only [List.mem_cons, not_or] at h
    simp [linesGo, Ne.symm h.1, ih _ h.2]

theorem linesGo_last (cur l : Str) (h : 10 ∉ l) : linesGo cur l = if cur ++ l = [] then [] else [cur ++ l] := by
  induction l generalizing cur with
  | nil => simp [linesGo]
  | cons c l ih =>
    simp only [List.mem_cons, not_or] at h
    simp [linesGo, Ne.symm h.1, ih _ h.2]

theorem lines_text (ls : List Str) (last : Str) (h : ∀ l ∈ ls, 10 ∉ l) (hl : 10 ∉ last) :
    lines (Spec.textOf ls last) = ls ++ if last = [] then [] else [last] := by
  induction ls with
  | nil => simpa [lines, Spec.textOf] using linesGo_last [] last hl
  | cons l ls ih =>
    have h1 := linesGo_line [] l (Spec.textOf ls last) (h l List.mem_cons_self)
    have h2 := ih fun x hx => h x (List.mem_cons_of_mem _ hx)
    simp only [lines] at h2 ⊢
    rw [show Spec.textOf (l :: ls) last = l ++ 10 :: Spec.textOf ls last by simp [Spec.textOf], h1, h2]
    rfl

theorem spaceLen_other (c : Byte) (s : Str) (h : c ∉ [9, 10, 11, 12, 13, 32, 0xC2, 0xE1, 0xE2, 0xE3]) :
    spaceLen (c :: s) = 0 := by
  simp only [List.mem_cons, List.not_mem_nil, or_false, not_or] at h
  unfold spaceLen
  split <;> simp_all

/-- `spaceLen` looks at three bytes, none of the second and third of which is 13. -/
theorem spaceLen_cr (c : Byte) (s : Str) : spaceLen (c :: s ++ [13]) = spaceLen (c :: s) := by
  by_cases h : c ∈ [9, 10, 11, 12, 13, 32, 0xC2, 0xE1, 0xE2, 0xE3]
  · simp only [List.mem_cons, List.not_mem_nil, or_false] at h
    rcases h with rfl | rfl | rfl | rfl | rfl | rfl | rfl | rfl | rfl | rfl
    · rfl
    · rfl
    · rfl
    · rfl
    · rfl
    · rfl
    · cases s with
      | nil => decide
      | cons d s => rfl
    · match s with
      | [] => decide
      | [d] =>
        by_cases hd : d = 0x9A
        · subst hd; decide
        · simp [spaceLen, hd]
      | d :: e :: r =>
        by_cases hd : d = 0x9A
        · subst hd
          by_cases he : e = 0x80
          · subst he; rfl
          · simp [spaceLen, he]
        · simp [spaceLen, hd]
    · match s with
      | [] => decide
      | [d] =>
        by_cases hd : d = 0x80
        · subst hd; decide
        · by_cases hd' : d = 0x81
          · subst hd'; decide
          · simp [spaceLen, hd, hd']
      | d :: e :: r =>
        by_cases hd : d = 0x80
        · subst hd; rfl
        · by_cases hd' : d = 0x81
          · subst hd'
            by_cases he : e = 0x9F
            · subst he; rfl
            · simp [spaceLen, he]
          · simp [spaceLen, hd, hd']
    · match s with
      | [] => decide
      | [d] =>
        by_cases hd : d = 0x80
        · subst hd; decide
        · simp [spaceLen, hd]
      | d :: e :: r =>
        by_cases hd : d = 0x80
        · subst hd
          by_cases he : e = 0x80
          · subst he; rfl
          · simp [spaceLen, he]
        · simp [spaceLen, hd]
  · rw [List.cons_append, spaceLen_other c _ h, spaceLen_other c _ h]
theorem fieldsGo_cr (k : Nat) (cur s : Str) : fieldsGo k cur (s ++ [13]) = fieldsGo k cur s := by
  induction s generalizing k cur with
  | nil =>
    cases k with
    | zero => simp [fieldsGo, spaceLen, flushField]
    | succ k => simp [fieldsGo]
  | cons c s ih =>
    cases k with
    | succ k => simp [fieldsGo, ih]
    | zero =>
      have h := spaceLen_cr c s
      simp only [List.cons_append] at h ⊢
      simp only [fieldsGo, h, ih]

theorem fields_dropCR (l : Str) : fields (dropCR l) = fields l := by
  unfold dropCR
  by_cases h : l.getLast? = some 13
  · rw [if_pos h]
    obtain ⟨l', rfl⟩ := List.getLast?_eq_some_iff.1 h
    simp only [List.dropLast_concat]
    exact (fieldsGo_cr 0 [] l').symm
  · rw [if_neg h]

/-! ## The loop -/

/-- The state after the points `ps`. -/
structure AsciiOk (every : Nat) (ps : List Point3D) (s : AsciiState) : Prop where
  holds : Holds ps s.mesh s.nodes
  nodes : s.nodes.length < 3
  next : NextOk every s.mesh.tris.length s.next

/-- The context is looked at when there are `n` triangles. -/
def Checked (every n : Nat) : Prop := 1 < n ∧ every ∣ n - 1

theorem asciiLine_none (ctx : Ctx) (every : Nat) (s : AsciiState) (l : Str) (h : Spec.vertexLine l = none) :
    asciiLine ctx every s (dropCR l) = (s, none) := by
  unfold Spec.vertexLine at h
  unfold asciiLine
  rw [fields_dropCR]
  split
  · rename_i k a b c hf
    simp only [hf] at h
    by_cases hk : k = b!"vertex"
    · simp [hk] at h
    · simp [hk]
  · rfl

theorem asciiLine_some (ctx : Ctx) {every : Nat} (he : 0 < every) (ps : List Point3D) (s : AsciiState)
    (hs : AsciiOk every ps s) (l : Str) (p : Point3D) (h : Spec.vertexLine l = some p) :
    ∃ s' err, asciiLine ctx every s (dropCR l) = (s', err) ∧ AsciiOk every (ps ++ [p]) s' ∧
      (s'.mesh.tris.length = s.mesh.tris.length ∧ err = none ∨
        s'.mesh.tris.length = s.mesh.tris.length + 1 ∧
          ((Checked every s'.mesh.tris.length ∧ ctx s'.mesh.tris.length = true) ∧ err = some .ctx ∨
            (Checked every s'.mesh.tris.length → ctx s'.mesh.tris.length = false) ∧ err = none)) := by
  unfold Spec.vertexLine at h
  unfold asciiLine
  rw [fields_dropCR]
  split at h
  next k a b c hf =>
    simp only [hf]
    by_cases hk : k = b!"vertex"
    · rw [if_pos hk] at h ⊢
      injection h with h
      rw [h]
      have hv := holds_vertex hs.holds p
      have hn := hs.nodes
      have hl : (s.mesh.addVertex p).1.tris = s.mesh.tris := rfl
      have hx := hs.next
      match hnod : s.nodes, hn with
      | [], _ =>
        rw [hnod] at hv
        simp only [List.nil_append] at hv ⊢
        exact ⟨_, _, rfl, ⟨hv, by simp, hx⟩, .inl ⟨rfl, rfl⟩⟩
      | [n0], _ =>
        rw [hnod] at hv
        simp only [List.cons_append, List.nil_append] at hv ⊢
        exact ⟨_, _, rfl, ⟨hv, by simp, hx⟩, .inl ⟨rfl, rfl⟩⟩
      | [n0, n1], _ =>
        rw [hnod] at hv
        simp only [List.cons_append, List.nil_append] at hv ⊢
        have ht := holds_triangle hv
        have hlen : ((s.mesh.addVertex p).1.addTriangle n0 n1 (s.mesh.addVertex p).2).tris.length =
            s.mesh.tris.length + 1 := by simp [Mesh.addTriangle, hl]
        have hcheck := nextOk_check hx
        have hstep := nextOk_step he hx
        rw [hlen]
        have hce : Checked every (s.mesh.tris.length + 1) ↔ s.mesh.tris.length + 1 > s.next := by
          rw [hcheck, Checked]
          simp
        by_cases hc : s.mesh.tris.length + 1 > s.next
        · rw [if_pos hc] at hstep
          rw [if_pos hc]
          refine ⟨_, _, rfl, ⟨ht, by simp, by dsimp only; rw [hlen]; exact hstep⟩, .inr ⟨hlen, ?_⟩⟩
          dsimp only
          rw [hlen]
          cases hctx : ctx (s.mesh.tris.length + 1) with
          | true => exact .inl ⟨⟨hce.2 hc, rfl⟩, by simp⟩
          | false => exact .inr ⟨fun _ => rfl, by simp⟩
        · rw [if_neg hc] at hstep
          rw [if_neg hc]
          refine ⟨_, _, rfl, ⟨ht, by simp, by dsimp only; rw [hlen]; exact hstep⟩, .inr ⟨hlen, .inr ⟨?_, rfl⟩⟩⟩
          dsimp only
          rw [hlen]
          exact fun h => absurd (hce.1 h) hc
    · simp [hk] at h
  next => cases h

/-- The loop on short lines, when the context is not done. -/
theorem asciiLoop_ok (ctx : Ctx) {every : Nat} (he : 0 < every) (eof : Bool) (ls : List Str)
    (hls : ∀ l ∈ ls, l.length < maxLine) (ps : List Point3D) (s : AsciiState) (hs : AsciiOk every ps s)
    (hctx : ∀ n, Checked every n → n ≤ (ps ++ ls.filterMap Spec.vertexLine).length / 3 → ctx n = false) :
    ∃ m nodes, asciiLoop ctx every eof ls s = (m, if eof then none else some .io) ∧
      Holds (ps ++ ls.filterMap Spec.vertexLine) m nodes ∧ nodes.length < 3 := by
  induction ls generalizing ps s with
  | nil =>
    refine ⟨s.mesh, s.nodes, rfl, by simpa using hs.holds, hs.nodes⟩
  | cons l ls ih =>
    have hl := hls l List.mem_cons_self
    have hls' : ∀ l ∈ ls, l.length < maxLine := fun x hx => hls x (List.mem_cons_of_mem _ hx)
    simp only [asciiLoop]
    rw [if_neg (by omega)]
    cases hv : Spec.vertexLine l with
    | none =>
      rw [asciiLine_none ctx every s l hv]
      rw [List.filterMap_cons_none hv] at hctx ⊢
      exact ih hls' ps s hs hctx
    | some p =>
      obtain ⟨s', err, h1, h2, h3⟩ := asciiLine_some ctx he ps s hs l p hv
      rw [List.filterMap_cons_some hv] at hctx ⊢
      rw [show ps ++ p :: ls.filterMap Spec.vertexLine = (ps ++ [p]) ++ ls.filterMap Spec.vertexLine by simp] at hctx ⊢
      have hlen := holds_length h2.holds h2.nodes
      have herr : err = none := by
        rcases h3 with ⟨-, h⟩ | ⟨-, ⟨⟨hc, ht⟩, -⟩ | ⟨-, h⟩⟩
        · exact h
        · rw [hctx _ hc (by rw [hlen]; apply Nat.div_le_div_right; simp)] at ht
          cases ht
        · exact h
      rw [h1, herr]
      exact ih hls' _ s' h2 hctx

end Stl

open Stl

/-- An ASCII STL text, whatever its lines as long as they are short, is read without an error.  The mesh has one triangle
per three vertex lines, in order, whose corners are vertices in the cells of the points of these lines; other lines are
ignored.  The vertices are the points of the vertex lines, those in a cell that occurred before left out. -/
theorem C46_lines_partial (ctx : Ctx) (hctx : ∀ n, ctx n = false) (ls : List Str) (last : Str)
    (hls : Spec.ShortLines (ls ++ [last]))
    (hv : (Spec.firsts cellOf ((ls ++ [last]).filterMap Spec.vertexLine)).length ≤ 2 ^ 32) :
    let r := asciiDecode ctx checkEveryFaces ⟨Spec.textOf ls last, true⟩
    let ps := (ls ++ [last]).filterMap Spec.vertexLine
    r.2 = none ∧
    List.Forall₂ (Spec.HasCorners r.1.mb.vertices) (Spec.triples ps) r.1.tris ∧
    r.1.mb.vertices = Spec.firsts cellOf ps := by
  have hlines := lines_text ls last (fun l hl => (hls l (by simp [hl])).1) (hls last (by simp)).1
  have hps : (lines (Spec.textOf ls last)).filterMap Spec.vertexLine = (ls ++ [last]).filterMap Spec.vertexLine := by
    rw [hlines]
    by_cases h : last = []
    · rw [if_pos h, h, List.append_nil, List.filterMap_append]
      simp [Spec.vertexLine, fields, fieldsGo, flushField]
    · rw [if_neg h]
  have hshort : ∀ l ∈ lines (Spec.textOf ls last), l.length < maxLine := by
    rw [hlines]
    intro l hl
    refine (hls l ?_).2
    by_cases h : last = []
    · rw [if_pos h] at hl
      simp only [List.append_nil] at hl
      simp [hl]
    · rw [if_neg h] at hl
      exact hl
  obtain ⟨m, nodes, h1, h2, h3⟩ := asciiLoop_ok ctx (by decide : 0 < checkEveryFaces) true _ hshort []
    ⟨.new, [], checkEveryFaces⟩ ⟨holds_new, by simp, nextOk_new (by decide)⟩ (fun n _ _ => hctx n)
  rw [List.nil_append, hps] at h2
  have h1 : asciiDecode ctx checkEveryFaces ⟨Spec.textOf ls last, true⟩ = (m, none) := h1
  rw [h1]
  obtain ⟨h4, h5⟩ := holds_end h2 h3 hv
  exact ⟨rfl, h5, h4⟩

/-- Every stream of bytes has lines. -/
theorem C46_streams (s : Str) : ∃ ls last, (∀ l ∈ ls ++ [last], 10 ∉ l) ∧ s = Spec.textOf ls last := by
  induction s with
  | nil => exact ⟨[], [], by simp, rfl⟩
  | cons c s ih =>
    obtain ⟨ls, last, h, rfl⟩ := ih
    by_cases hc : c = 10
    · subst hc
      refine ⟨[] :: ls, last, ?_, by simp [Spec.textOf]⟩
      intro l hl
      rw [List.cons_append, List.mem_cons] at hl
      rcases hl with rfl | hl
      · simp
      · exact h l hl
    · cases ls with
      | nil =>
        refine ⟨[], c :: last, ?_, rfl⟩
        simp only [List.nil_append, List.mem_singleton, forall_eq] at h ⊢
        simp [h, Ne.symm hc]
      | cons l ls =>
        refine ⟨(c :: l) :: ls, last, ?_, by simp [Spec.textOf]⟩
        intro x hx
        rw [List.cons_append, List.mem_cons] at hx
        rcases hx with rfl | hx
        · have := h l (by simp)
          simp [this, Ne.symm hc]
        · exact h x (by simp only [List.cons_append, List.mem_cons]; exact .inr hx)

/-- What is missing: a line that should be a vertex line but is not well formed is not an error.  A word that is not a
number reads as 0, a number that is too large as an infinity, and a line with a missing or an additional coordinate is
skipped, so that the following vertex takes its place in the facet. -/
theorem C46_malformed_false :
    let r (s : Str) := asciiDecode (fun _ => false) checkEveryFaces ⟨s, true⟩
    ((r b!"vertex 1 0 0\nvertex 0 oops 0\nvertex 0 0 1e99\n").2 = none ∧
      (r b!"vertex 1 0 0\nvertex 0 oops 0\nvertex 0 0 1e99\n").1.mb.vertices =
        [⟨.one, .zero, .zero⟩, ⟨.zero, .zero, .zero⟩, ⟨.zero, .zero, .inf false⟩] ∧
      (r b!"vertex 1 0 0\nvertex 0 oops 0\nvertex 0 0 1e99\n").1.tris.length = 1) ∧
    ((r b!"vertex 1 0 0\nvertex 0 1\nvertex 0 0 1\nendfacet\nvertex 1 1 1\n").2 = none ∧
      (r b!"vertex 1 0 0\nvertex 0 1\nvertex 0 0 1\nendfacet\nvertex 1 1 1\n").1.mb.vertices =
        [⟨.one, .zero, .zero⟩, ⟨.zero, .zero, .one⟩, ⟨.one, .one, .one⟩] ∧
      (r b!"vertex 1 0 0\nvertex 0 1\nvertex 0 0 1\nendfacet\nvertex 1 1 1\n").1.tris.length = 1) := by
  decide +kernel

/-- Also missing: a line of 65536 bytes or more, even one without meaning, is an error. -/
theorem C46_long_false (ctx : Ctx) (hctx : ∀ n, ctx n = false) (ls : List Str) (hls : Spec.ShortLines ls) (long : Str)
    (hlong : 65536 ≤ long.length) (h10 : 10 ∉ long) (rest : Str) (e : Bool) :
    (asciiDecode ctx checkEveryFaces ⟨Spec.textOf ls (long ++ 10 :: rest), e⟩).2 = some .tooLong := by
  have hlines : ∀ ls : List Str, (∀ l ∈ ls, 10 ∉ l) →
      lines (Spec.textOf ls (long ++ 10 :: rest)) = ls ++ long :: lines rest := by
    intro ls h
    induction ls with
    | nil => exact linesGo_line [] long rest h10
    | cons l ls ih =>
      have h2 := ih fun x hx => h x (List.mem_cons_of_mem _ hx)
      have h1 := linesGo_line [] l (Spec.textOf ls (long ++ 10 :: rest)) (h l List.mem_cons_self)
      simp only [lines] at h2 ⊢
      rw [show Spec.textOf (l :: ls) (long ++ 10 :: rest) = l ++ 10 :: Spec.textOf ls (long ++ 10 :: rest) by
        simp [Spec.textOf], h1, h2]
      rfl
  have hloop : ∀ (ls : List Str) (s : AsciiState), (∀ l ∈ ls, l.length < maxLine) →
      (asciiLoop ctx checkEveryFaces e (ls ++ long :: lines rest) s).2 = some .tooLong := by
    intro ls
    induction ls with
    | nil =>
      intro s _
      have : long.length ≥ maxLine := hlong
      simp only [List.nil_append, asciiLoop]
      rw [if_pos this]
    | cons l ls ih =>
      intro s h
      have hl := h l List.mem_cons_self
      simp only [List.cons_append, asciiLoop]
      rw [if_neg (by omega)]
      have herr : (asciiLine ctx checkEveryFaces s (dropCR l)).2 = none := by
        unfold asciiLine
        split
        · split
          · dsimp only
            split
            · split <;> simp [hctx]
            · rfl
          · rfl
        · rfl
      cases hr : asciiLine ctx checkEveryFaces s (dropCR l) with
      | mk s' err =>
        rw [hr] at herr
        dsimp only at herr
        subst herr
        exact ih s' fun x hx => h x (List.mem_cons_of_mem _ hx)
  unfold asciiDecode
  rw [hlines ls fun l hl => (hls l hl).1]
  exact hloop ls _ fun l hl => (hls l hl).2

/- A facet, with carriage returns, tabs and several notations of numbers. -/
example :
    let ls := [b!"solid a", b!" facet normal 0 0 1\r", b!"  outer loop", b!"   vertex 0 0 0\r", b!"\tvertex 1e0 0 0",
      b!"vertex 0 +1 .0", b!"endloop", b!"endfacet"]
    Spec.ShortLines (ls ++ [b!"endsolid"]) ∧
    (ls ++ [b!"endsolid"]).filterMap Spec.vertexLine =
      [⟨.zero, .zero, .zero⟩, ⟨.one, .zero, .zero⟩, ⟨.zero, .one, .zero⟩] := by
  refine ⟨?_, by decide +kernel⟩
  unfold Spec.ShortLines
  decide +kernel

end Go3mf
