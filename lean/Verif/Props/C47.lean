import Verif.Props.C01
import Verif.Props.C45
import Verif.Props.C46

/-!
# C47: reading STL files of either format, and cancellation
-/

namespace Go3mf

/-- The model `m'` is `m` with a new object, of a new identifier and with the given mesh, and an item that refers to it. -/
def Spec.Imported (m m' : Model) (mesh : Mesh) : Prop :=
  ∃ id, m' = { m with
    resources := { m.resources with objects := m.resources.objects ++ [{ Object.zero with id := id, mesh := some mesh }] }
    build := { m.build with items := m.build.items ++ [{ Item.zero with objectID := id }] } } ∧
    id = m.resources.unusedID

/-- The mesh with these vertices and triangles and nothing else. -/
def Spec.plainMesh (vs : List Point3D) (ts : List Triangle) : Mesh :=
  { Mesh.zero with vertices := vs, triangles := ts }

/-- The first five bytes, in any case, are "solid". -/
def Spec.StartsSolid (s : Str) : Prop := (s.take 5).map asciiLower = b!"solid"

/-- A byte that is not ASCII, nor part of the two characters, U+0130 and U+212A, that are ASCII letters in lower case. -/
def Spec.Foreign (b : Byte) : Prop := 128 ≤ b ∧ b ∉ [0xc4, 0xb0, 0xe2, 0x84, 0xaa]

namespace Stl

theorem lowerName_ascii (c : Byte) (s : Str) (h : c < 128) : lowerName (c :: s) = asciiLower c :: lowerName s := by
  have h1 : c ≠ 0xc4 := by rintro rfl; exact absurd h (by decide)
  have h2 : c ≠ 0xe2 := by rintro rfl; exact absurd h (by decide)
  conv => lhs; unfold lowerName
  split <;> simp_all

theorem lowerName_prefix (l s : Str) (h : ∀ b ∈ l, b < 128) :
    lowerName (l ++ s) = l.map asciiLower ++ lowerName s := by
  induction l with
  | nil => rfl
  | cons c l ih =>
    rw [List.cons_append, lowerName_ascii c _ (h c List.mem_cons_self), ih fun b hb => h b (List.mem_cons_of_mem _ hb)]
    rfl

theorem asciiLower_ascii : ∀ b : Byte, b < 128 → asciiLower b < 128 := forall_byte (by decide +kernel)

theorem asciiLower_high : ∀ b : Byte, 128 ≤ b → asciiLower b = b := forall_byte (by decide +kernel)

theorem allASCII_lower (l : Str) (h : ∀ b ∈ l, b < 128) : allASCII (lowerName l) = true := by
  have := lowerName_prefix l [] h
  rw [List.append_nil] at this
  rw [this]
  simp only [allASCII, lowerName, List.append_nil, List.all_map, List.all_eq_true, Function.comp_apply,
    decide_eq_true_eq]
  exact fun b hb => asciiLower_ascii b (h b hb)

theorem allASCII_foreign (s : Str) (b : Byte) (hb : b ∈ s) (hf : Spec.Foreign b) : allASCII (lowerName s) = false := by
  obtain ⟨h128, hne⟩ := hf
  simp only [List.mem_cons, List.not_mem_nil, or_false, not_or] at hne
  obtain ⟨n1, n2, n3, n4, n5⟩ := hne
  induction s using lowerName.induct with
  | case1 => cases hb
  | case2 s ih =>
    simp only [List.mem_cons, n1, n2, false_or] at hb
    have := ih hb
    simp only [allASCII] at this
    simp [lowerName, allASCII, this]
  | case3 s ih =>
    simp only [List.mem_cons, n3, n4, n5, false_or] at hb
    have := ih hb
    simp only [allASCII] at this
    simp [lowerName, allASCII, this]
  | case4 c s h1 h2 ih =>
    rw [lowerName.eq_4 c s h1 h2]
    rcases List.mem_cons.1 hb with rfl | hb
    · have hn : ¬ b < 128 := UInt8.not_lt.2 h128
      simp only [allASCII, List.all_cons, asciiLower_high b h128]
      simp [hn]
    · have := ih hb
      simp only [allASCII] at this
      simp [allASCII, this]

theorem hasPrefix_iff (s p : Str) : Str.hasPrefix s p = true ↔ s.take p.length = p := by
  induction p generalizing s with
  | nil => cases s <;> simp [Str.hasPrefix]
  | cons c p ih =>
    cases s with
    | nil => simp [Str.hasPrefix]
    | cons d s => simp [Str.hasPrefix, ih]

theorem isASCII_true (i : Input) (hl : 300 ≤ i.data.length) (ha : ∀ b ∈ i.data.take 300, b < 128)
    (hs : Spec.StartsSolid i.data) : isASCII i = some (.ok true) := by
  unfold isASCII
  rw [if_pos (by exact hl)]
  have h1 := allASCII_lower _ ha
  have h2 : Str.hasPrefix (lowerName (i.data.take 300)) b!"solid" = true := by
    rw [hasPrefix_iff]
    have := lowerName_prefix (i.data.take 300) [] ha
    rw [List.append_nil] at this
    rw [this]
    simp only [lowerName, List.append_nil, ← List.map_take, List.take_take]
    exact hs
  show (some (.ok (Str.hasPrefix (lowerName (i.data.take 300)) b!"solid" &&
    allASCII (lowerName (i.data.take 300)))) : Option (Except Error Bool)) = _
  rw [h1, h2]
  rfl

theorem isASCII_false (i : Input) (hl : 300 ≤ i.data.length)
    (h : (∃ b ∈ i.data.take 300, Spec.Foreign b) ∨ (∀ b ∈ i.data.take 5, b < 128) ∧ ¬ Spec.StartsSolid i.data) :
    isASCII i = some (.ok false) := by
  unfold isASCII
  rw [if_pos (by exact hl)]
  show (some (.ok (Str.hasPrefix (lowerName (i.data.take 300)) b!"solid" &&
    allASCII (lowerName (i.data.take 300)))) : Option (Except Error Bool)) = _
  rcases h with ⟨b, hb, hf⟩ | ⟨ha, hs⟩
  · rw [allASCII_foreign _ b hb hf, Bool.and_false]
  · have : Str.hasPrefix (lowerName (i.data.take 300)) b!"solid" = false := by
      rw [Bool.eq_false_iff, ne_eq, hasPrefix_iff]
      have hsplit : i.data.take 300 = i.data.take 5 ++ (i.data.take 300).drop 5 := by
        conv => lhs; rw [← List.take_append_drop 5 (i.data.take 300)]
        rw [List.take_take]
        rfl
      rw [hsplit, lowerName_prefix _ _ ha, List.take_left' (by simp; omega)]
      exact hs
    rw [this, Bool.false_and]

end Stl

open Stl

/-- A binary STL file of at least 300 bytes that does not look like an ASCII one is imported, when the context is not
done: a new object is added, whose mesh has the facets of the file, and an item. -/
theorem C47_binary_partial (ctx : Ctx) (hctx : ∀ n, ctx n = false) (m : Model) (header : Str) (hh : header.length = 80)
    (fs : List Spec.Facet) (hn : fs.length < 2 ^ 32)
    (hv : (Spec.firsts cellOf (Spec.points fs)).length ≤ 2 ^ 32) (rest : Str) (e : Bool)
    (hl : 300 ≤ (Spec.binaryFile header fs ++ rest).length)
    (hb : (∃ b ∈ (Spec.binaryFile header fs ++ rest).take 300, Spec.Foreign b) ∨
      (∀ b ∈ header.take 5, b < 128) ∧ ¬ Spec.StartsSolid header) :
    ∃ m' ts, decode ctx ⟨Spec.binaryFile header fs ++ rest, e⟩ m = some (m', none) ∧
      Spec.Imported m m' (Spec.plainMesh (Spec.firsts cellOf (Spec.points fs)) ts) ∧
      List.Forall₂ (Spec.HasCorners (Spec.firsts cellOf (Spec.points fs))) (Spec.corners fs) ts := by
  have h5 : (Spec.binaryFile header fs ++ rest).take 5 = header.take 5 := by
    rw [Spec.binaryFile, List.append_assoc, List.append_assoc, List.take_append_of_le_length (by omega)]
  have hascii := isASCII_false ⟨Spec.binaryFile header fs ++ rest, e⟩ hl (by
    rcases hb with h | ⟨h1, h2⟩
    · exact .inl h
    · refine .inr ⟨by rw [h5]; exact h1, ?_⟩
      unfold Spec.StartsSolid at h2 ⊢
      rw [h5]
      exact h2)
  have h := C45_facets ctx hctx header hh fs hn hv rest e
  dsimp only at h
  unfold decode decodeWith
  rw [hascii]
  cases hr : binaryDecode ctx checkEveryFaces ⟨Spec.binaryFile header fs ++ rest, e⟩ with
  | mk mesh err =>
    rw [hr] at h
    obtain ⟨h1, h2, h3⟩ := h
    dsimp only at h1 h2 h3
    subst h1
    simp only [hr, Bool.false_eq_true, if_false]
    refine ⟨_, mesh.tris, rfl, ⟨_, ?_, rfl⟩, h3 ▸ h2⟩
    rw [← h3]
    rfl

/-- An ASCII STL file of at least 300 bytes, the first 300 of which are ASCII, is imported, when the context is not
done. -/
theorem C47_ascii_partial (ctx : Ctx) (hctx : ∀ n, ctx n = false) (m : Model) (ls : List Str) (last : Str)
    (hls : Spec.ShortLines (ls ++ [last]))
    (hv : (Spec.firsts cellOf ((ls ++ [last]).filterMap Spec.vertexLine)).length ≤ 2 ^ 32)
    (hl : 300 ≤ (Spec.textOf ls last).length) (ha : ∀ b ∈ (Spec.textOf ls last).take 300, b < 128)
    (hs : Spec.StartsSolid (Spec.textOf ls last)) :
    let ps := (ls ++ [last]).filterMap Spec.vertexLine
    ∃ m' ts, decode ctx ⟨Spec.textOf ls last, true⟩ m = some (m', none) ∧
      Spec.Imported m m' (Spec.plainMesh (Spec.firsts cellOf ps) ts) ∧
      List.Forall₂ (Spec.HasCorners (Spec.firsts cellOf ps)) (Spec.triples ps) ts := by
  have hascii := isASCII_true ⟨Spec.textOf ls last, true⟩ hl ha hs
  have h := C46_lines_partial ctx hctx ls last hls hv
  dsimp only at h ⊢
  unfold decode decodeWith
  rw [hascii]
  cases hr : asciiDecode ctx checkEveryFaces ⟨Spec.textOf ls last, true⟩ with
  | mk mesh err =>
    rw [hr] at h
    obtain ⟨h1, h2, h3⟩ := h
    dsimp only at h1 h2 h3
    subst h1
    simp only [hr, Bool.false_eq_true, if_false, if_true]
    refine ⟨_, mesh.tris, rfl, ⟨_, ?_, rfl⟩, h3 ▸ h2⟩
    rw [← h3]
    rfl

/-- In case of an error the model is left as it was. -/
theorem C47_unchanged (ctx : Ctx) (i : Input) (m m' : Model) (e : Error) (h : decode ctx i m = some (m', some e)) :
    m' = m := by
  unfold decode decodeWith at h
  split at h
  · cases h
  · injection h with h
    exact (congrArg Prod.fst h).symm
  · split at h
    · injection h with h
      exact (congrArg Prod.fst h).symm
    · injection h with h
      have := congrArg Prod.snd h
      cases this

/-! ## What is missing -/

/-- A well-formed file of less than 300 bytes is rejected: here a binary file with four facets, a tetrahedron. -/
theorem C47_small_false (ctx : Ctx) (m : Model) (header : Str) (hh : header.length = 80) (fs : List Spec.Facet)
    (hn : fs.length ≤ 4) : decode ctx ⟨Spec.binaryFile header fs, true⟩ m = some (m, some .eof) := by
  have hl : (Spec.binaryFile header fs).length = 84 + 50 * fs.length := by
    simp only [Spec.binaryFile, List.length_append, hh, bytesLE_length, facets_length]
  have : isASCII ⟨Spec.binaryFile header fs, true⟩ = some (.error .eof) := by
    unfold isASCII
    rw [if_neg (by show ¬ 300 ≤ _; rw [hl]; omega)]
    rfl
  unfold decode decodeWith
  rw [this]

/-- So is a small ASCII file. -/
theorem C47_smallAscii_false (ctx : Ctx) (m : Model) : decode ctx
    ⟨b!"solid\nfacet normal 0 0 1\nouter loop\nvertex 0 0 0\nvertex 1 0 0\nvertex 0 1 0\nendloop\nendfacet\nendsolid\n",
      true⟩ m = some (m, some .eof) := rfl

/-- A reader that fails with another error than `io.EOF` before the first 300 bytes makes the decoder loop for ever. -/
theorem C47_hang_false (ctx : Ctx) (m : Model) (s : Str) (h : s.length < 300) : decode ctx ⟨s, false⟩ m = none := by
  have : isASCII ⟨s, false⟩ = none := by
    unfold isASCII
    rw [if_neg (by show ¬ 300 ≤ s.length; omega)]
    rfl
  unfold decode decodeWith
  rw [this]

/-- A binary file whose header starts with "solid" and which has no other than ASCII bytes at its start is taken for an
ASCII file: five facets are read as none, without an error. -/
def exSolid : Str :=
  Spec.binaryFile (b!"solid" ++ List.replicate 75 0)
    (List.replicate 5 ⟨0, 0, 0, ⟨0, 0, 0⟩, ⟨0x40000000, 0, 0⟩, ⟨0, 0x40000000, 0⟩, 0, 0⟩)

theorem C47_solid_false :
    ((decode (fun _ => false) ⟨exSolid, true⟩ .zero).map fun r =>
      (r.2, r.1.resources.objects.map fun o => o.mesh.map fun m => (m.vertices.length, m.triangles.length))) =
      some (none, [some (0, 0)]) := by decide +kernel

/-- An ASCII file with a letter that is not ASCII in its first line is taken for a binary file. -/
def exName : Str :=
  Spec.textOf [b!"solid " ++ [0xc3, 0xa9] ++ List.replicate 300 97, b!"vertex 0 0 0", b!"vertex 1 0 0", b!"vertex 0 1 0"]
    b!"endsolid"

theorem C47_name_false :
    (decode (fun _ => false) ⟨exName, true⟩ .zero).map (·.2) = some (some .unexpectedEOF) := by decide +kernel

/-! ## Cancellation -/

namespace Stl

/-- The loop on short lines, when the context is done at some point where it is looked at. -/
theorem asciiLoop_ctx (ctx : Ctx) {every : Nat} (he : 0 < every) (eof : Bool) (ls : List Str)
    (hls : ∀ l ∈ ls, l.length < maxLine) (ps : List Point3D) (s : AsciiState) (hs : AsciiOk every ps s)
    (hctx : ∃ n, Checked every n ∧ s.mesh.tris.length < n ∧ n ≤ (ps ++ ls.filterMap Spec.vertexLine).length / 3 ∧
      ctx n = true) :
    (asciiLoop ctx every eof ls s).2 = some .ctx := by
  induction ls generalizing ps s with
  | nil =>
    obtain ⟨n, -, h1, h2, -⟩ := hctx
    rw [holds_length hs.holds hs.nodes] at h1
    simp only [List.filterMap_nil, List.append_nil] at h2
    omega
  | cons l ls ih =>
    have hl := hls l List.mem_cons_self
    have hls' : ∀ l ∈ ls, l.length < maxLine := fun x hx => hls x (List.mem_cons_of_mem _ hx)
    simp only [asciiLoop]
    rw [if_neg (by omega)]
    cases hv : Spec.vertexLine l with
    | none =>
      rw [asciiLine_none ctx every s l hv]
      rw [List.filterMap_cons_none hv] at hctx
      exact ih hls' ps s hs hctx
    | some p =>
      obtain ⟨s', err, h1, h2, h3⟩ := asciiLine_some ctx he ps s hs l p hv
      rw [List.filterMap_cons_some hv] at hctx
      rw [show ps ++ p :: ls.filterMap Spec.vertexLine = (ps ++ [p]) ++ ls.filterMap Spec.vertexLine by simp] at hctx
      rw [h1]
      obtain ⟨n, hn1, hn2, hn3, hn4⟩ := hctx
      rcases h3 with ⟨h4, rfl⟩ | ⟨h4, ⟨-, rfl⟩ | ⟨h5, rfl⟩⟩
      · exact ih hls' _ s' h2 ⟨n, hn1, by omega, hn3, hn4⟩
      · rfl
      · refine ih hls' _ s' h2 ⟨n, hn1, ?_, hn3, hn4⟩
        by_contra hlt
        have : n = s'.mesh.tris.length := by omega
        subst this
        rw [h5 hn1] at hn4
        cases hn4

theorem lines_text_points (ls : List Str) (last : Str) (hls : Spec.ShortLines (ls ++ [last])) :
    (lines (Spec.textOf ls last)).filterMap Spec.vertexLine = (ls ++ [last]).filterMap Spec.vertexLine ∧
    ∀ l ∈ lines (Spec.textOf ls last), l.length < maxLine := by
  have hlines := lines_text ls last (fun l hl => (hls l (by simp [hl])).1) (hls last (by simp)).1
  rw [hlines]
  by_cases h : last = []
  · rw [if_pos h, List.append_nil]
    refine ⟨?_, fun l hl => (hls l (by simp [hl])).2⟩
    rw [h, List.filterMap_append]
    simp [Spec.vertexLine, fields, fieldsGo, flushField]
  · rw [if_neg h]
    exact ⟨rfl, fun l hl => (hls l hl).2⟩

end Stl

/-- An ASCII file: if the context is done when 1000·k + 1 triangles have been read, for some k > 0, and there are as many,
the result is the error of the context. -/
theorem C47_cancelAscii_partial (ctx : Ctx) (m : Model) (ls : List Str) (last : Str)
    (hls : Spec.ShortLines (ls ++ [last]))
    (hl : 300 ≤ (Spec.textOf ls last).length) (ha : ∀ b ∈ (Spec.textOf ls last).take 300, b < 128)
    (hs : Spec.StartsSolid (Spec.textOf ls last)) (k : Nat) (hk : 0 < k)
    (hlen : 1000 * k + 1 ≤ ((ls ++ [last]).filterMap Spec.vertexLine).length / 3) (hctx : ctx (1000 * k + 1) = true)
    (e : Bool) : decode ctx ⟨Spec.textOf ls last, e⟩ m = some (m, some .ctx) := by
  have hascii := isASCII_true ⟨Spec.textOf ls last, e⟩ hl ha hs
  obtain ⟨hps, hshort⟩ := lines_text_points ls last hls
  have h : (asciiDecode ctx checkEveryFaces ⟨Spec.textOf ls last, e⟩).2 = some .ctx := by
    refine asciiLoop_ctx ctx (by decide : 0 < checkEveryFaces) e _ hshort []
      ⟨.new, [], checkEveryFaces⟩ ⟨holds_new, by simp, nextOk_new (by decide)⟩ ⟨1000 * k + 1, ⟨by omega, ?_⟩, ?_, ?_, hctx⟩
    · exact ⟨k, by simp [checkEveryFaces]⟩
    · simp [Mesh.new]
    · rw [hps]
      exact hlen
  unfold decode decodeWith
  rw [hascii]
  cases hr : asciiDecode ctx checkEveryFaces ⟨Spec.textOf ls last, e⟩ with
  | mk mesh err =>
    rw [hr] at h
    dsimp only at h
    subst h
    simp only [if_true, hr]

/-- A binary file: the error of the context is returned only if the number of facets is 1000·k + 1 and the context is
done when the last of them has been read. -/
theorem C47_cancelBinary_partial (ctx : Ctx) (m : Model) (header : Str) (hh : header.length = 80)
    (fs : List Spec.Facet) (hn : fs.length < 2 ^ 32) (rest : Str) (e : Bool)
    (hl : 300 ≤ (Spec.binaryFile header fs ++ rest).length)
    (hb : (∃ b ∈ (Spec.binaryFile header fs ++ rest).take 300, Spec.Foreign b) ∨
      (∀ b ∈ header.take 5, b < 128) ∧ ¬ Spec.StartsSolid header) :
    (decode ctx ⟨Spec.binaryFile header fs ++ rest, e⟩ m).map (·.2) =
      some (if 1 < fs.length ∧ fs.length % 1000 = 1 ∧ ctx fs.length = true then some .ctx else none) := by
  have h5 : (Spec.binaryFile header fs ++ rest).take 5 = header.take 5 := by
    rw [Spec.binaryFile, List.append_assoc, List.append_assoc, List.take_append_of_le_length (by omega)]
  have hascii := isASCII_false ⟨Spec.binaryFile header fs ++ rest, e⟩ hl (by
    rcases hb with h | ⟨h1, h2⟩
    · exact .inl h
    · refine .inr ⟨by rw [h5]; exact h1, ?_⟩
      unfold Spec.StartsSolid at h2 ⊢
      rw [h5]
      exact h2)
  have h := binaryDecode_file ctx (by decide : 0 < checkEveryFaces) header fs hh hn rest e
  have hiff : (1 < fs.length ∧ checkEveryFaces ∣ fs.length - 1 ∧ ctx fs.length = true) ↔
      (1 < fs.length ∧ fs.length % 1000 = 1 ∧ ctx fs.length = true) := by
    simp only [checkEveryFaces]
    constructor
    · rintro ⟨h1, h2, h3⟩
      exact ⟨h1, by omega, h3⟩
    · rintro ⟨h1, h2, h3⟩
      exact ⟨h1, by omega, h3⟩
  simp only [hiff] at h
  unfold decode decodeWith
  rw [hascii]
  simp only [Bool.false_eq_true, if_false, h]
  by_cases hc : 1 < fs.length ∧ fs.length % 1000 = 1 ∧ ctx fs.length = true
  · simp only [if_pos hc]
    rfl
  · simp only [if_neg hc]
    rfl

/-- What is missing: a binary file with 3000 facets is imported although the context is done from the beginning. -/
theorem C47_cancel_false (m : Model) (f : Spec.Facet) :
    (decode (fun _ => true) ⟨Spec.binaryFile (List.replicate 80 0) (List.replicate 3000 f), true⟩ m).map (·.2) =
      some none := by
  have := C47_cancelBinary_partial (fun _ => true) m (List.replicate 80 0) (by simp) (List.replicate 3000 f)
    (by rw [List.length_replicate]; omega) []
    true (by
      rw [List.append_nil]
      simp only [Spec.binaryFile, List.length_append, List.length_replicate, bytesLE_length, facets_length]
      omega) (.inr ⟨by intro b hb; rw [List.take_replicate] at hb; rw [List.eq_of_mem_replicate hb]; decide, by
        simp [Spec.StartsSolid, List.take_replicate]; decide⟩)
  rw [List.append_nil] at this
  rw [this, if_neg]
  rintro ⟨-, hk, -⟩
  simp only [List.length_replicate] at hk
  omega

/- A text that meets the hypotheses on ASCII files, and a binary file. -/
section
/-- Six facets: 320 bytes or more. -/
def exText : List Str :=
  b!"solid" :: (List.replicate 6 [b!"facet normal 0 0 1", b!" outer loop", b!"  vertex 0 0 0", b!"  vertex 1 0 0",
    b!"  vertex 0 1 0", b!" endloop", b!"endfacet"]).flatten

example : Spec.ShortLines (exText ++ [b!"endsolid"]) ∧ 300 ≤ (Spec.textOf exText b!"endsolid").length ∧
    (∀ b ∈ (Spec.textOf exText b!"endsolid").take 300, b < 128) ∧ Spec.StartsSolid (Spec.textOf exText b!"endsolid") ∧
    ((exText ++ [b!"endsolid"]).filterMap Spec.vertexLine).length = 18 := by
  unfold Spec.ShortLines Spec.StartsSolid
  decide +kernel

example : 300 ≤ (Spec.binaryFile (List.replicate 80 0) (exFacets ++ exFacets ++ exFacets)).length ∧
    (∀ b ∈ (List.replicate 80 (0 : Byte)).take 5, b < 128) ∧ ¬ Spec.StartsSolid (List.replicate 80 0) := by
  unfold Spec.StartsSolid
  decide +kernel
end

end Go3mf
