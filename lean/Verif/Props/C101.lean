import Verif.Props.C47

/-!
# C101: the presentation of an STL file does not matter

The model that is imported only depends on the corners of the facets, in their order: not on the format, the header, the
name, the normals, the attributes, lines without a vertex, or bytes after the last facet.
-/

namespace Go3mf
namespace Stl

/-- The points determine the mesh. -/
theorem Holds.unique {ps : List Point3D} {m m' : Mesh} {nodes nodes' : List UInt32} (h : Holds ps m nodes) (h' : Holds ps m' nodes')
    (hn : nodes.length < 3) (hn' : nodes'.length < 3) : m = m' := by
  obtain ⟨h1, full, h2, h3, h4⟩ := h
  obtain ⟨h1', full', h2', h3', h4'⟩ := h'
  have he : full ++ nodes = full' ++ nodes' := by rw [← h2, ← h2']
  have hl := congrArg List.length he
  simp only [List.length_append] at hl
  have : full = full' := (List.append_inj he (by omega)).1
  subst this
  obtain ⟨mb, tris⟩ := m
  obtain ⟨mb', tris'⟩ := m'
  simp only at h1 h4 h1' h4'
  rw [h1, h1', h4, h4']

/-- A text is read, and the mesh holds its points. -/
theorem asciiDecode_holds (ctx : Ctx) (hctx : ∀ n, ctx n = false) (ls : List Str) (last : Str) (hls : Spec.ShortLines (ls ++ [last])) :
    ∃ m nodes, asciiDecode ctx checkEveryFaces ⟨Spec.textOf ls last, true⟩ = (m, none) ∧
      Holds ((ls ++ [last]).filterMap Spec.vertexLine) m nodes ∧ nodes.length < 3 := by
  have hlines := lines_text ls last (fun l hl => (hls l (by simp [hl])).1) (hls last (by simp)).1
  have hps : (lines (Spec.textOf ls last)).filterMap Spec.vertexLine = (ls ++ [last]).filterMap Spec.vertexLine := by
    rw [hlines]
    by_cases h : last = []
    · rw [if_pos h, h, List.append_nil, List.filterMap_append]
      simp [Spec.vertexLine, fields, fieldsGo, flushField]
    · rw [if_neg h]
  have hshort : ∀ l ∈ lines (Spec.textOf ls last), l.length < maxLine := by
    rw [hlines]
    intro l hl
    refine (hls l ?_).2
    by_cases h : last = []
    · rw [if_pos h] at hl
      simp only [List.append_nil] at hl
      simp [hl]
    · rw [if_neg h] at hl
      exact hl
  obtain ⟨m, nodes, h1, h2, h3⟩ := asciiLoop_ok ctx (by decide : 0 < checkEveryFaces) true _ hshort []
    ⟨.new, [], checkEveryFaces⟩ ⟨holds_new, by simp, nextOk_new (by decide)⟩ (fun n _ _ => hctx n)
  rw [List.nil_append, hps] at h2
  exact ⟨m, nodes, h1, h2, h3⟩

/-- A binary file is read, and the mesh holds its points. -/
theorem binaryDecode_holds (ctx : Ctx) (hctx : ∀ n, ctx n = false) (header : Str) (hh : header.length = 80) (fs : List Spec.Facet)
    (hn : fs.length < 2 ^ 32) (rest : Str) (e : Bool) :
    ∃ m, binaryDecode ctx checkEveryFaces ⟨Spec.binaryFile header fs ++ rest, e⟩ = (m, none) ∧ Holds (Spec.points fs) m [] := by
  have hr := binaryDecode_file ctx (by decide : 0 < checkEveryFaces) header fs hh hn rest e
  have hold := holds_faces fs holds_new
  rw [List.nil_append] at hold
  rw [hr]
  exact ⟨_, by simp [hctx], hold⟩

end Stl

open Stl

/-- A file that the importer can read and tell the format of, and its points in their order. -/
inductive Spec.StlFile : Stl.Input → List Point3D → Prop
  /-- A binary file: a header, facets, and anything after them; the first 300 bytes are not all ASCII, or the header does
  not start with "solid". -/
  | binary (header : Str) (fs : List Spec.Facet) (rest : Str) (e : Bool) (hh : header.length = 80) (hn : fs.length < 2 ^ 32)
      (hl : 300 ≤ (Spec.binaryFile header fs ++ rest).length)
      (hb : (∃ b ∈ (Spec.binaryFile header fs ++ rest).take 300, Spec.Foreign b) ∨
        (∀ b ∈ header.take 5, b < 128) ∧ ¬ Spec.StartsSolid header) :
      Spec.StlFile ⟨Spec.binaryFile header fs ++ rest, e⟩ (Spec.points fs)
  /-- An ASCII file, of lines that are not too long, that starts with "solid" and 300 bytes of ASCII. -/
  | ascii (ls : List Str) (last : Str) (hls : Spec.ShortLines (ls ++ [last])) (hl : 300 ≤ (Spec.textOf ls last).length)
      (ha : ∀ b ∈ (Spec.textOf ls last).take 300, b < 128) (hs : Spec.StartsSolid (Spec.textOf ls last)) :
      Spec.StlFile ⟨Spec.textOf ls last, true⟩ ((ls ++ [last]).filterMap Spec.vertexLine)

/-- The format is told, and the decoder for it reads the points. -/
theorem stlFile_decode {i : Input} {ps : List Point3D} (h : Spec.StlFile i ps) (ctx : Ctx) (hctx : ∀ n, ctx n = false) :
    ∃ ascii m nodes, isASCII i = some (.ok ascii) ∧
      (if ascii then asciiDecode ctx checkEveryFaces i else binaryDecode ctx checkEveryFaces i) = (m, none) ∧ Holds ps m nodes ∧
      nodes.length < 3 := by
  cases h with
  | binary header fs rest e hh hn hl hb =>
    have h5 : (Spec.binaryFile header fs ++ rest).take 5 = header.take 5 := by
      rw [Spec.binaryFile, List.append_assoc, List.append_assoc, List.take_append_of_le_length (by omega)]
    have hascii := isASCII_false ⟨Spec.binaryFile header fs ++ rest, e⟩ hl (by
      rcases hb with h | ⟨h1, h2⟩
      · exact .inl h
      · refine .inr ⟨by rw [h5]; exact h1, ?_⟩
        intro h3
        apply h2
        unfold Spec.StartsSolid at h3 ⊢
        rwa [h5] at h3)
    obtain ⟨m, h1, h2⟩ := binaryDecode_holds ctx hctx header hh fs hn rest e
    exact ⟨false, m, [], hascii, h1, h2, by simp⟩
  | ascii ls last hls hl ha hs =>
    obtain ⟨m, nodes, h1, h2, h3⟩ := asciiDecode_holds ctx hctx ls last hls
    exact ⟨true, m, nodes, isASCII_true ⟨Spec.textOf ls last, true⟩ hl ha hs, h1, h2, h3⟩

/-- **C101**: two files with the same points are imported as the same model, without an error, whatever their formats are.
Missing: files of which the format cannot be told (`C101_header_false`). -/
theorem C101_same_partial {i j : Input} {ps : List Point3D} (hi : Spec.StlFile i ps) (hj : Spec.StlFile j ps) (ctx : Ctx)
    (hctx : ∀ n, ctx n = false) (m : Model) :
    decode ctx i m = decode ctx j m ∧ ∃ m', decode ctx i m = some (m', none) := by
  obtain ⟨a, x, nx, h1, h2, h3, h4⟩ := stlFile_decode hi ctx hctx
  obtain ⟨b, y, ny, h1', h2', h3', h4'⟩ := stlFile_decode hj ctx hctx
  have hxy := h3.unique h3' h4 h4'
  subst hxy
  unfold decode decodeWith
  rw [h1, h1']
  simp only [h2, h2']
  exact ⟨trivial, _, rfl⟩

/-- Five facets. -/
def fiveFacets : List Spec.Facet := List.replicate 5 ⟨0, 0, 0, ⟨0, 0, 0⟩, ⟨0x40000000, 0, 0⟩, ⟨0, 0x40000000, 0⟩, 0, 0⟩

/-- What the claim does not allow: the header of a binary file decides whether its facets are read. -/
theorem C101_header_false :
    let r (header : Str) := (decode (fun _ => false) ⟨Spec.binaryFile header fiveFacets, true⟩ .zero).map fun r =>
      (r.2, r.1.resources.objects.map fun o => o.mesh.map fun m => (m.vertices.length, m.triangles.length))
    r (List.replicate 80 0) = some (none, [some (3, 5)]) ∧ r (b!"solid" ++ List.replicate 75 0) = some (none, [some (0, 0)]) := by
  decide +kernel

/-! ## Non-vacuity -/

/-- The lines of the same facets. -/
def fiveLines : List Str :=
  b!"solid with a name" :: (List.replicate 5 [b!"facet normal 0 0 1", b!"outer loop", b!"vertex 0 0 0", b!" vertex 2.0 0 0",
    b!"vertex 0 2e0 0", b!"endloop", b!"endfacet"]).flatten

/-- The same facets in both formats. -/
example : ∃ ps, ps.length = 15 ∧ Spec.StlFile ⟨Spec.binaryFile (List.replicate 80 0) fiveFacets ++ [1, 2], true⟩ ps ∧
    Spec.StlFile ⟨Spec.textOf fiveLines b!"endsolid", true⟩ ps := by
  refine ⟨Spec.points fiveFacets, by decide +kernel, ?_, ?_⟩
  · exact .binary _ _ _ _ (by decide +kernel) (by decide +kernel) (by decide +kernel)
      (.inr ⟨by decide +kernel, by unfold Spec.StartsSolid; decide +kernel⟩)
  · have : Spec.points fiveFacets = (fiveLines ++ [b!"endsolid"]).filterMap Spec.vertexLine := by decide +kernel
    rw [this]
    exact .ascii _ _ (by unfold Spec.ShortLines; decide +kernel) (by decide +kernel) (by decide +kernel)
      (by unfold Spec.StartsSolid; decide +kernel)

end Go3mf
