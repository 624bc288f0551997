import Verif.Props.C45

/-!
# C73: the memory for a binary STL file is bounded by its size

The decoder allocates memory for as many triangles as the header announces, before it has read the first one.
-/

namespace Go3mf
open Stl

/-- FALSE: memory is allocated for at most one triangle per facet in the file.  84 bytes are enough to make the decoder allocate
memory for 2³² - 1 triangles, of 56 bytes each on machines with 64 bits. -/
theorem C73_reserve_false : ¬ ∀ (i : Input) (n : Nat), binaryReserve i = some n → 50 * n ≤ i.data.length := by
  intro h
  have := h ⟨List.replicate 84 255, true⟩ (2 ^ 32 - 1) (by decide +kernel)
  simp at this

/-- Any number that fits in the header is allocated, whatever follows. -/
theorem C73_any (header rest : Str) (hh : header.length = 80) (u : UInt32) (e : Bool) :
    binaryReserve ⟨header ++ Spec.bytesLE u ++ rest, e⟩ = some u.toNat := by
  have hl : (header ++ Spec.bytesLE u).length = 84 := by simp [hh, bytesLE_length]
  have := le32_bytes u header []
  rw [List.append_nil, hh] at this
  rw [binaryReserve, readFull_ok _ _ _ _ hl]
  simp only [this]

/-- If the file is read without an error, then memory was allocated for exactly the triangles of the mesh, and the file has 50
bytes for each of them. -/
theorem C73_reserve_partial (ctx : Ctx) (hctx : ∀ n, ctx n = false) (i : Input)
    (h : (binaryDecode ctx checkEveryFaces i).2 = none) :
    ∃ n, binaryReserve i = some n ∧ 84 + 50 * n ≤ i.data.length ∧ (binaryDecode ctx checkEveryFaces i).1.tris.length = n := by
  obtain ⟨header, fs, rest, hh, hn, hd⟩ := (C45_language ctx hctx i).1 h
  obtain ⟨data, e⟩ := i
  dsimp only at hd
  subst hd
  refine ⟨fs.length, ?_, ?_, ?_⟩
  · have := C73_any header ((fs.map Spec.Facet.bytes).flatten ++ rest) hh (UInt32.ofNat fs.length) e
    rw [UInt32.toNat_ofNat', Nat.mod_eq_of_lt hn] at this
    simpa [Spec.binaryFile, List.append_assoc] using this
  · have := facets_length fs
    simp only [Spec.binaryFile, List.length_append, bytesLE_length, hh, this]
    omega
  · rw [binaryDecode_file ctx (by decide : 0 < checkEveryFaces) header fs hh hn rest e]
    have : ∀ (fs : List Spec.Facet) (m : Stl.Mesh),
        ((fs.map Spec.Facet.bytes).foldl Stl.Mesh.decodeFace m).tris.length = m.tris.length + fs.length := by
      intro fs
      induction fs with
      | nil => intro m; rfl
      | cons f fs ih =>
        intro m
        simp only [List.map_cons, List.foldl_cons, List.length_cons]
        rw [ih, decodeFace_length]
        omega
    simpa [Stl.Mesh.new] using this fs .new

/-- The two facets of C45 meet the hypotheses. -/
example : (binaryDecode (fun _ => false) checkEveryFaces ⟨Spec.binaryFile (List.replicate 80 0) exFacets, true⟩).2 = none := by
  decide +kernel

end Go3mf
