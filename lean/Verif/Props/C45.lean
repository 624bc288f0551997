import Verif.Lemmas.Stl

/-!
# C45: binary STL files

The format, written from its definition: 80 bytes of header, the number of facets as a 32-bit little-endian number, and
50 bytes per facet: a normal, three corners of three little-endian float32 and two more bytes.
-/

namespace Go3mf

/-- The four bytes of a number, the least significant one first. -/
def Spec.bytesLE (u : UInt32) : Str :=
  [UInt8.ofNat (u.toNat % 256), UInt8.ofNat (u.toNat / 256 % 256), UInt8.ofNat (u.toNat / 65536 % 256),
    UInt8.ofNat (u.toNat / 16777216)]

/-- A corner of a facet: the bits of its coordinates. -/
structure Spec.Vertex where
  x : UInt32
  y : UInt32
  z : UInt32

/-- A facet of a binary STL file. -/
structure Spec.Facet where
  nx : UInt32
  ny : UInt32
  nz : UInt32
  a : Spec.Vertex
  b : Spec.Vertex
  c : Spec.Vertex
  attr0 : Byte
  attr1 : Byte

/-- The bytes of a corner. -/
def Spec.Vertex.bytes (v : Spec.Vertex) : Str := Spec.bytesLE v.x ++ Spec.bytesLE v.y ++ Spec.bytesLE v.z

/-- The point of a corner. -/
def Spec.Vertex.point (v : Spec.Vertex) : Point3D := ⟨F32.ofBits v.x, F32.ofBits v.y, F32.ofBits v.z⟩

/-- The bytes of a facet. -/
def Spec.Facet.bytes (f : Spec.Facet) : Str :=
  Spec.bytesLE f.nx ++ Spec.bytesLE f.ny ++ Spec.bytesLE f.nz ++ f.a.bytes ++ f.b.bytes ++ f.c.bytes ++
    [f.attr0, f.attr1]

/-- The bytes of a file. -/
def Spec.binaryFile (header : Str) (fs : List Spec.Facet) : Str :=
  header ++ Spec.bytesLE (UInt32.ofNat fs.length) ++ (fs.map Spec.Facet.bytes).flatten

/-- The corners of the facets. -/
def Spec.corners (fs : List Spec.Facet) : List (Point3D × Point3D × Point3D) :=
  fs.map fun f => (f.a.point, f.b.point, f.c.point)

/-- All corners in order. -/
def Spec.points (fs : List Spec.Facet) : List Point3D :=
  (fs.map fun f => [f.a.point, f.b.point, f.c.point]).flatten

namespace Stl

theorem le32_bytes (u : UInt32) (l r : Str) : le32 (l ++ Spec.bytesLE u ++ r) l.length = u := by
  have h0 : (l ++ Spec.bytesLE u ++ r).getD l.length 0 = UInt8.ofNat (u.toNat % 256) := by
    simp [List.getD, Spec.bytesLE, List.getElem?_append]
  have h1 : (l ++ Spec.bytesLE u ++ r).getD (l.length + 1) 0 = UInt8.ofNat (u.toNat / 256 % 256) := by
    simp [List.getD, Spec.bytesLE, List.getElem?_append]
  have h2 : (l ++ Spec.bytesLE u ++ r).getD (l.length + 2) 0 = UInt8.ofNat (u.toNat / 65536 % 256) := by
    simp [List.getD, Spec.bytesLE, List.getElem?_append]
  have h3 : (l ++ Spec.bytesLE u ++ r).getD (l.length + 3) 0 = UInt8.ofNat (u.toNat / 16777216) := by
    simp [List.getD, Spec.bytesLE, List.getElem?_append]
  have hu := u.toNat_lt
  apply UInt32.toNat.inj
  unfold le32
  rw [h0, h1, h2, h3]
  simp only [UInt8.toNat_ofNat', UInt32.toNat_ofNat']
  omega

theorem bytesLE_length (u : UInt32) : (Spec.bytesLE u).length = 4 := rfl

theorem facet_length (f : Spec.Facet) : f.bytes.length = 50 := rfl

theorem facets_length (fs : List Spec.Facet) : ((fs.map Spec.Facet.bytes).flatten).length = 50 * fs.length := by
  induction fs with
  | nil => rfl
  | cons f fs ih =>
    simp only [List.map_cons, List.flatten_cons, List.length_append, facet_length, List.length_cons, ih]
    omega

theorem leF32_bytes (u : UInt32) (l r : Str) (k : Nat) (hk : l.length = k) :
    leF32 (l ++ Spec.bytesLE u ++ r) k = F32.ofBits u := by
  subst hk
  rw [leF32, le32_bytes]

theorem faceVertex_bytes (f : Spec.Facet) :
    faceVertex f.bytes 0 = f.a.point ∧ faceVertex f.bytes 1 = f.b.point ∧ faceVertex f.bytes 2 = f.c.point := by
  have key : ∀ (l r : Str) (u : UInt32) (k : Nat), l.length = k → f.bytes = l ++ Spec.bytesLE u ++ r →
      leF32 f.bytes k = F32.ofBits u := by
    intro l r u k hk h
    rw [h, leF32_bytes u l r k hk]
  have h : ∀ (v : Spec.Vertex) (l r : Str) (k : Nat), l.length = k → f.bytes = l ++ v.bytes ++ r →
      (⟨leF32 f.bytes k, leF32 f.bytes (k + 4), leF32 f.bytes (k + 8)⟩ : Point3D) = v.point := by
    intro v l r k hk h
    rw [key l (Spec.bytesLE v.y ++ Spec.bytesLE v.z ++ r) v.x k hk (by simp [h, Spec.Vertex.bytes]),
      key (l ++ Spec.bytesLE v.x) (Spec.bytesLE v.z ++ r) v.y (k + 4) (by simp [hk, bytesLE_length])
        (by simp [h, Spec.Vertex.bytes]),
      key (l ++ Spec.bytesLE v.x ++ Spec.bytesLE v.y) r v.z (k + 8) (by simp [hk, bytesLE_length])
        (by simp [h, Spec.Vertex.bytes])]
    rfl
  refine ⟨?_, ?_, ?_⟩
  · exact h f.a (Spec.bytesLE f.nx ++ Spec.bytesLE f.ny ++ Spec.bytesLE f.nz)
      (f.b.bytes ++ f.c.bytes ++ [f.attr0, f.attr1]) 12 rfl (by simp [Spec.Facet.bytes])
  · exact h f.b (Spec.bytesLE f.nx ++ Spec.bytesLE f.ny ++ Spec.bytesLE f.nz ++ f.a.bytes)
      (f.c.bytes ++ [f.attr0, f.attr1]) 24 rfl (by simp [Spec.Facet.bytes])
  · exact h f.c (Spec.bytesLE f.nx ++ Spec.bytesLE f.ny ++ Spec.bytesLE f.nz ++ f.a.bytes ++ f.b.bytes)
      [f.attr0, f.attr1] 36 rfl (by simp [Spec.Facet.bytes])

theorem holds_face {ps : List Point3D} {m : Mesh} (h : Holds ps m []) (face : Str) :
    Holds (ps ++ [faceVertex face 0, faceVertex face 1, faceVertex face 2]) (m.decodeFace face) [] := by
  have h1 := holds_vertex h (faceVertex face 0)
  have h2 := holds_vertex h1 (faceVertex face 1)
  have h3 := holds_vertex h2 (faceVertex face 2)
  simp only [List.nil_append, List.append_assoc, List.singleton_append] at h3
  exact holds_triangle h3

theorem decodeFace_length (m : Mesh) (face : Str) : (m.decodeFace face).tris.length = m.tris.length + 1 := by
  simp [Mesh.decodeFace, Mesh.addTriangle, Mesh.addVertex]

theorem readFull_ok (l r : Str) (e : Bool) (n : Nat) (h : l.length = n) :
    readFull n ⟨l ++ r, e⟩ = .ok (l, ⟨r, e⟩) := by
  subst h
  simp [readFull]

/-- The error after the last face. -/
def lastErr (ctx : Ctx) (every n : Nat) (err : Option Error) (k : Nat) : Option Error :=
  if k = 0 then err else if 1 < n ∧ every ∣ n - 1 ∧ ctx n = true then some .ctx else none

theorem binaryLoop_ok (ctx : Ctx) {every : Nat} (he : 0 < every) (rest : Str) (e : Bool) (faces : List Str)
    (hf : ∀ f ∈ faces, f.length = 50) (m : Mesh) (next : Nat) (err : Option Error)
    (hn : NextOk every m.tris.length next) :
    binaryLoop ctx every faces.length ⟨faces.flatten ++ rest, e⟩ m next err =
      (faces.foldl Mesh.decodeFace m, lastErr ctx every (m.tris.length + faces.length) err faces.length) := by
  induction faces generalizing m next err with
  | nil => simp [binaryLoop, lastErr]
  | cons f faces ih =>
    have hread : readFull 50 ⟨(f :: faces).flatten ++ rest, e⟩ = .ok (f, ⟨faces.flatten ++ rest, e⟩) := by
      rw [List.flatten_cons, List.append_assoc]
      exact readFull_ok f _ e 50 (hf f List.mem_cons_self)
    have hstep := nextOk_step he hn
    have hcheck := nextOk_check hn
    have hf' : ∀ f ∈ faces, f.length = 50 := fun g hg => hf g (List.mem_cons_of_mem _ hg)
    simp only [List.length_cons, binaryLoop, hread]
    rw [← decodeFace_length m f] at hstep
    by_cases hc : (m.decodeFace f).tris.length > next
    · rw [if_pos hc] at hstep ⊢
      rw [ih hf' _ _ _ hstep]
      simp only [List.foldl_cons, decodeFace_length, Prod.mk.injEq, true_and, lastErr]
      rw [decodeFace_length] at hc
      obtain ⟨h0, hd⟩ := hcheck.1 hc
      rw [if_neg (by omega : ¬faces.length + 1 = 0)]
      by_cases hz : faces.length = 0
      · rw [if_pos hz, hz]
        have : (1 < m.tris.length + (0 + 1) ∧ every ∣ m.tris.length + (0 + 1) - 1 ∧
            ctx (m.tris.length + (0 + 1)) = true) ↔ ctx (m.tris.length + 1) = true := by
          constructor
          · exact fun h => h.2.2
          · exact fun h => ⟨by omega, by simpa using hd, h⟩
        simp only [this]
      · rw [if_neg hz, show m.tris.length + 1 + faces.length = m.tris.length + (faces.length + 1) by omega]
    · rw [if_neg hc] at hstep ⊢
      rw [ih hf' _ _ _ hstep]
      simp only [List.foldl_cons, decodeFace_length, Prod.mk.injEq, true_and, lastErr]
      rw [decodeFace_length] at hc
      rw [if_neg (by omega : ¬faces.length + 1 = 0)]
      by_cases hz : faces.length = 0
      · rw [if_pos hz, hz, if_neg]
        rintro ⟨h1, h2, -⟩
        exact hc (hcheck.2 ⟨by omega, by simpa using h2⟩)
      · rw [if_neg hz, show m.tris.length + 1 + faces.length = m.tris.length + (faces.length + 1) by omega]

theorem holds_faces (fs : List Spec.Facet) {ps : List Point3D} {m : Mesh} (h : Holds ps m []) :
    Holds (ps ++ Spec.points fs) ((fs.map Spec.Facet.bytes).foldl Mesh.decodeFace m) [] := by
  induction fs generalizing ps m with
  | nil => simpa [Spec.points] using h
  | cons f fs ih =>
    have h1 := holds_face h f.bytes
    obtain ⟨e0, e1, e2⟩ := faceVertex_bytes f
    rw [e0, e1, e2] at h1
    have h2 := ih h1
    simpa [Spec.points] using h2

theorem triples_points (fs : List Spec.Facet) : Spec.triples (Spec.points fs) = Spec.corners fs := by
  induction fs with
  | nil => rfl
  | cons f fs ih =>
    simp only [Spec.points, Spec.corners, List.map_cons, List.flatten_cons, List.cons_append, List.nil_append,
      Spec.triples] at ih ⊢
    rw [ih]

/-- The decoder of binary files on a well-formed file, possibly followed by other bytes: the mesh and the error. -/
theorem binaryDecode_file (ctx : Ctx) {every : Nat} (he : 0 < every) (header : Str) (fs : List Spec.Facet)
    (hh : header.length = 80) (hn : fs.length < 2 ^ 32) (rest : Str) (e : Bool) :
    binaryDecode ctx every ⟨Spec.binaryFile header fs ++ rest, e⟩ =
      ((fs.map Spec.Facet.bytes).foldl Mesh.decodeFace .new,
        if 1 < fs.length ∧ every ∣ fs.length - 1 ∧ ctx fs.length = true then some .ctx else none) := by
  have h1 : readFull 84 ⟨Spec.binaryFile header fs ++ rest, e⟩ =
      .ok (header ++ Spec.bytesLE (UInt32.ofNat fs.length), ⟨(fs.map Spec.Facet.bytes).flatten ++ rest, e⟩) := by
    rw [Spec.binaryFile, List.append_assoc]
    exact readFull_ok _ _ e 84 (by simp [hh, bytesLE_length])
  have h2 : le32 (header ++ Spec.bytesLE (UInt32.ofNat fs.length)) 80 = UInt32.ofNat fs.length := by
    have := le32_bytes (UInt32.ofNat fs.length) header []
    rwa [List.append_nil, hh] at this
  have h3 : (UInt32.ofNat fs.length).toNat = (fs.map Spec.Facet.bytes).length := by
    rw [UInt32.toNat_ofNat', List.length_map]
    omega
  unfold binaryDecode
  simp only [h1, h2, h3]
  rw [binaryLoop_ok ctx he rest e _ (fun f hf => by
    obtain ⟨g, -, rfl⟩ := List.mem_map.1 hf
    exact facet_length g) .new every none (nextOk_new he)]
  simp only [Mesh.new, List.length_nil, Nat.zero_add, List.length_map, Prod.mk.injEq, true_and, lastErr]
  by_cases hz : fs.length = 0
  · rw [if_pos hz, if_neg (by omega)]
  · rw [if_neg hz]

/-! ## All streams -/

theorem bytesLE_le32 (a b c d : Byte) : ∃ u, Spec.bytesLE u = [a, b, c, d] := by
  refine ⟨UInt32.ofNat (a.toNat + b.toNat * 256 + c.toNat * 65536 + d.toNat * 16777216), ?_⟩
  have ha := a.toNat_lt
  have hb := b.toNat_lt
  have hc := c.toNat_lt
  have hd := d.toNat_lt
  unfold Spec.bytesLE
  have hlt : a.toNat + b.toNat * 256 + c.toNat * 65536 + d.toNat * 16777216 < 2 ^ 32 := by omega
  rw [UInt32.toNat_ofNat_of_lt' hlt]
  rw [show (a.toNat + b.toNat * 256 + c.toNat * 65536 + d.toNat * 16777216) % 256 = a.toNat by omega,
    show (a.toNat + b.toNat * 256 + c.toNat * 65536 + d.toNat * 16777216) / 256 % 256 = b.toNat by omega,
    show (a.toNat + b.toNat * 256 + c.toNat * 65536 + d.toNat * 16777216) / 65536 % 256 = c.toNat by omega,
    show (a.toNat + b.toNat * 256 + c.toNat * 65536 + d.toNat * 16777216) / 16777216 = d.toNat by omega]
  simp

theorem take4 (s : Str) (h : 4 ≤ s.length) : ∃ u r, s = Spec.bytesLE u ++ r ∧ r.length = s.length - 4 := by
  match s, h with
  | a :: b :: c :: d :: r, _ =>
    obtain ⟨u, hu⟩ := bytesLE_le32 a b c d
    exact ⟨u, r, by rw [hu]; rfl, by simp⟩

theorem takeVertex (s : Str) (h : 12 ≤ s.length) :
    ∃ (v : Spec.Vertex) (r : Str), s = v.bytes ++ r ∧ r.length = s.length - 12 := by
  obtain ⟨x, s1, rfl, h1⟩ := take4 s (by omega)
  obtain ⟨y, s2, rfl, h2⟩ := take4 s1 (by omega)
  obtain ⟨z, s3, rfl, h3⟩ := take4 s2 (by omega)
  exact ⟨⟨x, y, z⟩, s3, by simp [Spec.Vertex.bytes], by omega⟩

theorem takeFacet (s : Str) (h : 50 ≤ s.length) :
    ∃ (f : Spec.Facet) (r : Str), s = f.bytes ++ r ∧ r.length = s.length - 50 := by
  obtain ⟨n, s1, rfl, h1⟩ := takeVertex s (by omega)
  obtain ⟨a, s2, rfl, h2⟩ := takeVertex s1 (by omega)
  obtain ⟨b, s3, rfl, h3⟩ := takeVertex s2 (by omega)
  obtain ⟨c, s4, rfl, h4⟩ := takeVertex s3 (by omega)
  match s4, h4 with
  | x :: y :: r, h4 =>
    refine ⟨⟨n.x, n.y, n.z, a, b, c, x, y⟩, r, by simp [Spec.Facet.bytes, Spec.Vertex.bytes], ?_⟩
    simp only [List.length_append, List.length_cons] at h1 h2 h3 h4 ⊢
    omega
  | [], h4 => simp only [List.length_nil] at h4; omega
  | [_], h4 => simp only [List.length_singleton] at h4; omega

theorem takeFacets (n : Nat) (s : Str) (h : 50 * n ≤ s.length) :
    ∃ (fs : List Spec.Facet) (r : Str), fs.length = n ∧ s = (fs.map Spec.Facet.bytes).flatten ++ r := by
  induction n generalizing s with
  | zero => exact ⟨[], s, rfl, rfl⟩
  | succ n ih =>
    obtain ⟨f, r, rfl, hr⟩ := takeFacet s (by omega)
    obtain ⟨fs, r', hn, rfl⟩ := ih r (by omega)
    exact ⟨f :: fs, r', by simp [hn], by simp⟩

theorem readFull_length {n : Nat} {i i' : Input} {s : Str} (h : readFull n i = .ok (s, i')) :
    n ≤ i.data.length ∧ i'.data.length = i.data.length - n ∧ s = i.data.take n := by
  unfold readFull at h
  by_cases hn : n ≤ i.data.length
  · rw [if_pos hn] at h
    cases h
    exact ⟨hn, by simp, rfl⟩
  · rw [if_neg hn] at h
    split at h
    · cases h
    · split at h <;> cases h

theorem binaryLoop_length (ctx : Ctx) (every n : Nat) (i : Input) (m : Mesh) (next : Nat) (err : Option Error)
    (h : (binaryLoop ctx every n i m next err).2 = none) : 50 * n ≤ i.data.length := by
  induction n generalizing i m next err with
  | zero => omega
  | succ n ih =>
    cases hr : readFull 50 i with
    | error e => simp [binaryLoop, hr] at h
    | ok p =>
      obtain ⟨face, i'⟩ := p
      obtain ⟨h1, h2, -⟩ := readFull_length hr
      have : 50 * n ≤ i'.data.length := by
        simp only [binaryLoop, hr] at h
        by_cases hc : (m.decodeFace face).tris.length > next
        · rw [if_pos hc] at h
          exact ih _ _ _ _ h
        · rw [if_neg hc] at h
          exact ih _ _ _ _ h
      omega

theorem binaryDecode_length (ctx : Ctx) (every : Nat) (i : Input) (h : (binaryDecode ctx every i).2 = none) :
    84 ≤ i.data.length ∧ 50 * (le32 (i.data.take 84) 80).toNat ≤ i.data.length - 84 := by
  unfold binaryDecode at h
  cases hr : readFull 84 i with
  | error e => simp [hr] at h
  | ok p =>
    obtain ⟨hd, i'⟩ := p
    obtain ⟨h1, h2, rfl⟩ := readFull_length hr
    simp only [hr] at h
    have := binaryLoop_length _ _ _ _ _ _ _ h
    omega

end Stl

open Stl

/-- A binary STL file with the facets `fs`, and whatever bytes behind them, is read without an error.  The mesh has one
triangle per facet, in order, whose corners are vertices in the cells of the corners of the facet.  The vertices are the
corners of the facets, in order, those in a cell that occurred before left out. -/
theorem C45_facets (ctx : Ctx) (hctx : ∀ n, ctx n = false) (header : Str) (hh : header.length = 80)
    (fs : List Spec.Facet) (hn : fs.length < 2 ^ 32)
    (hv : (Spec.firsts cellOf (Spec.points fs)).length ≤ 2 ^ 32) (rest : Str) (e : Bool) :
    let r := binaryDecode ctx checkEveryFaces ⟨Spec.binaryFile header fs ++ rest, e⟩
    r.2 = none ∧
    List.Forall₂ (Spec.HasCorners r.1.mb.vertices) (Spec.corners fs) r.1.tris ∧
    r.1.mb.vertices = Spec.firsts cellOf (Spec.points fs) := by
  intro r
  have hr : r = _ := binaryDecode_file ctx (by decide : 0 < checkEveryFaces) header fs hh hn rest e
  have hold := holds_faces fs holds_new
  rw [List.nil_append] at hold
  rw [hr]
  refine ⟨by simp [hctx], ?_⟩
  dsimp only
  obtain ⟨h1, h2⟩ := holds_end hold (by simp) hv
  rw [triples_points] at h2
  exact ⟨h2, h1⟩

/-- The streams that are read without an error are the binary STL files, possibly followed by other bytes. -/
theorem C45_language (ctx : Ctx) (hctx : ∀ n, ctx n = false) (i : Input) :
    (binaryDecode ctx checkEveryFaces i).2 = none ↔
      ∃ header fs rest, header.length = 80 ∧ fs.length < 2 ^ 32 ∧ i.data = Spec.binaryFile header fs ++ rest := by
  constructor
  · intro h
    obtain ⟨h1, h2⟩ := binaryDecode_length ctx _ i h
    obtain ⟨u, r, hr, hlen⟩ := take4 (i.data.drop 80) (by rw [List.length_drop]; omega)
    have hdata : i.data = i.data.take 80 ++ Spec.bytesLE u ++ r := by
      rw [List.append_assoc, ← hr, List.take_append_drop]
    have h80 : (i.data.take 80).length = 80 := by rw [List.length_take]; omega
    have hu : le32 (i.data.take 84) 80 = u := by
      rw [hdata, List.take_left' (by simp [h80, bytesLE_length])]
      have := le32_bytes u (i.data.take 80) []
      rwa [List.append_nil, h80] at this
    rw [hu] at h2
    obtain ⟨fs, rest, hn, rfl⟩ := takeFacets u.toNat r (by rw [hlen, List.length_drop]; omega)
    refine ⟨i.data.take 80, fs, rest, h80, by rw [hn]; exact u.toNat_lt, ?_⟩
    rw [Spec.binaryFile, hn, UInt32.ofNat_toNat]
    simpa using hdata
  · rintro ⟨header, fs, rest, hh, hn, hd⟩
    have := binaryDecode_file ctx (by decide : 0 < checkEveryFaces) header fs hh hn rest i.eof
    rw [← hd] at this
    rw [this]
    simp [hctx]

/-- A file cut before its end is an error, whatever the context. -/
theorem C45_truncated (ctx : Ctx) (header : Str) (hh : header.length = 80) (fs : List Spec.Facet)
    (hn : fs.length < 2 ^ 32) (cut rest : Str) (hcut : Spec.binaryFile header fs = cut ++ rest) (hrest : rest ≠ [])
    (e : Bool) : (binaryDecode ctx checkEveryFaces ⟨cut, e⟩).2 ≠ none := by
  intro h
  obtain ⟨h1, h2⟩ := binaryDecode_length ctx _ _ h
  dsimp only at h1 h2
  have hflat := facets_length fs
  have htake : cut.take 84 = header ++ Spec.bytesLE (UInt32.ofNat fs.length) := by
    have : (cut ++ rest).take 84 = cut.take 84 := by rw [List.take_append_of_le_length h1]
    rw [← this, ← hcut, Spec.binaryFile, List.take_left' (by simp [hh, bytesLE_length])]
  rw [htake] at h2
  have hle := le32_bytes (UInt32.ofNat fs.length) header []
  rw [List.append_nil, hh] at hle
  rw [hle, UInt32.toNat_ofNat', Nat.mod_eq_of_lt hn] at h2
  have hlen := congrArg List.length hcut
  have : rest.length ≠ 0 := by simpa using hrest
  simp only [Spec.binaryFile, List.length_append, bytesLE_length, hh, hflat] at hlen
  omega

/- Two facets with a common edge; the second one has a corner less than a micron away from one of the first. -/
section
/-- The bits of 0, 1, 2 and of the float just above 1 + 2⁻²²: 1.0000002. -/
def exFacets : List Spec.Facet :=
  [⟨0, 0, 0, ⟨0, 0, 0⟩, ⟨0x3f800000, 0, 0⟩, ⟨0, 0x3f800000, 0⟩, 0, 0⟩,
   ⟨0, 0, 0, ⟨0, 0x3f800000, 0⟩, ⟨0x3f800002, 0, 0⟩, ⟨0x40000000, 0x40000000, 0⟩, 0, 0⟩]

example : let r := binaryDecode (fun _ => false) checkEveryFaces ⟨Spec.binaryFile (List.replicate 80 0) exFacets, true⟩
    r.2 = none ∧ r.1.tris.map (fun t => (t.v1, t.v2, t.v3)) = [(0, 1, 2), (2, 1, 3)] ∧ r.1.mb.vertices.length = 4 := by
  decide +kernel
end

end Go3mf
