import Verif.Props.C46

/-!
# C100, for ASCII STL files

A file that is cut at the end of a line gives the first vertices and the first triangles of the whole one.  There is no
error, and inside of a line not even this holds.
-/

namespace Go3mf
namespace Stl

theorem addVertex_prefix (m : Mesh) (p : Point3D) : m.mb.vertices <+: (m.addVertex p).1.mb.vertices ∧ (m.addVertex p).1.tris = m.tris := by
  refine ⟨?_, rfl⟩
  simp only [Mesh.addVertex, MeshBuilder.addVertex]
  cases (if m.mb.conn then treeFind m.mb.tree (cellOf p) else none) with
  | some i => exact List.prefix_rfl
  | none => exact List.prefix_append _ _

theorem asciiLine_prefix (ctx : Ctx) (every : Nat) (s : AsciiState) (l : Str) :
    s.mesh.mb.vertices <+: (asciiLine ctx every s l).1.mesh.mb.vertices ∧ s.mesh.tris <+: (asciiLine ctx every s l).1.mesh.tris := by
  unfold asciiLine
  split
  · next a b c _ =>
    split
    · have h := addVertex_prefix s.mesh ⟨parseFloatVal a, parseFloatVal b, parseFloatVal c⟩
      simp only
      split
      · split
        · exact ⟨h.1, by simp only [Mesh.addTriangle]; rw [h.2]; exact List.prefix_append _ _⟩
        · exact ⟨h.1, by simp only [Mesh.addTriangle]; rw [h.2]; exact List.prefix_append _ _⟩
      · exact ⟨h.1, by rw [h.2]; exact List.prefix_rfl⟩
    · exact ⟨List.prefix_rfl, List.prefix_rfl⟩
  · exact ⟨List.prefix_rfl, List.prefix_rfl⟩

theorem asciiLoop_prefix (ctx : Ctx) (every : Nat) (eof : Bool) : ∀ (ls : List Str) (s : AsciiState),
    s.mesh.mb.vertices <+: (asciiLoop ctx every eof ls s).1.mb.vertices ∧ s.mesh.tris <+: (asciiLoop ctx every eof ls s).1.tris
  | [], s => ⟨List.prefix_rfl, List.prefix_rfl⟩
  | l :: ls, s => by
    rw [asciiLoop]
    split
    · exact ⟨List.prefix_rfl, List.prefix_rfl⟩
    · have h := asciiLine_prefix ctx every s (dropCR l)
      split
      · next h1 => rw [h1] at h; exact h
      · next s' h1 =>
        rw [h1] at h
        have h2 := asciiLoop_prefix ctx every eof ls s'
        exact ⟨h.1.trans h2.1, h.2.trans h2.2⟩

theorem asciiLoop_cut (ctx : Ctx) (every : Nat) (more : List Str) : ∀ (ls : List Str) (s : AsciiState),
    (asciiLoop ctx every true (ls ++ more) s).2 = none → (asciiLoop ctx every true ls s).2 = none ∧
    (asciiLoop ctx every true ls s).1.mb.vertices <+: (asciiLoop ctx every true (ls ++ more) s).1.mb.vertices ∧
    (asciiLoop ctx every true ls s).1.tris <+: (asciiLoop ctx every true (ls ++ more) s).1.tris
  | [], s, _ => ⟨rfl, asciiLoop_prefix ctx every true more s⟩
  | l :: ls, s, h => by
    rw [List.cons_append, asciiLoop] at h ⊢
    rw [asciiLoop]
    split at h
    · cases h
    · next hl =>
      rw [if_neg hl, if_neg hl]
      split at h
      · cases h
      · next s' h1 =>
        exact asciiLoop_cut ctx every more ls s' h

end Stl

/-- **C100**, for ASCII STL files that are cut at the end of a line: if the whole file is read, what is left is also read,
and gives the first vertices and the first triangles.  Missing: it should be an error (`C100_ascii_false`), and a file that
is cut inside of a line can give a vertex that is not in the whole file (`C100_number_false`). -/
theorem C100_ascii_partial (ctx : Stl.Ctx) (every : Nat) (ls more : List Str) (last : Str)
    (hls : ∀ l ∈ ls ++ more ++ [last], 10 ∉ l) :
    let full := Stl.asciiDecode ctx every ⟨Spec.textOf (ls ++ more) last, true⟩
    let cut := Stl.asciiDecode ctx every ⟨Spec.textOf ls [], true⟩
    full.2 = none → cut.2 = none ∧ cut.1.mb.vertices <+: full.1.mb.vertices ∧ cut.1.tris <+: full.1.tris := by
  intro full cut h
  have e1 : Stl.lines (Spec.textOf ls []) = ls := by
    rw [Stl.lines_text ls [] (fun l hl => hls l (by simp [hl])) (by simp)]
    simp
  have e2 := Stl.lines_text (ls ++ more) last (fun l hl => hls l (List.mem_append_left _ hl)) (hls last (by simp))
  simp only [full, cut, Stl.asciiDecode] at h ⊢
  rw [e2, List.append_assoc] at h
  rw [e1, e2, List.append_assoc]
  exact Stl.asciiLoop_cut ctx every _ ls _ h

/-- **C100**: a file that is cut inside of a number is read without an error and with another vertex. -/
theorem C100_number_false :
    let r (s : Str) := Stl.asciiDecode (fun _ => false) Stl.checkEveryFaces ⟨s, true⟩
    let s : Str := b!"vertex 1 0 0\nvertex 0 1 0\nvertex 0 0 1"
    ((r s).2 = none ∧ (r s).1.tris.length = 1) ∧ ((r (s ++ b!"5\n")).2 = none ∧ (r (s ++ b!"5\n")).1.tris.length = 1) ∧
    (r s).1.mb.vertices ≠ (r (s ++ b!"5\n")).1.mb.vertices := by
  decide +kernel

/-- A file of two facets, cut after the first one. -/
example :
    let full := Stl.asciiDecode (fun _ => false) Stl.checkEveryFaces
      ⟨Spec.textOf ([b!"vertex 1 0 0", b!"vertex 0 1 0", b!"vertex 0 0 1"] ++ [b!"vertex 1 0 0", b!"vertex 0 1 0", b!"vertex 1 1 1"])
        b!"endsolid", true⟩
    let cut := Stl.asciiDecode (fun _ => false) Stl.checkEveryFaces
      ⟨Spec.textOf [b!"vertex 1 0 0", b!"vertex 0 1 0", b!"vertex 0 0 1"] [], true⟩
    full.2 = none ∧ full.1.tris.length = 2 ∧ cut.1.tris.length = 1 ∧ cut.1.mb.vertices.length = 3 := by
  decide +kernel

end Go3mf
