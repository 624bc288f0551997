import Verif.Props.C100
import Verif.Props.C74
import Verif.Props.C94Package

/-!
# C100 for packages

A package some of whose model parts are cut: if it is read without an error, then no part has lost anything but text, except for
parts that have lost everything.
-/

namespace Go3mf
open Spec

/-- **C100** (packages): the model parts of a package, each with one root element, are cut, some of them or all, in any places.  If
what is left is read without an error, however the goroutines are scheduled, then the events of each part are the ones of the whole
part, up to text at the end, unless the part has no element left.  Missing: such a part should be an error (`C100_empty_false`). -/
theorem C100_package_partial (c : PkgCfg) (o : Opc) (pk : InPkg) (g : InFile → InFile) (hg : ContentOnly o pk g) (m m' : Model)
    (h : DecodesBg c o (rewriteParts g pk) m m' (.root .ok))
    (hcut : ∀ m1 root fs, processOPC c.env o pk m = some (m1, root, fs) → ∀ f ∈ root :: fs, ∃ data t n,
      f.content = some (data ++ t, .eof) ∧ (g f).content = some (data, .eof) ∧
      SingleRoot n (lex .eof (.new (data ++ t))).1 ∧ (lex .eof (.new (data ++ t))).2 = .eof) :
    ∃ m1 root fs, processOPC c.env o pk m = some (m1, root, fs) ∧ ∀ f ∈ root :: fs, ∃ full cut,
      f.content = some (full, .eof) ∧ (g f).content = some (cut, .eof) ∧ cut <+: full ∧
      (TextOnly (lex .eof (.new cut)).1 ∨ ∃ evs x y, TextOnly x ∧ TextOnly y ∧
        lex .eof (.new cut) = (evs ++ x, .eof) ∧ lex .eof (.new full) = (evs ++ y, .eof)) := by
  obtain ⟨m1, root', fs', h1, h2⟩ := C74_background c o _ m m' h
  rw [rewrite_opc hg] at h1
  cases hp : processOPC c.env o pk m with
  | none => rw [hp] at h1; cases h1
  | some p =>
    obtain ⟨m0, root, fs⟩ := p
    rw [hp] at h1
    simp only [Option.map_some, Option.some.injEq, Prod.mk.injEq] at h1
    obtain ⟨rfl, rfl, rfl⟩ := h1
    refine ⟨_, _, _, rfl, fun f hf => ?_⟩
    obtain ⟨data, t, n, e1, e2, e3, e4⟩ := hcut _ _ _ hp f hf
    obtain ⟨data', is, e5, -, e6, -⟩ := h2 (g f) (by
      rcases List.mem_cons.1 hf with rfl | hf
      · exact List.mem_cons_self
      · exact List.mem_cons_of_mem _ (List.mem_map_of_mem hf))
    rw [e2] at e5
    simp only [Option.some.injEq, Prod.mk.injEq, and_true] at e5
    subst e5
    refine ⟨_, _, e1, e2, List.prefix_append _ _, ?_⟩
    rcases cut_events e3 e4 e6 with h | ⟨pre, as, body, x, y, -, hx, hy, -, -, h3, h4⟩
    · exact .inl h
    · refine .inr ⟨pre ++ some (.start n as) :: (body ++ [some (.stop n)]), x, y, hx, hy, ?_, ?_⟩
      · exact Prod.ext (by rw [h3]; simp) e6
      · exact Prod.ext (by rw [h4]; simp) e4

/-! ## Non-vacuity -/

namespace Spec

/-- A package with one part. -/
def cutPkg : InPkg :=
  ⟨[⟨b!"/3D/3dmodel.model", relModel, []⟩], [⟨b!"/3D/3dmodel.model", contentTypeModel, [], some (cutDoc ++ b!"\n", .eof)⟩]⟩

/-- Its last byte is cut off. -/
def cutPart (f : InFile) : InFile :=
  { f with content := if f.content = some (cutDoc ++ b!"\n", .eof) then some (cutDoc, .eof) else f.content }

end Spec

theorem cutPart_only : ContentOnly c49Opc cutPkg cutPart where
  name _ := rfl
  type _ := rfl
  rels _ := rfl
  attached := by
    rintro f ⟨source, r, ht, hr, hf⟩
    have h0 : r ∈ cutPkg.rels ++ cutPkg.files.flatMap (·.rels) := by
      rcases hr with h | ⟨p, hp, h⟩
      · exact List.mem_append_left _ h
      · exact List.mem_append_right _ (List.mem_flatMap.mpr ⟨p, hp, h⟩)
    have h1 : ∀ r ∈ cutPkg.rels ++ cutPkg.files.flatMap (·.rels), r.type = relModel := by decide +kernel
    exact absurd (h1 r h0) ht

set_option maxRecDepth 8000 in
/-- The package meets the conditions, and what is left of it is read. -/
example : (∃ m', DecodesBg c48Cfg c49Opc (rewriteParts cutPart cutPkg) .zero m' (.root .ok)) ∧
    ∀ m1 root fs, processOPC c48Cfg.env c49Opc cutPkg .zero = some (m1, root, fs) → ∀ f ∈ root :: fs, ∃ data t n,
      f.content = some (data ++ t, .eof) ∧ (cutPart f).content = some (data, .eof) ∧
      SingleRoot n (lex .eof (.new (data ++ t))).1 ∧ (lex .eof (.new (data ++ t))).2 = .eof := by
  constructor
  · obtain ⟨m', h1, -⟩ := decodes_of_c74 (pk := rewriteParts cutPart cutPkg) (x := ([], [], [])) (by decide +kernel)
    exact ⟨m', h1⟩
  · intro m1 root fs h f hf
    have h0 : (processOPC c48Cfg.env c49Opc cutPkg .zero).map (fun p => p.2.1 :: p.2.2) = some cutPkg.files := by decide +kernel
    rw [h] at h0
    simp only [Option.map_some, Option.some.injEq] at h0
    rw [h0] at hf
    simp only [cutPkg, List.mem_singleton] at hf
    subst hf
    exact ⟨cutDoc, b!"\n", modelName, rfl, by decide +kernel, cutDoc_root.1, cutDoc_root.2.1⟩

end Go3mf
