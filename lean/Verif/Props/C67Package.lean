import Verif.Props.C64
import Verif.Props.C67

/-!
# C67: from the STL file to the package and back

The whole way: the facets are imported, the model is saved as a package, the package is read, and the model that is read is
accepted and has the facets.
-/

namespace Go3mf
open Spec Stl

/-! ## What the import leaves as it is -/

variable {m m' : Model} {vs : List Point3D} {ts : List Triangle}

/-- The new object uses no file. -/
theorem uses_imported (h : Imported m m' (plainMesh vs ts)) (l : Str × Str) :
    Uses m'.resources m'.any l ↔ Uses m.resources m.any l := by
  rw [imported_grown h]
  simp only [Uses, grown, List.mem_append, List.mem_singleton, or_and_right, exists_or, exists_eq_left, importedObject]
  simp [Object.zero, plainMesh, Mesh.zero]

theorem leads_imported (h : Imported m m' (plainMesh vs ts)) (p : Str) : Leads m' p ↔ Leads m p := by
  have hu := uses_imported h
  rw [imported_grown h] at hu ⊢
  simp only [Leads, PartLink, PkgLink]
  have e : ∀ l, Uses (grown m (importedObject m (plainMesh vs ts))).resources (grown m (importedObject m (plainMesh vs ts))).any l ↔
    Uses m.resources m.any l := hu
  simp only [e]
  rfl

theorem packed_imported (h : Imported m m' (plainMesh vs ts)) {env : Env} {o : Opc} (hp : Packed env o m) : Packed env o m' := by
  have hl := leads_imported h
  rw [imported_grown h] at hl ⊢
  exact ⟨hp.root, hp.attachments, hp.childs, hp.once, hp.pkgTypes, hp.rootTypes, hp.childTypes,
    fun p hlp => hp.targets p ((hl p).1 hlp)⟩

theorem stable_zero : Stable 3 .zero := stable_of_survives (prec := 3) (by decide +kernel)

theorem stable_imported (h : Imported m m' (plainMesh vs ts)) {prec : Int} (hs : StableModel prec m) : StableModel prec m' := by
  rw [imported_grown h]
  refine ⟨⟨hs.resources.heights, ?_⟩, hs.childs, ?_⟩
  · intro o ho
    rcases List.mem_append.1 ho with ho | ho
    · exact hs.resources.objects o ho
    · rw [List.mem_singleton.1 ho]
      refine ⟨?_, ?_⟩
      · rintro mesh ⟨⟩ b ⟨⟩
      · rintro cs ⟨⟩
  · intro i hi
    rcases List.mem_append.1 hi with hi | hi
    · exact hs.items i hi
    · rw [List.mem_singleton.1 hi]
      exact ⟨stable_zero, stable_zero, stable_zero, stable_zero, stable_zero⟩

theorem corners_points (fs : List Facet) : ∀ x ∈ corners fs, ∀ p ∈ [x.1, x.2.1, x.2.2], p ∈ points fs := by
  intro x hx p hp
  obtain ⟨f, hf, rfl⟩ := List.mem_map.1 hx
  exact List.mem_flatten.2 ⟨_, List.mem_map.2 ⟨f, hf, rfl⟩, hp⟩

/-! ## The whole way -/

/-- **C67**: a model with an imported mesh that is accepted is still accepted when it is saved as a package and read again, and
the last object of its root part has a triangle for every facet, in the same order, whose corners are where they were, up to the
decimals that are written, the size of the cells and the precision of float32. -/
theorem C67_package_partial (c : PkgCfg) (o : Opc) (prec : Int) (m m' : Model) (order1 : List Str)
    (order2 : List (Str × ChildModel)) (pk : OutPkg) (ip : InPkg) (ho : o.Distinct) (hp : Packed c.env o m)
    (hw : Writable c.env m) (hk : ModelOk prec m)
    (hc : ∀ x ∈ m.childs, ChildWritable c.env m.extensions x.2 ∧ ChildOk prec x.2)
    (hs : StableModel prec m) (hpart : ∀ p, Leads m p → PartName p)
    (ps : List Point3D) (cs : List (Point3D × Point3D × Point3D)) (ts : List Triangle)
    (hts : List.Forall₂ (HasCorners (firsts cellOf ps)) cs ts) (h : Imported m m' (plainMesh (firsts cellOf ps) ts))
    (B : ℚ) (hB : B ≤ 2147) (hps : ∀ p ∈ ps, Bounded B p) (hcs : ∀ x ∈ cs, ∀ p ∈ [x.1, x.2.1, x.2.2], p ∈ ps)
    (hacc : m'.Accepts c.env)
    (h1 : order1.Perm (m.childs.map (·.1))) (h2 : order2.Perm m.childs)
    (he : encodePkg o prec m' order1 order2 = some pk) (hr : Reopened pk ip) :
    (∀ m'' r, DecodesBg c o ip .zero m'' r → r = .root .ok ∧ m''.Accepts c.env ∧
      ∃ objs ob mesh, m''.resources.objects = objs ++ [ob] ∧ objs.length = m.resources.objects.length ∧
        ob.id = m.resources.unusedID ∧ ob.mesh = some mesh ∧
        List.Forall₂ (CloseCorners (1 / 10 ^ prec.toNat + 1 / 10 ^ 6 + B / 2 ^ 23) mesh.vertices) cs mesh.triangles) ∧
    ∃ m'', DecodesBg c o ip .zero m'' (.root .ok) := by
  obtain ⟨hw', hk'⟩ := C67_writable c.env prec m m' _ cs ts hts h hw hk
  have hch : m'.childs = m.childs := by rw [imported_grown h]; rfl
  have hex : m'.extensions = m.extensions := by rw [imported_grown h]; rfl
  have hc' : ∀ x ∈ m'.childs, ChildWritable c.env m'.extensions x.2 ∧ ChildOk prec x.2 := by rw [hch, hex]; exact hc
  rw [← hch] at h1 h2
  have hp' := packed_imported h hp
  obtain ⟨a1, a2⟩ := C55_package_partial c o prec m' order1 order2 pk ip ho hp' hw' hk' hc' h1 h2 he hr
  obtain ⟨b1, -⟩ := C64_package c o prec m' order1 order2 pk ip ho hp' hw' hk' hc' h1 h2 he hr (stable_imported h hs)
    (fun p hl => hpart p ((leads_imported h p).1 hl)) hacc
  refine ⟨fun m'' r hd => ?_, a2⟩
  obtain ⟨g1, g2⟩ := a1 m'' r hd
  exact ⟨g1, (b1 m'' r hd).2, near_imported hts h g2.model hB hps hcs⟩

/-- **C67**, from the bytes of a binary file to the model that is read from the package. -/
theorem C67_file_partial (c : PkgCfg) (o : Opc) (prec : Int) (ctx : Ctx) (hctx : ∀ n, ctx n = false) (m : Model)
    (ho : o.Distinct) (hp : Packed c.env o m) (hw : Writable c.env m) (hk : ModelOk prec m)
    (hc : ∀ x ∈ m.childs, ChildWritable c.env m.extensions x.2 ∧ ChildOk prec x.2)
    (hs : StableModel prec m) (hpart : ∀ p, Leads m p → PartName p)
    (hwf : m.WF) (hacc : m.Accepts c.env) (hprod : ¬ Active c.env m .production) (hsl : SlicesInRoot c.env m)
    (hpath : ∀ c, ([], c) ∉ m.childs) (h0 : ∀ a ∈ m.resources.assets, a.identify ≠ 0)
    (hlen : m.resources.assets.length + m.resources.objects.length < 2 ^ 32 - 1)
    (header : Str) (hh : header.length = 80) (fs : List Facet) (hn : fs.length < 2 ^ 32)
    (hv : (firsts cellOf (points fs)).length < 2 ^ 32) (hl : 300 ≤ (binaryFile header fs).length)
    (hb : (∀ b ∈ header.take 5, b < 128) ∧ ¬ StartsSolid header)
    (B : ℚ) (hB : B ≤ 2147) (hps : ∀ p ∈ points fs, Bounded B p) (hsound : SoundFacets (firsts cellOf (points fs)) (corners fs)) :
    ∃ m', decode ctx ⟨binaryFile header fs, true⟩ m = some (m', none) ∧ m'.Accepts c.env ∧
      ∀ order1 order2 pk ip, order1.Perm (m.childs.map (·.1)) → order2.Perm m.childs →
        encodePkg o prec m' order1 order2 = some pk → Reopened pk ip →
        (∀ m'' r, DecodesBg c o ip .zero m'' r → r = .root .ok ∧ m''.Accepts c.env ∧
          ∃ objs ob mesh, m''.resources.objects = objs ++ [ob] ∧ objs.length = m.resources.objects.length ∧
            ob.id = m.resources.unusedID ∧ ob.mesh = some mesh ∧
            List.Forall₂ (CloseCorners (1 / 10 ^ prec.toNat + 1 / 10 ^ 6 + B / 2 ^ 23) mesh.vertices) (corners fs)
              mesh.triangles) ∧
        ∃ m'', DecodesBg c o ip .zero m'' (.root .ok) := by
  obtain ⟨m', ts, h1, h2, h3⟩ := C47_binary_partial ctx hctx m header hh fs hn (by omega) [] true (by simpa using hl) (.inr hb)
  rw [List.append_nil] at h1
  have hacc' := (C67_valid_partial c.env m m' hwf hacc hprod hsl hpath h0 hlen _ hv _ ts h3 h2).2 hsound
  refine ⟨m', h1, hacc', fun order1 order2 pk ip g1 g2 he hr => ?_⟩
  exact C67_package_partial c o prec m m' order1 order2 pk ip ho hp hw hk hc hs hpart _ _ ts h3 h2 B hB hps
    (corners_points fs) hacc' g1 g2 he hr

/-! ## Non-vacuity -/

/- The tetrahedron, imported into the empty model, saved and read. -/
example (mem : Str → Nat → Str → Str) (strict : Bool) : ∃ m' pk m'',
    decode (fun _ => false) ⟨exTetraFile, true⟩ .zero = some (m', none) ∧ encodePkg c50Opc 4 m' [] [] = some pk ∧
      DecodesBg ⟨exEnv, strict, mem⟩ c50Opc (reopen pk) .zero m'' (.root .ok) ∧ m''.Accepts exEnv ∧
      ∃ ob mesh, m''.resources.objects = [ob] ∧ ob.mesh = some mesh ∧
        List.Forall₂ (CloseCorners (1 / 10 ^ 4 + 1 / 10 ^ 6 + 2 / 2 ^ 23) mesh.vertices) (corners exTetra) mesh.triangles := by
  have hno : ∀ p, ¬ Leads .zero p := by
    rintro p ⟨l, rfl, (h | ⟨h, -⟩) | (h | ⟨t, h, -⟩ | ⟨t, h, -⟩ | ⟨t, h, -⟩ | ⟨t, h, -⟩) | ⟨x, h, -⟩⟩
    · cases h
    · exact h rfl
    · cases h
    · cases h
    · cases h
    · cases h
    · cases h
    · cases h
  obtain ⟨m', h1, h2, h3⟩ := C67_file_partial ⟨exEnv, strict, mem⟩ c50Opc 4 (fun _ => false) (fun _ => rfl) .zero
    (fun _ _ _ h => by simpa [c50Opc] using h)
    ⟨c55_absolute _, fun _ _ => c55_absolute _, (by rintro x ⟨⟩), List.nodup_nil, (by rintro x ⟨⟩), (by rintro x ⟨⟩), (by rintro x ⟨⟩),
      fun p h => absurd h (hno p)⟩
    ⟨by rintro x ⟨⟩, by decide, text_nil, text_nil, attrsOk_nil, by rintro g ⟨⟩, by rintro g ⟨⟩, by rintro g ⟨⟩, by rintro g ⟨⟩,
      attrsOk_nil, by rintro g ⟨⟩, attrsOk_nil, by rintro g ⟨⟩⟩
    ⟨by rintro g ⟨⟩, by rintro g ⟨⟩, ⟨by decide, by rintro g ⟨⟩⟩⟩ (by rintro x ⟨⟩)
    ⟨⟨by rintro g ⟨⟩, by rintro g ⟨⟩⟩, by rintro g ⟨⟩, by rintro g ⟨⟩⟩ (fun p h => absurd h (hno p)) (by decide)
    (accepts_of (env := exEnv) 1 (by decide +kernel)) (by rintro ⟨-, e, he, -⟩; cases he) (by rintro ⟨-, e, he, -⟩; cases he)
    (by rintro c ⟨⟩) (by rintro a ⟨⟩) (by decide) (List.replicate 80 32) (by decide) exTetra (by decide) (by decide +kernel)
    (by decide +kernel) ⟨by decide, by unfold StartsSolid; decide⟩ 2 (by norm_num) (by unfold Bounded; decide +kernel)
    ⟨by decide +kernel, by decide, by decide +kernel⟩
  have he : ((decode (fun _ => false) ⟨exTetraFile, true⟩ .zero).bind fun r => encodePkg c50Opc 4 r.1 [] []).isSome = true := by
    decide +kernel
  have h1' : decode (fun _ => false) ⟨exTetraFile, true⟩ .zero = some (m', none) := h1
  rw [h1'] at he
  obtain ⟨pk, hpk⟩ := Option.isSome_iff_exists.1 he
  obtain ⟨g1, m'', g2⟩ := h3 [] [] pk (reopen pk) (.refl _) (.refl _) hpk (reopen_spec pk)
  obtain ⟨-, g3, objs, ob, mesh, g4, g5, -, g6, g7⟩ := g1 m'' _ g2
  rw [List.length_eq_zero_iff.1 g5] at g4
  exact ⟨m', pk, m'', h1, hpk, g2, g3, ob, mesh, g4, g6, g7⟩

end Go3mf
