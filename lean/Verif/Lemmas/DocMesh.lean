import Verif.Lemmas.DocAny

/-!
# Meshes in a document
-/

namespace Go3mf
open Spec

/-- A decoder that does not keep tokens and is not the one of metadata. -/
def Dec.still : Dec → Bool
  | .metadata _ | .unknown _ _ | .unknownAsset _ => false
  | _ => true

theorem quiet_core {cfg : DecCfg} {k : Kind} {d : Dec} {r : Regs} (hd : d.still = true)
    (h : d.hasChild = true → ∀ m, childKind cfg.env k m = none → child cfg r d m = some (r, none)) : Quiet cfg k d r := by
  refine ⟨h, fun t => ?_, fun l e => ?_⟩
  · cases d <;> first | rfl | exact absurd hd (by simp [Dec.still])
  · subst e; exact absurd hd (by simp [Dec.still])

theorem core_leaf {cfg : DecCfg} {kept : Prop} {ck : Kind} {d : Dec} {cn : Name} {r : Regs} {c : List Node}
    (h1 : ck ≠ .metadata) (h2 : ck.isOpen = false) (h3 : elements ck = []) (hd : d.still = true) (h4 : d.hasChild = false)
    (hon : Once cfg.env ck c) (hok : ContentOk cfg.env kept ck cn c) :
    Runs cfg d cn r (treeEvents c) r (contentFaults cfg.env ck [] c) :=
  runs_leaf h1 (childKind_leaf h2 h3) (quiet_core hd fun h => by rw [h4] at h; exact absurd h (by simp)) hok hon

/-- The content of an element that has a list of elements without content. -/
theorem core_list {cfg : DecCfg} {kept : Prop} {k ck : Kind} {d cd : Dec} {n cn : Name} {c : List Node}
    {S : List (List Attr × List Node) → Regs} (hkm : k ≠ .metadata) (ho : k.isOpen = false)
    (hel : elements k = [(cn, ck, .many)]) (hc : d.hasChild = true) (hd : d.still = true)
    (h1 : ck ≠ .metadata) (h2 : ck.isOpen = false) (h3 : elements ck = []) (h4 : cd.hasChild = false) (h5 : cd.still = true)
    (hch : ∀ xs m, child cfg (S xs) d m = some (S xs, if m = cn then some ((xs.length : Int), cd) else none))
    (hst : ∀ xs as c, AttrsFit cfg.env ck as →
      start cfg (S xs) cd as = some (S (xs ++ [(as, c)]), attrFaults cfg.env ck as))
    (hsp : ∀ r, stop r cd = r)
    (hok : ContentOk cfg.env kept k n c) (hon : Once cfg.env k c) :
    Runs cfg d n (S []) (treeEvents c) (S (children cn c)) (contentFaults cfg.env k [] c) := by
  obtain ⟨r', w, rfl⟩ := runs_list (cfg := cfg) (kept := kept) (k := k) (ck := ck) (d := d) (n := n) (cn := cn)
    (I := fun xs r => r = S xs) (c := c) (r := S []) hkm ho hel hc
    (by
      rintro xs _ rfl
      refine quiet_core hd fun _ m hm => ?_
      have : m ≠ cn := by
        rintro rfl
        rw [childKind_one ho hel, if_pos rfl] at hm
        exact absurd hm (by simp)
      rw [hch, if_neg this])
    (by
      rintro xs _ as c rfl ha hon hok
      exact ⟨S xs, cd, S (xs ++ [(as, c)]), S (xs ++ [(as, c)]), by rw [hch, if_pos rfl], hst xs as c ha,
        core_leaf h1 h2 h3 h5 h4 hon hok, hsp _⟩)
    hok hon rfl
  exact w

theorem onlyChild_if (r : Regs) (n : Name) (l : Str) (i : Int) (d : Dec) :
    onlyChild r r n l i d = (r, if n = core l then some (i, d) else none) := by
  unfold onlyChild core
  split <;> rfl

section
variable {cfg : DecCfg} {kept : Prop} {n : Name}

theorem vertices_runs {r : Regs} {M : Mesh} {c : List Node} (hM : r.obj.mesh = some M) (h0 : M.vertices = [])
    (hon : Once cfg.env .vertices c) (hok : ContentOk cfg.env kept .vertices n c) :
    Runs cfg .vertices n r (treeEvents c)
      { r with obj := { r.obj with mesh := some { M with
          vertices := (children (core b!"vertex") c).map fun x => vertexOf x.1 } } }
      (contentFaults cfg.env .vertices [] c) := by
  have := core_list (cfg := cfg) (kept := kept) (k := .vertices) (ck := .vertex) (d := .vertices) (cd := .vertex) (n := n)
    (cn := core b!"vertex") (c := c)
    (S := fun xs => ({ r with obj := { r.obj with mesh := some { M with vertices := xs.map fun x => vertexOf x.1 } } } : Regs))
    (by decide) rfl rfl rfl rfl (by decide) rfl rfl rfl rfl
    (by
      intro xs m
      simp only [child, onlyChild_if, Option.getD_some, List.length_map])
    (by
      intro xs as c ha
      simp only [start, vertex_start ha, Object.modMesh, Option.map_some, List.map_append, List.map_cons, List.map_nil])
    (fun _ => rfl) hok hon
  have e : ({ r with obj := { r.obj with mesh := some { M with vertices := [] } } } : Regs) = r := by rw [← h0, ← hM]
  simpa only [List.map_nil, e] using this

theorem triangles_runs {r : Regs} {M : Mesh} {c : List Node} (hM : r.obj.mesh = some M) (h0 : M.triangles = [])
    (hon : Once cfg.env .triangles c) (hok : ContentOk cfg.env kept .triangles n c) :
    Runs cfg .triangles n r (treeEvents c)
      { r with obj := { r.obj with mesh := some { M with
          triangles := (children (core b!"triangle") c).map fun x => triangleOf cfg.env r.obj.pid r.obj.pindex x.1 } } }
      (contentFaults cfg.env .triangles [] c) := by
  have := core_list (cfg := cfg) (kept := kept) (k := .triangles) (ck := .triangle) (d := .triangles) (cd := .triangle) (n := n)
    (cn := core b!"triangle") (c := c)
    (S := fun xs => ({ r with obj := { r.obj with mesh := some { M with
      triangles := xs.map fun x => triangleOf cfg.env r.obj.pid r.obj.pindex x.1 } } } : Regs))
    (by decide) rfl rfl rfl rfl (by decide) rfl rfl rfl rfl
    (by
      intro xs m
      simp only [child, onlyChild_if, Option.getD_some, List.length_map])
    (by
      intro xs as c ha
      simp only [start, triangle_start ha, Object.modMesh, Option.map_some, List.map_append, List.map_cons, List.map_nil,
        triangleVars_triangle])
    (fun _ => rfl) hok hon
  have e : ({ r with obj := { r.obj with mesh := some { M with triangles := [] } } } : Regs) = r := by rw [← h0, ← hM]
  simpa only [List.map_nil, e] using this

theorem components_runs {r : Regs} {g : AnyAttr} {c : List Node} (hC : r.obj.components = some ⟨[], g⟩)
    (hon : Once cfg.env .components c) (hok : ContentOk cfg.env kept .components n c) :
    Runs cfg .components n r (treeEvents c)
      { r with obj := { r.obj with
          components := some ⟨(children (core b!"component") c).map fun x => componentOf cfg.env x.1, g⟩ } }
      (contentFaults cfg.env .components [] c) := by
  have := core_list (cfg := cfg) (kept := kept) (k := .components) (ck := .component) (d := .components) (cd := .component)
    (n := n) (cn := core b!"component") (c := c)
    (S := fun xs => ({ r with obj := { r.obj with components := some ⟨xs.map fun x => componentOf cfg.env x.1, g⟩ } } : Regs))
    (by decide) rfl rfl rfl rfl (by decide) rfl rfl rfl rfl
    (by
      intro xs m
      simp only [child, onlyChild_if, Option.getD_some, List.length_map])
    (by
      intro xs as c ha
      simp only [start, component_start ha, Object.modComponents, Option.map_some, List.map_append, List.map_cons, List.map_nil])
    (fun _ => rfl) hok hon
  have e : ({ r with obj := { r.obj with components := some ⟨[], g⟩ } } : Regs) = r := by rw [← hC]
  simpa only [List.map_nil, e] using this

theorem baseMaterials_runs {r : Regs} {as : List Attr} {c : List Node} (h0 : r.base = baseMaterialsOf cfg.env (as, []))
    (hon : Once cfg.env .baseMaterials c) (hok : ContentOk cfg.env kept .baseMaterials n c) :
    Runs cfg .baseMaterials n r (treeEvents c) { r with base := baseMaterialsOf cfg.env (as, c) }
      (contentFaults cfg.env .baseMaterials [] c) := by
  have := core_list (cfg := cfg) (kept := kept) (k := .baseMaterials) (ck := .base) (d := .baseMaterials) (cd := .base)
    (n := n) (cn := core b!"base") (c := c)
    (S := fun xs => ({ r with base := { baseMaterialsOf cfg.env (as, []) with materials := xs.map (baseOf cfg.env) } } : Regs))
    (by decide) rfl rfl rfl rfl (by decide) rfl rfl rfl rfl
    (by
      intro xs m
      simp only [child, onlyChild_if, List.length_map])
    (by
      intro xs as' c ha
      simp only [start, base_start ha, Option.map_some, List.map_append, List.map_cons, List.map_nil]
      rfl)
    (fun _ => rfl) hok hon
  have e : ({ r with base := { baseMaterialsOf cfg.env (as, []) with materials := [] } } : Regs) = r := by
    have : ({ baseMaterialsOf cfg.env (as, []) with materials := [] } : BaseMaterials) = r.base := by rw [h0]; rfl
    rw [this]
  simp only [List.map_nil, e] at this
  exact this

end

end Go3mf
