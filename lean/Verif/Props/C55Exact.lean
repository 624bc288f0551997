import Verif.Props.C28Exact
import Verif.Props.C55

/-!
# C55: packages that are written without any loss
-/

namespace Go3mf
open Spec

/-- **C55**: if every number survives the precision, each run of `Decode` gives the content of the root model and the resources of the
child models exactly as they were. -/
theorem C55_exact_partial (c : PkgCfg) (o : Opc) (prec : Int) (m : Model) (order1 : List Str) (order2 : List (Str × ChildModel))
    (pk : OutPkg) (ip : InPkg) (ho : o.Distinct) (hp : Packed c.env o m) (hw : Writable c.env m) (hk : ModelOk prec m)
    (hc : ∀ x ∈ m.childs, ChildWritable c.env m.extensions x.2 ∧ ChildOk prec x.2)
    (h1 : order1.Perm (m.childs.map (·.1))) (h2 : order2.Perm m.childs)
    (he : encodePkg o prec m order1 order2 = some pk) (hr : Reopened pk ip)
    (hx : ExactModel prec m) (hxc : ∀ x ∈ m.childs, ExactResources prec x.2.resources)
    (m' : Model) (r : PkgResult) (hd : DecodesBg c o ip .zero m' r) :
    r = .root .ok ∧
    m' = { m with
      path := m.pathOrDefault
      attachments := m'.attachments
      childs := m'.childs
      rootRelationships := m'.rootRelationships
      relationships := m'.relationships } ∧
    (∀ a, a ∈ m'.attachments ↔ a ∈ m.attachments ∧ Leads m a.path) ∧
    (m'.childs.map (·.1)).Perm (m.childs.map (·.1)) ∧
    ∀ p ch, (p, ch) ∈ m.childs → ∃ ch', (p, ch') ∈ m'.childs ∧ ch'.resources = ch.resources ∧ ch'.any = ch.any := by
  obtain ⟨h3, h4⟩ := (C55_package_partial c o prec m order1 order2 pk ip ho hp hw hk hc h1 h2 he hr).1 m' r hd
  refine ⟨h3, ?_, h4.attachments, h4.paths, ?_⟩
  · have := exact_model h4.model hx
    rwa [h4.path] at this
  · intro p ch hch
    obtain ⟨ch', g1, g2, g3, -⟩ := h4.childs p ch hch
    exact ⟨ch', g1, exact_resources g2 (hxc _ hch), g3⟩

/-- The model of C55 with the property of the object at each triangle. -/
def c55Exact : Model :=
  { c55Model with
    resources := exExact.resources
    childs := [(b!"/c.model", { ChildModel.zero with
      resources := exExact.resources
      relationships := [⟨b!"/u.png", relTexture, b!"r3"⟩] })] }

/-- The conditions hold at the precision −1. -/
example : ExactModel (-1) c55Exact ∧ (∀ x ∈ c55Exact.childs, ExactResources (-1) x.2.resources) ∧ Writable exEnv c55Exact ∧
    ModelOk (-1) c55Exact ∧ (∀ x ∈ c55Exact.childs, ChildWritable exEnv c55Exact.extensions x.2 ∧ ChildOk (-1) x.2) ∧
    (encodePkg c50Opc (-1) c55Exact [b!"/c.model"] c55Exact.childs).isSome = true := by
  have h := shortest_exact (prec := -1) (by decide) exExact_ok
  have hw := exExact_writable
  have hk := exExact_modelOk (-1)
  refine ⟨⟨h.resources, h.items, h.any⟩, ?_, ⟨hw.extensions, hw.distinct, hw.language, text_closed (by decide +kernel), hw.attrs, hw.noXml,
    hw.metadata, hw.assets, hw.objects, hw.resourcesAttrs, hw.items, hw.buildAttrs, hw.any⟩, ⟨hk.assets, hk.objects, hk.any⟩, ?_, by decide +kernel⟩
  · intro x hx
    simp only [c55Exact, List.mem_singleton] at hx
    subst hx
    exact h.resources
  · intro x hx
    simp only [c55Exact, List.mem_singleton] at hx
    subst hx
    refine ⟨⟨hw.assets, ?_, hw.resourcesAttrs, rfl⟩, ⟨hk.assets, hk.objects⟩⟩
    intro o ho
    have ⟨g1, g2, g3, g4, g5, g6, g7, g8⟩ := hw.objects o ho
    refine ⟨g1, g2, g3, ⟨?_, g4.attrs, g4.empty⟩, g5, g6, g7, g8⟩
    intro md hmd
    simp only [exExact, exModel, List.map_cons, List.map_nil, List.mem_cons, List.not_mem_nil, or_false] at ho
    rcases ho with rfl | rfl <;> simp at hmd

end Go3mf
