import Verif.Props.C37

/-!
# C38: `Model.Validate` accepts the conforming core models
-/

namespace Go3mf

theorem objectAt_found {m : Model} (hwf : m.WF) {p : Str} {id : UInt32} {o : Object} (h : Spec.ObjectAt m p id o)
    (hd : ∀ rs, Spec.PartAt m p rs → Spec.DistinctIds rs) (h0 : id ≠ 0) : m.findObject p id = some o := by
  obtain ⟨rs, h1, h2, rfl⟩ := h
  rw [Model.findObject, (partAt_iff m hwf _ _).2 h1]
  exact findObject_of_mem (hd rs h1) h2 h0

theorem partAt_isPart {m : Model} {p : Str} {rs : Resources} (h : Spec.PartAt m p rs) : ∃ q, Spec.IsPart m q rs := by
  rcases h with ⟨-, rfl⟩ | ⟨-, c, hc, rfl⟩
  · exact ⟨_, .root⟩
  · exact ⟨p, .child hc⟩

/-- **C38**: a model without extensions that conforms to the core rules is accepted, if its meshes have fewer than 2^32
vertices (a larger number is truncated, see `C38_large_false`). -/
theorem C38_complete_partial (env : Env) (m : Model) (hwf : m.WF) (hext : m.extensions = [])
    (hsize : ∀ p rs o mesh, Spec.IsPart m p rs → o ∈ rs.objects → o.mesh = some mesh → mesh.vertices.length < 2 ^ 32)
    (h : Spec.Conforming env m) : m.Accepts env := by
  have hd : ∀ p rs, Spec.PartAt m p rs → Spec.DistinctIds rs := fun p rs hp =>
    have ⟨_, hq⟩ := partAt_isPart hp
    h.ids _ _ hq
  have hpart : ∀ p rs, Spec.IsPart m p rs → rs.validate env m 0 p = some [] := by
    intro p rs hp
    have hfound : m.findResources p = some rs := by
      cases hp with
      | root => exact C03_root _ _ (.inr rfl)
      | @child p c hc => exact (C03_child m hwf p (h.childPaths p c hc) _).2 ⟨c, hc, rfl⟩
    have hdis := h.ids p rs hp
    rw [resources_nil]
    refine ⟨hdis, fun a ha => ⟨?_, by simp [extAssetErrs, hext]⟩, fun o ho => ⟨?_, by simp [extObjectErrs, hext]⟩⟩
    · rintro r rfl
      exact (base_nil r).2 (h.bases p rs r hp ha)
    · obtain ⟨a1, a2, a3⟩ := h.objects p rs o hp ho
      rw [validateCore_nil, hfound, Option.getD_some]
      refine ⟨a1, fun ⟨b1, b2⟩ => a2 b1 b2, ?_⟩
      rcases a3 with ⟨mesh, b1, b2, b3⟩ | ⟨cs, b1, b2, b3⟩
      · rw [b1, b2]
        refine ⟨by simp, fun mesh' hm => ?_, by simp⟩
        cases hm
        have hp0 : o.pid ≠ 0 → propOk rs o.pid [o.pindex] := fun h0 =>
          propOk_of_property hdis h0 (by simp) (by simpa using b3.property h0)
        refine ⟨hp0, (validateMesh_nil rs o mesh hp0).2 ⟨fun ht => ⟨b3.vertices ht, ?_⟩, fun t ht => ?_⟩⟩
        · rintro ⟨c1, c2⟩
          rcases b3.triangles ht with c3 | c3
          · omega
          · exact c3 (List.length_eq_zero_iff.1 c2)
        · obtain ⟨c1, c2, c3, c4, c5, c6⟩ := b3.triangle t ht
          have hlt : ∀ v : UInt32, v.toNat < mesh.vertices.length → v < UInt32.ofNat mesh.vertices.length := by
            intro v hv
            rw [UInt32.lt_iff_toNat_lt, UInt32.toNat_ofNat', Nat.mod_eq_of_lt (hsize p rs o mesh hp ho b1)]
            exact hv
          refine ⟨⟨c1, c2, c3⟩, ⟨hlt _ c4, hlt _ c5, hlt _ c6⟩, fun h0 => ?_⟩
          obtain ⟨d1, d2, d3⟩ := b3.properties t ht h0
          refine propOk_of_property hdis h0 (by simp) ?_
          intro i hi
          simp only [List.mem_cons, List.not_mem_nil, or_false] at hi
          rcases hi with rfl | rfl | rfl
          · exact d1
          · exact d2
          · exact d3
      · rw [b1, b2]
        refine ⟨by simp, by simp, fun cs' hcs _ => ?_⟩
        cases hcs
        refine ⟨b3.pid, (validateComponents_nil m p o _).2 fun c hc => ⟨b3.id c hc, ?_⟩⟩
        obtain ⟨obj, hobj⟩ := b3.resolves c hc
        rw [componentPart_eq]
        refine ⟨obj, objectAt_found hwf hobj (hd _) (b3.id c hc), ?_⟩
        rintro ⟨e1, e2⟩
        obtain ⟨_, -, -, e3⟩ := hobj
        exact b3.notSelf c hc ⟨e3 ▸ e1, e2⟩
  rw [accepts_iff env m hwf]
  refine ⟨(C40_accepts _ _ _ _).2 h.rootRels, by simp [Model.validateNamespaces, hext], fun p c hc => ⟨?_, ?_⟩,
    (C40_accepts _ _ _ _).2 h.rels, (C41_accepts _ _).2 h.metadata, by simp [extModelErrs, hext],
    ⟨0, fun p c hc => hpart p _ (.child hc), hpart _ _ .root⟩, ?_⟩
  · rintro rfl
    exact h.childPaths _ c hc (.inr rfl)
  · exact (C40_accepts _ _ _ _).2 (h.childRels p c hc)
  · rw [build_nil]
    intro it hit
    obtain ⟨a1, ⟨o, a2, a3⟩, a4⟩ := h.items it hit
    rw [item_nil]
    exact ⟨a1, ⟨o, objectAt_found hwf a2 (hd _) a1, a3⟩, (C41_accepts _ _).2 a4⟩

/-- A part of a conforming model, for a model without child models and relationships whose part has one object. -/
theorem conforming_single (env : Env) (o : Object) (it : Item) (hit : it.objectPath = []) (hid : it.objectID = o.id)
    (hmd : it.metadata.metadata = []) (ht : o.type ≠ .other)
    (h : ∀ m p, Spec.ObjectOk m p { Resources.zero with objects := [o] } o) :
    Spec.Conforming env { Model.zero with
      resources := { Resources.zero with objects := [o] }, build := { Build.zero with items := [it] } } := by
  have hp : ∀ p rs, Spec.IsPart { Model.zero with
      resources := { Resources.zero with objects := [o] }, build := { Build.zero with items := [it] } } p rs →
      rs = { Resources.zero with objects := [o] } := by
    intro p rs h
    cases h with
    | root => rfl
    | child h => cases h
  refine ⟨?_, ?_, ?_, ?_, ?_, ?_, ?_, ?_, ?_⟩
  · intro i r h; cases h
  · intro i r h; cases h
  · intro p c h; cases h
  · intro p c h; cases h
  · intro i r h; cases h
  · intro p rs h
    rw [hp p rs h]
    simp only [Spec.DistinctIds, Resources.zero, List.map_nil, List.nil_append, List.map_cons, List.filter_cons, List.filter_nil]
    split <;> simp
  · intro p rs r h hr
    rw [hp p rs h] at hr
    cases hr
  · intro p rs ob h' hr
    rw [hp p rs h'] at hr ⊢
    rw [List.mem_singleton.1 hr]
    exact h _ _
  · intro i hi
    rw [List.mem_singleton.1 hi]
    refine ⟨?_, ⟨o, ⟨_, .inl ⟨.inl hit, rfl⟩, List.mem_singleton.2 rfl, hid.symm⟩, ht⟩, ?_⟩
    · rw [hid]; exact (h Model.zero []).id
    · rw [hmd]; intro i r h; cases h

/-- **C38** fails for a mesh of 2^32 vertices: their number is truncated to 0, and every triangle is reported. -/
theorem C38_large_false : ∃ (env : Env) (m : Model), m.WF ∧ m.extensions = [] ∧ Spec.Conforming env m ∧ ¬ m.Accepts env := by
  let t : Triangle := ⟨0, 1, 2, 0, 0, 0, 0, []⟩
  let mesh : Mesh := { Mesh.zero with
    vertices := List.replicate (2 ^ 32) ⟨.zero, .zero, .zero⟩, triangles := [t, t, t, t] }
  have hl : mesh.vertices.length = 2 ^ 32 := List.length_replicate
  let o : Object := { Object.zero with id := 1, mesh := some mesh }
  let m : Model := { Model.zero with
    resources := { Resources.zero with objects := [o] }, build := { Build.zero with items := [{ Item.zero with objectID := 1 }] } }
  have hwf : m.WF := List.nodup_nil
  refine ⟨.ascii true true true true, m, hwf, rfl, ?_, ?_⟩
  · refine conforming_single _ _ _ rfl rfl rfl (by decide) fun m p => ⟨by decide, fun h => absurd rfl h, .inl ⟨mesh, rfl, rfl, ?_⟩⟩
    refine ⟨fun h => absurd rfl h, fun _ => by rw [hl]; decide, fun _ => .inl (le_refl 4), fun t' ht => ?_, fun t' ht h0 => ?_⟩
    · have : t' = t := by simpa [mesh] using ht
      subst this
      unfold Spec.TriangleOk
      rw [hl]
      decide
    · have : t' = t := by simpa [mesh] using ht
      subst this
      exact absurd rfl h0
  · intro h
    have h1 := isPart_object hwf h (p := defaultModelPath) (rs := { Resources.zero with objects := [o] }) .root (List.mem_singleton.2 rfl)
    obtain ⟨h2, h3⟩ := ((validateCore_nil _ _ _).1 h1).2.2.2.1 mesh rfl
    have h4 := (((validateMesh_nil _ o mesh h2).1 h3).2 t (by simp [mesh])).2.1.1
    rw [hl] at h4
    exact absurd h4 (by decide)

/- A tetrahedron is conforming. -/
example : Spec.Conforming (.ascii true true true true) { Model.zero with
    resources := { Resources.zero with objects := [{ Object.zero with id := 1, mesh := some { Mesh.zero with
        vertices := [⟨.zero, .zero, .zero⟩, ⟨.one, .zero, .zero⟩, ⟨.zero, .one, .zero⟩, ⟨.zero, .zero, .one⟩]
        triangles := [⟨0, 1, 2, 0, 0, 0, 0, []⟩, ⟨0, 1, 3, 0, 0, 0, 0, []⟩, ⟨0, 2, 3, 0, 0, 0, 0, []⟩, ⟨1, 2, 3, 0, 0, 0, 0, []⟩] } }] },
    build := { Build.zero with items := [{ Item.zero with objectID := 1 }] } } := by
  refine conforming_single _ _ _ rfl rfl rfl (by decide) fun m p => ⟨by decide, fun h => absurd rfl h, .inl ⟨_, rfl, rfl, ?_⟩⟩
  refine ⟨fun h => absurd rfl h, fun _ => by simp, fun _ => .inl (by simp), fun t ht => ?_, fun t ht h0 => ?_⟩
  · unfold Spec.TriangleOk
    revert t
    decide
  · exfalso
    revert h0
    revert t
    decide

end Go3mf
