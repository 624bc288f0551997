import Verif.Lemmas.RtMesh

/-!
# Encoded objects, resources and models decoded
-/

namespace Go3mf

section
variable {cfg : DecCfg} {n : Name} {r : Regs} {env : Env} {D : List (Str × Str)} {txt : Prop} {prec : Int}
  {exts : List Extension}

/-! ## Objects -/

/-- The object can be written and read back. -/
structure Object.Dom (env : Env) (D : List (Str × Str)) (txt : Prop) (exts : List Extension) (o : Object) : Prop where
  name : cleanText o.name = o.name
  partNumber : cleanText o.partNumber = o.partNumber
  thumbnail : cleanText o.thumbnail = o.thumbnail
  metadata : o.metadata.Dom env D exts
  mesh : ∀ m, o.mesh = some m → m.Dom env D txt o.pid o.pindex
  components : ∀ c, o.mesh = none → o.components = some c → c.Dom env D
  attrs : AnyDom env D b!"object" o.anyAttr

/-- What an object becomes: the properties are written only with a mesh, and components only without one. -/
def Object.back (prec : Int) (o : Object) : Object :=
  { o with
    mesh := o.mesh.map (Mesh.back prec o.pid o.pindex)
    components := if o.mesh.isSome then none else o.components.map Components.back
    pid := if o.mesh.isSome then o.pid else 0
    pindex := if o.mesh.isSome then o.pindex else 0 }

theorem Object.Dom.attrsDom {o : Object} (h : o.Dom env D txt exts) : AttrsDom D false o.attrs := by
  refine .cons (.plain (by decide +kernel) (plain_formatUint _)) (.append (.append (.append (.append (.append
    (.ite fun _ => .plain (by decide +kernel) (plain_objectType _)) (.ite fun _ => .text (by decide +kernel) h.thumbnail))
    (.ite fun _ => .text (by decide +kernel) h.partNumber)) (.ite fun _ => .text (by decide +kernel) h.name)) ?_) h.attrs.attrs)
  by_cases hm : o.mesh.isSome
  · rw [if_pos hm]
    exact .append (.ite fun _ => .plain (by decide +kernel) (plain_formatUint _))
      (.ite fun _ => .plain (by decide +kernel) (plain_formatUint _))
  · rw [if_neg hm]
    exact .nil

/-- What the attributes of an object say. -/
def Object.head (o : Object) : Object :=
  { o with
    metadata := .zero, mesh := none, components := none
    pid := if o.mesh.isSome then o.pid else 0
    pindex := if o.mesh.isSome then o.pindex else 0 }

theorem object_attrs {o : Object} (h : o.Dom env D txt exts) :
    attrFold (objectAttr env) .zero o.attrs = some (o.head, []) := by
  have ht : newObjectType o.type.str = some o.type := (C21_objectType _ _).2 rfl
  unfold Object.attrs
  rw [attrFold_cons (s' := { Object.zero with id := o.id }) (by
    simp only [objectAttr, attr, if_true, objectCore]
    rw [← attr, uintAttr_format])]
  simp only [List.append_assoc]
  rw [attrFold_if (s' := { Object.zero with id := o.id, type := o.type })
    (fun hc => by
      simp only [objectAttr, attr, if_true, objectCore, ht]
      rfl)
    (fun hc => by
      have : o.type = .model := by simpa using hc
      rw [this]; rfl)]
  rw [attrFold_if (s' := { Object.zero with id := o.id, type := o.type, thumbnail := o.thumbnail })
    (fun hc => rfl)
    (fun hc => by
      have : o.thumbnail = [] := by simpa using hc
      rw [this]; rfl)]
  rw [attrFold_if (s' := { Object.zero with id := o.id, type := o.type, thumbnail := o.thumbnail, partNumber := o.partNumber })
    (fun hc => rfl)
    (fun hc => by
      have : o.partNumber = [] := by simpa using hc
      rw [this]; rfl)]
  rw [attrFold_if (s' := { Object.zero with
      id := o.id, type := o.type, thumbnail := o.thumbnail, partNumber := o.partNumber, name := o.name })
    (fun hc => rfl)
    (fun hc => by
      have : o.name = [] := by simpa using hc
      rw [this]; rfl)]
  have hp : ∀ as, attrFold (objectAttr env) { Object.zero with
      id := o.id, type := o.type, thumbnail := o.thumbnail, partNumber := o.partNumber, name := o.name }
      ((if o.mesh.isSome then
        attrIf (o.pid ≠ 0) b!"pid" (formatUint o.pid) ++ attrIf (o.pindex ≠ 0) b!"pindex" (formatUint o.pindex)
       else []) ++ as) = attrFold (objectAttr env) { o.head with anyAttr := [] } as := by
    intro as
    by_cases hm : o.mesh.isSome
    · rw [if_pos hm, List.append_assoc]
      rw [attrFold_if (s' := { Object.zero with
          id := o.id, type := o.type, thumbnail := o.thumbnail, partNumber := o.partNumber, name := o.name, pid := o.pid })
        (fun hc => by
          simp only [objectAttr, objectCore, uintAttr_format]
          rfl)
        (fun hc => by
          have : o.pid = 0 := by simpa using hc
          rw [this]; rfl)]
      rw [attrFold_if (s' := { Object.zero with
          id := o.id, type := o.type, thumbnail := o.thumbnail, partNumber := o.partNumber, name := o.name, pid := o.pid
          pindex := o.pindex })
        (fun hc => by
          simp only [objectAttr, objectCore, uintAttr_format]
          rfl)
        (fun hc => by
          have : o.pindex = 0 := by simpa using hc
          rw [this]; rfl)]
      simp [Object.head, Object.zero, hm]
    · rw [if_neg hm]
      simp [Object.head, Object.zero, hm]
  rw [hp]
  rw [attrFold_groups (get := Object.anyAttr) (set := fun i x => { i with anyAttr := x }) h.attrs.1 rfl
    (fun s a ha => by simp [objectAttr, ha]) (fun _ _ => rfl) (fun _ _ _ => rfl) (fun _ => rfl)]
  rfl

theorem Object.ops_eq (o : Object) : o.ops prec = .start (coreName b!"object") o.attrs false false ::
    ((if o.metadata.metadata ≠ [] then o.metadata.ops else []) ++ o.shapeOps prec) ++ [.stop (coreName b!"object")] := by
  simp [Object.ops, opStart]

theorem Object.Dom.shape_good {o : Object} (h : o.Dom env D txt exts) : Good D (o.shapeOps prec) := by
  unfold Object.shapeOps
  cases hm : o.mesh with
  | some m => exact (h.mesh m hm).good
  | none =>
    cases hc : o.components with
    | some c => exact (h.components c hm hc).good
    | none => exact .nil

theorem Object.Dom.good {o : Object} (h : o.Dom env D txt exts) : Good D (o.ops prec) := by
  rw [Object.ops_eq]
  refine .elem (nameOK_core (by decide +kernel)) h.attrsDom (.append ?_ h.shape_good)
  by_cases hm : o.metadata.metadata = []
  · rw [if_neg (by simp [hm])]
    exact .nil
  · rw [if_pos hm]
    exact h.metadata.good

theorem Object.Dom.within {o : Object} {rs : Resources} (h : o.Dom cfg.env D txt r.model.extensions)
    (ht : txt → ∀ i t, cfg.mem i t = t) (hr : r.res = some rs) :
    ∃ r', Within cfg .resources n r (rd (o.ops prec)) r' ∧ r'.model = r.model ∧
      r'.res = some { rs with objects := rs.objects ++ [o.back prec] } := by
  -- the metadata group
  have w1 : ∃ v, Within cfg .object ⟨nsCore, b!"object"⟩ { r with obj := o.head }
      (rd (if o.metadata.metadata ≠ [] then o.metadata.ops else []))
      { r with obj := { o.head with metadata := o.metadata }, md := v } := by
    by_cases hm : o.metadata.metadata = []
    · refine ⟨r.md, ?_⟩
      rw [if_neg (by simp [hm])]
      have hz : o.metadata = .zero := by
        have h1 := h.metadata.empty hm
        generalize o.metadata = g at hm h1
        obtain ⟨_, _⟩ := g
        simp only at hm h1
        rw [hm, h1]; rfl
      rw [hz]
      exact Within.nil
    · rw [if_pos hm]
      obtain ⟨v, hv⟩ := MetadataGroup.within (cfg := cfg) (d := .object) (loc := .object) (n := ⟨nsCore, b!"object"⟩)
        (r := { r with obj := o.head }) (g := o.metadata) rfl (by
          simp only [child]
          rw [if_neg (by decide +kernel), if_neg (by decide +kernel), if_pos trivial]) rfl h.metadata
      exact ⟨v, hv⟩
  obtain ⟨v, w1⟩ := w1
  -- the shape
  have w2 : ∃ s b, Within cfg .object ⟨nsCore, b!"object"⟩ { r with obj := { o.head with metadata := o.metadata }, md := v }
      (rd (o.shapeOps prec)) { r with obj := o.back prec, md := v, slice := s, beamSet := b } := by
    unfold Object.shapeOps
    cases hm : o.mesh with
    | some m =>
      have e1 : o.pid = o.head.pid := by simp [Object.head, hm]
      have e2 : o.pindex = o.head.pindex := by simp [Object.head, hm]
      have hd := h.mesh m hm
      rw [e1, e2] at hd
      obtain ⟨s, b, hw⟩ := Mesh.Dom.within hd (cfg := cfg) (n := ⟨nsCore, b!"object"⟩) (prec := prec)
        (r := { r with obj := { o.head with metadata := o.metadata }, md := v }) ht
      refine ⟨s, b, ?_⟩
      have e3 : o.back prec = { o.head with metadata := o.metadata, mesh := some (m.back prec o.head.pid o.head.pindex) } := by
        rw [← e1, ← e2]
        simp [Object.back, Object.head, hm]
      rw [e3]
      simp only
      rw [e1, e2]
      exact hw
    | none =>
      cases hc : o.components with
      | some c =>
        refine ⟨r.slice, r.beamSet, ?_⟩
        have hw := Components.within (cfg := cfg) (n := ⟨nsCore, b!"object"⟩)
          (r := { r with obj := { o.head with metadata := o.metadata }, md := v }) (h.components c hm hc)
        have e3 : o.back prec = { o.head with metadata := o.metadata, components := some c.back } := by
          simp [Object.back, Object.head, hm, hc]
        rw [e3]
        exact hw
      | none =>
        refine ⟨r.slice, r.beamSet, ?_⟩
        have e3 : o.back prec = { o.head with metadata := o.metadata } := by
          simp [Object.back, Object.head, hm, hc]
        rw [e3]
        exact Within.nil
  obtain ⟨s, b, w2⟩ := w2
  have w3 := Within.ops (cfg := cfg) (n := n) (n' := coreName b!"object") (skip := false) (as := o.attrs)
    (d := .resources) (d' := .object) (k := rs.objects.length) (r := r) (r1 := { r with obj := .zero })
    (r2 := { r with obj := o.head }) rfl (by
      simp only [child, fullName_core, resourcesChild, hr]
      rw [if_neg (by decide +kernel), if_pos trivial, if_pos trivial]) (by
      rw [h.attrsDom.read]
      simp only [start]
      rw [object_attrs h]
      rfl) (w1.seq h.shape_good.text w2)
  rw [← Object.ops_eq] at w3
  refine ⟨_, w3, rfl, ?_⟩
  simp [stop, hr]

/-! ## Resources -/

/-- The asset can be written and read back. -/
def Asset.Dom (env : Env) (D : List (Str × Str)) (txt : Prop) : Asset → Prop
  | .base b => b.Dom env D
  | .unknown id ts => ∃ n as body, TokensDom env D txt n as body ts ∧ assetID as id
  | .res x => x.Dom env D

/-- What an asset becomes. -/
def Asset.back (prec : Int) : Asset → Asset
  | .base b => .base b
  | .unknown id ts => .unknown id ts
  | .res x => .res (x.back prec)

theorem Asset.Dom.good {a : Asset} (h : a.Dom env D txt) : Good D (a.ops prec) := by
  cases a with
  | base b => exact BaseMaterials.Dom.good h
  | unknown id ts => obtain ⟨n, as, body, h, -⟩ := h; exact h.good
  | res x => exact ExtRes.Dom.good h

theorem Asset.Dom.within {a : Asset} {rs : Resources} (h : a.Dom cfg.env D txt) (ht : txt → ∀ i t, cfg.mem i t = t)
    (hr : r.res = some rs) : ∃ r', Within cfg .resources n r (rd (a.ops prec)) r' ∧ r'.model = r.model ∧
      r'.res = some { rs with assets := rs.assets ++ [a.back prec] } := by
  cases a with
  | base b => exact ⟨_, BaseMaterials.within hr h, rfl, rfl⟩
  | unknown id ts =>
    obtain ⟨m, as, body, h, hid⟩ := h
    obtain ⟨v, hw⟩ := h.within_asset (n' := n) ht hr hid
    exact ⟨_, hw, rfl, rfl⟩
  | res x =>
    obtain ⟨v, hw⟩ := ExtRes.Dom.within (cfg := cfg) (loc := .asset) (n := n) (r := r) (prec := prec) h ⟨by rw [hr]; rfl, x, rfl⟩
    refine ⟨_, hw, rfl, ?_⟩
    simp [Regs.putAny, hr, Asset.back]

theorem within_assets : ∀ {as : List Asset} {r : Regs} {rs : Resources}, (∀ a ∈ as, a.Dom cfg.env D txt) →
    (txt → ∀ i t, cfg.mem i t = t) → r.res = some rs →
    ∃ r', Within cfg .resources n r (rd (as.flatMap (Asset.ops prec))) r' ∧ r'.model = r.model ∧
      r'.res = some { rs with assets := rs.assets ++ as.map (Asset.back prec) }
  | [], r, rs, _, _, hr => ⟨r, Within.nil, rfl, by rw [hr, List.map_nil, List.append_nil]⟩
  | a :: as, r, rs, h, ht, hr => by
    obtain ⟨r1, w1, m1, e1⟩ := (h a (by simp)).within (n := n) (prec := prec) ht hr
    obtain ⟨r2, w2, m2, e2⟩ := within_assets (as := as) (fun x hx => h x (by simp [hx])) ht e1
    refine ⟨r2, ?_, by rw [m2, m1], by simpa using e2⟩
    rw [List.flatMap_cons]
    exact w1.seq (Good.flatMap fun x hx => (h x (List.mem_cons_of_mem _ hx)).good).text w2

theorem within_objects : ∀ {os : List Object} {r : Regs} {rs : Resources},
    (∀ o ∈ os, o.Dom cfg.env D txt r.model.extensions) → (txt → ∀ i t, cfg.mem i t = t) → r.res = some rs →
    ∃ r', Within cfg .resources n r (rd (os.flatMap (Object.ops prec))) r' ∧ r'.model = r.model ∧
      r'.res = some { rs with objects := rs.objects ++ os.map (Object.back prec) }
  | [], r, rs, _, _, hr => ⟨r, Within.nil, rfl, by rw [hr, List.map_nil, List.append_nil]⟩
  | o :: os, r, rs, h, ht, hr => by
    obtain ⟨r1, w1, m1, e1⟩ := (h o (by simp)).within (n := n) (prec := prec) ht hr
    obtain ⟨r2, w2, m2, e2⟩ := within_objects (os := os) (fun x hx => by rw [m1]; exact h x (by simp [hx])) ht e1
    refine ⟨r2, ?_, by rw [m2, m1], by simpa using e2⟩
    rw [List.flatMap_cons]
    exact w1.seq (Good.flatMap fun x hx => (h x (List.mem_cons_of_mem _ hx)).good).text w2

/-- The resources can be written and read back. -/
structure Resources.Dom (env : Env) (D : List (Str × Str)) (txt : Prop) (exts : List Extension) (rs : Resources) : Prop where
  assets : ∀ a ∈ rs.assets, a.Dom env D txt
  objects : ∀ o ∈ rs.objects, o.Dom env D txt exts
  attrs : AnyDom env D b!"resources" rs.anyAttr

/-- What the resources become. -/
def Resources.back (prec : Int) (rs : Resources) : Resources :=
  { rs with assets := rs.assets.map (Asset.back prec), objects := rs.objects.map (Object.back prec) }

theorem Resources.ops_eq (rs : Resources) : rs.ops prec = .start (coreName b!"resources") (encodeAnyAttr rs.anyAttr) false false ::
    (rs.assets.flatMap (Asset.ops prec) ++ rs.objects.flatMap (Object.ops prec)) ++ [.stop (coreName b!"resources")] := by
  simp [Resources.ops, opStart]

theorem Resources.Dom.good {rs : Resources} (h : rs.Dom env D txt exts) : Good D (rs.ops prec) := by
  rw [Resources.ops_eq]
  exact .elem (nameOK_core (by decide +kernel)) h.attrs.attrs
    (.append (.flatMap fun a ha => (h.assets a ha).good) (.flatMap fun o ho => (h.objects o ho).good))

theorem Resources.Dom.within {rs : Resources} (h : rs.Dom cfg.env D txt r.model.extensions)
    (ht : txt → ∀ i t, cfg.mem i t = t) (hr : r.res = some .zero) :
    ∃ r', Within cfg .model n r (rd (rs.ops prec)) r' ∧ r'.model = r.model ∧ r'.res = some (rs.back prec) := by
  obtain ⟨r1, w1, m1, e1⟩ := within_assets (cfg := cfg) (n := ⟨nsCore, b!"resources"⟩) (prec := prec)
    (r := { r with res := some ⟨[], [], rs.anyAttr⟩ }) h.assets ht rfl
  obtain ⟨r2, w2, m2, e2⟩ := within_objects (cfg := cfg) (D := D) (txt := txt) (n := ⟨nsCore, b!"resources"⟩) (prec := prec)
    (os := rs.objects) (r := r1) (by rw [m1]; exact h.objects) ht e1
  refine ⟨r2, ?_, by rw [m2, m1], by simpa [Resources.back] using e2⟩
  rw [Resources.ops_eq]
  exact Within.ops (cfg := cfg) (n := n) (n' := coreName b!"resources") (skip := false) (as := encodeAnyAttr rs.anyAttr)
    (d := .model) (d' := .resources) (k := -1) (r := r) (r1 := r)
    (r2 := { r with res := some ⟨[], [], rs.anyAttr⟩ }) rfl (by
      simp only [child, fullName_core, modelChild]
      rw [if_pos trivial, if_pos trivial]) (by
      rw [h.attrs.attrs.read]
      simp only [start, anyAttrs, hr]
      rw [show Resources.zero.anyAttr = [] from rfl, fold_any h.attrs.1]
      rfl) (w1.seq (Good.flatMap fun o ho => (h.objects o ho).good).text w2)

end

end Go3mf
