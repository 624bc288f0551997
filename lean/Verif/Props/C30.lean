import Verif.Lemmas.Grouped
import Verif.Props.C29

/-!
# C30: unknown attributes are preserved
-/

namespace Go3mf

open Spec

instance (env : Env) (ns : Str) : Decidable (Known env ns) := inferInstanceAs (Decidable (_ ∨ _))

/-- The groups of the attributes in unknown name spaces: one for each name space, in the order in which they first occur,
with all attributes of the name space in the order of the document. -/
def Spec.grouped (env : Env) (as : List Attr) : AnyAttr :=
  ((as.filter fun a => ¬ Known env a.name.space).map (·.name.space)).eraseDups.map fun ns =>
    .unknown ns (as.filter fun a => a.name.space = ns)

/-- The unknown attributes among the ones of an element. -/
def Spec.unknowns (any : AnyAttr) : AnyAttr := any.filter fun g => match g with
  | .unknown _ _ => true
  | _ => false

theorem load_none_iff {env : Env} {ns : Str} : env.load ns = none ↔ ¬ Known env ns := by
  constructor
  · intro h hk
    unfold Env.load at h
    rcases hk with ⟨h1, h2⟩ | ⟨h1, h2⟩ | ⟨h1, h2⟩ | ⟨h1, h2⟩ <;> simp only [h1, h2, and_true, if_true] at h <;>
      repeat' (first | (simp at h; done) | split at h)
  · exact load_unknown

theorem grouped_eq (env : Env) (as : List Attr) : grouped env as = loadGrouped env as := by
  unfold grouped loadGrouped
  have : (as.filter fun a => ¬ Known env a.name.space) = as.filter fun a => env.load a.name.space = none :=
    List.filter_congr fun a _ => by simp [load_none_iff]
  rw [this]

theorem unknowns_eq (any : AnyAttr) : unknowns any = any.filter isUnknown := by
  unfold unknowns isUnknown
  rfl

/-! ## Decoding -/

/-- Where the attributes of an element are stored; elements that are list entries are the last ones of their lists. -/
def attrsOf (r : Regs) : Dec → Option AnyAttr
  | .model => some r.model.anyAttr
  | .metadataGroup loc => some (r.getMeta loc).anyAttr
  | .build => some r.model.build.anyAttr
  | .item => some r.item.anyAttr
  | .resources => r.res.map (·.anyAttr)
  | .baseMaterials => some r.base.anyAttr
  | .base => r.base.materials.getLast?.map (·.anyAttr)
  | .mesh => r.obj.mesh.map (·.anyAttr)
  | .vertices => r.obj.mesh.map (·.verticesAttr)
  | .triangles => r.obj.mesh.map (·.trianglesAttr)
  | .triangle => (r.obj.mesh.bind (·.triangles.getLast?)).map (·.anyAttr)
  | .object => some r.obj.anyAttr
  | .components => r.obj.components.map (·.anyAttr)
  | .component => (r.obj.components.bind (·.component.getLast?)).map (·.anyAttr)
  | _ => none

/-- The element is read into something that is there and has no attributes yet. -/
def Fresh (cfg : DecCfg) (r : Regs) : Dec → Prop
  | .model => cfg.isRoot = true ∧ r.model.anyAttr = []
  | .base => True
  | .mesh => True
  | .components => True
  | .triangle => r.obj.mesh ≠ none
  | .component => r.obj.components ≠ none
  | d => attrsOf r d = some []

/-- The attributes that the element keeps: all but its own, which are in no name space.  Elements without attributes of
their own keep everything; the root element has attributes in two more name spaces. -/
def keeps : Dec → Attr → Bool
  | .model, a => a.name.space ∉ [[], xmlSpace, b!"xmlns"]
  | .item, a => a.name.space ≠ []
  | .baseMaterials, a => a.name.space ≠ []
  | .base, a => a.name.space ≠ []
  | .triangle, a => a.name.space ≠ []
  | .object, a => a.name.space ≠ []
  | .component, a => a.name.space ≠ []
  | _, _ => true

theorem anyAttrs_unknowns {env : Env} {parent : Str} {as : List Attr} {any : AnyAttr} {e : List Leaf}
    (h : anyAttrs env parent [] as = some (any, e)) : unknowns any = grouped env (as.filter fun _ => true) := by
  rw [unknowns_eq, grouped_eq, List.filter_true]
  exact anyAttrs_grouped (done := []) (by intro g hg; simp at hg) rfl h

/-- Elements with attributes of their own. -/
theorem elem_unknowns {σ : Type} {f : σ → Attr → Option (σ × List Leaf)} {get : σ → AnyAttr} {put : σ → AnyAttr → σ} {env : Env}
    {parent : Str} {as : List Attr} {s s' : σ} {e : List Leaf}
    (h1 : ∀ s a s' e, a.name.space = [] → f s a = some (s', e) → get s' = get s)
    (h2 : ∀ s a, a.name.space ≠ [] → f s a = (anyAttrAdd env parent (get s) a).map fun p => (put s p.1, p.2))
    (h3 : ∀ s any, get (put s any) = any)
    (h : attrFold f s as = some (s', e)) (h0 : get s = []) :
    unknowns (get s') = grouped env (as.filter fun a => a.name.space ≠ []) := by
  rw [unknowns_eq, grouped_eq]
  refine fold_grouped (parent := parent) ?_ ?_ h h0
  · exact fun s a s' e ha hf => h1 s a s' e (by simpa using ha) hf
  · intro s a s' e ha hf
    rw [h2 s a (by simpa using ha)] at hf
    cases hx : anyAttrAdd env parent (get s) a with
    | none => rw [hx] at hf; simp at hf
    | some p =>
      rw [hx] at hf
      simp only [Option.map_some, Option.some.injEq, Prod.mk.injEq] at hf
      rw [← hf.1, h3]
      exact ⟨p.2, rfl⟩

/-- **C30** (decoding): every element that takes attributes of extensions keeps the ones in unknown name spaces, grouped by
name space in the order of the document. -/
theorem C30_decode (cfg : DecCfg) (r r' : Regs) (d : Dec) (attrs : List Attr) (e : List Leaf) (hd : Fresh cfg r d)
    (h : start cfg r d attrs = some (r', e)) :
    (attrsOf r' d).map unknowns = some (grouped cfg.env (attrs.filter (keeps d))) := by
  cases d with
  | top => simp [Fresh, attrsOf] at hd
  | vertex => simp [Fresh, attrsOf] at hd
  | metadata loc => simp [Fresh, attrsOf] at hd
  | unknownAsset n => simp [Fresh, attrsOf] at hd
  | unknown loc n => simp [Fresh, attrsOf] at hd
  | ext loc k => simp [Fresh, attrsOf] at hd
  | model =>
    obtain ⟨hr, h0⟩ := hd
    simp only [start, hr, if_true, modelStart] at h
    cases hf : attrFold (modelAttr cfg.env) (r.model, []) attrs with
    | none => rw [hf] at h; simp at h
    | some x =>
      rw [hf] at h
      simp only [Option.map_some, Option.some.injEq, Prod.mk.injEq] at h
      rw [← h.1]
      simp only [attrsOf, Option.map_some, Option.some.injEq]
      rw [unknowns_eq, grouped_eq]
      refine fold_grouped (get := fun s : ModelAttrs => s.1.anyAttr) (p := keeps .model) (parent := b!"model") ?_ ?_ hf h0
      · intro s a s' e ha hs
        simp only [keeps, List.mem_cons, List.not_mem_nil, or_false, decide_eq_false_iff_not, Decidable.not_not] at ha
        unfold modelAttr at hs
        have hx : xmlSpace = nsXML := rfl
        rw [hx] at ha
        repeat' (first | (simp only [Option.some.injEq, Prod.mk.injEq] at hs; rw [← hs.1]; done) | split at hs)
        all_goals simp_all
      · intro s a s' e ha hs
        simp only [keeps, List.mem_cons, List.not_mem_nil, or_false, decide_eq_true_eq, not_or] at ha
        unfold modelAttr at hs
        have hx : xmlSpace = nsXML := rfl
        rw [hx] at ha
        rw [if_neg ha.1, if_neg ha.2.1, if_neg ha.2.2] at hs
        cases hx : anyAttrAdd cfg.env b!"model" s.1.anyAttr a with
        | none => rw [hx] at hs; simp at hs
        | some p =>
          rw [hx] at hs
          simp only [Option.some.injEq, Prod.mk.injEq] at hs
          rw [← hs.1]
          exact ⟨p.2, rfl⟩
  | metadataGroup loc =>
    simp only [Fresh, attrsOf, Option.some.injEq] at hd
    simp only [start, hd, Option.map_eq_some_iff] at h
    obtain ⟨x, hx, h⟩ := h
    simp only [Prod.mk.injEq] at h
    rw [← h.1]
    cases loc <;> exact congrArg some (anyAttrs_unknowns hx)
  | build =>
    simp only [Fresh, attrsOf, Option.some.injEq] at hd
    simp only [start, hd, Option.map_eq_some_iff] at h
    obtain ⟨x, hx, h⟩ := h
    simp only [Prod.mk.injEq] at h
    rw [← h.1]
    exact congrArg some (anyAttrs_unknowns hx)
  | item =>
    simp only [Fresh, attrsOf, Option.some.injEq] at hd
    simp only [start, Option.map_eq_some_iff] at h
    obtain ⟨x, hx, h⟩ := h
    simp only [Prod.mk.injEq] at h
    rw [← h.1]
    refine congrArg some (elem_unknowns (get := fun i : Item => i.anyAttr) (put := fun i any => { i with anyAttr := any })
      (parent := b!"item") ?_ ?_ (fun _ _ => rfl) hx hd)
    · intro s a s' e ha hs
      simp only [itemAttr, ha, if_true, Option.some.injEq, itemCore] at hs
      repeat' (first | (simp only [Prod.mk.injEq] at hs; rw [← hs.1]; done) | split at hs)
    · intro s a ha
      simp only [itemAttr, ha, if_false]
  | resources =>
    simp only [Fresh, attrsOf, Option.map_eq_some_iff] at hd
    obtain ⟨rs, hrs, hd⟩ := hd
    simp only [start, hrs, hd, Option.map_eq_some_iff] at h
    obtain ⟨x, hx, h⟩ := h
    simp only [Prod.mk.injEq] at h
    rw [← h.1]
    exact congrArg some (anyAttrs_unknowns hx)
  | baseMaterials =>
    simp only [Fresh, attrsOf, Option.some.injEq] at hd
    simp only [start, Option.map_eq_some_iff] at h
    obtain ⟨x, hx, h⟩ := h
    simp only [Prod.mk.injEq] at h
    rw [← h.1]
    refine congrArg some (elem_unknowns (get := fun i : BaseMaterials => i.anyAttr) (put := fun i any => { i with anyAttr := any })
      (parent := b!"basematerials") ?_ ?_ (fun _ _ => rfl) hx hd)
    · intro s a s' e ha hs
      simp only [baseMaterialsAttr, ha, if_true] at hs
      repeat' (first | (simp only [Option.some.injEq, Prod.mk.injEq] at hs; rw [← hs.1]; done) | split at hs)
    · intro s a ha
      simp only [baseMaterialsAttr, ha, if_false]
  | base =>
    simp only [start, Option.map_eq_some_iff] at h
    obtain ⟨x, hx, h⟩ := h
    simp only [Prod.mk.injEq] at h
    rw [← h.1]
    simp only [attrsOf, List.getLast?_append, List.getLast?_singleton, Option.some_or, Option.map_some, Option.some.injEq]
    refine elem_unknowns (get := fun i : Base => i.anyAttr) (put := fun i any => { i with anyAttr := any })
      (parent := b!"base") ?_ ?_ (fun _ _ => rfl) hx rfl
    · intro s a s' e ha hs
      simp only [baseAttr, ha, if_true] at hs
      repeat' (first | (simp only [Option.some.injEq, Prod.mk.injEq] at hs; rw [← hs.1]; done) | split at hs)
    · intro s a ha
      simp only [baseAttr, ha, if_false]
  | mesh =>
    simp only [start, Option.map_eq_some_iff] at h
    obtain ⟨x, hx, h⟩ := h
    simp only [Prod.mk.injEq] at h
    rw [← h.1]
    exact congrArg some (anyAttrs_unknowns hx)
  | vertices =>
    simp only [Fresh, attrsOf, Option.map_eq_some_iff] at hd
    obtain ⟨m, hm, hd⟩ := hd
    simp only [start, hm, Option.getD_some, hd, Option.map_eq_some_iff] at h
    obtain ⟨x, hx, h⟩ := h
    simp only [Prod.mk.injEq] at h
    rw [← h.1]
    simp only [attrsOf, Object.modMesh, hm, Option.map_some]
    exact congrArg some (anyAttrs_unknowns hx)
  | triangles =>
    simp only [Fresh, attrsOf, Option.map_eq_some_iff] at hd
    obtain ⟨m, hm, hd⟩ := hd
    simp only [start, hm, Option.getD_some, hd, Option.map_eq_some_iff] at h
    obtain ⟨x, hx, h⟩ := h
    simp only [Prod.mk.injEq] at h
    rw [← h.1]
    simp only [attrsOf, Object.modMesh, hm, Option.map_some]
    exact congrArg some (anyAttrs_unknowns hx)
  | triangle =>
    obtain ⟨m, hm⟩ := Option.ne_none_iff_exists'.1 hd
    simp only [start, Option.map_eq_some_iff] at h
    obtain ⟨x, hx, h⟩ := h
    simp only [Prod.mk.injEq] at h
    rw [← h.1]
    simp only [attrsOf, Object.modMesh, hm, Option.map_some, Option.bind_some, List.getLast?_append, List.getLast?_singleton,
      Option.some_or, Option.some.injEq, TriangleVars.triangle]
    refine elem_unknowns (get := fun i : TriangleVars => i.anyAttr) (put := fun i any => { i with anyAttr := any })
      (parent := b!"triangle") ?_ ?_ (fun _ _ => rfl) hx rfl
    · intro s a s' e ha hs
      simp only [triangleAttr, ha, if_true] at hs
      repeat' (first | (simp only [Option.some.injEq, Prod.mk.injEq] at hs; rw [← hs.1]; done) | split at hs)
    · intro s a ha
      simp only [triangleAttr, ha, if_false]
  | object =>
    simp only [Fresh, attrsOf, Option.some.injEq] at hd
    simp only [start, Option.map_eq_some_iff] at h
    obtain ⟨x, hx, h⟩ := h
    simp only [Prod.mk.injEq] at h
    rw [← h.1]
    refine congrArg some (elem_unknowns (get := fun i : Object => i.anyAttr) (put := fun i any => { i with anyAttr := any })
      (parent := b!"object") ?_ ?_ (fun _ _ => rfl) hx hd)
    · intro s a s' e ha hs
      simp only [objectAttr, ha, if_true, Option.some.injEq, objectCore] at hs
      repeat' (first | (simp only [Prod.mk.injEq] at hs; rw [← hs.1]; done) | split at hs)
    · intro s a ha
      simp only [objectAttr, ha, if_false]
  | components =>
    simp only [start, Option.map_eq_some_iff] at h
    obtain ⟨x, hx, h⟩ := h
    simp only [Prod.mk.injEq] at h
    rw [← h.1]
    exact congrArg some (anyAttrs_unknowns hx)
  | component =>
    obtain ⟨m, hm⟩ := Option.ne_none_iff_exists'.1 hd
    simp only [start, Option.map_eq_some_iff] at h
    obtain ⟨x, hx, h⟩ := h
    simp only [Prod.mk.injEq] at h
    rw [← h.1]
    simp only [attrsOf, Object.modComponents, hm, Option.map_some, Option.bind_some, List.getLast?_append,
      List.getLast?_singleton, Option.some_or, Option.some.injEq]
    refine elem_unknowns (get := fun i : Component => i.anyAttr) (put := fun i any => { i with anyAttr := any })
      (parent := b!"component") ?_ ?_ (fun _ _ => rfl) hx rfl
    · intro s a s' e ha hs
      simp only [componentAttr, ha, if_true] at hs
      repeat' (first | (simp only [Option.some.injEq, Prod.mk.injEq] at hs; rw [← hs.1]; done) | split at hs)
    · intro s a ha
      simp only [componentAttr, ha, if_false]

/-! ## Encoding -/

/-- The attributes of a model, element by element. -/
def Spec.allAttrs (m : Model) : List AnyAttr :=
  [m.anyAttr, m.resources.anyAttr, m.build.anyAttr] ++
  m.resources.assets.flatMap (fun a => match a with
    | .base b => b.anyAttr :: b.materials.map (·.anyAttr)
    | _ => []) ++
  m.resources.objects.flatMap (fun o =>
    [o.anyAttr, o.metadata.anyAttr] ++
    (o.mesh.toList.flatMap fun x => [x.anyAttr, x.verticesAttr, x.trianglesAttr] ++ x.triangles.map (·.anyAttr)) ++
    (o.components.toList.flatMap fun c => c.anyAttr :: c.component.map (·.anyAttr))) ++
  m.build.items.flatMap (fun i => [i.anyAttr, i.metadata.anyAttr])

theorem forall2_map {α β γ : Type} {R : α → β → Prop} {f : α → γ} {g : β → γ} {l : List α} {l' : List β} (h : List.Forall₂ R l l')
    (hr : ∀ a b, R a b → f a = g b) : l.map f = l'.map g := by
  induction h with
  | nil => rfl
  | cons h _ ih => rw [List.map_cons, List.map_cons, hr _ _ h, ih]

theorem forall2_flatMap {α β γ : Type} {R : α → β → Prop} {f : α → List γ} {g : β → List γ} {l : List α} {l' : List β}
    (h : List.Forall₂ R l l') (hr : ∀ a b, R a b → f a = g b) : l.flatMap f = l'.flatMap g := by
  induction h with
  | nil => rfl
  | cons h _ ih => rw [List.flatMap_cons, List.flatMap_cons, hr _ _ h, ih]

theorem near_allAttrs {prec : Int} {m m' : Model} (h : NearModel prec m m') : allAttrs m' = allAttrs m := by
  unfold allAttrs
  have h1 := forall2_flatMap (f := fun a : Asset => match a with | .base b => b.anyAttr :: b.materials.map (·.anyAttr) | _ => [])
    (g := fun a : Asset => match a with | .base b => b.anyAttr :: b.materials.map (·.anyAttr) | _ => [])
    h.resources.assets (by intro a b hab; cases hab <;> rfl)
  have h2 : m.resources.objects.flatMap _ = m'.resources.objects.flatMap _ :=
    forall2_flatMap (f := fun o : Object =>
      [o.anyAttr, o.metadata.anyAttr] ++
      (o.mesh.toList.flatMap fun x => [x.anyAttr, x.verticesAttr, x.trianglesAttr] ++ x.triangles.map (·.anyAttr)) ++
      (o.components.toList.flatMap fun c => c.anyAttr :: c.component.map (·.anyAttr)))
    (g := fun o : Object =>
      [o.anyAttr, o.metadata.anyAttr] ++
      (o.mesh.toList.flatMap fun x => [x.anyAttr, x.verticesAttr, x.trianglesAttr] ++ x.triangles.map (·.anyAttr)) ++
      (o.components.toList.flatMap fun c => c.anyAttr :: c.component.map (·.anyAttr)))
    h.resources.objects (by
      intro o o' ho
      have e1 : (o.mesh.toList.flatMap fun x => [x.anyAttr, x.verticesAttr, x.trianglesAttr] ++ x.triangles.map (·.anyAttr)) =
          o'.mesh.toList.flatMap fun x => [x.anyAttr, x.verticesAttr, x.trianglesAttr] ++ x.triangles.map (·.anyAttr) := by
        have := ho.mesh
        cases hx : o.mesh <;> cases hx' : o'.mesh <;> rw [hx, hx'] at this <;> cases this
        · rename_i hm
          simp only [Option.toList_some, List.flatMap_cons, List.flatMap_nil, List.append_nil]
          rw [hm.anyAttr, hm.verticesAttr, hm.trianglesAttr, forall2_map hm.triangles fun a b h => h.anyAttr.symm]
      have e2 : (o.components.toList.flatMap fun c => c.anyAttr :: c.component.map (·.anyAttr)) =
          o'.components.toList.flatMap fun c => c.anyAttr :: c.component.map (·.anyAttr) := by
        have := ho.components
        cases hx : o.components <;> cases hx' : o'.components <;> rw [hx, hx'] at this <;> cases this
        · rename_i hm
          simp only [Option.toList_some, List.flatMap_cons, List.flatMap_nil, List.append_nil]
          rw [hm.anyAttr, forall2_map hm.component fun a b h => h.anyAttr.symm]
      rw [e1, e2, ho.anyAttr, ho.metadata])
  have h3 := forall2_flatMap (f := fun i : Item => [i.anyAttr, i.metadata.anyAttr]) (g := fun i : Item => [i.anyAttr, i.metadata.anyAttr])
    h.build.items (by intro a b hab; rw [hab.anyAttr, hab.metadata])
  rw [h.anyAttr, h.resources.anyAttr, h.build.anyAttr, h1, h2, h3]

/-- **C30** (encoding, partial): all attributes of extensions, on whatever element, are there after encoding and decoding.
Missing: the conditions of `Spec.Writable` exclude attributes of triangles that need escapes or that are written into the
array shared by the triangles, and attributes of empty groups of metadata; see below. -/
theorem C30_encode_partial (env : Env) (mem : Nat → Str → Str) (prec : Int) (m : Model) (hw : Writable env m)
    (hk : ModelOk prec m) :
    ∃ m', unmarshalModel env mem (printOps (fun _ => []) (m.ops prec)) .zero = some (m', .ok) ∧ allAttrs m' = allAttrs m := by
  obtain ⟨m', h1, h2⟩ := C28_marshal env mem prec m hw hk
  exact ⟨m', h1, near_allAttrs h2⟩

/-- The model of C28 has attributes on the vertices and on the first object. -/
example : (allAttrs exModel).flatten.length = 2 := by decide +kernel

/-- Interleaved attributes of two unknown name spaces and one known one. -/
example : grouped exEnv [⟨⟨b!"u", b!"a"⟩, b!"1"⟩, ⟨⟨b!"v", b!"b"⟩, b!"2"⟩, ⟨⟨nsProduction, b!"path"⟩, b!"/p"⟩, ⟨⟨b!"u", b!"c"⟩, b!"3"⟩] =
    [.unknown b!"u" [⟨⟨b!"u", b!"a"⟩, b!"1"⟩, ⟨⟨b!"u", b!"c"⟩, b!"3"⟩], .unknown b!"v" [⟨⟨b!"v", b!"b"⟩, b!"2"⟩]] := by
  decide +kernel

/-! ## What is lost -/

/-- A triangle gets an unknown attribute that it does not have: the name is the one of an attribute of the triangle before,
the value is its own property. -/
theorem C30_triangle_false : (exAlias.resources.objects.map fun o => (o.mesh.map (·.triangles.map (·.anyAttr.length)))) =
      [some [1, 0]] ∧
    aliasBack.map (·.map (·.anyAttr)) = some [exAlias.exTriangleAttr,
      [.unknown b!"http://example.com/v" [⟨⟨b!"http://example.com/v", b!"a"⟩, b!"1"⟩]]] := by
  decide +kernel

/-- A triangle with an attribute whose value contains a quote. -/
def exQuote (v : Str) : Model :=
  { Model.zero with
    extensions := exExts
    resources :=
      { assets := []
        objects := [
          { id := 5, name := [], partNumber := [], thumbnail := [], pid := 0, pindex := 0, type := .model
            metadata := ⟨[], []⟩, components := none, anyAttr := []
            mesh := some ⟨[], [], [⟨0, 1, 2, 0, 0, 0, 0,
              [.unknown b!"http://example.com/v" [⟨⟨b!"http://example.com/v", b!"a"⟩, v⟩]]⟩], [], [], []⟩ }]
        anyAttr := [] } }

/-- Attributes of triangles are not escaped: with a quote in the value, the file cannot be read. -/
theorem C30_escape_false :
    (match unmarshalModel exEnv (fun _ t => t) (printOps (fun _ => []) ((exQuote b!"x").ops 4)) .zero with
      | some (_, .ok) => true
      | _ => false) = true ∧
    (match unmarshalModel exEnv (fun _ t => t) (printOps (fun _ => []) ((exQuote b!"x\"y").ops 4)) .zero with
      | some (_, .ok) => true
      | _ => false) = false := by
  decide +kernel

/-- Attributes in the name space `xml` are dropped on the root element, though no extension knows it. -/
theorem C30_xml_false : ¬ Known exEnv xmlSpace ∧
    (modelStart exEnv .zero [⟨⟨xmlSpace, b!"space"⟩, b!"preserve"⟩]).map (fun p => (p.1.anyAttr, p.2)) = some ([], []) := by
  decide +kernel

/-- Attributes of a group of metadata without metadata are not written. -/
theorem C30_empty_false (any : AnyAttr) (prec : Int) (o : Object) :
    Object.ops prec { o with metadata := ⟨[], any⟩ } = Object.ops prec { o with metadata := ⟨[], []⟩ } := rfl

end Go3mf
