import Verif.Model.Decode

/-!
# The core content of a model, and the decoders seen from it

`coreModel` forgets what extensions and unknown elements and attributes leave in a model.  The lemmas say that the
decoders of the core compute the core content from the core content, whatever extensions are registered, and that the
other decoders do not touch it.
-/

namespace Go3mf
namespace Spec

def coreBase (b : Base) : Base := { b with anyAttr := [] }

def coreBaseMaterials (b : BaseMaterials) : BaseMaterials := { b with materials := b.materials.map coreBase, anyAttr := [] }

def coreGroup (g : MetadataGroup) : MetadataGroup := { g with anyAttr := [] }

def coreItem (i : Item) : Item := { i with metadata := coreGroup i.metadata, anyAttr := [] }

def coreComponent (c : Component) : Component := { c with anyAttr := [] }

def coreComponents (c : Components) : Components := { c with component := c.component.map coreComponent, anyAttr := [] }

def coreTriangle (t : Triangle) : Triangle := { t with anyAttr := [] }

def coreMesh (m : Mesh) : Mesh :=
  { m with verticesAttr := [], triangles := m.triangles.map coreTriangle, trianglesAttr := [], anyAttr := [], any := [] }

def coreObject (o : Object) : Object :=
  { o with metadata := coreGroup o.metadata, mesh := o.mesh.map coreMesh, components := o.components.map coreComponents,
           anyAttr := [] }

/-- Base materials are the only assets of the core. -/
def coreAsset : Asset → Option Asset
  | .base b => some (.base (coreBaseMaterials b))
  | _ => none

def coreResources (r : Resources) : Resources :=
  { assets := r.assets.filterMap coreAsset, objects := r.objects.map coreObject, anyAttr := [] }

def coreBuild (b : Build) : Build := { items := b.items.map coreItem, anyAttr := [] }

def coreChild (c : ChildModel) : ChildModel := { c with resources := coreResources c.resources, any := [] }

/-- The core content of a model. -/
def coreModel (m : Model) : Model :=
  { m with resources := coreResources m.resources, build := coreBuild m.build,
           childs := m.childs.map fun c => (c.1, coreChild c.2), any := [], anyAttr := [] }

end Spec

open Spec

/-- The same core content in the registers of the decoders. -/
structure CoreEq (r s : Regs) : Prop where
  model : coreModel r.model = coreModel s.model
  res : r.res.map coreResources = s.res.map coreResources
  md : r.md = s.md
  item : coreItem r.item = coreItem s.item
  base : coreBaseMaterials r.base = coreBaseMaterials s.base
  obj : coreObject r.obj = coreObject s.obj

theorem CoreEq.refl (r : Regs) : CoreEq r r := ⟨rfl, rfl, rfl, rfl, rfl, rfl⟩

theorem CoreEq.symm {r s : Regs} (h : CoreEq r s) : CoreEq s r :=
  ⟨h.1.symm, h.2.symm, h.3.symm, h.4.symm, h.5.symm, h.6.symm⟩

theorem CoreEq.trans {r s t : Regs} (h : CoreEq r s) (k : CoreEq s t) : CoreEq r t :=
  ⟨h.1.trans k.1, h.2.trans k.2, h.3.trans k.3, h.4.trans k.4, h.5.trans k.5, h.6.trans k.6⟩

/-- The decoders of extensions and unknown elements. -/
def Dec.isExt : Dec → Bool
  | .unknownAsset _ | .unknown _ _ | .ext _ _ => true
  | _ => false

/-! ## Extensions do not touch the core -/

theorem coreAsset_modAny (f : AnyElem → AnyElem) (a : Asset) : coreAsset (a.modAny f) = coreAsset a := by
  cases a with
  | res r =>
    simp only [Asset.modAny]
    split <;> rfl
  | _ => rfl

theorem filterMap_modLast (f : AnyElem → AnyElem) : ∀ l : List Asset,
    (modLast (·.modAny f) l).filterMap coreAsset = l.filterMap coreAsset
  | [] => rfl
  | [a] => by simp [modLast, List.filterMap_cons, coreAsset_modAny]
  | a :: b :: l => by
    rw [modLast, List.filterMap_cons, List.filterMap_cons, filterMap_modLast f (b :: l)]

theorem coreObject_modMesh_any (f : List AnyElem → List AnyElem) (o : Object) :
    coreObject (o.modMesh fun m => { m with any := f m.any }) = coreObject o := by
  cases h : o.mesh <;> simp [coreObject, Object.modMesh, h, coreMesh]

theorem modAny_core (f : AnyElem → AnyElem) (r : Regs) (loc : AnyLoc) : CoreEq (r.modAny f loc) r := by
  cases loc with
  | asset =>
    refine ⟨rfl, ?_, rfl, rfl, rfl, rfl⟩
    cases h : r.res <;> simp [Regs.modAny, h, coreResources, filterMap_modLast]
  | modelAny => exact ⟨by simp [Regs.modAny, coreModel], rfl, rfl, rfl, rfl, rfl⟩
  | meshAny => exact ⟨rfl, rfl, rfl, rfl, rfl, coreObject_modMesh_any (modLast f) r.obj⟩

theorem addToken_core (r : Regs) (d : Dec) (t : Token) : CoreEq (r.addToken d t) r := by
  cases d <;> first
    | exact CoreEq.refl r
    | exact ⟨rfl, rfl, rfl, rfl, rfl, rfl⟩
    | exact modAny_core _ _ _

theorem extStart_core (r : Regs) (loc : AnyLoc) (k : ExtDec) (as : List Attr) : CoreEq (extStart r loc k as).1 r := by
  cases k <;> first
    | exact CoreEq.refl r
    | exact modAny_core _ _ _
    | exact ⟨rfl, rfl, rfl, rfl, rfl, rfl⟩

theorem start_ext_core {cfg : DecCfg} {r r' : Regs} {d : Dec} {as : List Attr} {e : List Leaf} (hd : d.isExt = true)
    (h : start cfg r d as = some (r', e)) : CoreEq r' r := by
  cases d <;> try simp [Dec.isExt] at hd
  · simp only [start] at h
    split at h <;> (simp only [Option.some.injEq, Prod.mk.injEq] at h; rw [← h.1]; exact ⟨rfl, rfl, rfl, rfl, rfl, rfl⟩)
  · simp only [start, Option.some.injEq, Prod.mk.injEq] at h
    rw [← h.1]
    exact modAny_core _ _ _
  · simp only [start, Option.some.injEq] at h
    have := extStart_core r (by assumption) (by assumption) as
    rw [h] at this
    exact this

theorem stop_ext_core {r : Regs} {d : Dec} (hd : d.isExt = true) : CoreEq (stop r d) r := by
  cases d with
  | unknownAsset n =>
    refine ⟨rfl, ?_, rfl, rfl, rfl, rfl⟩
    cases h : r.res <;> simp [stop, h, coreResources, coreAsset]
  | unknown loc n => exact modAny_core _ _ _
  | ext loc k =>
    cases k <;> first
      | exact CoreEq.refl r
      | exact modAny_core _ _ _
  | _ => simp [Dec.isExt] at hd

/-- An element that is not of the core: it is skipped, or gets a decoder of an extension. -/
theorem child_ext_core {cfg : DecCfg} {r r' : Regs} {d : Dec} {n : Name} {o : Option (Int × Dec)} (hn : n.space ≠ nsCore)
    (h : child cfg r d n = some (r', o)) : CoreEq r' r ∧ ∀ i d', o = some (i, d') → d'.isExt = true := by
  have honly : ∀ {a b : Regs} {loc : Str} {i : Int} {x : Dec}, onlyChild a b n loc i x = (a, none) := by
    intro a b loc i x
    unfold onlyChild
    rw [if_neg]
    intro hx
    exact hn (by rw [hx])
  have hnew : ∀ {loc : AnyLoc} {x : Dec} {e : AnyElem}, newAnyElement cfg.env loc n = some (x, e) → x.isExt = true := by
    intro loc x e hx
    unfold newAnyElement at hx
    split at hx
    · rw [Option.map_eq_some_iff] at hx
      obtain ⟨p, _, hp⟩ := hx
      simp only [Prod.mk.injEq] at hp
      rw [← hp.1]
      rfl
    · simp only [Option.some.injEq, Prod.mk.injEq] at hx
      rw [← hx.1]
      rfl
  cases d with
  | model =>
    simp only [child, modelChild, if_neg hn, Option.some.injEq] at h
    split at h
    · simp only [Prod.mk.injEq] at h
      rw [← h.1, ← h.2]
      exact ⟨CoreEq.refl r, by simp⟩
    · rename_i x e hx
      simp only [Prod.mk.injEq] at h
      rw [← h.1, ← h.2]
      refine ⟨⟨rfl, rfl, rfl, rfl, rfl, rfl⟩, ?_⟩
      simp only [Option.some.injEq, Prod.mk.injEq]
      rintro i d' ⟨_, rfl⟩
      exact hnew hx
  | resources =>
    simp only [child, resourcesChild] at h
    rw [if_neg (fun hc => hn hc.1)] at h
    split at h
    · simp at h
    · rename_i rs hrs
      rw [if_neg hn] at h
      split at h
      · simp only [Option.some.injEq, Prod.mk.injEq] at h
        rw [← h.1, ← h.2]
        exact ⟨CoreEq.refl r, by simp⟩
      · simp only [Option.some.injEq, Prod.mk.injEq] at h
        rw [← h.1, ← h.2]
        refine ⟨⟨rfl, rfl, rfl, rfl, rfl, rfl⟩, ?_⟩
        simp only [Option.some.injEq, Prod.mk.injEq]
        rintro i d' ⟨_, rfl⟩
        rfl
      · rename_i x e hx
        simp only [Option.some.injEq, Prod.mk.injEq] at h
        rw [← h.1, ← h.2]
        refine ⟨⟨rfl, ?_, rfl, rfl, rfl, rfl⟩, ?_⟩
        · simp [hrs, coreResources, coreAsset]
        · simp only [Option.some.injEq, Prod.mk.injEq]
          rintro i d' ⟨_, rfl⟩
          exact hnew hx
      · simp at h
  | mesh =>
    simp only [child, meshChild, if_neg hn, Option.some.injEq] at h
    split at h
    · simp only [Prod.mk.injEq] at h
      rw [← h.1, ← h.2]
      exact ⟨CoreEq.refl r, by simp⟩
    · rename_i x e hx
      simp only [Prod.mk.injEq] at h
      rw [← h.1, ← h.2]
      refine ⟨⟨rfl, rfl, rfl, rfl, rfl, coreObject_modMesh_any (· ++ [e]) r.obj⟩, ?_⟩
      simp only [Option.some.injEq, Prod.mk.injEq]
      rintro i d' ⟨_, rfl⟩
      exact hnew hx
  | object =>
    simp only [child, Option.some.injEq] at h
    rw [if_neg (fun hc => hn (by rw [hc])), if_neg (fun hc => hn (by rw [hc])), if_neg (fun hc => hn (by rw [hc]))] at h
    simp only [Prod.mk.injEq] at h
    rw [← h.1, ← h.2]
    exact ⟨CoreEq.refl r, by simp⟩
  | ext loc k =>
    simp only [child, Option.some.injEq] at h
    split at h <;>
    · simp only [Prod.mk.injEq] at h
      rw [← h.1, ← h.2]
      refine ⟨⟨rfl, rfl, rfl, rfl, rfl, rfl⟩, ?_⟩
      rintro i d' hd
      cases hd <;> rfl
  | _ =>
    simp only [child, honly, Option.some.injEq, Prod.mk.injEq] at h
    rw [← h.1, ← h.2]
    exact ⟨CoreEq.refl r, by simp⟩

/-! ## The core is computed from the core -/

theorem attrFold_rel {σ τ : Type} {f g : σ → Attr → Option (σ × List Leaf)} {c : σ → τ}
    (hp : ∀ s t a s' t' e e', c s = c t → f s a = some (s', e) → g t a = some (t', e') → c s' = c t') :
    ∀ {as : List Attr} {s t s' t' : σ} {e e' : List Leaf}, c s = c t → attrFold f s as = some (s', e) →
      attrFold g t as = some (t', e') → c s' = c t'
  | [], s, t, s', t', e, e', h, hf, hg => by
    simp only [attrFold, Option.some.injEq, Prod.mk.injEq] at hf hg
    rw [← hf.1, ← hg.1]; exact h
  | a :: as, s, t, s', t', e, e', h, hf, hg => by
    unfold attrFold at hf hg
    cases h1 : f s a with
    | none => rw [h1] at hf; simp at hf
    | some p =>
      cases k1 : g t a with
      | none => rw [k1] at hg; simp at hg
      | some q =>
        rw [h1] at hf
        rw [k1] at hg
        simp only [] at hf hg
        cases h2 : attrFold f p.1 as with
        | none => rw [h2] at hf; simp at hf
        | some p' =>
          cases k2 : attrFold g q.1 as with
          | none => rw [k2] at hg; simp at hg
          | some q' =>
            rw [h2] at hf
            rw [k2] at hg
            simp only [Option.some.injEq, Prod.mk.injEq] at hf hg
            rw [← hf.1, ← hg.1]
            exact attrFold_rel hp (hp s t a p.1 q.1 p.2 q.2 h h1 k1) (s' := p'.1) (t' := q'.1) (e := p'.2) (e' := q'.2) h2 k2

/-- Attributes of other name spaces change only `AnyAttr`. -/
theorem map_core {σ τ : Type} {c : σ → τ} {x : Option (AnyAttr × List Leaf)} {upd : AnyAttr → σ} {s s' : σ} {e : List Leaf}
    (h : (x.map fun p => (upd p.1, p.2)) = some (s', e)) (hc : ∀ a, c (upd a) = c s) : c s' = c s := by
  cases x with
  | none => simp at h
  | some p =>
    simp only [Option.map_some, Option.some.injEq, Prod.mk.injEq] at h
    rw [← h.1]
    exact hc _

theorem coreItem_itemCore (i : Item) (a : Attr) : coreItem (itemCore i a).1 = (itemCore (coreItem i) a).1 := by
  unfold itemCore
  split
  · rfl
  · split
    · rfl
    · split <;> rfl

theorem itemAttr_rel {env env' : Env} {s t : Item} {a : Attr} {s' t' : Item} {e e' : List Leaf}
    (h : coreItem s = coreItem t) (hf : itemAttr env s a = some (s', e)) (hg : itemAttr env' t a = some (t', e')) :
    coreItem s' = coreItem t' := by
  unfold itemAttr at hf hg
  split at hf
  · rename_i ha
    rw [if_pos ha] at hg
    simp only [Option.some.injEq] at hf hg
    have h1 := coreItem_itemCore s a
    have h2 := coreItem_itemCore t a
    rw [hf] at h1
    rw [hg] at h2
    rw [h1, h2, h]
  · rename_i ha
    rw [if_neg ha] at hg
    rw [map_core (c := coreItem) (s := s) hf (fun _ => rfl), map_core (c := coreItem) (s := t) hg (fun _ => rfl), h]

theorem coreObject_objectCore (o : Object) (a : Attr) :
    coreObject (objectCore o a).1 = (objectCore (coreObject o) a).1 := by
  unfold objectCore
  split
  · rfl
  · split
    · rfl
    · split
      · rfl
      · split
        · rfl
        · split
          · rfl
          · split
            · rfl
            · split <;> rfl

theorem objectAttr_rel {env env' : Env} {s t : Object} {a : Attr} {s' t' : Object} {e e' : List Leaf}
    (h : coreObject s = coreObject t) (hf : objectAttr env s a = some (s', e)) (hg : objectAttr env' t a = some (t', e')) :
    coreObject s' = coreObject t' := by
  unfold objectAttr at hf hg
  split at hf
  · rename_i ha
    rw [if_pos ha] at hg
    simp only [Option.some.injEq] at hf hg
    have h1 := coreObject_objectCore s a
    have h2 := coreObject_objectCore t a
    rw [hf] at h1
    rw [hg] at h2
    rw [h1, h2, h]
  · rename_i ha
    rw [if_neg ha] at hg
    rw [map_core (c := coreObject) (s := s) hf (fun _ => rfl), map_core (c := coreObject) (s := t) hg (fun _ => rfl), h]

theorem baseMaterialsAttr_rel {env env' : Env} {s t : BaseMaterials} {a : Attr} {s' t' : BaseMaterials} {e e' : List Leaf}
    (h : coreBaseMaterials s = coreBaseMaterials t) (hf : baseMaterialsAttr env s a = some (s', e))
    (hg : baseMaterialsAttr env' t a = some (t', e')) : coreBaseMaterials s' = coreBaseMaterials t' := by
  unfold baseMaterialsAttr at hf hg
  split at hf
  · rename_i ha
    rw [if_pos ha] at hg
    split at hf
    · rename_i hb
      rw [if_pos hb] at hg
      simp only [Option.some.injEq, Prod.mk.injEq] at hf hg
      simp only [coreBaseMaterials, BaseMaterials.mk.injEq] at h
      rw [← hf.1, ← hg.1]
      simp [coreBaseMaterials, h.2.1]
    · rename_i hb
      rw [if_neg hb] at hg
      simp only [Option.some.injEq, Prod.mk.injEq] at hf hg
      rw [← hf.1, ← hg.1, h]
  · rename_i ha
    rw [if_neg ha] at hg
    rw [map_core (c := coreBaseMaterials) (s := s) hf (fun _ => rfl),
      map_core (c := coreBaseMaterials) (s := t) hg (fun _ => rfl), h]

theorem baseAttr_rel {env env' : Env} {s t : Base} {a : Attr} {s' t' : Base} {e e' : List Leaf}
    (h : coreBase s = coreBase t) (hf : baseAttr env s a = some (s', e)) (hg : baseAttr env' t a = some (t', e')) :
    coreBase s' = coreBase t' := by
  unfold baseAttr at hf hg
  split at hf
  · rename_i ha
    rw [if_pos ha] at hg
    simp only [coreBase, Base.mk.injEq] at h
    split at hf
    · rename_i hb
      rw [if_pos hb] at hg
      simp only [Option.some.injEq, Prod.mk.injEq] at hf hg
      rw [← hf.1, ← hg.1]
      simp [coreBase, h.2.1]
    · rename_i hb
      rw [if_neg hb] at hg
      split at hf
      · rename_i hb
        rw [if_pos hb] at hg
        simp only [Option.some.injEq, Prod.mk.injEq] at hf hg
        rw [← hf.1, ← hg.1]
        simp [coreBase, h.1]
      · rename_i hb
        rw [if_neg hb] at hg
        simp only [Option.some.injEq, Prod.mk.injEq] at hf hg
        rw [← hf.1, ← hg.1]
        simp [coreBase, h.1, h.2.1]
  · rename_i ha
    rw [if_neg ha] at hg
    rw [map_core (c := coreBase) (s := s) hf (fun _ => rfl), map_core (c := coreBase) (s := t) hg (fun _ => rfl), h]

theorem componentAttr_rel {env env' : Env} {s t : Component} {a : Attr} {s' t' : Component} {e e' : List Leaf}
    (h : coreComponent s = coreComponent t) (hf : componentAttr env s a = some (s', e))
    (hg : componentAttr env' t a = some (t', e')) : coreComponent s' = coreComponent t' := by
  unfold componentAttr at hf hg
  split at hf
  · rename_i ha
    rw [if_pos ha] at hg
    simp only [coreComponent, Component.mk.injEq] at h
    split at hf
    · rename_i hb
      rw [if_pos hb] at hg
      simp only [Option.some.injEq, Prod.mk.injEq] at hf hg
      rw [← hf.1, ← hg.1]
      simp [coreComponent, h.2.1]
    · rename_i hb
      rw [if_neg hb] at hg
      split at hf
      · rename_i hb
        rw [if_pos hb] at hg
        simp only [Option.some.injEq, Prod.mk.injEq] at hf hg
        rw [← hf.1, ← hg.1]
        simp [coreComponent, h.1]
      · rename_i hb
        rw [if_neg hb] at hg
        simp only [Option.some.injEq, Prod.mk.injEq] at hf hg
        rw [← hf.1, ← hg.1]
        simp [coreComponent, h.1, h.2.1]
  · rename_i ha
    rw [if_neg ha] at hg
    rw [map_core (c := coreComponent) (s := s) hf (fun _ => rfl),
      map_core (c := coreComponent) (s := t) hg (fun _ => rfl), h]

/-- The variables of a triangle without the attributes of extensions. -/
def coreVars (t : TriangleVars) : TriangleVars := { t with anyAttr := [] }

theorem triangleAttr_rel {env env' : Env} {s t : TriangleVars} {a : Attr} {s' t' : TriangleVars} {e e' : List Leaf}
    (h : coreVars s = coreVars t) (hf : triangleAttr env s a = some (s', e)) (hg : triangleAttr env' t a = some (t', e')) :
    coreVars s' = coreVars t' := by
  by_cases ha : a.name.space = []
  · have key : ∀ (env : Env) (v : TriangleVars), (triangleAttr env v a).map (fun p => coreVars p.1) =
        (triangleAttr env' (coreVars v) a).map (·.1) := by
      intro env v
      unfold triangleAttr
      rw [if_pos ha, if_pos ha]
      simp only
      repeat' (split; · rfl)
      rfl
    have h1 := key env s
    have h2 := key env' t
    rw [h, ← h2, hf, hg] at h1
    simpa using h1
  · unfold triangleAttr at hf hg
    rw [if_neg ha] at hf hg
    rw [map_core (c := coreVars) (s := s) hf (fun _ => rfl), map_core (c := coreVars) (s := t) hg (fun _ => rfl), h]

theorem coreTriangle_triangle (t : TriangleVars) (p q : UInt32) :
    coreTriangle (t.triangle p q) = (coreVars t).triangle p q := rfl

/-- The model and the required extensions, without the attributes of extensions. -/
def coreModelAttrs (s : ModelAttrs) : ModelAttrs := (coreModel s.1, s.2)

theorem modelAttr_rel {env env' : Env} {s t : ModelAttrs} {a : Attr} {s' t' : ModelAttrs} {e e' : List Leaf}
    (h : coreModelAttrs s = coreModelAttrs t) (hf : modelAttr env s a = some (s', e))
    (hg : modelAttr env' t a = some (t', e')) : coreModelAttrs s' = coreModelAttrs t' := by
  simp only [coreModelAttrs, Prod.mk.injEq] at h
  obtain ⟨h1, h2⟩ := h
  have h3 := h1
  simp only [coreModel, Model.mk.injEq] at h3
  by_cases ha : a.name.space = []
  · unfold modelAttr at hf hg
    rw [if_pos ha] at hf hg
    split at hf
    · rename_i hb
      rw [if_pos hb] at hg
      simp only [Option.some.injEq, Prod.mk.injEq] at hf hg
      rw [← hf.1, ← hg.1]
      simp [coreModelAttrs, coreModel, h3, h2]
    · rename_i hb
      rw [if_neg hb] at hg
      split at hf
      · rename_i hb
        rw [if_pos hb] at hg
        simp only [Option.some.injEq, Prod.mk.injEq] at hf hg
        rw [← hf.1, ← hg.1]
        simp [coreModelAttrs, coreModel, h3, h2]
      · rename_i hb
        rw [if_neg hb] at hg
        split at hf
        · rename_i hb
          rw [if_pos hb] at hg
          simp only [Option.some.injEq, Prod.mk.injEq] at hf hg
          rw [← hf.1, ← hg.1]
          simp [coreModelAttrs, h1]
        · rename_i hb
          rw [if_neg hb] at hg
          simp only [Option.some.injEq, Prod.mk.injEq] at hf hg
          rw [← hf.1, ← hg.1]
          simp [coreModelAttrs, h1, h2]
  · unfold modelAttr at hf hg
    rw [if_neg ha] at hf hg
    split at hf
    · rename_i hx
      rw [if_pos hx] at hg
      split at hf
      · rename_i hb
        rw [if_pos hb] at hg
        simp only [Option.some.injEq, Prod.mk.injEq] at hf hg
        rw [← hf.1, ← hg.1]
        simp [coreModelAttrs, coreModel, h3, h2]
      · rename_i hb
        rw [if_neg hb] at hg
        simp only [Option.some.injEq, Prod.mk.injEq] at hf hg
        rw [← hf.1, ← hg.1]
        simp [coreModelAttrs, h1, h2]
    · rename_i hx
      rw [if_neg hx] at hg
      split at hf
      · rename_i hb
        rw [if_pos hb] at hg
        simp only [Option.some.injEq, Prod.mk.injEq] at hf hg
        rw [← hf.1, ← hg.1]
        simp [coreModelAttrs, coreModel, h3, h2]
      · rename_i hb
        rw [if_neg hb] at hg
        split at hf
        · simp at hf
        · split at hg
          · simp at hg
          · simp only [Option.some.injEq, Prod.mk.injEq] at hf hg
            rw [← hf.1, ← hg.1]
            simp [coreModelAttrs, coreModel, h3, h2]

theorem modelStart_rel {env env' : Env} {s t : Model} {as : List Attr} {s' t' : Model} {e e' : List Leaf}
    (h : coreModel s = coreModel t) (hf : modelStart env s as = some (s', e)) (hg : modelStart env' t as = some (t', e')) :
    coreModel s' = coreModel t' := by
  unfold modelStart at hf hg
  split at hf
  · simp at hf
  · rename_i m r x hx
    split at hg
    · simp at hg
    · rename_i m' r' y hy
      have := attrFold_rel (f := modelAttr env) (g := modelAttr env') (c := coreModelAttrs) (fun _ _ _ _ _ _ _ => modelAttr_rel) (s := (s, [])) (t := (t, []))
        (by simp [coreModelAttrs, h]) hx hy
      simp only [coreModelAttrs, Prod.mk.injEq, coreModel, Model.mk.injEq] at this
      simp only [Option.some.injEq, Prod.mk.injEq] at hf hg
      rw [← hf.1, ← hg.1]
      simp [coreModel, this]

/-! ## Core decoders -/

/-- An element of the core under a decoder of the core. -/
theorem child_rel {cfg cfg' : DecCfg} (hr : cfg.isRoot = cfg'.isRoot) {r s r' s' : Regs} {d : Dec} {n : Name}
    {o p : Option (Int × Dec)} (hn : n.space = nsCore) (hd : d.isExt = false) (h : CoreEq r s)
    (hf : child cfg r d n = some (r', o)) (hg : child cfg' s d n = some (s', p)) :
    CoreEq r' s' ∧ o.map (·.2) = p.map (·.2) ∧ ∀ i d', o = some (i, d') → d'.isExt = false := by
  have honly : ∀ {r1 s1 : Regs} {loc : Str} {i j : Int} {x : Dec}, CoreEq r1 s1 → x.isExt = false →
      onlyChild r r1 n loc i x = (r', o) → onlyChild s s1 n loc j x = (s', p) →
      CoreEq r' s' ∧ o.map (·.2) = p.map (·.2) ∧ ∀ i d', o = some (i, d') → d'.isExt = false := by
    intro r1 s1 loc i j x h1 hx ha hb
    unfold onlyChild at ha hb
    split at ha
    · rename_i hc
      rw [if_pos hc] at hb
      simp only [Prod.mk.injEq] at ha hb
      obtain ⟨rfl, rfl⟩ := ha
      obtain ⟨rfl, rfl⟩ := hb
      refine ⟨h1, rfl, ?_⟩
      simp only [Option.some.injEq, Prod.mk.injEq]
      rintro _ _ ⟨_, rfl⟩
      exact hx
    · rename_i hc
      rw [if_neg hc] at hb
      simp only [Prod.mk.injEq] at ha hb
      obtain ⟨rfl, rfl⟩ := ha
      obtain ⟨rfl, rfl⟩ := hb
      exact ⟨h, rfl, by simp⟩
  have hdone : ∀ {r1 s1 : Regs} {i j : Int} {x : Dec},
      (r1, some (i, x)) = (r', o) → (s1, some (j, x)) = (s', p) → CoreEq r1 s1 → x.isExt = false →
      CoreEq r' s' ∧ o.map (·.2) = p.map (·.2) ∧ ∀ i d', o = some (i, d') → d'.isExt = false := by
    intro r1 s1 i j x ha hb h1 hx
    simp only [Prod.mk.injEq] at ha hb
    obtain ⟨rfl, rfl⟩ := ha
    obtain ⟨rfl, rfl⟩ := hb
    refine ⟨h1, rfl, ?_⟩
    simp only [Option.some.injEq, Prod.mk.injEq]
    rintro _ _ ⟨_, rfl⟩
    exact hx
  have hskip : (r, none) = (r', o) → (s, none) = (s', p) →
      CoreEq r' s' ∧ o.map (·.2) = p.map (·.2) ∧ ∀ i d', o = some (i, d') → d'.isExt = false := by
    intro ha hb
    simp only [Prod.mk.injEq] at ha hb
    obtain ⟨rfl, rfl⟩ := ha
    obtain ⟨rfl, rfl⟩ := hb
    exact ⟨h, rfl, by simp⟩
  cases d with
  | top => exact honly h rfl (Option.some.inj hf) (Option.some.inj hg)
  | model =>
    simp only [child, modelChild, if_pos hn, Option.some.injEq] at hf hg
    rw [← hr] at hg
    split at hf
    · rename_i hc
      rw [if_pos hc] at hg
      exact hdone hf hg h rfl
    · rename_i hc
      rw [if_neg hc] at hg
      split at hf
      · rename_i hc
        rw [if_pos hc] at hg
        exact hdone hf hg h rfl
      · rename_i hc
        rw [if_neg hc] at hg
        split at hf
        · rename_i hc
          rw [if_pos hc] at hg
          exact hdone hf hg ⟨h.model, h.res, rfl, h.item, h.base, h.obj⟩ rfl
        · rename_i hc
          rw [if_neg hc] at hg
          exact hskip hf hg
  | metadataGroup loc =>
    exact honly (r1 := { r with md := .zero }) (s1 := { s with md := .zero })
      ⟨h.model, h.res, rfl, h.item, h.base, h.obj⟩ rfl (Option.some.inj hf) (Option.some.inj hg)
  | build =>
    exact honly (r1 := { r with item := .zero }) (s1 := { s with item := .zero })
      ⟨h.model, h.res, h.md, rfl, h.base, h.obj⟩ rfl (Option.some.inj hf) (Option.some.inj hg)
  | item => exact honly h rfl (Option.some.inj hf) (Option.some.inj hg)
  | resources =>
    simp only [child, resourcesChild] at hf hg
    split at hf
    · rename_i hc
      rw [if_pos hc] at hg
      exact hskip (Option.some.inj hf) (Option.some.inj hg)
    · rename_i hc
      rw [if_neg hc] at hg
      cases h1 : r.res with
      | none => simp [h1] at hf
      | some rs =>
        cases h2 : s.res with
        | none => simp [h2] at hg
        | some ss =>
          simp only [h1, h2, if_pos hn] at hf hg
          split at hf
          · rename_i hc
            rw [if_pos hc] at hg
            exact hdone (Option.some.inj hf) (Option.some.inj hg)
              ⟨h.model, by rw [← h1, ← h2]; exact h.res, h.md, h.item, h.base, rfl⟩ rfl
          · rename_i hc
            rw [if_neg hc] at hg
            exact hdone (Option.some.inj hf) (Option.some.inj hg)
              ⟨h.model, by rw [← h1, ← h2]; exact h.res, h.md, h.item, rfl, h.obj⟩ rfl
  | baseMaterials => exact honly h rfl (Option.some.inj hf) (Option.some.inj hg)
  | mesh =>
    simp only [child, meshChild, if_pos hn, Option.some.injEq] at hf hg
    split at hf
    · rename_i hc
      rw [if_pos hc] at hg
      exact hdone hf hg h rfl
    · rename_i hc
      rw [if_neg hc] at hg
      split at hf
      · rename_i hc
        rw [if_pos hc] at hg
        exact hdone hf hg h rfl
      · rename_i hc
        rw [if_neg hc] at hg
        exact hskip hf hg
  | vertices => exact honly h rfl (Option.some.inj hf) (Option.some.inj hg)
  | triangles => exact honly h rfl (Option.some.inj hf) (Option.some.inj hg)
  | object =>
    simp only [child, Option.some.injEq] at hf hg
    split at hf
    · rename_i hc
      rw [if_pos hc] at hg
      exact hdone hf hg h rfl
    · rename_i hc
      rw [if_neg hc] at hg
      split at hf
      · rename_i hc
        rw [if_pos hc] at hg
        exact hdone hf hg h rfl
      · rename_i hc
        rw [if_neg hc] at hg
        split at hf
        · rename_i hc
          rw [if_pos hc] at hg
          exact hdone hf hg h rfl
        · rename_i hc
          rw [if_neg hc] at hg
          exact hskip hf hg
  | components => exact honly h rfl (Option.some.inj hf) (Option.some.inj hg)
  | unknownAsset _ => simp [Dec.isExt] at hd
  | unknown _ _ => simp [Dec.isExt] at hd
  | ext _ _ => simp [Dec.isExt] at hd
  | _ => exact hskip (Option.some.inj hf) (Option.some.inj hg)

/-- The results of two calls that return. -/
theorem map_some {σ τ : Type} {x : Option σ} {f : σ → τ} {y : τ} (h : x.map f = some y) : ∃ p, x = some p ∧ f p = y :=
  Option.map_eq_some_iff.1 h

theorem coreObject_modMesh (f g : Mesh → Mesh) (hfg : ∀ m, coreMesh (f m) = g (coreMesh m)) (o : Object) :
    coreObject (o.modMesh f) = (coreObject o).modMesh g := by
  cases h : o.mesh <;> simp [coreObject, Object.modMesh, h, hfg]

theorem coreObject_modComponents (f g : Components → Components) (hfg : ∀ m, coreComponents (f m) = g (coreComponents m))
    (o : Object) : coreObject (o.modComponents f) = (coreObject o).modComponents g := by
  cases h : o.components <;> simp [coreObject, Object.modComponents, h, hfg]

theorem modMesh_rel {o o' : Object} {f f' g : Mesh → Mesh} (h : coreObject o = coreObject o')
    (hf : ∀ m, coreMesh (f m) = g (coreMesh m)) (hf' : ∀ m, coreMesh (f' m) = g (coreMesh m)) :
    coreObject (o.modMesh f) = coreObject (o'.modMesh f') := by
  rw [coreObject_modMesh f g hf, coreObject_modMesh f' g hf', h]

theorem modComponents_rel {o o' : Object} {f f' g : Components → Components} (h : coreObject o = coreObject o')
    (hf : ∀ m, coreComponents (f m) = g (coreComponents m)) (hf' : ∀ m, coreComponents (f' m) = g (coreComponents m)) :
    coreObject (o.modComponents f) = coreObject (o'.modComponents f') := by
  rw [coreObject_modComponents f g hf, coreObject_modComponents f' g hf', h]

theorem start_rel {cfg cfg' : DecCfg} (hr : cfg.isRoot = cfg'.isRoot) {r s r' s' : Regs} {d : Dec} {as : List Attr}
    {e e' : List Leaf} (hd : d.isExt = false) (h : CoreEq r s) (hf : start cfg r d as = some (r', e))
    (hg : start cfg' s d as = some (s', e')) : CoreEq r' s' := by
  have hm := h.model
  simp only [coreModel, Model.mk.injEq] at hm
  have ho := h.obj
  simp only [coreObject, Object.mk.injEq] at ho
  have hi := h.item
  simp only [coreItem, Item.mk.injEq] at hi
  cases d with
  | top =>
    simp only [start, Option.some.injEq, Prod.mk.injEq] at hf hg
    rw [← hf.1, ← hg.1]
    exact h
  | model =>
    simp only [start] at hf hg
    rw [← hr] at hg
    split at hf
    · rename_i hc
      rw [if_pos hc] at hg
      obtain ⟨p, hp, hp'⟩ := map_some hf
      obtain ⟨q, hq, hq'⟩ := map_some hg
      simp only [Prod.mk.injEq] at hp' hq'
      rw [← hp'.1, ← hq'.1]
      exact ⟨modelStart_rel h.model hp hq, h.res, h.md, h.item, h.base, h.obj⟩
    · rename_i hc
      rw [if_neg hc] at hg
      simp only [Option.some.injEq, Prod.mk.injEq] at hf hg
      rw [← hf.1, ← hg.1]
      exact h
  | metadataGroup loc =>
    obtain ⟨p, _, hp'⟩ := map_some hf
    obtain ⟨q, _, hq'⟩ := map_some hg
    simp only [Prod.mk.injEq] at hp' hq'
    rw [← hp'.1, ← hq'.1]
    cases loc with
    | item => exact ⟨h.model, h.res, h.md, h.item, h.base, h.obj⟩
    | object => exact ⟨h.model, h.res, h.md, h.item, h.base, h.obj⟩
  | metadata loc =>
    simp only [start, Option.some.injEq, Prod.mk.injEq] at hf hg
    rw [← hf.1, ← hg.1]
    exact ⟨h.model, h.res, by simp [h.md, hm], h.item, h.base, h.obj⟩
  | build =>
    obtain ⟨p, _, hp'⟩ := map_some hf
    obtain ⟨q, _, hq'⟩ := map_some hg
    simp only [Prod.mk.injEq] at hp' hq'
    rw [← hp'.1, ← hq'.1]
    exact ⟨h.model, h.res, h.md, h.item, h.base, h.obj⟩
  | item =>
    obtain ⟨p, hp, hp'⟩ := map_some hf
    obtain ⟨q, hq, hq'⟩ := map_some hg
    simp only [Prod.mk.injEq] at hp' hq'
    rw [← hp'.1, ← hq'.1]
    exact ⟨h.model, h.res, h.md,
      attrFold_rel (f := itemAttr cfg.env) (g := itemAttr cfg'.env) (fun _ _ _ _ _ _ _ => itemAttr_rel) h.item hp hq,
      h.base, h.obj⟩
  | resources =>
    simp only [start] at hf hg
    cases h1 : r.res with
    | none =>
      have h2 : s.res = none := by
        have := h.res
        rw [h1] at this
        simpa using this.symm
      simp only [h1] at hf
      simp only [h2] at hg
      split at hf
      · rename_i hc
        rw [if_pos hc] at hg
        simp only [Option.some.injEq, Prod.mk.injEq] at hf hg
        rw [← hf.1, ← hg.1]
        exact h
      · simp at hf
    | some rs =>
      cases h2 : s.res with
      | none => have := h.res; simp [h1, h2] at this
      | some ss =>
        simp only [h1] at hf
        simp only [h2] at hg
        obtain ⟨p, _, hp'⟩ := map_some hf
        obtain ⟨q, _, hq'⟩ := map_some hg
        simp only [Prod.mk.injEq] at hp' hq'
        rw [← hp'.1, ← hq'.1]
        refine ⟨h.model, ?_, h.md, h.item, h.base, h.obj⟩
        have := h.res
        rw [h1, h2] at this
        simpa [coreResources] using this
  | baseMaterials =>
    obtain ⟨p, hp, hp'⟩ := map_some hf
    obtain ⟨q, hq, hq'⟩ := map_some hg
    simp only [Prod.mk.injEq] at hp' hq'
    rw [← hp'.1, ← hq'.1]
    exact ⟨h.model, h.res, h.md, h.item,
      attrFold_rel (f := baseMaterialsAttr cfg.env) (g := baseMaterialsAttr cfg'.env)
        (fun _ _ _ _ _ _ _ => baseMaterialsAttr_rel) h.base hp hq, h.obj⟩
  | base =>
    obtain ⟨p, hp, hp'⟩ := map_some hf
    obtain ⟨q, hq, hq'⟩ := map_some hg
    simp only [Prod.mk.injEq] at hp' hq'
    rw [← hp'.1, ← hq'.1]
    have hb := attrFold_rel (f := baseAttr cfg.env) (g := baseAttr cfg'.env)
        (fun _ _ _ _ _ _ _ => baseAttr_rel) rfl hp hq
    have hbb := h.base
    simp only [coreBaseMaterials, BaseMaterials.mk.injEq] at hbb
    exact ⟨h.model, h.res, h.md, h.item, by simp [coreBaseMaterials, hb, hbb], h.obj⟩
  | mesh =>
    obtain ⟨p, _, hp'⟩ := map_some hf
    obtain ⟨q, _, hq'⟩ := map_some hg
    simp only [Prod.mk.injEq] at hp' hq'
    rw [← hp'.1, ← hq'.1]
    refine ⟨h.model, h.res, h.md, h.item, h.base, ?_⟩
    simp [coreObject, coreMesh, ho, Mesh.zero]
  | vertices =>
    obtain ⟨p, _, hp'⟩ := map_some hf
    obtain ⟨q, _, hq'⟩ := map_some hg
    simp only [Prod.mk.injEq] at hp' hq'
    rw [← hp'.1, ← hq'.1]
    refine ⟨h.model, h.res, h.md, h.item, h.base, ?_⟩
    refine modMesh_rel (g := id) h.obj ?_ ?_ <;> (intro m; rfl)
  | vertex =>
    simp only [start, Option.some.injEq, Prod.mk.injEq] at hf hg
    rw [← hf.1, ← hg.1]
    refine ⟨h.model, h.res, h.md, h.item, h.base, ?_⟩
    refine modMesh_rel (g := fun m => { m with
        vertices := m.vertices ++ [(attrLoop vertexAttr ⟨.zero, .zero, .zero⟩ as).1] }) h.obj ?_ ?_ <;> (intro m; rfl)
  | triangles =>
    obtain ⟨p, _, hp'⟩ := map_some hf
    obtain ⟨q, _, hq'⟩ := map_some hg
    simp only [Prod.mk.injEq] at hp' hq'
    rw [← hp'.1, ← hq'.1]
    refine ⟨h.model, h.res, h.md, h.item, h.base, ?_⟩
    refine modMesh_rel (g := id) h.obj ?_ ?_ <;> (intro m; rfl)
  | triangle =>
    obtain ⟨p, hp, hp'⟩ := map_some hf
    obtain ⟨q, hq, hq'⟩ := map_some hg
    simp only [Prod.mk.injEq] at hp' hq'
    rw [← hp'.1, ← hq'.1]
    have hb := attrFold_rel (f := triangleAttr cfg.env) (g := triangleAttr cfg'.env)
        (fun _ _ _ _ _ _ _ => triangleAttr_rel) rfl hp hq
    refine ⟨h.model, h.res, h.md, h.item, h.base, ?_⟩
    refine modMesh_rel (g := fun m => { m with
        triangles := m.triangles ++ [(coreVars p.1).triangle r.obj.pid r.obj.pindex] }) h.obj ?_ ?_ <;>
      (intro m; simp [coreMesh, coreTriangle_triangle, hb, ho.2.2.2.2.1, ho.2.2.2.2.2.1])
  | object =>
    obtain ⟨p, hp, hp'⟩ := map_some hf
    obtain ⟨q, hq, hq'⟩ := map_some hg
    simp only [Prod.mk.injEq] at hp' hq'
    rw [← hp'.1, ← hq'.1]
    exact ⟨h.model, h.res, h.md, h.item, h.base,
      attrFold_rel (f := objectAttr cfg.env) (g := objectAttr cfg'.env) (fun _ _ _ _ _ _ _ => objectAttr_rel) h.obj hp hq⟩
  | components =>
    obtain ⟨p, _, hp'⟩ := map_some hf
    obtain ⟨q, _, hq'⟩ := map_some hg
    simp only [Prod.mk.injEq] at hp' hq'
    rw [← hp'.1, ← hq'.1]
    refine ⟨h.model, h.res, h.md, h.item, h.base, ?_⟩
    simp [coreObject, coreComponents, ho]
  | component =>
    obtain ⟨p, hp, hp'⟩ := map_some hf
    obtain ⟨q, hq, hq'⟩ := map_some hg
    simp only [Prod.mk.injEq] at hp' hq'
    rw [← hp'.1, ← hq'.1]
    have hb := attrFold_rel (f := componentAttr cfg.env) (g := componentAttr cfg'.env)
        (fun _ _ _ _ _ _ _ => componentAttr_rel) rfl hp hq
    refine ⟨h.model, h.res, h.md, h.item, h.base, ?_⟩
    refine modComponents_rel (g := fun m => { m with component := m.component ++ [coreComponent p.1] }) h.obj ?_ ?_ <;>
      (intro m; simp [coreComponents, hb])
  | unknownAsset _ => simp [Dec.isExt] at hd
  | unknown _ _ => simp [Dec.isExt] at hd
  | ext _ _ => simp [Dec.isExt] at hd

theorem stop_rel {r s : Regs} {d : Dec} (hd : d.isExt = false) (h : CoreEq r s) : CoreEq (stop r d) (stop s d) := by
  have hm := h.model
  simp only [coreModel, Model.mk.injEq] at hm
  have ho := h.obj
  simp only [coreObject, Object.mk.injEq] at ho
  have hi := h.item
  simp only [coreItem, Item.mk.injEq] at hi
  have hgrp : ∀ {g k : MetadataGroup} {x y : Metadata}, coreGroup g = coreGroup k → x = y →
      coreGroup { g with metadata := g.metadata ++ [x] } = coreGroup { k with metadata := k.metadata ++ [y] } := by
    intro g k x y h1 h2
    simp only [coreGroup, MetadataGroup.mk.injEq] at h1 ⊢
    simp [h1.1, h2]
  cases d with
  | metadata loc =>
    cases loc with
    | none =>
      refine ⟨?_, h.res, h.md, h.item, h.base, h.obj⟩
      simp [stop, coreModel, hm, h.md]
    | some loc =>
      cases loc with
      | item =>
        refine ⟨h.model, h.res, h.md, ?_, h.base, h.obj⟩
        simp [stop, Regs.modMeta, coreItem, hi, hgrp hi.2.2.2.1 h.md]
      | object =>
        refine ⟨h.model, h.res, h.md, h.item, h.base, ?_⟩
        simp [stop, Regs.modMeta, coreObject, ho, hgrp ho.2.2.2.2.2.2.2.1 h.md]
  | item =>
    refine ⟨?_, h.res, h.md, h.item, h.base, h.obj⟩
    have hb : coreBuild r.model.build = coreBuild s.model.build := by simp [hm]
    simp only [coreBuild, Build.mk.injEq] at hb
    simp [stop, coreModel, hm, coreBuild, hb.1, h.item]
  | baseMaterials =>
    refine ⟨h.model, ?_, h.md, h.item, h.base, h.obj⟩
    have := h.res
    cases h1 : r.res <;> cases h2 : s.res <;> rw [h1, h2] at this <;> simp [coreResources] at this
    · simp [stop, h1, h2]
    · simp [stop, h1, h2, coreResources, coreAsset, this, h.base]
  | object =>
    refine ⟨h.model, ?_, h.md, h.item, h.base, h.obj⟩
    have := h.res
    cases h1 : r.res <;> cases h2 : s.res <;> rw [h1, h2] at this <;> simp [coreResources] at this
    · simp [stop, h1, h2]
    · simp [stop, h1, h2, coreResources, this, h.obj]
  | unknownAsset _ => simp [Dec.isExt] at hd
  | unknown _ _ => simp [Dec.isExt] at hd
  | ext _ _ => simp [Dec.isExt] at hd
  | _ => exact h

/-- The decoders of the core ignore tokens. -/
theorem addToken_not_ext {r : Regs} {d : Dec} {t : Token} (hd : d.isExt = false) : r.addToken d t = r := by
  cases d <;> first
    | rfl
    | simp [Dec.isExt] at hd

/-- The core content of the result. -/
theorem result_core {s t : DState} (h : CoreEq s.regs t.regs) (path : Str) :
    coreModel (s.result path) = coreModel (t.result path) := by
  have hm := h.model
  simp only [coreModel, Model.mk.injEq] at hm
  have hr := h.res
  unfold DState.result
  cases h1 : s.regs.res <;> cases h2 : t.regs.res <;> rw [h1, h2] at hr <;> simp at hr
  · exact h.model
  · rename_i a b
    have key : ∀ (m : Model) (rs : Resources), coreModel (m.setResources path rs) =
        (coreModel m).setResources path (coreResources rs) := by
      intro m rs
      unfold Model.setResources
      simp only [coreModel]
      split
      · rfl
      · simp only [Model.mk.injEq, true_and, and_true, List.map_map]
        apply List.map_congr_left
        intro c _
        simp only [Function.comp]
        split <;> rfl
    simp only
    rw [key, key, h.model, hr]

end Go3mf
