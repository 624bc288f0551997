import Verif.Spec.Crash

/-!
# Attributes that make the decoder panic
-/

namespace Go3mf
open Spec

/-- All groups are of allowed name spaces. -/
def CleanAttrs (env : Env) (parent : Str) (any : AnyAttr) : Prop := ∀ g ∈ any, AttrAllowed env parent g.ns

theorem cleanAttrs_nil {env : Env} {parent : Str} : CleanAttrs env parent [] := by intro g hg; cases hg

theorem unmarshal_keeps_ns (g : AttrGroup) (a : Attr) : (g.unmarshal a).1.ns = g.ns := by
  cases g <;> simp only [AttrGroup.unmarshal] <;> (repeat' split) <;> rfl

theorem load_ns_eq {env : Env} {s : Str} {x : Ext} (h : env.load s = some x) :
    s = (match x with
      | .production => nsProduction
      | .slices => nsSlices
      | .beamlattice => nsBeam
      | .materials => nsMaterials) := by
  unfold Env.load at h
  repeat' split at h
  all_goals simp only [Option.some.injEq, reduceCtorEq] at h
  all_goals (rename_i hs; subst h; exact hs.1)

theorem newAttrGroup_ns {env : Env} {parent space : Str} {g : AttrGroup} (h : newAttrGroup env parent space = some g) :
    g.ns = space := by
  unfold newAttrGroup at h
  cases hl : env.load space with
  | none => rw [hl] at h; simp only [Option.some.injEq] at h; subst h; rfl
  | some x =>
    have := load_ns_eq hl
    rw [hl] at h
    cases x <;> simp only [] at h <;> (repeat' split at h) <;> simp only [Option.some.injEq, reduceCtorEq] at h <;> subst h <;>
      rw [this] <;> rfl

theorem anyUpdate_ns {a : Attr} : ∀ {any any' : AnyAttr} {e : List Leaf}, anyUpdate a any = some (any', e) →
    any'.map AttrGroup.ns = any.map AttrGroup.ns ∧ a.name.space ∈ any.map AttrGroup.ns
  | [], _, _, h => by simp [anyUpdate] at h
  | g :: gs, any', e, h => by
    unfold anyUpdate at h
    by_cases hg : g.ns = a.name.space
    · rw [if_pos hg] at h
      simp only [Option.some.injEq, Prod.mk.injEq] at h
      rw [← h.1]
      exact ⟨by simp [unmarshal_keeps_ns], by simp [hg]⟩
    · rw [if_neg hg] at h
      simp only [Option.map_eq_some_iff, Prod.mk.injEq] at h
      obtain ⟨p, hp, rfl, -⟩ := h
      obtain ⟨h1, h2⟩ := anyUpdate_ns (any' := p.1) (e := p.2) hp
      exact ⟨by simp [h1], by simp only [List.map_cons, List.mem_cons]; exact Or.inr h2⟩

theorem cleanAttrs_ns {env : Env} {parent : Str} {any : AnyAttr} :
    CleanAttrs env parent any ↔ ∀ s ∈ any.map AttrGroup.ns, AttrAllowed env parent s := by
  simp [CleanAttrs]

theorem anyAttrAdd_exact {env : Env} {parent : Str} {any : AnyAttr} {a : Attr} (h : CleanAttrs env parent any) :
    (anyAttrAdd env parent any a).isSome ↔ AttrAllowed env parent a.name.space := by
  refine ⟨fun hs => ?_, anyAttrAdd_isSome⟩
  unfold anyAttrAdd at hs
  cases hu : anyUpdate a any with
  | some p => exact cleanAttrs_ns.1 h _ (anyUpdate_ns (any' := p.1) (e := p.2) hu).2
  | none =>
    rw [hu] at hs
    refine newAttrGroup_isSome.1 ?_
    cases hn : newAttrGroup env parent a.name.space with
    | none => rw [hn] at hs; simp at hs
    | some g => rfl

theorem anyAttrAdd_clean {env : Env} {parent : Str} {any any' : AnyAttr} {a : Attr} {e : List Leaf}
    (h : CleanAttrs env parent any) (hs : anyAttrAdd env parent any a = some (any', e)) : CleanAttrs env parent any' := by
  have ha : AttrAllowed env parent a.name.space := (anyAttrAdd_exact h).1 (by rw [hs]; rfl)
  unfold anyAttrAdd at hs
  cases hu : anyUpdate a any with
  | some p =>
    rw [hu] at hs
    simp only [Option.some.injEq] at hs
    subst hs
    rw [cleanAttrs_ns, (anyUpdate_ns hu).1]
    exact cleanAttrs_ns.1 h
  | none =>
    rw [hu] at hs
    cases hn : newAttrGroup env parent a.name.space with
    | none => rw [hn] at hs; simp at hs
    | some g =>
      rw [hn] at hs
      simp only [Option.some.injEq, Prod.mk.injEq] at hs
      rw [← hs.1]
      intro g' hg'
      rcases List.mem_append.1 hg' with hg' | hg'
      · exact h g' hg'
      · simp only [List.mem_singleton] at hg'
        rw [hg', unmarshal_keeps_ns, newAttrGroup_ns hn]
        exact ha

theorem attrFold_pres {σ : Type} {f : σ → Attr → Option (σ × List Leaf)} {P : σ → Prop}
    (hp : ∀ s a s' e, P s → f s a = some (s', e) → P s') :
    ∀ {as : List Attr} {s s' : σ} {e : List Leaf}, P s → attrFold f s as = some (s', e) → P s'
  | [], s, s', e, h, hf => by
    simp only [attrFold, Option.some.injEq, Prod.mk.injEq] at hf
    rw [← hf.1]; exact h
  | a :: as, s, s', e, h, hf => by
    unfold attrFold at hf
    cases h1 : f s a with
    | none => rw [h1] at hf; simp at hf
    | some p =>
      rw [h1] at hf
      simp only [] at hf
      cases h2 : attrFold f p.1 as with
      | none => rw [h2] at hf; simp at hf
      | some q =>
        rw [h2] at hf
        simp only [Option.some.injEq, Prod.mk.injEq] at hf
        rw [← hf.1]
        exact attrFold_pres hp (hp s a p.1 p.2 h h1) (s' := q.1) (e := q.2) h2

theorem attrFold_exact {σ : Type} {f : σ → Attr → Option (σ × List Leaf)} {P : σ → Prop} {Q : Attr → Prop}
    (hq : ∀ s a, P s → ((f s a).isSome ↔ Q a)) (hp : ∀ s a s' e, P s → f s a = some (s', e) → P s') :
    ∀ {as : List Attr} {s : σ}, P s → ((attrFold f s as).isSome ↔ ∀ a ∈ as, Q a)
  | [], s, h => by simp [attrFold]
  | a :: as, s, h => by
    unfold attrFold
    cases h1 : f s a with
    | none =>
      have : ¬ Q a := fun hqa => by have := (hq s a h).2 hqa; rw [h1] at this; simp at this
      simp [this]
    | some p =>
      have hqa : Q a := (hq s a h).1 (by rw [h1]; rfl)
      have ih := attrFold_exact hq hp (as := as) (hp s a p.1 p.2 h h1)
      simp only [List.mem_cons, forall_eq_or_imp, hqa, true_and]
      rw [← ih]
      cases h2 : attrFold f p.1 as with
      | none => simp
      | some q => simp

theorem anyAttrs_exact {env : Env} {parent : Str} {any : AnyAttr} {as : List Attr} (h : CleanAttrs env parent any) :
    (anyAttrs env parent any as).isSome ↔ ∀ a ∈ as, AttrAllowed env parent a.name.space :=
  attrFold_exact (f := anyAttrAdd env parent) (P := CleanAttrs env parent) (Q := fun a => AttrAllowed env parent a.name.space) (fun _ _ h => anyAttrAdd_exact h) (fun _ _ _ _ h hs => anyAttrAdd_clean h hs) h

theorem anyAttrs_clean {env : Env} {parent : Str} {any any' : AnyAttr} {as : List Attr} {e : List Leaf}
    (h : CleanAttrs env parent any) (hs : anyAttrs env parent any as = some (any', e)) : CleanAttrs env parent any' :=
  attrFold_pres (P := CleanAttrs env parent) (fun _ _ _ _ h hs => anyAttrAdd_clean h hs) h hs

theorem allowed_nil {env : Env} {parent : Str} : AttrAllowed env parent [] := by
  have : env.load [] = none := by
    unfold Env.load
    rw [if_neg (by rintro ⟨h, -⟩; revert h; decide +kernel), if_neg (by rintro ⟨h, -⟩; revert h; decide +kernel),
      if_neg (by rintro ⟨h, -⟩; revert h; decide +kernel), if_neg (by rintro ⟨h, -⟩; revert h; decide +kernel)]
  simp [AttrAllowed, this]

/-- The common form of an attribute: plain names are known or ignored, the others go to `AnyAttr`. -/
theorem attr_exact {σ : Type} {env : Env} {parent : Str} {any : σ → AnyAttr} {set : σ → AnyAttr → σ}
    {core : σ → Attr → Option (σ × List Leaf)} {f : σ → Attr → Option (σ × List Leaf)}
    (hf : ∀ s a, f s a = if a.name.space = [] then core s a else (anyAttrAdd env parent (any s) a).map fun p => (set s p.1, p.2))
    (hc : ∀ s a, ∃ p, core s a = some p ∧ any p.1 = any s) (hset : ∀ s x, any (set s x) = x)
    {s : σ} {as : List Attr} (h : CleanAttrs env parent (any s)) :
    (attrFold f s as).isSome ↔ ∀ a ∈ as, AttrAllowed env parent a.name.space := by
  refine attrFold_exact (P := fun s => CleanAttrs env parent (any s)) ?_ ?_ h
  · intro s a hs
    rw [hf]
    by_cases ha : a.name.space = []
    · obtain ⟨p, hp, -⟩ := hc s a
      rw [if_pos ha, hp, ha]
      simp [allowed_nil]
    · rw [if_neg ha, Option.isSome_map]
      exact anyAttrAdd_exact hs
  · intro s a s' e hs he
    rw [hf] at he
    by_cases ha : a.name.space = []
    · obtain ⟨p, hp, hp2⟩ := hc s a
      rw [if_pos ha, hp] at he
      simp only [Option.some.injEq] at he
      subst he
      show CleanAttrs _ _ (any s')
      rw [show any s' = any s from hp2]; exact hs
    · rw [if_neg ha] at he
      simp only [Option.map_eq_some_iff, Prod.mk.injEq] at he
      obtain ⟨p, hp, rfl, -⟩ := he
      show CleanAttrs _ _ (any (set s p.1))
      rw [hset]
      exact anyAttrAdd_clean hs hp

theorem item_exact {env : Env} {s : Item} {as : List Attr} (h : CleanAttrs env b!"item" s.anyAttr) :
    (attrFold (itemAttr env) s as).isSome ↔ ∀ a ∈ as, AttrAllowed env b!"item" a.name.space :=
  attr_exact (any := Item.anyAttr) (set := fun s x => { s with anyAttr := x }) (core := fun s a => some (itemCore s a))
    (fun _ _ => rfl) (fun s a => ⟨_, rfl, by unfold itemCore; repeat' split
                                             all_goals rfl⟩) (fun _ _ => rfl) h

theorem object_exact {env : Env} {s : Object} {as : List Attr} (h : CleanAttrs env b!"object" s.anyAttr) :
    (attrFold (objectAttr env) s as).isSome ↔ ∀ a ∈ as, AttrAllowed env b!"object" a.name.space :=
  attr_exact (any := Object.anyAttr) (set := fun s x => { s with anyAttr := x }) (core := fun s a => some (objectCore s a))
    (fun _ _ => rfl) (fun s a => ⟨_, rfl, by unfold objectCore; repeat' split
                                             all_goals rfl⟩) (fun _ _ => rfl) h

theorem base_exact {env : Env} {s : Base} {as : List Attr} (h : CleanAttrs env b!"base" s.anyAttr) :
    (attrFold (baseAttr env) s as).isSome ↔ ∀ a ∈ as, AttrAllowed env b!"base" a.name.space :=
  attr_exact (any := Base.anyAttr) (set := fun s x => { s with anyAttr := x }) (core := fun r a =>
    if a.name.loc = b!"name" then some ({ r with name := a.value }, [])
    else if a.name.loc = b!"displaycolor" then some ({ r with color := (colorAttr a).1 }, (colorAttr a).2)
    else some (r, []))
    (fun _ _ => rfl) (fun s a => by repeat' split
                                    all_goals exact ⟨_, rfl, rfl⟩) (fun _ _ => rfl) h

theorem baseMaterials_exact {env : Env} {s : BaseMaterials} {as : List Attr} (h : CleanAttrs env b!"basematerials" s.anyAttr) :
    (attrFold (baseMaterialsAttr env) s as).isSome ↔ ∀ a ∈ as, AttrAllowed env b!"basematerials" a.name.space :=
  attr_exact (any := BaseMaterials.anyAttr) (set := fun s x => { s with anyAttr := x }) (core := fun r a =>
    if a.name.loc = b!"id" then some ({ r with id := (uintAttr true a).1 }, (uintAttr true a).2) else some (r, []))
    (fun _ _ => rfl) (fun s a => by repeat' split
                                    all_goals exact ⟨_, rfl, rfl⟩) (fun _ _ => rfl) h

theorem component_exact {env : Env} {s : Component} {as : List Attr} (h : CleanAttrs env b!"component" s.anyAttr) :
    (attrFold (componentAttr env) s as).isSome ↔ ∀ a ∈ as, AttrAllowed env b!"component" a.name.space :=
  attr_exact (any := Component.anyAttr) (set := fun s x => { s with anyAttr := x }) (core := fun c a =>
    if a.name.loc = b!"objectid" then some ({ c with objectID := (uintAttr true a).1 }, (uintAttr true a).2)
    else if a.name.loc = b!"transform" then some ({ c with transform := (matrixAttr a).1 }, (matrixAttr a).2)
    else some (c, []))
    (fun _ _ => rfl) (fun s a => by repeat' split
                                    all_goals exact ⟨_, rfl, rfl⟩) (fun _ _ => rfl) h

theorem triangle_exact {env : Env} {s : TriangleVars} {as : List Attr} (h : CleanAttrs env b!"triangle" s.anyAttr) :
    (attrFold (triangleAttr env) s as).isSome ↔ ∀ a ∈ as, AttrAllowed env b!"triangle" a.name.space :=
  attr_exact (any := TriangleVars.anyAttr) (set := fun s x => { s with anyAttr := x }) (core := fun t a =>
    let opt := uintAttr false a
    let req := uintAttr true a
    if a.name.loc = b!"v1" then some ({ t with v1 := req.1 }, req.2)
    else if a.name.loc = b!"v2" then some ({ t with v2 := req.1 }, req.2)
    else if a.name.loc = b!"v3" then some ({ t with v3 := req.1 }, req.2)
    else if a.name.loc = b!"pid" then some ({ t with pid := some opt.1 }, opt.2)
    else if a.name.loc = b!"p1" then some ({ t with p1 := some opt.1 }, opt.2)
    else if a.name.loc = b!"p2" then some ({ t with p2 := some opt.1 }, opt.2)
    else if a.name.loc = b!"p3" then some ({ t with p3 := some opt.1 }, opt.2)
    else some (t, req.2))
    (fun _ _ => rfl) (fun s a => by repeat' split
                                    all_goals exact ⟨_, rfl, rfl⟩) (fun _ _ => rfl) h

/-! ## The root element -/

theorem load_other {env : Env} {s : Str} (h : s = nsXML ∨ s = b!"xmlns") : env.load s = none := by
  unfold Env.load
  rcases h with rfl | rfl <;>
  rw [if_neg (by rintro ⟨h, -⟩; revert h; decide +kernel), if_neg (by rintro ⟨h, -⟩; revert h; decide +kernel),
      if_neg (by rintro ⟨h, -⟩; revert h; decide +kernel), if_neg (by rintro ⟨h, -⟩; revert h; decide +kernel)]

/-- What `modelAttr` does to the attributes in other name spaces. -/
theorem modelAttr_any {env : Env} {s : ModelAttrs} {a : Attr} :
    (AttrAllowed env b!"model" a.name.space ∧ ∃ p, modelAttr env s a = some p ∧ p.1.1.anyAttr = s.1.anyAttr
        ∧ p.1.1.build = s.1.build ∧ p.1.1.any = s.1.any) ∨
      modelAttr env s a = (anyAttrAdd env b!"model" s.1.anyAttr a).map fun p => (({ s.1 with anyAttr := p.1 }, s.2), p.2) := by
  unfold modelAttr
  by_cases h1 : a.name.space = []
  · left
    refine ⟨by rw [h1]; exact allowed_nil, ?_⟩
    rw [if_pos h1]
    repeat' split
    all_goals exact ⟨_, rfl, rfl, rfl, rfl⟩
  · rw [if_neg h1]
    by_cases h2 : a.name.space = nsXML
    · left
      refine ⟨by simp [AttrAllowed, load_other (Or.inl h2)], ?_⟩
      rw [if_pos h2]
      repeat' split
      all_goals exact ⟨_, rfl, rfl, rfl, rfl⟩
    · rw [if_neg h2]
      by_cases h3 : a.name.space = b!"xmlns"
      · left
        refine ⟨by simp [AttrAllowed, load_other (Or.inr h3)], ?_⟩
        rw [if_pos h3]
        exact ⟨_, rfl, rfl, rfl, rfl⟩
      · right
        rw [if_neg h3]
        cases anyAttrAdd env b!"model" s.1.anyAttr a <;> rfl

theorem modelAttr_clean {env : Env} {s s' : ModelAttrs} {a : Attr} {e : List Leaf} (h : CleanAttrs env b!"model" s.1.anyAttr)
    (hs : modelAttr env s a = some (s', e)) :
    CleanAttrs env b!"model" s'.1.anyAttr ∧ s'.1.build = s.1.build ∧ s'.1.any = s.1.any := by
  rcases modelAttr_any (env := env) (s := s) (a := a) with ⟨-, p, hp, h1, h2, h3⟩ | he
  · rw [hp] at hs
    simp only [Option.some.injEq] at hs
    subst hs
    exact ⟨by rw [h1]; exact h, h2, h3⟩
  · rw [he] at hs
    simp only [Option.map_eq_some_iff, Prod.mk.injEq] at hs
    obtain ⟨p, hp, rfl, -⟩ := hs
    exact ⟨anyAttrAdd_clean h hp, rfl, rfl⟩

theorem modelStart_exact {env : Env} {m : Model} {as : List Attr} (h : CleanAttrs env b!"model" m.anyAttr) :
    (modelStart env m as).isSome ↔ ∀ a ∈ as, AttrAllowed env b!"model" a.name.space := by
  have : (modelStart env m as).isSome ↔ (attrFold (modelAttr env) (m, []) as).isSome := by
    unfold modelStart
    cases attrFold (modelAttr env) (m, []) as <;> simp
  rw [this]
  refine attrFold_exact (P := fun s => CleanAttrs env b!"model" s.1.anyAttr) ?_ (fun s a s' e hs he => (modelAttr_clean hs he).1) h
  intro s a hs
  rcases modelAttr_any (env := env) (s := s) (a := a) with ⟨h0, p, hp, -, -⟩ | he
  · rw [hp]; simp [h0]
  · rw [he, Option.isSome_map]; exact anyAttrAdd_exact hs

theorem modelStart_clean {env : Env} {m m' : Model} {as : List Attr} {e : List Leaf} (h : CleanAttrs env b!"model" m.anyAttr)
    (hs : modelStart env m as = some (m', e)) :
    CleanAttrs env b!"model" m'.anyAttr ∧ m'.build = m.build ∧ m'.any = m.any := by
  unfold modelStart at hs
  cases hf : attrFold (modelAttr env) (m, []) as with
  | none => rw [hf] at hs; simp at hs
  | some p =>
    obtain ⟨⟨m2, req⟩, e2⟩ := p
    rw [hf] at hs
    simp only [Option.some.injEq, Prod.mk.injEq] at hs
    have := attrFold_pres (P := fun s : ModelAttrs => CleanAttrs env b!"model" s.1.anyAttr ∧ s.1.build = m.build ∧ s.1.any = m.any)
      (fun s a s' e hp he => by
        obtain ⟨h1, h2, h3⟩ := modelAttr_clean hp.1 he
        exact ⟨h1, h2.trans hp.2.1, h3.trans hp.2.2⟩) ⟨h, rfl, rfl⟩ hf
    rw [← hs.1]
    exact this

end Go3mf
