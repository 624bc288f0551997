import Verif.Lemmas.Decode

/-!
# The errors of the attributes of an element
-/

namespace Go3mf

/-- The errors are about the attributes. -/
def FromAttrs (as : List Attr) (es : List Leaf) : Prop :=
  ∀ l ∈ es, ∃ a ∈ as, ∃ req, l = .parseAttr a.name.loc req

theorem FromAttrs.nil (as : List Attr) : FromAttrs as [] := by simp [FromAttrs]

theorem FromAttrs.append {as : List Attr} {e e' : List Leaf} (h : FromAttrs as e) (h' : FromAttrs as e') :
    FromAttrs as (e ++ e') := by
  intro l hl
  rcases List.mem_append.1 hl with hl | hl
  · exact h l hl
  · exact h' l hl

theorem FromAttrs.mono {as bs : List Attr} {e : List Leaf} (h : FromAttrs as e) (hs : ∀ a ∈ as, a ∈ bs) :
    FromAttrs bs e := by
  intro l hl
  obtain ⟨a, ha, r⟩ := h l hl
  exact ⟨a, hs a ha, r⟩

theorem fromAttrs_one (a : Attr) (req : Bool) : FromAttrs [a] [.parseAttr a.name.loc req] := by
  intro l hl
  simp only [List.mem_singleton] at hl
  exact ⟨a, by simp, req, hl⟩

theorem attrFold_from {σ : Type} {f : σ → Attr → Option (σ × List Leaf)}
    (hf : ∀ s a s' e, f s a = some (s', e) → FromAttrs [a] e) : ∀ {as : List Attr} {s s' : σ} {e : List Leaf},
    attrFold f s as = some (s', e) → FromAttrs as e
  | [], s, s', e, h => by simp [attrFold] at h; rw [h.2]; exact .nil _
  | a :: as, s, s', e, h => by
    unfold attrFold at h
    cases h1 : f s a with
    | none => rw [h1] at h; simp at h
    | some p =>
      obtain ⟨s1, e1⟩ := p
      rw [h1] at h
      simp only [] at h
      cases h2 : attrFold f s1 as with
      | none => rw [h2] at h; simp at h
      | some q =>
        obtain ⟨s2, e2⟩ := q
        rw [h2] at h
        simp only [Option.some.injEq, Prod.mk.injEq] at h
        rw [← h.2]
        exact .append ((hf _ _ _ _ h1).mono (by simp)) ((attrFold_from hf h2).mono (by simp +contextual))

theorem attrLoop_from {σ : Type} {f : σ → Attr → σ × List Leaf} (hf : ∀ s a, FromAttrs [a] (f s a).2) :
    ∀ (as : List Attr) (s : σ), FromAttrs as (attrLoop f s as).2
  | [], s => .nil _
  | a :: as, s => by
    unfold attrLoop
    exact .append ((hf s a).mono (by simp)) ((attrLoop_from hf as _).mono (by simp +contextual))

theorem uintAttr_from (r : Bool) (a : Attr) : FromAttrs [a] (uintAttr r a).2 := by
  unfold uintAttr
  cases parseUint a.value with
  | ok v => exact .nil _
  | error e => exact fromAttrs_one a r

theorem floatAttr_from (r : Bool) (a : Attr) : FromAttrs [a] (floatAttr r a).2 := by
  unfold floatAttr
  cases parseFloat a.value with
  | ok v => exact .nil _
  | error e => exact fromAttrs_one a r

theorem enumAttr_from {α : Type} (x : Option α) (z : α) (a : Attr) : FromAttrs [a] (enumAttr x z a).2 := by
  cases x with
  | none => exact fromAttrs_one a false
  | some v => exact .nil _

theorem colorAttr_from (a : Attr) : FromAttrs [a] (colorAttr a).2 := by
  unfold colorAttr
  by_cases h : (parseRGBA a.value).2 = true
  · simp only [h, if_true]; exact fromAttrs_one a true
  · simp only [h, if_false]; exact .nil _

theorem uintsAttr_from (a : Attr) : FromAttrs [a] (uintsAttr a).2 := by
  intro l hl
  simp only [uintsAttr, List.mem_flatMap] at hl
  obtain ⟨f, -, hl⟩ := hl
  cases hp : parseUint f with
  | ok v => rw [hp] at hl; simp at hl
  | error e => rw [hp] at hl; simp only [List.mem_singleton] at hl; exact ⟨a, by simp, true, hl⟩

theorem floatsAttr_from (a : Attr) : FromAttrs [a] (floatsAttr a).2 := by
  intro l hl
  simp only [floatsAttr, List.mem_flatMap] at hl
  obtain ⟨f, -, hl⟩ := hl
  cases hp : parseFloat f with
  | ok v => rw [hp] at hl; simp at hl
  | error e => rw [hp] at hl; simp only [List.mem_singleton] at hl; exact ⟨a, by simp, true, hl⟩

theorem unmarshal_from (g : AttrGroup) (a : Attr) : FromAttrs [a] (g.unmarshal a).2 := by
  cases g <;> simp only [AttrGroup.unmarshal] <;> (repeat' split) <;>
    first | exact .nil _ | exact fromAttrs_one a _

theorem anyUpdate_from {a : Attr} : ∀ {any any' : AnyAttr} {e : List Leaf}, anyUpdate a any = some (any', e) →
    FromAttrs [a] e
  | [], _, _, h => by simp [anyUpdate] at h
  | g :: gs, any', e, h => by
    unfold anyUpdate at h
    by_cases hg : g.ns = a.name.space
    · rw [if_pos hg] at h
      simp only [Option.some.injEq, Prod.mk.injEq] at h
      rw [← h.2]; exact unmarshal_from g a
    · rw [if_neg hg, Option.map_eq_some_iff] at h
      obtain ⟨p, hp, h2⟩ := h
      simp only [Prod.mk.injEq] at h2
      rw [← h2.2]
      exact anyUpdate_from (any' := p.1) hp

theorem anyAttrAdd_from {env : Env} {parent : Str} {any any' : AnyAttr} {a : Attr} {e : List Leaf}
    (h : anyAttrAdd env parent any a = some (any', e)) : FromAttrs [a] e := by
  unfold anyAttrAdd at h
  cases h1 : anyUpdate a any with
  | some p =>
    rw [h1] at h
    simp only [Option.some.injEq] at h
    subst h
    exact anyUpdate_from h1
  | none =>
    rw [h1] at h
    simp only [] at h
    cases h2 : newAttrGroup env parent a.name.space with
    | none => rw [h2] at h; simp at h
    | some g =>
      rw [h2] at h
      simp only [Option.some.injEq, Prod.mk.injEq] at h
      rw [← h.2]; exact unmarshal_from g a

/-- The part of an attribute function for extension attributes. -/
theorem anyMap_from {σ : Type} {env : Env} {parent : Str} {any : AnyAttr} {a : Attr} {e : List Leaf} {s' : σ}
    {g : AnyAttr × List Leaf → σ}
    (h : ((anyAttrAdd env parent any a).map fun p => (g p, p.2)) = some (s', e)) : FromAttrs [a] e := by
  rw [Option.map_eq_some_iff] at h
  obtain ⟨p, hp, h2⟩ := h
  simp only [Prod.mk.injEq] at h2
  rw [← h2.2]
  exact anyAttrAdd_from (any' := p.1) hp

/-- Closes goals about one attribute. -/
macro "from_attr" : tactic =>
  `(tactic| first
    | exact FromAttrs.nil _
    | exact uintAttr_from _ _
    | exact floatAttr_from _ _
    | exact enumAttr_from _ _ _
    | exact colorAttr_from _
    | exact uintsAttr_from _
    | exact floatsAttr_from _)

theorem itemAttr_from {env : Env} (s : Item) (a : Attr) (s' : Item) (e : List Leaf)
    (h : itemAttr env s a = some (s', e)) : FromAttrs [a] e := by
  unfold itemAttr at h
  by_cases h0 : a.name.space = []
  · rw [if_pos h0] at h
    simp only [Option.some.injEq] at h
    have : e = (itemCore s a).2 := by rw [h]
    rw [this]; unfold itemCore
    (repeat' split) <;> from_attr
  · rw [if_neg h0] at h; exact anyMap_from h

theorem objectAttr_from {env : Env} (s : Object) (a : Attr) (s' : Object) (e : List Leaf)
    (h : objectAttr env s a = some (s', e)) : FromAttrs [a] e := by
  unfold objectAttr at h
  by_cases h0 : a.name.space = []
  · rw [if_pos h0] at h
    simp only [Option.some.injEq] at h
    have : e = (objectCore s a).2 := by rw [h]
    rw [this]; unfold objectCore
    (repeat' split) <;> from_attr
  · rw [if_neg h0] at h; exact anyMap_from h

/-- The shape of the remaining attribute functions. -/
theorem some_from {σ : Type} {a : Attr} {s s' : σ} {e e' : List Leaf} (h : some (s, e) = some (s', e'))
    (h' : FromAttrs [a] e) : FromAttrs [a] e' := by
  simp only [Option.some.injEq, Prod.mk.injEq] at h
  rw [← h.2]; exact h'

theorem baseMaterialsAttr_from {env : Env} (s : BaseMaterials) (a : Attr) (s' : BaseMaterials) (e : List Leaf)
    (h : baseMaterialsAttr env s a = some (s', e)) : FromAttrs [a] e := by
  unfold baseMaterialsAttr at h
  (repeat' split at h) <;> first
    | exact anyMap_from h
    | exact some_from h (by from_attr)

theorem baseAttr_from {env : Env} (s : Base) (a : Attr) (s' : Base) (e : List Leaf)
    (h : baseAttr env s a = some (s', e)) : FromAttrs [a] e := by
  unfold baseAttr at h
  (repeat' split at h) <;> first
    | exact anyMap_from h
    | exact some_from h (by from_attr)

theorem triangleAttr_from {env : Env} (s : TriangleVars) (a : Attr) (s' : TriangleVars) (e : List Leaf)
    (h : triangleAttr env s a = some (s', e)) : FromAttrs [a] e := by
  unfold triangleAttr at h
  (repeat' split at h) <;> first
    | exact anyMap_from h
    | exact some_from h (by from_attr)

theorem componentAttr_from {env : Env} (s : Component) (a : Attr) (s' : Component) (e : List Leaf)
    (h : componentAttr env s a = some (s', e)) : FromAttrs [a] e := by
  unfold componentAttr at h
  (repeat' split at h) <;> first
    | exact anyMap_from h
    | exact some_from h (by from_attr)

theorem modelAttr_from {env : Env} (s : ModelAttrs) (a : Attr) (s' : ModelAttrs) (e : List Leaf)
    (h : modelAttr env s a = some (s', e)) : FromAttrs [a] e := by
  unfold modelAttr at h
  (repeat' split at h) <;> first
    | exact some_from h (by from_attr)
    | (simp at h; done)
    | (rename_i any e1 h1
       exact some_from h (anyAttrAdd_from h1))

theorem firstID_mem {as : List Attr} {a : Attr} (h : firstID as = some a) : a ∈ as := List.mem_of_find?_eq_some h

theorem firstUint_from (as : List Attr) (p : Attr → Bool) : FromAttrs as (firstUint as p).2 := by
  unfold firstUint
  cases h : as.find? p with
  | none => exact .nil _
  | some a => exact (uintAttr_from true a).mono (by simpa using List.mem_of_find?_eq_some h)

theorem colorStart_from (as : List Attr) : FromAttrs as (colorStart as).2 := by
  unfold colorStart
  split
  · rename_i a h
    exact (colorAttr_from a).mono (by simpa using List.mem_of_find?_eq_some h)
  · exact .nil _

theorem extResStart_from (as : List Attr) (x : ExtRes) : FromAttrs as (x.start as).2 := by
  cases x with
  | colorGroup g =>
    simp only [ExtRes.start, ColorGroup.start]
    cases h : firstID as with
    | none => exact .nil _
    | some a => exact (uintAttr_from true a).mono (by simpa using firstID_mem h)
  | texture2DGroup g =>
    exact attrLoop_from (fun s a => by unfold texture2DGroupAttr; (repeat' split) <;> from_attr) as g
  | texture2D g => exact attrLoop_from (fun s a => by unfold texture2DAttr; (repeat' split) <;> from_attr) as g
  | composite g => exact attrLoop_from (fun s a => by unfold compositeMaterialsAttr; (repeat' split) <;> from_attr) as g
  | multi g => exact attrLoop_from (fun s a => by unfold multiPropertiesAttr; (repeat' split) <;> from_attr) as g
  | sliceStack g => exact attrLoop_from (fun s a => by unfold sliceStackAttr; (repeat' split) <;> from_attr) as g

theorem anyElemStart_from (as : List Attr) (x : AnyElem) : FromAttrs as (x.start as).2 := by
  cases x with
  | tokens ts => exact .nil _
  | res x => exact extResStart_from as x
  | beamLattice b => exact attrLoop_from (fun s a => by unfold beamLatticeAttr; (repeat' split) <;> from_attr) as b

theorem beamAttr_from (as : List Attr) (s : BeamVars) : FromAttrs as (attrLoop beamAttr s as).2 :=
  attrLoop_from (fun s a => by unfold beamAttr; (repeat' split) <;> from_attr) as s

theorem extStart_from (r : Regs) (loc : AnyLoc) (k : ExtDec) (as : List Attr) : FromAttrs as (extStart r loc k as).2 := by
  have hany : FromAttrs as (((r.getAny loc).map fun e => (e.start as).2).getD []) := by
    cases r.getAny loc with
    | none => exact .nil _
    | some e => exact anyElemStart_from as e
  cases k <;> simp only [extStart] <;> first
    | exact hany
    | exact .nil _
    | exact colorStart_from as
    | exact firstUint_from as _
    | exact beamAttr_from as _
    | exact attrLoop_from (fun s a => by unfold coordAttr; (repeat' split) <;> from_attr) as _
    | exact attrLoop_from (fun s a => by unfold compositeAttr; (repeat' split) <;> from_attr) as _
    | exact attrLoop_from (fun s a => by unfold multiAttr; (repeat' split) <;> from_attr) as _
    | exact attrLoop_from (fun s a => by unfold sliceRefAttr; (repeat' split) <;> from_attr) as _
    | exact attrLoop_from (fun s a => by unfold pVertexAttr; (repeat' split) <;> from_attr) as _
    | exact attrLoop_from (fun s a => by unfold segmentAttr; (repeat' split) <;> from_attr) as _
    | (unfold Slice.start
       split
       · rename_i a h
         exact (floatAttr_from true a).mono (by simpa using List.mem_of_find?_eq_some h)
       · exact .nil _)

theorem map_from {σ τ : Type} {x : Option (σ × List Leaf)} {g : σ × List Leaf → τ} {t : τ} {e : List Leaf} {as : List Attr}
    (h : (x.map fun p => (g p, p.2)) = some (t, e)) (hx : ∀ s e, x = some (s, e) → FromAttrs as e) : FromAttrs as e := by
  rw [Option.map_eq_some_iff] at h
  obtain ⟨p, hp, h2⟩ := h
  simp only [Prod.mk.injEq] at h2
  rw [← h2.2]
  exact hx p.1 p.2 hp

theorem anyAttrs_from {env : Env} {parent : Str} {any : AnyAttr} {as : List Attr} (s : AnyAttr) (e : List Leaf)
    (h : anyAttrs env parent any as = some (s, e)) : FromAttrs as e :=
  attrFold_from (fun _ _ _ _ h => anyAttrAdd_from h) h

/-- The errors of `Start` are about the attributes of the element. -/
theorem start_from {cfg : DecCfg} {r r' : Regs} {d : Dec} {as : List Attr} {e : List Leaf}
    (h : start cfg r d as = some (r', e)) : FromAttrs as e := by
  have hnil : ∀ {r1 : Regs}, some (r1, ([] : List Leaf)) = some (r', e) → FromAttrs as e := by
    intro r1 h1
    simp only [Option.some.injEq, Prod.mk.injEq] at h1
    rw [← h1.2]; exact .nil _
  cases d with
  | top => exact hnil h
  | model =>
    simp only [start] at h
    by_cases hr : cfg.isRoot = true
    · rw [if_pos hr] at h
      refine map_from (g := fun p => { r with model := p.1 }) h ?_
      intro s e h
      unfold modelStart at h
      cases h1 : attrFold (modelAttr cfg.env) (r.model, []) as with
      | none => rw [h1] at h; simp at h
      | some p =>
        obtain ⟨⟨m', req⟩, e'⟩ := p
        rw [h1] at h
        simp only [Option.some.injEq, Prod.mk.injEq] at h
        rw [← h.2]
        exact attrFold_from modelAttr_from h1
    · rw [if_neg hr] at h; exact hnil h
  | metadataGroup l =>
    simp only [start, Option.map_eq_some_iff, Prod.mk.injEq] at h
    obtain ⟨p, hp, -, h2⟩ := h
    rw [← h2]
    exact anyAttrs_from p.1 p.2 hp
  | metadata l => exact hnil h
  | build =>
    simp only [start, Option.map_eq_some_iff, Prod.mk.injEq] at h
    obtain ⟨p, hp, -, h2⟩ := h
    rw [← h2]
    exact anyAttrs_from p.1 p.2 hp
  | item =>
    simp only [start, Option.map_eq_some_iff, Prod.mk.injEq] at h
    obtain ⟨p, hp, -, h2⟩ := h
    rw [← h2]
    exact attrFold_from itemAttr_from (s' := p.1) hp
  | resources =>
    simp only [start] at h
    cases hr : r.res with
    | none =>
      rw [hr] at h
      by_cases ha : as = []
      · simp only [ha, if_true] at h; simp only [ha] at hnil; rw [ha]; exact hnil h
      · simp only [ha, if_false] at h; simp at h
    | some rs =>
      simp only [hr] at h
      exact map_from (g := fun p => { r with res := some { rs with anyAttr := p.1 } }) h anyAttrs_from
  | baseMaterials =>
    simp only [start, Option.map_eq_some_iff, Prod.mk.injEq] at h
    obtain ⟨p, hp, -, h2⟩ := h
    rw [← h2]
    exact attrFold_from baseMaterialsAttr_from (s' := p.1) hp
  | base =>
    simp only [start, Option.map_eq_some_iff, Prod.mk.injEq] at h
    obtain ⟨p, hp, -, h2⟩ := h
    rw [← h2]
    exact attrFold_from baseAttr_from (s' := p.1) hp
  | mesh =>
    simp only [start, Option.map_eq_some_iff, Prod.mk.injEq] at h
    obtain ⟨p, hp, -, h2⟩ := h
    rw [← h2]
    exact anyAttrs_from p.1 p.2 hp
  | vertices =>
    simp only [start, Option.map_eq_some_iff, Prod.mk.injEq] at h
    obtain ⟨p, hp, -, h2⟩ := h
    rw [← h2]
    exact anyAttrs_from p.1 p.2 hp
  | vertex =>
    simp only [start, Option.some.injEq, Prod.mk.injEq] at h
    rw [← h.2]
    exact attrLoop_from (fun s a => by unfold vertexAttr; (repeat' split) <;> from_attr) as _
  | triangles =>
    simp only [start, Option.map_eq_some_iff, Prod.mk.injEq] at h
    obtain ⟨p, hp, -, h2⟩ := h
    rw [← h2]
    exact anyAttrs_from p.1 p.2 hp
  | triangle =>
    simp only [start, Option.map_eq_some_iff, Prod.mk.injEq] at h
    obtain ⟨p, hp, -, h2⟩ := h
    rw [← h2]
    exact attrFold_from triangleAttr_from (s' := p.1) hp
  | object =>
    simp only [start, Option.map_eq_some_iff, Prod.mk.injEq] at h
    obtain ⟨p, hp, -, h2⟩ := h
    rw [← h2]
    exact attrFold_from objectAttr_from (s' := p.1) hp
  | components =>
    simp only [start, Option.map_eq_some_iff, Prod.mk.injEq] at h
    obtain ⟨p, hp, -, h2⟩ := h
    rw [← h2]
    exact anyAttrs_from p.1 p.2 hp
  | component =>
    simp only [start, Option.map_eq_some_iff, Prod.mk.injEq] at h
    obtain ⟨p, hp, -, h2⟩ := h
    rw [← h2]
    exact attrFold_from componentAttr_from (s' := p.1) hp
  | unknownAsset name =>
    simp only [start] at h
    cases hf : firstID as with
    | none => rw [hf] at h; exact hnil h
    | some a =>
      rw [hf] at h
      simp only [Option.some.injEq, Prod.mk.injEq] at h
      rw [← h.2]
      exact (uintAttr_from true a).mono (by simpa using firstID_mem hf)
  | unknown l name => exact hnil h
  | ext l k =>
    simp only [start, Option.some.injEq] at h
    have : e = (extStart r l k as).2 := by rw [h]
    rw [this]; exact extStart_from r l k as

end Go3mf
