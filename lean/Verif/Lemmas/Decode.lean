import Verif.Model.Decode

/-!
# Basic facts about the decoder
-/

namespace Go3mf

/-! ## Names of the decoders -/

/-- The names of the elements that a decoder is made for. -/
def Dec.DecName (d : Dec) (n : Name) : Prop :=
  match d with
  | .top => False
  | .model => n = ⟨nsCore, b!"model"⟩
  | .metadataGroup _ => n = ⟨nsCore, b!"metadatagroup"⟩
  | .metadata _ => n = ⟨nsCore, b!"metadata"⟩
  | .build => n = ⟨nsCore, b!"build"⟩
  | .item => n = ⟨nsCore, b!"item"⟩
  | .resources => n = ⟨nsCore, b!"resources"⟩
  | .baseMaterials => n = ⟨nsCore, b!"basematerials"⟩
  | .base => n = ⟨nsCore, b!"base"⟩
  | .mesh => n = ⟨nsCore, b!"mesh"⟩
  | .vertices => n = ⟨nsCore, b!"vertices"⟩
  | .vertex => n = ⟨nsCore, b!"vertex"⟩
  | .triangles => n = ⟨nsCore, b!"triangles"⟩
  | .triangle => n = ⟨nsCore, b!"triangle"⟩
  | .object => n = ⟨nsCore, b!"object"⟩
  | .components => n = ⟨nsCore, b!"components"⟩
  | .component => n = ⟨nsCore, b!"component"⟩
  | .unknownAsset m => m = n ∧ n.space ≠ nsCore
  | .unknown _ m => m = n ∧ n.space ≠ nsCore
  | .ext _ _ => n.space ≠ nsCore

theorem onlyChild_some {r r' r2 : Regs} {n : Name} {loc : Str} {i j : Int} {d d' : Dec}
    (h : onlyChild r r' n loc i d = (r2, some (j, d'))) : n = ⟨nsCore, loc⟩ ∧ r2 = r' ∧ j = i ∧ d' = d := by
  unfold onlyChild at h
  by_cases hn : n = ⟨nsCore, loc⟩
  · rw [if_pos hn] at h
    simp only [Prod.mk.injEq, Option.some.injEq] at h
    exact ⟨hn, h.1.symm, h.2.1.symm, h.2.2.symm⟩
  · rw [if_neg hn] at h; simp at h

theorem newAnyElement_dec {env : Env} {loc : AnyLoc} {n : Name} {d : Dec} {e : AnyElem}
    (h : newAnyElement env loc n = some (d, e)) : d = .unknown loc n ∨ ∃ k, d = .ext loc k := by
  unfold newAnyElement at h
  cases hl : env.load n.space with
  | none => rw [hl] at h; simp at h; exact Or.inl h.1.symm
  | some x =>
    rw [hl] at h
    simp only [Option.map_eq_some_iff] at h
    obtain ⟨p, _, hp⟩ := h
    simp only [Prod.mk.injEq] at hp
    exact Or.inr ⟨p.1, hp.1.symm⟩

theorem newAnyElement_name {env : Env} {loc : AnyLoc} {n : Name} {d : Dec} {e : AnyElem} (hn : n.space ≠ nsCore)
    (h : newAnyElement env loc n = some (d, e)) : d.DecName n := by
  rcases newAnyElement_dec h with rfl | ⟨k, rfl⟩
  · exact ⟨rfl, hn⟩
  · exact hn

theorem ns_ne : nsMaterials ≠ nsCore ∧ nsSlices ≠ nsCore ∧ nsBeam ≠ nsCore ∧ nsProduction ≠ nsCore := by decide +kernel

theorem extChild_space {r : Regs} {loc : AnyLoc} {k k' : ExtDec} {n : Name} {i : Int}
    (h : extChild r loc k n = some (i, k')) : n.space = nsMaterials ∨ n.space = nsSlices ∨ n.space = nsBeam := by
  unfold extChild at h
  split at h <;> (repeat' split at h) <;> first
    | (simp at h; done)
    | (rename_i hn; subst hn; simp)

theorem extChild_name {r : Regs} {loc : AnyLoc} {k k' : ExtDec} {n : Name} {i : Int}
    (h : extChild r loc k n = some (i, k')) : n.space ≠ nsCore := by
  rcases extChild_space h with h | h | h <;> rw [h]
  · exact ns_ne.1
  · exact ns_ne.2.1
  · exact ns_ne.2.2.1

theorem Name.eq_iff {n : Name} {s l : Str} : n = ⟨s, l⟩ ↔ n.space = s ∧ n.loc = l := by
  cases n; simp

theorem child_name {cfg : DecCfg} {r r' : Regs} {d d' : Dec} {n : Name} {i : Int}
    (h : child cfg r d n = some (r', some (i, d'))) : d'.DecName n := by
  cases d with
  | top => simp only [child, Option.some.injEq] at h; obtain ⟨h1, -, -, rfl⟩ := onlyChild_some h; exact h1
  | model =>
    simp only [child, Option.some.injEq, modelChild] at h
    by_cases hs : n.space = nsCore
    · rw [if_pos hs] at h
      by_cases h1 : n.loc = b!"resources"
      · rw [if_pos h1] at h; simp only [Prod.mk.injEq, Option.some.injEq] at h
        obtain ⟨-, -, rfl⟩ := h; exact Name.eq_iff.2 ⟨hs, h1⟩
      · rw [if_neg h1] at h
        by_cases h2 : n.loc = b!"build" ∧ cfg.isRoot = true
        · rw [if_pos h2] at h; simp only [Prod.mk.injEq, Option.some.injEq] at h
          obtain ⟨-, -, rfl⟩ := h; exact Name.eq_iff.2 ⟨hs, h2.1⟩
        · rw [if_neg h2] at h
          by_cases h3 : n.loc = b!"metadata" ∧ cfg.isRoot = true
          · rw [if_pos h3] at h; simp only [Prod.mk.injEq, Option.some.injEq] at h
            obtain ⟨-, -, rfl⟩ := h; exact Name.eq_iff.2 ⟨hs, h3.1⟩
          · rw [if_neg h3] at h; simp at h
    · rw [if_neg hs] at h
      cases ha : newAnyElement cfg.env .modelAny n with
      | none => rw [ha] at h; simp at h
      | some p =>
        rw [ha] at h; obtain ⟨q, e⟩ := p
        simp only [Prod.mk.injEq, Option.some.injEq] at h
        obtain ⟨-, -, rfl⟩ := h; exact newAnyElement_name hs ha
  | metadataGroup l => simp only [child, Option.some.injEq] at h; obtain ⟨h1, -, -, rfl⟩ := onlyChild_some h; exact h1
  | metadata l => simp [child] at h
  | build => simp only [child, Option.some.injEq] at h; obtain ⟨h1, -, -, rfl⟩ := onlyChild_some h; exact h1
  | item => simp only [child, Option.some.injEq] at h; obtain ⟨h1, -, -, rfl⟩ := onlyChild_some h; exact h1
  | resources =>
    simp only [child, resourcesChild] at h
    by_cases h0 : n.space = nsCore ∧ n.loc ≠ b!"object" ∧ n.loc ≠ b!"basematerials"
    · rw [if_pos h0] at h; simp at h
    · rw [if_neg h0] at h
      cases hr : r.res with
      | none => rw [hr] at h; simp at h
      | some rs =>
        simp only [hr] at h
        by_cases hs : n.space = nsCore
        · rw [if_pos hs] at h
          by_cases h1 : n.loc = b!"object"
          · rw [if_pos h1] at h; simp only [Option.some.injEq, Prod.mk.injEq] at h
            obtain ⟨-, -, rfl⟩ := h; exact Name.eq_iff.2 ⟨hs, h1⟩
          · rw [if_neg h1] at h; simp only [Option.some.injEq, Prod.mk.injEq] at h
            obtain ⟨-, -, rfl⟩ := h
            refine Name.eq_iff.2 ⟨hs, ?_⟩
            by_cases h2 : n.loc = b!"basematerials"
            · exact h2
            · exact absurd ⟨hs, h1, h2⟩ h0
        · rw [if_neg hs] at h
          cases ha : newAnyElement cfg.env .asset n with
          | none => rw [ha] at h; simp at h
          | some p =>
            obtain ⟨q, e⟩ := p
            rw [ha] at h
            rcases newAnyElement_dec ha with rfl | ⟨k, rfl⟩
            · simp only [Option.some.injEq, Prod.mk.injEq] at h
              obtain ⟨-, -, rfl⟩ := h; exact ⟨rfl, hs⟩
            · cases e with
              | tokens ts => simp at h
              | beamLattice b => simp at h
              | res x =>
                simp only [Option.some.injEq, Prod.mk.injEq] at h
                obtain ⟨-, -, rfl⟩ := h; exact hs
  | baseMaterials => simp only [child, Option.some.injEq] at h; obtain ⟨h1, -, -, rfl⟩ := onlyChild_some h; exact h1
  | base => simp [child] at h
  | mesh =>
    simp only [child, Option.some.injEq, meshChild] at h
    by_cases hs : n.space = nsCore
    · rw [if_pos hs] at h
      by_cases h1 : n.loc = b!"vertices"
      · rw [if_pos h1] at h; simp only [Prod.mk.injEq, Option.some.injEq] at h
        obtain ⟨-, -, rfl⟩ := h; exact Name.eq_iff.2 ⟨hs, h1⟩
      · rw [if_neg h1] at h
        by_cases h2 : n.loc = b!"triangles"
        · rw [if_pos h2] at h; simp only [Prod.mk.injEq, Option.some.injEq] at h
          obtain ⟨-, -, rfl⟩ := h; exact Name.eq_iff.2 ⟨hs, h2⟩
        · rw [if_neg h2] at h; simp at h
    · rw [if_neg hs] at h
      cases ha : newAnyElement cfg.env .meshAny n with
      | none => rw [ha] at h; simp at h
      | some p =>
        rw [ha] at h; obtain ⟨q, e⟩ := p
        simp only [Prod.mk.injEq, Option.some.injEq] at h
        obtain ⟨-, -, rfl⟩ := h; exact newAnyElement_name hs ha
  | vertices => simp only [child, Option.some.injEq] at h; obtain ⟨h1, -, -, rfl⟩ := onlyChild_some h; exact h1
  | vertex => simp [child] at h
  | triangles => simp only [child, Option.some.injEq] at h; obtain ⟨h1, -, -, rfl⟩ := onlyChild_some h; exact h1
  | triangle => simp [child] at h
  | object =>
    simp only [child, Option.some.injEq] at h
    by_cases h1 : n = ⟨nsCore, b!"mesh"⟩
    · rw [if_pos h1] at h; simp only [Prod.mk.injEq, Option.some.injEq] at h
      obtain ⟨-, -, rfl⟩ := h; exact h1
    · rw [if_neg h1] at h
      by_cases h2 : n = ⟨nsCore, b!"components"⟩
      · rw [if_pos h2] at h; simp only [Prod.mk.injEq, Option.some.injEq] at h
        obtain ⟨-, -, rfl⟩ := h; exact h2
      · rw [if_neg h2] at h
        by_cases h3 : n = ⟨nsCore, b!"metadatagroup"⟩
        · rw [if_pos h3] at h; simp only [Prod.mk.injEq, Option.some.injEq] at h
          obtain ⟨-, -, rfl⟩ := h; exact h3
        · rw [if_neg h3] at h; simp at h
  | components => simp only [child, Option.some.injEq] at h; obtain ⟨h1, -, -, rfl⟩ := onlyChild_some h; exact h1
  | component => simp [child] at h
  | unknownAsset m => simp [child] at h
  | unknown l m => simp [child] at h
  | ext loc k =>
    simp only [child, Option.some.injEq] at h
    cases he : extChild r loc k n with
    | none => rw [he] at h; simp at h
    | some p =>
      obtain ⟨j, k'⟩ := p
      rw [he] at h
      have hn := extChild_name he
      have : ∃ q, d' = .ext loc q := by
        cases k' <;> simp only [Prod.mk.injEq, Option.some.injEq] at h <;> exact ⟨_, h.2.2.symm⟩
      obtain ⟨q, rfl⟩ := this
      exact hn

/-! ## Panics -/

/-- The extension attributes that the core elements can hold: the attributes of registered extensions only where the
extension defines some. -/
def AttrAllowed (env : Env) (parent space : Str) : Prop :=
  match env.load space with
  | none => True
  | some .production => parent ∈ [b!"build", b!"item", b!"object", b!"component"]
  | some .slices => parent = b!"object"
  | some _ => False

theorem newAttrGroup_isSome {env : Env} {parent space : Str} :
    (newAttrGroup env parent space).isSome ↔ AttrAllowed env parent space := by
  unfold newAttrGroup AttrAllowed
  cases env.load space with
  | none => simp
  | some x =>
    cases x with
    | production =>
      simp only [List.mem_cons, List.not_mem_nil, or_false]
      by_cases h1 : parent = b!"build"
      · simp [h1]
      · by_cases h2 : parent = b!"item"
        · simp [h2]
        · by_cases h3 : parent = b!"object"
          · simp [h3]
          · by_cases h4 : parent = b!"component"
            · simp [h4]
            · simp [h1, h2, h3, h4]
    | slices => by_cases h : parent = b!"object" <;> simp [h]
    | beamlattice => simp
    | materials => simp

theorem anyAttrAdd_isSome {env : Env} {parent : Str} {any : AnyAttr} {a : Attr}
    (h : AttrAllowed env parent a.name.space) : (anyAttrAdd env parent any a).isSome := by
  unfold anyAttrAdd
  cases anyUpdate a any with
  | some r => rfl
  | none =>
    have := newAttrGroup_isSome.2 h
    cases hn : newAttrGroup env parent a.name.space with
    | none => rw [hn] at this; simp at this
    | some g => rfl

theorem attrFold_isSome {σ : Type} {f : σ → Attr → Option (σ × List Leaf)} :
    ∀ {as : List Attr} {s : σ}, (∀ a ∈ as, ∀ s, (f s a).isSome) → (attrFold f s as).isSome
  | [], s, _ => rfl
  | a :: as, s, h => by
    unfold attrFold
    cases hf : f s a with
    | none => have := h a (by simp) s; rw [hf] at this; simp at this
    | some p =>
      have := attrFold_isSome (s := p.1) (as := as) (f := f) (fun b hb s => h b (by simp [hb]) s)
      cases hr : attrFold f p.1 as with
      | none => rw [hr] at this; simp at this
      | some q => simp [hr]

theorem anyAttrs_isSome {env : Env} {parent : Str} {any : AnyAttr} {as : List Attr}
    (h : ∀ a ∈ as, AttrAllowed env parent a.name.space) : (anyAttrs env parent any as).isSome :=
  attrFold_isSome fun a ha _ => anyAttrAdd_isSome (h a ha)

theorem isSome_map {α β : Type} {f : α → β} {x : Option α} (h : x.isSome) : (x.map f).isSome := by
  cases x <;> simp_all

theorem modelStart_isSome {env : Env} {m : Model} {as : List Attr}
    (h : ∀ a ∈ as, AttrAllowed env b!"model" a.name.space) : (modelStart env m as).isSome := by
  unfold modelStart
  have : (attrFold (modelAttr env) (m, []) as).isSome := by
    refine attrFold_isSome fun a ha s => ?_
    unfold modelAttr
    have := anyAttrAdd_isSome (any := s.1.anyAttr) (h a ha)
    cases hx : anyAttrAdd env b!"model" s.1.anyAttr a with
    | none => rw [hx] at this; simp at this
    | some p => simp only []; repeat' split
                all_goals rfl
  cases hx : attrFold (modelAttr env) (m, []) as with
  | none => rw [hx] at this; simp at this
  | some p => rfl

theorem ite_isSome {α : Type} {c : Prop} [Decidable c] {x y : Option α} (hx : x.isSome) (hy : y.isSome) :
    (if c then x else y).isSome := by
  by_cases h : c
  · rw [if_pos h]; exact hx
  · rw [if_neg h]; exact hy

/-- `Start` does not panic if the attributes are allowed and the resources are there. -/
theorem start_isSome {cfg : DecCfg} {r : Regs} {d : Dec} {n : Name} {as : List Attr} (hn : d.DecName n)
    (ha : n.space = nsCore → ∀ a ∈ as, AttrAllowed cfg.env n.loc a.name.space) (hr : r.res.isSome) :
    (start cfg r d as).isSome := by
  have key : ∀ {l : Str}, n = ⟨nsCore, l⟩ → ∀ a ∈ as, AttrAllowed cfg.env l a.name.space := by
    rintro l rfl; exact ha rfl
  cases d with
  | top => rfl
  | model =>
    unfold start; simp only []
    split
    · exact isSome_map (modelStart_isSome (key hn))
    · rfl
  | metadataGroup l => exact isSome_map (anyAttrs_isSome (key hn))
  | metadata l => rfl
  | build => exact isSome_map (anyAttrs_isSome (key hn))
  | item =>
    exact isSome_map (attrFold_isSome fun a h s => ite_isSome rfl (isSome_map (anyAttrAdd_isSome (key hn a h))))
  | resources =>
    unfold start; simp only []
    cases hx : r.res with
    | none => rw [hx] at hr; simp at hr
    | some rs => exact isSome_map (anyAttrs_isSome (key hn))
  | baseMaterials =>
    exact isSome_map (attrFold_isSome fun a h s =>
      ite_isSome (ite_isSome rfl rfl) (isSome_map (anyAttrAdd_isSome (key hn a h))))
  | base =>
    exact isSome_map (attrFold_isSome fun a h s =>
      ite_isSome (ite_isSome rfl (ite_isSome rfl rfl)) (isSome_map (anyAttrAdd_isSome (key hn a h))))
  | mesh => exact isSome_map (anyAttrs_isSome (key hn))
  | vertices => exact isSome_map (anyAttrs_isSome (key hn))
  | vertex => rfl
  | triangles => exact isSome_map (anyAttrs_isSome (key hn))
  | triangle =>
    refine isSome_map (attrFold_isSome fun a h s => ite_isSome ?_ (isSome_map (anyAttrAdd_isSome (key hn a h))))
    repeat' (first | rfl | refine ite_isSome rfl ?_)
  | object =>
    exact isSome_map (attrFold_isSome fun a h s => ite_isSome rfl (isSome_map (anyAttrAdd_isSome (key hn a h))))
  | components => exact isSome_map (anyAttrs_isSome (key hn))
  | component =>
    exact isSome_map (attrFold_isSome fun a h s =>
      ite_isSome (ite_isSome rfl (ite_isSome rfl rfl)) (isSome_map (anyAttrAdd_isSome (key hn a h))))
  | unknownAsset m =>
    unfold start; simp only []
    cases firstID as <;> rfl
  | unknown l m => rfl
  | ext l k => rfl

/-! ## The resources stay -/

theorem modAny_res {r : Regs} {f : AnyElem → AnyElem} {l : AnyLoc} : (r.modAny f l).res.isSome = r.res.isSome := by
  cases l <;> simp [Regs.modAny]

theorem modMeta_res {r : Regs} {f : MetadataGroup → MetadataGroup} {l : MetaLoc} : (r.modMeta f l).res = r.res := by
  cases l <;> rfl

theorem addToken_res {r : Regs} {d : Dec} {t : Token} : (r.addToken d t).res.isSome = r.res.isSome := by
  cases d <;> simp only [Regs.addToken, modAny_res]

theorem stop_res {r : Regs} {d : Dec} : (stop r d).res.isSome = r.res.isSome := by
  cases d with
  | metadata l => cases l <;> simp [stop, modMeta_res]
  | ext l k => cases k <;> simp [stop, modAny_res]
  | unknown l m => simp [stop, addToken_res]
  | _ => simp [stop]

theorem extStart_res {r : Regs} {l : AnyLoc} {k : ExtDec} {as : List Attr} :
    (extStart r l k as).1.res.isSome = r.res.isSome := by
  cases k <;> simp [extStart, modAny_res]

theorem start_res {cfg : DecCfg} {r r' : Regs} {d : Dec} {as : List Attr} {e : List Leaf}
    (h : start cfg r d as = some (r', e)) : r'.res.isSome = r.res.isSome := by
  have key : ∀ {α : Type} {x : Option α} {g : α → Regs × List Leaf}, (∀ a, (g a).1.res.isSome = r.res.isSome) →
      x.map g = some (r', e) → r'.res.isSome = r.res.isSome := by
    intro α x g hg hx
    rw [Option.map_eq_some_iff] at hx
    obtain ⟨a, _, ha⟩ := hx
    rw [← hg a, ha]
  cases d with
  | top => simp [start] at h; rw [← h.1]
  | model =>
    unfold start at h; simp only [] at h
    split at h
    · exact key (fun _ => rfl) h
    · simp at h; rw [← h.1]
  | metadataGroup l => exact key (fun _ => by simp [modMeta_res]) h
  | metadata l => simp [start] at h; rw [← h.1]
  | resources =>
    unfold start at h; simp only [] at h
    cases hx : r.res with
    | none => rw [hx] at h; simp only [] at h; split at h <;> simp at h; rw [← h.1, hx]
    | some rs => rw [hx] at h; rw [← hx]; exact key (fun _ => by simp [hx]) h
  | vertex => simp [start] at h; rw [← h.1]
  | unknownAsset m =>
    unfold start at h; simp only [] at h
    cases hx : firstID as with
    | none => rw [hx] at h; simp at h; rw [← h.1]
    | some a => rw [hx] at h; simp at h; rw [← h.1]
  | unknown l m => simp [start] at h; rw [← h.1, modAny_res]
  | ext l k => simp [start] at h; rw [show r' = (extStart r l k as).1 by rw [h], extStart_res]
  | _ => exact key (fun _ => rfl) h

theorem some_pair {x : ChildRes} (h : x.1.res.isSome) : ∃ r' c, some x = some (r', c) ∧ r'.res.isSome :=
  ⟨x.1, x.2, rfl, h⟩

/-- `Child` does not panic unless a beam lattice is a child of the resources. -/
theorem child_isSome {cfg : DecCfg} {r : Regs} {d : Dec} {n : Name}
    (hb : d = .resources → ¬ (cfg.env.beamlattice = true ∧ n = ⟨nsBeam, b!"beamlattice"⟩)) (hr : r.res.isSome) :
    ∃ r' c, child cfg r d n = some (r', c) ∧ r'.res.isSome := by
  cases d with
  | resources =>
    simp only [child, resourcesChild]
    by_cases h0 : n.space = nsCore ∧ n.loc ≠ b!"object" ∧ n.loc ≠ b!"basematerials"
    · rw [if_pos h0]; exact ⟨_, _, rfl, hr⟩
    · rw [if_neg h0]
      cases hx : r.res with
      | none => rw [hx] at hr; simp at hr
      | some rs =>
        simp only []
        by_cases hs : n.space = nsCore
        · rw [if_pos hs]
          by_cases h1 : n.loc = b!"object"
          · rw [if_pos h1]; exact ⟨_, _, rfl, by simp [hx]⟩
          · rw [if_neg h1]; exact ⟨_, _, rfl, by simp [hx]⟩
        · rw [if_neg hs]
          cases ha : newAnyElement cfg.env .asset n with
          | none => exact ⟨_, _, rfl, hr⟩
          | some p =>
            obtain ⟨q, e⟩ := p
            rcases newAnyElement_dec ha with rfl | ⟨k, rfl⟩
            · exact ⟨_, _, rfl, by simp [hx]⟩
            · cases e with
              | res x => exact ⟨_, _, rfl, rfl⟩
              | tokens ts =>
                exfalso
                unfold newAnyElement at ha
                cases hl : cfg.env.load n.space with
                | none => rw [hl] at ha; simp at ha
                | some x =>
                  rw [hl] at ha
                  simp only [Option.map_eq_some_iff] at ha
                  obtain ⟨p, hp, hq⟩ := ha
                  obtain ⟨p1, p2⟩ := p
                  simp only [Prod.mk.injEq] at hq
                  obtain ⟨-, rfl⟩ := hq
                  cases x <;> simp only [newExtElement] at hp <;> (repeat' split at hp) <;> simp at hp
              | beamLattice b =>
                exfalso
                refine hb rfl ?_
                unfold newAnyElement at ha
                cases hl : cfg.env.load n.space with
                | none => rw [hl] at ha; simp at ha
                | some x =>
                  rw [hl] at ha
                  simp only [Option.map_eq_some_iff] at ha
                  obtain ⟨p, hp, hq⟩ := ha
                  obtain ⟨p1, p2⟩ := p
                  simp only [Prod.mk.injEq] at hq
                  obtain ⟨-, rfl⟩ := hq
                  have hx : x = .beamlattice ∧ n.loc = b!"beamlattice" := by
                    cases x <;> simp only [newExtElement] at hp <;> (repeat' split at hp) <;> simp at hp
                    exact ⟨rfl, by assumption⟩
                  obtain ⟨rfl, hloc⟩ := hx
                  unfold Env.load at hl
                  repeat' split at hl
                  all_goals simp at hl
                  rename_i h3
                  exact ⟨h3.2, Name.eq_iff.2 ⟨h3.1, hloc⟩⟩
  | model =>
    refine some_pair ?_
    simp only [modelChild]
    repeat' split
    all_goals exact hr
  | mesh =>
    refine some_pair ?_
    simp only [meshChild]
    repeat' split
    all_goals exact hr
  | object =>
    refine some_pair ?_
    repeat' split
    all_goals exact hr
  | ext l k =>
    refine some_pair ?_
    split <;> exact hr
  | metadata l => exact ⟨_, _, rfl, hr⟩
  | base => exact ⟨_, _, rfl, hr⟩
  | vertex => exact ⟨_, _, rfl, hr⟩
  | triangle => exact ⟨_, _, rfl, hr⟩
  | component => exact ⟨_, _, rfl, hr⟩
  | unknownAsset m => exact ⟨_, _, rfl, hr⟩
  | unknown l m => exact ⟨_, _, rfl, hr⟩
  | _ =>
    refine some_pair ?_
    simp only [onlyChild]
    split <;> exact hr

/-! ## Errors accumulate -/

theorem step_errs {cfg : DecCfg} {s s' : DState} {i : Nat} {ev : Option Event} (h : s.step cfg i ev = some s') :
    ∃ es, s'.errs = s.errs ++ es := by
  match ev, h with
  | none, h => simp only [DState.step, Option.some.injEq] at h; exact ⟨[], by simp [h]⟩
  | some (.chars t), h =>
    simp only [DState.step, Option.some.injEq, DState.onChar] at h
    refine ⟨[], ?_⟩
    subst h
    split <;> simp
  | some (.stop n), h =>
    simp only [DState.step, DState.onEnd] at h
    refine ⟨[], ?_⟩
    by_cases hc : s.curName = n
    · rw [if_pos hc] at h
      cases hs : s.stack with
      | nil => rw [hs] at h; simp at h
      | cons f st =>
        rw [hs] at h
        cases st <;> (simp only [Option.some.injEq] at h; subst h; simp)
    · rw [if_neg hc] at h
      simp only [Option.some.injEq] at h; subst h; simp
  | some (.start n as), h =>
    simp only [DState.step, DState.onStart] at h
    by_cases hc : s.cur.hasChild = true
    · rw [if_pos hc] at h
      cases hch : child cfg s.regs s.cur n with
      | none => rw [hch] at h; simp at h
      | some p =>
        obtain ⟨r, c⟩ := p
        rw [hch] at h
        cases c with
        | none => simp only [Option.some.injEq] at h; subst h; exact ⟨[], by simp⟩
        | some q =>
          obtain ⟨j, d⟩ := q
          simp only [] at h
          cases hs : start cfg r d as with
          | none => rw [hs] at h; simp at h
          | some q =>
            obtain ⟨r', e⟩ := q
            rw [hs] at h
            simp only [Option.some.injEq] at h
            subst h
            exact ⟨_, rfl⟩
    · rw [if_neg hc] at h
      simp only [Option.some.injEq] at h; subst h; exact ⟨[], by simp⟩

theorem run_errs {cfg : DecCfg} {strict : Bool} {done : Nat → Bool} {fin : LexErr} :
    ∀ {evs : List (Option Event)} {i : Nat} {s s' : DState} {e : LoopEnd},
    runTokens cfg strict done fin i s evs = some (s', e) → ∃ es, s'.errs = s.errs ++ es
  | [], i, s, s', e, h => by
    simp only [runTokens, Option.some.injEq, Prod.mk.injEq] at h
    exact ⟨[], by simp [h.1]⟩
  | ev :: evs, i, s, s', e, h => by
    unfold runTokens at h
    cases hs : s.step cfg i ev with
    | none => rw [hs] at h; simp at h
    | some s1 =>
      obtain ⟨es, h1⟩ := step_errs hs
      rw [hs] at h
      simp only [] at h
      by_cases h2 : (strict && !s1.errs.isEmpty) = true
      · rw [if_pos h2] at h
        simp only [Option.some.injEq, Prod.mk.injEq] at h
        exact ⟨es, by rw [← h.1, h1]⟩
      · rw [if_neg h2] at h
        by_cases h3 : (i % 1000 == 0 && done i) = true
        · rw [if_pos h3] at h
          simp only [Option.some.injEq, Prod.mk.injEq] at h
          exact ⟨es, by rw [← h.1, h1]⟩
        · rw [if_neg h3] at h
          obtain ⟨es', h4⟩ := run_errs h
          exact ⟨es ++ es', by rw [h4, h1, List.append_assoc]⟩

end Go3mf
