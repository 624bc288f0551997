import Verif.Lemmas.CrashChild

/-!
# What `Start`, `End` and tokens do to the registers that decide about panics
-/

namespace Go3mf
open Spec

/-- The elements that the decoders fill keep their kinds. -/
def SameShape (r r' : Regs) : Prop :=
  r'.obj.mesh.isSome = r.obj.mesh.isSome ∧ ∀ loc, (r'.getAny loc).bind AnyElem.dec = (r.getAny loc).bind AnyElem.dec

theorem SameShape.refl (r : Regs) : SameShape r r := ⟨rfl, fun _ => rfl⟩

theorem SameShape.fits {r r' : Regs} (h : SameShape r r') {d : Dec} (hf : r.Fits d) : r'.Fits d := by
  cases d <;> first
    | trivial
    | exact h.1.trans hf
    | exact (h.2 _).trans hf

theorem modLast_getLast {α : Type} (f : α → α) : ∀ l : List α, (modLast f l).getLast? = l.getLast?.map f
  | [] => rfl
  | [a] => rfl
  | a :: b :: l => by
    have := modLast_getLast f (b :: l)
    rw [modLast, List.getLast?_cons_cons, ← this]
    cases hm : modLast f (b :: l) with
    | nil => cases l <;> simp [modLast] at hm
    | cons x y => rw [List.getLast?_cons_cons]

theorem modAny_shape {f : AnyElem → AnyElem} (hf : ∀ e, (f e).dec = e.dec) (r : Regs) (loc : AnyLoc) :
    SameShape r (r.modAny f loc) := by
  cases loc with
  | modelAny =>
    refine ⟨rfl, fun l => ?_⟩
    cases l with
    | modelAny =>
      simp only [Regs.modAny, Regs.getAny, modLast_getLast]
      cases r.model.any.getLast? <;> simp [hf]
    | _ => rfl
  | meshAny =>
    refine ⟨by simp [Regs.modAny, Object.modMesh], fun l => ?_⟩
    cases l with
    | meshAny =>
      simp only [Regs.modAny, Regs.getAny, Object.modMesh]
      cases hm : r.obj.mesh with
      | none => rfl
      | some m =>
        simp only [Option.map_some, modLast_getLast]
        cases m.any.getLast? <;> simp [hf]
    | _ => rfl
  | asset =>
    refine ⟨rfl, fun l => ?_⟩
    cases l with
    | asset =>
      simp only [Regs.modAny, Regs.getAny]
      cases hr : r.res with
      | none => rfl
      | some rs =>
        simp only [Option.map_some, modLast_getLast]
        cases rs.assets.getLast? with
        | none => rfl
        | some a =>
          cases a with
          | res x =>
            simp only [Option.map_some, Asset.modAny]
            have := hf (.res x)
            cases hx : f (.res x) with
            | res y => rw [hx] at this; simpa using this
            | _ => rfl
          | _ => rfl
    | _ => rfl

theorem modAny_clean {env : Env} {f : AnyElem → AnyElem} {r : Regs} {loc : AnyLoc} (hc : r.Clean env) :
    (r.modAny f loc).Clean env := by
  obtain ⟨rs, h1, h2⟩ := hc.res
  cases loc with
  | modelAny => exact ⟨hc.1, hc.2, hc.3, hc.4, hc.5, hc.6⟩
  | meshAny =>
    refine ⟨hc.1, hc.2, hc.3, hc.4, hc.5, fun m hm => ?_⟩
    simp only [Regs.modAny, Object.modMesh, Option.map_eq_some_iff] at hm
    obtain ⟨m0, h0, rfl⟩ := hm
    exact hc.6 m0 h0
  | asset =>
    refine ⟨?_, hc.2, hc.3, hc.4, hc.5, hc.6⟩
    simp only [Regs.modAny, h1]
    exact ⟨_, rfl, h2⟩

/-! ## The extensions -/

theorem start_dec (as : List Attr) (e : AnyElem) : (e.start as).1.dec = e.dec := by
  rcases e with ts | x | b
  · rfl
  · cases x <;> rfl
  · rfl

theorem modRes_dec {f : ExtRes → ExtRes} (hf : ∀ x, AnyElem.dec (.res (f x)) = AnyElem.dec (.res x)) (e : AnyElem) :
    (e.modRes f).dec = e.dec := by
  rcases e with ts | x | b
  · rfl
  · exact hf x
  · rfl

theorem modBeam_dec {f : BeamLattice → BeamLattice} (e : AnyElem) : (e.modBeam f).dec = e.dec := by
  rcases e with ts | x | b <;> rfl

theorem extStart_after {env : Env} {r : Regs} {loc : AnyLoc} {k : ExtDec} {as : List Attr} (hc : r.Clean env) :
    (extStart r loc k as).1.Clean env ∧ SameShape r (extStart r loc k as).1 := by
  cases k <;> first
    | exact ⟨modAny_clean hc, modAny_shape (start_dec as) r loc⟩
    | exact ⟨modAny_clean hc, modAny_shape (modRes_dec fun x => by cases x <;> rfl) r loc⟩
    | exact ⟨modAny_clean hc, modAny_shape modBeam_dec r loc⟩
    | exact ⟨⟨hc.1, hc.2, hc.3, hc.4, hc.5, hc.6⟩, rfl, fun l => by cases l <;> rfl⟩

/-! ## `Start` -/

/-- `Start` panics exactly if an attribute that it looks at is not allowed. -/
theorem start_exact {cfg : DecCfg} {r : Regs} {d : Dec} {n : Name} {as : List Attr} (hd : d.Exact cfg.env n) (hr : r.Ready d)
    (hc : r.Clean cfg.env) :
    (start cfg r d as).isSome ↔ (Looks cfg.isRoot n → ∀ a ∈ as, AttrAllowed cfg.env n.loc a.name.space) := by
  obtain ⟨rs, hrs, hra⟩ := hc.res
  have looks : ∀ {l : Str}, n = ⟨nsCore, l⟩ → l ∉ [b!"vertex", b!"metadata"] → l ≠ b!"model" →
      ((Looks cfg.isRoot n → ∀ a ∈ as, AttrAllowed cfg.env n.loc a.name.space) ↔
        ∀ a ∈ as, AttrAllowed cfg.env l a.name.space) := by
    rintro l rfl h1 h2
    have : Looks cfg.isRoot ⟨nsCore, l⟩ := ⟨rfl, h1, fun h => absurd h h2⟩
    simp only [this, true_imp_iff]
  have blind : ∀ {l : Str}, n = ⟨nsCore, l⟩ → l ∈ [b!"vertex", b!"metadata"] →
      (Looks cfg.isRoot n → ∀ a ∈ as, AttrAllowed cfg.env n.loc a.name.space) := by
    rintro l rfl h1 h2
    exact absurd h1 h2.2.1
  have foreign : n.space ≠ nsCore → (Looks cfg.isRoot n → ∀ a ∈ as, AttrAllowed cfg.env n.loc a.name.space) :=
    fun h h2 => absurd h2.1 h
  cases d with
  | top => exact hd.elim
  | model =>
    obtain rfl : n = ⟨nsCore, b!"model"⟩ := hd
    by_cases hi : cfg.isRoot = true
    · have : Looks cfg.isRoot ⟨nsCore, b!"model"⟩ := ⟨rfl, by decide +kernel, fun _ => hi⟩
      simp only [start, if_pos hi, this, true_imp_iff, Option.isSome_map]
      exact modelStart_exact hc.model
    · have : ¬ Looks cfg.isRoot ⟨nsCore, b!"model"⟩ := fun h => hi (h.2.2 rfl)
      exact iff_of_true (by simp [start, hi]) fun h => absurd h this
  | metadataGroup l =>
    rw [looks hd (by decide +kernel) (by decide +kernel)]
    simp only [start, Option.isSome_map]
    cases l with
    | item => exact anyAttrs_exact hc.item
    | object => exact anyAttrs_exact hc.obj
  | metadata l => exact iff_of_true rfl (blind hd (by decide +kernel))
  | build =>
    rw [looks hd (by decide +kernel) (by decide +kernel)]
    simp only [start, Option.isSome_map]
    exact anyAttrs_exact hc.build
  | item =>
    rw [looks hd (by decide +kernel) (by decide +kernel)]
    simp only [start, Option.isSome_map]
    exact item_exact (by rw [show r.item.anyAttr = [] from hr]; exact cleanAttrs_nil)
  | resources =>
    rw [looks hd (by decide +kernel) (by decide +kernel)]
    simp only [start, hrs, Option.isSome_map]
    exact anyAttrs_exact hra
  | baseMaterials =>
    rw [looks hd (by decide +kernel) (by decide +kernel)]
    simp only [start, Option.isSome_map]
    exact baseMaterials_exact (by rw [show r.base.anyAttr = [] from hr]; exact cleanAttrs_nil)
  | base =>
    rw [looks hd (by decide +kernel) (by decide +kernel)]
    simp only [start, Option.isSome_map]
    exact base_exact cleanAttrs_nil
  | mesh =>
    rw [looks hd (by decide +kernel) (by decide +kernel)]
    simp only [start, Option.isSome_map]
    exact anyAttrs_exact cleanAttrs_nil
  | vertices =>
    rw [looks hd (by decide +kernel) (by decide +kernel)]
    simp only [start, Option.isSome_map]
    refine anyAttrs_exact ?_
    cases hm : r.obj.mesh with
    | none => exact cleanAttrs_nil
    | some m => exact (hc.6 m hm).1
  | vertex => exact iff_of_true rfl (blind hd (by decide +kernel))
  | triangles =>
    rw [looks hd (by decide +kernel) (by decide +kernel)]
    simp only [start, Option.isSome_map]
    refine anyAttrs_exact ?_
    cases hm : r.obj.mesh with
    | none => exact cleanAttrs_nil
    | some m => exact (hc.6 m hm).2
  | triangle =>
    rw [looks hd (by decide +kernel) (by decide +kernel)]
    simp only [start, Option.isSome_map]
    exact triangle_exact cleanAttrs_nil
  | object =>
    rw [looks hd (by decide +kernel) (by decide +kernel)]
    simp only [start, Option.isSome_map]
    exact object_exact (by rw [show r.obj.anyAttr = [] from hr]; exact cleanAttrs_nil)
  | components =>
    rw [looks hd (by decide +kernel) (by decide +kernel)]
    simp only [start, Option.isSome_map]
    exact anyAttrs_exact cleanAttrs_nil
  | component =>
    rw [looks hd (by decide +kernel) (by decide +kernel)]
    simp only [start, Option.isSome_map]
    exact component_exact cleanAttrs_nil
  | unknownAsset m =>
    refine iff_of_true ?_ (foreign hd.2.1)
    simp only [start]
    cases firstID as <;> rfl
  | unknown l m => exact iff_of_true rfl (foreign hd.2.1)
  | ext l k => exact iff_of_true rfl (foreign (by rw [hd.1]; exact ext_name_space k))

theorem itemAttr_meta {env : Env} {s s' : Item} {a : Attr} {e : List Leaf} (h : itemAttr env s a = some (s', e)) :
    s'.metadata = s.metadata := by
  unfold itemAttr at h
  by_cases ha : a.name.space = []
  · rw [if_pos ha] at h
    simp only [Option.some.injEq] at h
    have h1 : s' = (itemCore s a).1 := by rw [h]
    rw [h1]
    unfold itemCore; repeat' split
    all_goals rfl
  · rw [if_neg ha] at h
    simp only [Option.map_eq_some_iff, Prod.mk.injEq] at h
    obtain ⟨p, -, rfl, -⟩ := h
    rfl

theorem objectAttr_rest {env : Env} {s s' : Object} {a : Attr} {e : List Leaf} (h : objectAttr env s a = some (s', e)) :
    s'.metadata = s.metadata ∧ s'.mesh = s.mesh := by
  unfold objectAttr at h
  by_cases ha : a.name.space = []
  · rw [if_pos ha] at h
    simp only [Option.some.injEq] at h
    have h1 : s' = (objectCore s a).1 := by rw [h]
    rw [h1]
    unfold objectCore; repeat' split
    all_goals exact ⟨rfl, rfl⟩
  · rw [if_neg ha] at h
    simp only [Option.map_eq_some_iff, Prod.mk.injEq] at h
    obtain ⟨p, -, rfl, -⟩ := h
    exact ⟨rfl, rfl⟩

theorem modMesh_clean {env : Env} {r : Regs} {f : Mesh → Mesh} (hc : r.Clean env)
    (hf : ∀ m, r.obj.mesh = some m → CleanAttrs env b!"vertices" (f m).verticesAttr ∧ CleanAttrs env b!"triangles" (f m).trianglesAttr) :
    ({ r with obj := r.obj.modMesh f } : Regs).Clean env := by
  refine ⟨hc.1, hc.2, hc.3, hc.4, hc.5, fun m hm => ?_⟩
  simp only [Object.modMesh, Option.map_eq_some_iff] at hm
  obtain ⟨m0, h0, rfl⟩ := hm
  exact hf m0 h0

theorem modMesh_shape {r : Regs} {f : Mesh → Mesh} (hf : ∀ m, (f m).any = m.any) :
    SameShape r { r with obj := r.obj.modMesh f } := by
  refine ⟨by simp [Object.modMesh], fun l => ?_⟩
  cases l with
  | meshAny =>
    simp only [Regs.getAny, Object.modMesh]
    cases r.obj.mesh with
    | none => rfl
    | some m => simp only [Option.map_some, hf]
  | _ => rfl

/-- What `Start` leaves. -/
theorem start_after {cfg : DecCfg} {r r' : Regs} {d : Dec} {as : List Attr} {e : List Leaf} (hc : r.Clean cfg.env)
    (h : start cfg r d as = some (r', e)) :
    r'.Clean cfg.env ∧ (d = .mesh → r'.Fits .mesh) ∧ (d ≠ .mesh → d ≠ .object → SameShape r r') := by
  obtain ⟨rs, hrs, hra⟩ := hc.res
  have same : ∀ {r1 : Regs}, r1.Clean cfg.env → SameShape r r1 → d ≠ .mesh →
      r1.Clean cfg.env ∧ (d = .mesh → r1.Fits .mesh) ∧ (d ≠ .mesh → d ≠ .object → SameShape r r1) :=
    fun h1 h2 h3 => ⟨h1, fun h => absurd h h3, fun _ _ => h2⟩
  cases d with
  | top =>
    simp only [start, Option.some.injEq, Prod.mk.injEq] at h
    rw [← h.1]
    exact same hc (.refl r) (by simp)
  | model =>
    by_cases hi : cfg.isRoot = true
    · simp only [start, if_pos hi, Option.map_eq_some_iff, Prod.mk.injEq] at h
      obtain ⟨p, hp, rfl, -⟩ := h
      obtain ⟨h1, h2, h3⟩ := modelStart_clean hc.model hp
      exact same ⟨hc.1, h1, by simp only [h2]; exact hc.3, hc.4, hc.5, hc.6⟩ ⟨rfl, fun l => by
        cases l with
        | modelAny => simp only [Regs.getAny, h3]
        | _ => rfl⟩ (by simp)
    · simp only [start, if_neg hi, Option.some.injEq, Prod.mk.injEq] at h
      rw [← h.1]
      exact same hc (.refl r) (by simp)
  | metadataGroup l =>
    simp only [start, Option.map_eq_some_iff, Prod.mk.injEq] at h
    obtain ⟨p, hp, rfl, -⟩ := h
    cases l with
    | item => exact same ⟨hc.1, hc.2, hc.3, anyAttrs_clean hc.item hp, hc.5, hc.6⟩ ⟨rfl, fun l => by cases l <;> rfl⟩ (by simp)
    | object => exact same ⟨hc.1, hc.2, hc.3, hc.4, anyAttrs_clean hc.obj hp, hc.6⟩ ⟨rfl, fun l => by cases l <;> rfl⟩ (by simp)
  | metadata l =>
    simp only [start, Option.some.injEq, Prod.mk.injEq] at h
    rw [← h.1]
    exact same ⟨hc.1, hc.2, hc.3, hc.4, hc.5, hc.6⟩ ⟨rfl, fun l => by cases l <;> rfl⟩ (by simp)
  | build =>
    simp only [start, Option.map_eq_some_iff, Prod.mk.injEq] at h
    obtain ⟨p, hp, rfl, -⟩ := h
    exact same ⟨hc.1, hc.2, anyAttrs_clean hc.build hp, hc.4, hc.5, hc.6⟩ ⟨rfl, fun l => by cases l <;> rfl⟩ (by simp)
  | item =>
    simp only [start, Option.map_eq_some_iff, Prod.mk.injEq] at h
    obtain ⟨p, hp, rfl, -⟩ := h
    have := attrFold_pres (P := fun s : Item => s.metadata = r.item.metadata)
      (fun s a s' e h1 h2 => (itemAttr_meta h2).trans h1) rfl hp
    exact same ⟨hc.1, hc.2, hc.3, by simp only [this]; exact hc.4, hc.5, hc.6⟩ ⟨rfl, fun l => by cases l <;> rfl⟩ (by simp)
  | resources =>
    simp only [start, hrs, Option.map_eq_some_iff, Prod.mk.injEq] at h
    obtain ⟨p, hp, rfl, -⟩ := h
    exact same ⟨⟨_, rfl, anyAttrs_clean hra hp⟩, hc.2, hc.3, hc.4, hc.5, hc.6⟩ ⟨rfl, fun l => by
      cases l with
      | asset => simp only [Regs.getAny, hrs]
      | _ => rfl⟩ (by simp)
  | baseMaterials =>
    simp only [start, Option.map_eq_some_iff, Prod.mk.injEq] at h
    obtain ⟨p, hp, rfl, -⟩ := h
    exact same ⟨hc.1, hc.2, hc.3, hc.4, hc.5, hc.6⟩ ⟨rfl, fun l => by cases l <;> rfl⟩ (by simp)
  | base =>
    simp only [start, Option.map_eq_some_iff, Prod.mk.injEq] at h
    obtain ⟨p, hp, rfl, -⟩ := h
    exact same ⟨hc.1, hc.2, hc.3, hc.4, hc.5, hc.6⟩ ⟨rfl, fun l => by cases l <;> rfl⟩ (by simp)
  | mesh =>
    simp only [start, Option.map_eq_some_iff, Prod.mk.injEq] at h
    obtain ⟨p, hp, rfl, -⟩ := h
    refine ⟨⟨hc.1, hc.2, hc.3, hc.4, hc.5, fun m hm => ?_⟩, fun _ => rfl, fun h => absurd rfl h⟩
    simp only [Option.some.injEq] at hm
    subst hm
    exact ⟨cleanAttrs_nil, cleanAttrs_nil⟩
  | vertices =>
    simp only [start, Option.map_eq_some_iff, Prod.mk.injEq] at h
    obtain ⟨p, hp, rfl, -⟩ := h
    refine same (modMesh_clean hc fun m hm => ⟨?_, (hc.6 m hm).2⟩) (modMesh_shape fun _ => rfl) (by simp)
    rw [hm] at hp
    exact anyAttrs_clean (hc.6 m hm).1 hp
  | vertex =>
    simp only [start, Option.some.injEq, Prod.mk.injEq] at h
    rw [← h.1]
    exact same (modMesh_clean hc fun m hm => hc.6 m hm) (modMesh_shape fun _ => rfl) (by simp)
  | triangles =>
    simp only [start, Option.map_eq_some_iff, Prod.mk.injEq] at h
    obtain ⟨p, hp, rfl, -⟩ := h
    refine same (modMesh_clean hc fun m hm => ⟨(hc.6 m hm).1, ?_⟩) (modMesh_shape fun _ => rfl) (by simp)
    rw [hm] at hp
    exact anyAttrs_clean (hc.6 m hm).2 hp
  | triangle =>
    simp only [start, Option.map_eq_some_iff, Prod.mk.injEq] at h
    obtain ⟨p, hp, rfl, -⟩ := h
    exact same (modMesh_clean hc fun m hm => hc.6 m hm) (modMesh_shape fun _ => rfl) (by simp)
  | object =>
    simp only [start, Option.map_eq_some_iff, Prod.mk.injEq] at h
    obtain ⟨p, hp, rfl, -⟩ := h
    have := attrFold_pres (P := fun s : Object => s.metadata = r.obj.metadata ∧ s.mesh = r.obj.mesh)
      (fun s a s' e h1 h2 => ⟨(objectAttr_rest h2).1.trans h1.1, (objectAttr_rest h2).2.trans h1.2⟩) ⟨rfl, rfl⟩ hp
    exact ⟨⟨hc.1, hc.2, hc.3, hc.4, by simp only [this.1]; exact hc.5, fun m hm => hc.6 m (this.2 ▸ hm)⟩, by simp, fun _ h => absurd rfl h⟩
  | components =>
    simp only [start, Option.map_eq_some_iff, Prod.mk.injEq] at h
    obtain ⟨p, hp, rfl, -⟩ := h
    exact same ⟨hc.1, hc.2, hc.3, hc.4, hc.5, hc.6⟩ ⟨rfl, fun l => by cases l <;> rfl⟩ (by simp)
  | component =>
    simp only [start, Option.map_eq_some_iff, Prod.mk.injEq] at h
    obtain ⟨p, hp, rfl, -⟩ := h
    exact same ⟨hc.1, hc.2, hc.3, hc.4, hc.5, hc.6⟩ ⟨rfl, fun l => by cases l <;> rfl⟩ (by simp)
  | unknownAsset m =>
    simp only [start] at h
    cases hx : firstID as with
    | none =>
      simp only [hx, Option.some.injEq, Prod.mk.injEq] at h
      rw [← h.1]
      exact same ⟨hc.1, hc.2, hc.3, hc.4, hc.5, hc.6⟩ ⟨rfl, fun l => by cases l <;> rfl⟩ (by simp)
    | some a =>
      simp only [hx, Option.some.injEq, Prod.mk.injEq] at h
      rw [← h.1]
      exact same ⟨hc.1, hc.2, hc.3, hc.4, hc.5, hc.6⟩ ⟨rfl, fun l => by cases l <;> rfl⟩ (by simp)
  | unknown l m =>
    simp only [start, Option.some.injEq, Prod.mk.injEq] at h
    rw [← h.1]
    exact same (modAny_clean hc) (modAny_shape (fun e => by cases e <;> rfl) r l) (by simp)
  | ext l k =>
    simp only [start, Option.some.injEq] at h
    obtain ⟨h1, h2⟩ := extStart_after (loc := l) (k := k) (as := as) hc
    rw [h] at h1 h2
    exact same h1 h2 (by simp)

/-! ## `End` and tokens -/

theorem addToken_after {env : Env} {r : Regs} {d : Dec} {t : Token} (hc : r.Clean env) :
    (r.addToken d t).Clean env ∧ SameShape r (r.addToken d t) := by
  cases d with
  | unknown l m => exact ⟨modAny_clean hc, modAny_shape (fun e => by cases e <;> rfl) r l⟩
  | unknownAsset m => exact ⟨⟨hc.1, hc.2, hc.3, hc.4, hc.5, hc.6⟩, rfl, fun l => by cases l <;> rfl⟩
  | _ => exact ⟨hc, .refl r⟩

/-- What `End` leaves. -/
theorem stop_after {env : Env} {r : Regs} {d : Dec} (hc : r.Clean env) :
    (stop r d).Clean env ∧ (d.rank ≠ 3 → SameShape r (stop r d)) := by
  obtain ⟨rs, hrs, hra⟩ := hc.res
  have hres : ∀ {f : Resources → Resources} {u : List Token}, (∀ x, (f x).anyAttr = x.anyAttr) →
      ({ r with res := r.res.map f, unk := u } : Regs).Clean env := by
    intro f u hf
    exact ⟨⟨_, by simp only [hrs, Option.map_some]; rfl, by rw [hf]; exact hra⟩, hc.2, hc.3, hc.4, hc.5, hc.6⟩
  cases d with
  | metadata l =>
    cases l with
    | none => exact ⟨⟨hc.1, hc.2, hc.3, hc.4, hc.5, hc.6⟩, fun _ => ⟨rfl, fun l => by cases l <;> rfl⟩⟩
    | some l => cases l <;> exact ⟨⟨hc.1, hc.2, hc.3, hc.4, hc.5, hc.6⟩, fun _ => ⟨rfl, fun l => by cases l <;> rfl⟩⟩
  | item => exact ⟨⟨hc.1, hc.2, hc.3, hc.4, hc.5, hc.6⟩, fun h => absurd rfl h⟩
  | baseMaterials => exact ⟨hres fun _ => rfl, fun h => absurd rfl h⟩
  | object => exact ⟨hres fun _ => rfl, fun h => absurd rfl h⟩
  | unknownAsset m => exact ⟨hres fun _ => rfl, fun h => absurd rfl h⟩
  | unknown l m => exact ⟨modAny_clean hc, fun _ => modAny_shape (fun e => by cases e <;> rfl) r l⟩
  | ext l k =>
    cases k <;> first
      | exact ⟨modAny_clean hc, fun _ => modAny_shape (modRes_dec fun x => by cases x <;> rfl) r l⟩
      | exact ⟨modAny_clean hc, fun _ => modAny_shape modBeam_dec r l⟩
      | exact ⟨hc, fun _ => .refl r⟩
  | _ => exact ⟨hc, fun _ => .refl r⟩

end Go3mf
