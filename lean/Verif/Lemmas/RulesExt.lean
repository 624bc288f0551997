import Verif.Lemmas.RulesCore

/-!
# The validators report the broken rules: production, materials, beam lattice
-/

namespace Go3mf
open Spec

/-! ## Production -/

theorem getBuildAttr_find (as : AnyAttr) : getBuildAttr as = buildUUID as := by
  induction as with
  | nil => rfl
  | cons a as ih => cases a <;> simp_all [getBuildAttr, buildUUID, List.findSome?_cons]

theorem getObjectAttr_find (as : AnyAttr) : getObjectAttr as = objectUUID as := by
  induction as with
  | nil => rfl
  | cons a as ih => cases a <;> simp_all [getObjectAttr, objectUUID, List.findSome?_cons]

theorem getItemAttr_find (as : AnyAttr) : getItemAttr as = itemUUID as := by
  induction as with
  | nil => rfl
  | cons a as ih => cases a <;> simp_all [getItemAttr, itemUUID, List.findSome?_cons]

theorem getComponentAttr_find (as : AnyAttr) : getComponentAttr as = componentUUID as := by
  induction as with
  | nil => rfl
  | cons a as ih => cases a <;> simp_all [getComponentAttr, componentUUID, List.findSome?_cons]

theorem getSliceAttr_find (as : AnyAttr) : getSliceAttr as = sliceAttr as := by
  induction as with
  | nil => rfl
  | cons a as ih => cases a <;> simp_all [getSliceAttr, sliceAttr, List.findSome?_cons]

theorem getBeamLattice_find (es : List AnyElem) : getBeamLattice es = latticeOf es := by
  induction es with
  | nil => rfl
  | cons a as ih => cases a <;> simp_all [getBeamLattice, latticeOf, List.findSome?_cons]

theorem path_reports (m : Model) (p : Str) (u : Str × Str) :
    Reports (validatePathUUID m p u) fun loc l => PathRule m p u l ∧ loc = [] := by
  unfold validatePathUUID
  refine ((Reports.ite (S := fun loc l => ¬ IsUUIDLoose u.1 ∧ loc = [] ∧ l = .sentinel .uuid)
    (fun _ => Reports.single [] (.missingField b!"UUID")) (fun _ => ?_)).append
    (Reports.ite (S := fun _ _ => False) (R := fun loc l => ¬ IsRootPath m p ∧ loc = [] ∧ l = .sentinel .prodRefInNonRoot)
      (fun _ => ?_) fun _ => Reports.nil)).congr fun loc l => ?_
  · by_cases h : uuidValid u.1 = true
    · rw [if_pos h]
      refine Reports.nil.congr fun loc l => ?_
      simp [(C19_validate_partial u.1).1 h]
    · rw [if_neg h]
      refine (Reports.single [] (.sentinel .uuid)).congr fun loc l => ?_
      simp [mt (C19_validate_partial u.1).2 h]
  · by_cases h : p = [] ∨ p = m.pathOrDefault
    · rw [if_pos h]
      refine Reports.nil.congr fun loc l => ?_
      have : IsRootPath m p := h
      simp [this]
    · rw [if_neg h]
      refine (Reports.single [] (.sentinel .prodRefInNonRoot)).congr fun loc l => ?_
      have : ¬ IsRootPath m p := h
      simp [this]
  · constructor
    · rintro ((⟨h, rfl, rfl⟩ | ⟨h, h1, rfl, rfl⟩) | (⟨h, h1, rfl, rfl⟩ | ⟨-, h⟩))
      · exact ⟨.missing h, rfl⟩
      · exact ⟨.malformed h h1, rfl⟩
      · exact ⟨.path h h1, rfl⟩
      · exact h.elim
    · rintro ⟨h | ⟨h, h1⟩ | ⟨h, h1⟩, rfl⟩
      · exact .inl (.inl ⟨h, rfl, rfl⟩)
      · exact .inl (.inr ⟨h, h1, rfl, rfl⟩)
      · exact .inr (.inl ⟨h, h1, rfl, rfl⟩)

theorem uuid_reports (u : Str) (loc : List Level) :
    Reports (if uuidValid u = true then [] else [errAt loc (.sentinel .uuid)])
      fun loc' l => ¬ IsUUIDLoose u ∧ loc' = loc ∧ l = .sentinel .uuid := by
  by_cases h : uuidValid u = true
  · rw [if_pos h]
    exact Reports.nil.congr fun loc l => by simp [(C19_validate_partial u).1 h]
  · rw [if_neg h]
    exact (Reports.single loc (.sentinel .uuid)).congr fun loc l => by simp [mt (C19_validate_partial u).2 h]

theorem prodPath_reports (m : Model) (p : Str) (a : Option (Str × Str)) (x y : Level) (f : Err → Err)
    (hf : ∀ loc l, f (errAt loc l) = errAt (loc ++ [x] ++ [y]) l) :
    Reports ((match a with
      | some u => validatePathUUID m p u
      | none => [.missingField b!"UUID"]).map f) fun loc l => loc = [x, y] ∧ ((a = none ∧ l = .missingField b!"UUID") ∨
        ∃ u, a = some u ∧ PathRule m p u l) := by
  cases a with
  | none =>
    have he : [Err.missingField b!"UUID"].map f = [errAt [x, y] (.missingField b!"UUID")] := by
      rw [List.map_singleton]
      exact congrArg (fun e => [e]) (hf [] _)
    rw [he]
    exact (Reports.single [x, y] (.missingField b!"UUID")).congr fun loc l => by simp
  | some u =>
    intro e
    rw [List.mem_map]
    constructor
    · rintro ⟨a, ha, rfl⟩
      obtain ⟨loc, l, ⟨h1, rfl⟩, rfl⟩ := (path_reports m p u a).1 ha
      exact ⟨_, l, ⟨rfl, .inr ⟨u, rfl, h1⟩⟩, hf [] l⟩
    · rintro ⟨_, l, ⟨rfl, ⟨h, -⟩ | ⟨_, h, h1⟩⟩, rfl⟩
      · cases h
      · cases h
        exact ⟨errAt [] l, (path_reports m p _ _).2 ⟨[], l, ⟨h1, rfl⟩, rfl⟩, hf [] l⟩

theorem prodBuild_reports (m : Model) : Reports (prodValidateModel m) (ProdBuildRule m) := by
  unfold prodValidateModel
  simp only [getBuildAttr_find, getItemAttr_find]
  refine (Reports.append (R := fun loc l => loc = [lvl b!"build"] ∧ ((buildUUID m.build.anyAttr = none ∧ l = .missingField b!"UUID") ∨
      ∃ u, buildUUID m.build.anyAttr = some u ∧ ¬ IsUUIDLoose u ∧ l = .sentinel .uuid)) ?_
    (Reports.idx fun i it _ => prodPath_reports m [] (itemUUID it.anyAttr) (nth b!"item" i) (lvl b!"build") _ fun loc l => by
      rw [wrapIndex_errAt, wrap_errAt]; rfl)).congr fun loc l => ?_
  · cases buildUUID m.build.anyAttr with
    | none => exact (Reports.single [lvl b!"build"] (.missingField b!"UUID")).congr fun loc l => by simp
    | some u => exact (uuid_reports u [lvl b!"build"]).congr fun loc l => by simp; tauto
  · constructor
    · rintro (⟨rfl, ⟨h, rfl⟩ | ⟨u, h, h1, rfl⟩⟩ | ⟨i, it, hi, rfl, ⟨h, rfl⟩ | ⟨u, h, h1⟩⟩)
      · exact .missing h
      · exact .malformed h h1
      · exact .noItem hi h
      · exact .item hi h h1
    · rintro (h | ⟨h, h1⟩ | ⟨hi, h⟩ | ⟨hi, h, h1⟩)
      · exact .inl ⟨rfl, .inl ⟨h, rfl⟩⟩
      · exact .inl ⟨rfl, .inr ⟨_, h, h1, rfl⟩⟩
      · exact .inr ⟨_, _, hi, rfl, .inl ⟨h, rfl⟩⟩
      · exact .inr ⟨_, _, hi, rfl, .inr ⟨_, h, h1⟩⟩

theorem prodObject_reports (m : Model) (p : Str) (o : Object) : Reports (prodValidateObject m p o) (ProdObjectRule m p o) := by
  unfold prodValidateObject
  simp only [getObjectAttr_find, getComponentAttr_find]
  refine (Reports.append (R := fun loc l => loc = [] ∧ ((objectUUID o.anyAttr = none ∧ l = .missingField b!"UUID") ∨
      ∃ u, objectUUID o.anyAttr = some u ∧ ¬ IsUUIDLoose u ∧ l = .sentinel .uuid))
    (S := fun loc l => ∃ cs i c, o.components = some cs ∧ cs.component[i]? = some c ∧
      loc = [nth b!"component" i, lvl b!"components"] ∧ ((componentUUID c.anyAttr = none ∧ l = .missingField b!"UUID") ∨
        ∃ u, componentUUID c.anyAttr = some u ∧ PathRule m p u l)) ?_ ?_).congr fun loc l => ?_
  · cases objectUUID o.anyAttr with
    | none => exact (Reports.single [] (.missingField b!"UUID")).congr fun loc l => by simp
    | some u => exact (uuid_reports u []).congr fun loc l => by simp; tauto
  · cases o.components with
    | none => exact Reports.nil.congr fun loc l => by simp
    | some cs =>
      refine (Reports.idx fun i (c : Component) _ => prodPath_reports m p (componentUUID c.anyAttr) (nth b!"component" i)
        (lvl b!"components") _ fun loc l => by rw [wrapIndex_errAt, wrap_errAt]; rfl).congr fun loc l => ?_
      simp
  · constructor
    · rintro (⟨rfl, ⟨h, rfl⟩ | ⟨u, h, h1, rfl⟩⟩ | ⟨cs, i, c, hc, hi, rfl, ⟨h, rfl⟩ | ⟨u, h, h1⟩⟩)
      · exact .missing h
      · exact .malformed h h1
      · exact .noComponent hc hi h
      · exact .component hc hi h h1
    · rintro (h | ⟨h, h1⟩ | ⟨hc, hi, h⟩ | ⟨hc, hi, h, h1⟩)
      · exact .inl ⟨rfl, .inl ⟨h, rfl⟩⟩
      · exact .inl ⟨rfl, .inr ⟨_, h, h1, rfl⟩⟩
      · exact .inr ⟨_, _, _, hc, hi, rfl, .inl ⟨h, rfl⟩⟩
      · exact .inr ⟨_, _, _, hc, hi, rfl, .inr ⟨_, h, h1⟩⟩

/-! ## Materials -/

theorem colorGroup_reports (env : Env) (m : Model) (p : Str) (r : ColorGroup) :
    Reports r.validate (MaterialRule env m p (.res (.colorGroup r))) := by
  unfold ColorGroup.validate
  refine (((Reports.one (c := r.id = 0) [] (.sentinel .missingID)).append
    (Reports.one (c := r.colors.length = 0) [] (.sentinel .emptyResourceProps))).append
    (Reports.idx fun j c _ => Reports.one (c := c = .zero) [nth b!"color" j] (.missingField b!"color"))).congr fun loc l => ?_
  constructor
  · rintro ((⟨h, rfl, rfl⟩ | ⟨h, rfl, rfl⟩) | ⟨j, b, hb, h, rfl, rfl⟩)
    · exact .colorId h
    · exact .colorEmpty (List.length_eq_zero_iff.1 h)
    · exact .color hb h
  · intro h
    cases h with
    | colorId h => exact .inl (.inl ⟨h, rfl, rfl⟩)
    | colorEmpty h => exact .inl (.inr ⟨List.length_eq_zero_iff.2 h, rfl, rfl⟩)
    | color hb h => exact .inr ⟨_, _, hb, h, rfl, rfl⟩

theorem textureGroup_reports (env : Env) {m : Model} (hwf : m.WF) (p : Str) (r : Texture2DGroup) :
    Reports (r.validate m p) (MaterialRule env m p (.res (.texture2DGroup r))) := by
  unfold Texture2DGroup.validate
  refine (((Reports.one (c := r.id = 0) [] (.sentinel .missingID)).append
    (Reports.ite (S := fun loc l => (¬ ∃ t, AssetFound m p r.textureID (.res (.texture2D t))) ∧ loc = [] ∧
      l = .sentinel .textureReference) (fun _ => Reports.single [] (.missingField b!"texid")) fun _ => ?_)).append
    (Reports.one (c := r.coords.length = 0) [] (.sentinel .emptyResourceProps))).congr fun loc l => ?_
  · split
    · next t hf =>
      have := (findAsset_iff hwf).1 hf
      refine Reports.nil.congr fun loc l => ?_
      simp only [false_iff]
      rintro ⟨h, -⟩
      exact h ⟨t, this⟩
    · next hf =>
      refine (Reports.single [] (.sentinel .textureReference)).congr fun loc l => ?_
      constructor
      · rintro ⟨rfl, rfl⟩
        exact ⟨fun ⟨t, ht⟩ => hf t ((findAsset_iff hwf).2 ht), rfl, rfl⟩
      · exact And.right
  · constructor
    · rintro ((⟨h, rfl, rfl⟩ | (⟨h, rfl, rfl⟩ | ⟨h, h1, rfl, rfl⟩)) | ⟨h, rfl, rfl⟩)
      · exact .coordsId h
      · exact .coordsNoTexture h
      · exact .coordsTexture h h1
      · exact .coordsEmpty (List.length_eq_zero_iff.1 h)
    · intro h
      cases h with
      | coordsId h => exact .inl (.inl ⟨h, rfl, rfl⟩)
      | coordsNoTexture h => exact .inl (.inr (.inl ⟨h, rfl, rfl⟩))
      | coordsTexture h h1 => exact .inl (.inr (.inr ⟨h, h1, rfl, rfl⟩))
      | coordsEmpty h => exact .inr ⟨List.length_eq_zero_iff.2 h, rfl, rfl⟩

theorem texture_reports (env : Env) (m : Model) (p : Str) (r : Texture2D) :
    Reports (r.validate env m) (MaterialRule env m p (.res (.texture2D r))) := by
  unfold Texture2D.validate
  have hany : (m.attachments.any fun a => env.equalFold a.path r.path) = true ↔
      ∃ a ∈ m.attachments, env.fold a.path = env.fold r.path := by
    simp [Env.equalFold]
  refine (((Reports.one (c := r.id = 0) [] (.sentinel .missingID)).append
    (Reports.ite (S := fun loc l => (¬ ∃ a ∈ m.attachments, env.fold a.path = env.fold r.path) ∧ loc = [] ∧
      l = .sentinel .missingTexturePart) (fun _ => Reports.single [] (.missingField b!"path")) fun _ => ?_)).append
    (Reports.one (c := r.contentType = .unset) [] (.missingField b!"contenttype"))).congr fun loc l => ?_
  · by_cases h : (m.attachments.any fun a => env.equalFold a.path r.path) = true
    · rw [if_pos h]
      refine Reports.nil.congr fun loc l => ?_
      simp only [false_iff]
      rintro ⟨h1, -⟩
      exact h1 (hany.1 h)
    · rw [if_neg h]
      refine (Reports.single [] (.sentinel .missingTexturePart)).congr fun loc l => ?_
      exact ⟨fun ⟨a, b⟩ => ⟨mt hany.2 h, a, b⟩, And.right⟩
  · constructor
    · rintro ((⟨h, rfl, rfl⟩ | (⟨h, rfl, rfl⟩ | ⟨h, h1, rfl, rfl⟩)) | ⟨h, rfl, rfl⟩)
      · exact .textureId h
      · exact .textureNoPath h
      · exact .texturePart h h1
      · exact .textureType h
    · intro h
      cases h with
      | textureId h => exact .inl (.inl ⟨h, rfl, rfl⟩)
      | textureNoPath h => exact .inl (.inr (.inl ⟨h, rfl, rfl⟩))
      | texturePart h h1 => exact .inl (.inr (.inr ⟨h, h1, rfl, rfl⟩))
      | textureType h => exact .inr ⟨h, rfl, rfl⟩

theorem composite_reports (env : Env) {m : Model} (hwf : m.WF) (p : Str) (r : CompositeMaterials) :
    Reports (r.validate m p) (MaterialRule env m p (.res (.composite r))) := by
  unfold CompositeMaterials.validate
  refine ((((Reports.one (c := r.id = 0) [] (.sentinel .missingID)).append
    (Reports.ite (S := fun loc l => loc = [] ∧ (((¬ ∃ a, AssetFound m p r.materialID a) ∧ l = .sentinel .missingResource) ∨
      (∃ a, AssetFound m p r.materialID a ∧ (∀ b, a ≠ .base b) ∧ l = .sentinel .compositeBase) ∨
      (∃ b i, AssetFound m p r.materialID (.base b) ∧ i ∈ r.indices ∧ b.materials.length < i.toNat ∧
        l = .sentinel .indexOutOfBounds))) (fun _ => Reports.single [] (.missingField b!"matid")) fun _ => ?_)).append
    (Reports.one (c := r.indices.length = 0) [] (.missingField b!"matindices"))).append
    (Reports.one (c := r.composites.length = 0) [] (.sentinel .emptyResourceProps))).congr fun loc l => ?_
  · split
    · next b hf =>
      have hb := (findAsset_iff hwf).1 hf
      refine (Reports.one (c := (r.indices.any fun i => decide (i.toNat > b.materials.length)) = true) []
        (.sentinel .indexOutOfBounds)).congr fun loc l => ?_
      simp only [List.any_eq_true, decide_eq_true_eq]
      constructor
      · rintro ⟨⟨i, h, h1⟩, rfl, rfl⟩; exact ⟨rfl, .inr (.inr ⟨b, i, hb, h, h1, rfl⟩)⟩
      · rintro ⟨rfl, ⟨h, -⟩ | ⟨a, h, h1, -⟩ | ⟨b', i, h, h1, h2, rfl⟩⟩
        · exact absurd ⟨_, hb⟩ h
        · exact absurd (assetFound_unique hwf h hb) (h1 b)
        · cases assetFound_unique hwf h hb
          exact ⟨⟨i, h1, h2⟩, rfl, rfl⟩
    · next a hnb hf =>
      have ha := (findAsset_iff hwf).1 hf
      have hnb' : ∀ b, a ≠ .base b := fun b e => hnb b e
      refine (Reports.single [] (.sentinel .compositeBase)).congr fun loc l => ?_
      constructor
      · rintro ⟨rfl, rfl⟩; exact ⟨rfl, .inr (.inl ⟨a, ha, hnb', rfl⟩)⟩
      · rintro ⟨rfl, ⟨h, -⟩ | ⟨a, h, h1, rfl⟩ | ⟨b', i, h, -⟩⟩
        · exact absurd ⟨_, ha⟩ h
        · exact ⟨rfl, rfl⟩
        · exact absurd (assetFound_unique hwf ha h) (hnb' b')
    · next hf =>
      have hn := (findAsset_none hwf).1 hf
      refine (Reports.single [] (.sentinel .missingResource)).congr fun loc l => ?_
      constructor
      · rintro ⟨rfl, rfl⟩; exact ⟨rfl, .inl ⟨hn, rfl⟩⟩
      · rintro ⟨rfl, ⟨h, rfl⟩ | ⟨a, h, h1, rfl⟩ | ⟨b', i, h, -⟩⟩
        · exact ⟨rfl, rfl⟩
        · exact absurd ⟨_, h⟩ hn
        · exact absurd ⟨_, h⟩ hn
  · constructor
    · rintro (((⟨h, rfl, rfl⟩ | (⟨h, rfl, rfl⟩ | ⟨h, rfl, ⟨h1, rfl⟩ | ⟨a, h1, h2, rfl⟩ | ⟨b, i, h1, h2, h3, rfl⟩⟩)) |
        ⟨h, rfl, rfl⟩) | ⟨h, rfl, rfl⟩)
      · exact .compositeId h
      · exact .compositeNoBase h
      · exact .compositeMissing h h1
      · exact .compositeBase h h1 h2
      · exact .compositeIndex h h1 h2 h3
      · exact .compositeNoIndex (List.length_eq_zero_iff.1 h)
      · exact .compositeEmpty (List.length_eq_zero_iff.1 h)
    · intro h
      cases h with
      | compositeId h => exact .inl (.inl (.inl ⟨h, rfl, rfl⟩))
      | compositeNoBase h => exact .inl (.inl (.inr (.inl ⟨h, rfl, rfl⟩)))
      | compositeMissing h h1 => exact .inl (.inl (.inr (.inr ⟨h, rfl, .inl ⟨h1, rfl⟩⟩)))
      | compositeBase h h1 h2 => exact .inl (.inl (.inr (.inr ⟨h, rfl, .inr (.inl ⟨_, h1, h2, rfl⟩)⟩)))
      | compositeIndex h h1 h2 h3 => exact .inl (.inl (.inr (.inr ⟨h, rfl, .inr (.inr ⟨_, _, h1, h2, h3, rfl⟩)⟩)))
      | compositeNoIndex h => exact .inl (.inr ⟨List.length_eq_zero_iff.2 h, rfl, rfl⟩)
      | compositeEmpty h => exact .inr ⟨List.length_eq_zero_iff.2 h, rfl, rfl⟩

/-- The layer is a colour group. -/
def colorLayer (m : Model) (p : Str) (pid : UInt32) : Bool :=
  match m.findAsset p pid with
  | some (.res (.colorGroup _)) => true
  | _ => false

/-- The layer is a material. -/
def materialLayer (m : Model) (p : Str) (pid : UInt32) : Bool :=
  match m.findAsset p pid with
  | some (.base _) => true
  | some (.res (.composite _)) => true
  | _ => false

/-- The layer is a multi-property. -/
def multiLayer (m : Model) (p : Str) (pid : UInt32) : Bool :=
  match m.findAsset p pid with
  | some (.res (.multi _)) => true
  | _ => false

/-- Positions with a property: the first, and a later one. -/
theorem exists_cons {α : Type} {P : Nat → α → Prop} {a : α} {l : List α} :
    (∃ k x, (a :: l)[k]? = some x ∧ P k x) ↔ P 0 a ∨ ∃ k x, l[k]? = some x ∧ P (k + 1) x := by
  constructor
  · rintro ⟨k, x, h, h1⟩
    cases k with
    | zero => cases h; exact .inl h1
    | succ k => exact .inr ⟨k, x, by simpa using h, h1⟩
  · rintro (h | ⟨k, x, h, h1⟩)
    · exact ⟨0, a, rfl, h⟩
    · exact ⟨k + 1, x, by simpa using h, h1⟩

theorem mem_ite_single {α : Type} {c : Prop} [Decidable c] {e x : α} : e ∈ (if c then [x] else []) ↔ c ∧ e = x := by
  by_cases h : c <;> simp [h]

theorem or_absorb1 {a x b e : Prop} : (a ∧ e ∨ x ∧ e ∨ b) ↔ ((a ∨ x) ∧ e ∨ b) := by tauto
theorem or_absorb2 {a x b e : Prop} : (e ∨ a ∨ x ∧ e ∨ b) ↔ (a ∨ e ∨ b) := by tauto
theorem or_absorb3 {a b c x y e : Prop} : (x ∧ e ∨ a ∨ b ∨ y ∧ e ∨ c) ↔ (a ∨ b ∨ (x ∨ y) ∧ e ∨ c) := by tauto
theorem or_absorb4 {a b c e : Prop} : (e ∨ a ∨ b ∨ c) ↔ (a ∨ b ∨ c ∨ e) := by tauto

theorem multiLayers_mem (m : Model) (p : Str) (e : Err) (pids : List UInt32) : ∀ (j c : Nat) (u : Bool),
    e ∈ (multiLayers m p j c u pids).1 ↔
      ((∃ k pid, pids[k]? = some pid ∧ j + k ≠ 0 ∧ materialLayer m p pid = true) ∧ e = .of .materialMulti) ∨
      ((∃ pid ∈ pids, multiLayer m p pid = true) ∧ e = .of .multiRefMulti) ∨
      ((c ≤ 1 ∧ 2 ≤ c + pids.countP (colorLayer m p)) ∧ e = .of .multiColors) ∨
      ((u = false ∧ ∃ pid ∈ pids, m.findAsset p pid = none) ∧ e = .of .missingResource) := by
  induction pids with
  | nil =>
    intro j c u
    simp [multiLayers]
    omega
  | cons pid pids ih =>
    intro j c u
    have hs : ∀ k, j + 1 + k = j + (k + 1) := fun k => by omega
    unfold multiLayers
    simp only [exists_cons (P := fun k pid => j + k ≠ 0 ∧ materialLayer m p pid = true), List.countP_cons, List.mem_cons,
      exists_eq_or_imp]
    split
    · next hf =>
      have h1 : materialLayer m p pid = true := by simp [materialLayer, hf]
      have h2 : multiLayer m p pid = false := by simp [multiLayer, hf]
      have h3 : colorLayer m p pid = false := by simp [colorLayer, hf]
      simp only [List.mem_append, ih, h1, h2, h3, hf, hs, mem_ite_single]
      generalize (e = Err.of .materialMulti) = e1
      generalize (e = Err.of .multiRefMulti) = e2
      generalize (e = Err.of .multiColors) = e3
      generalize (e = Err.of .missingResource) = e4
      clear ih
      simp
      exact or_absorb1
    · next hf =>
      have h1 : materialLayer m p pid = true := by simp [materialLayer, hf]
      have h2 : multiLayer m p pid = false := by simp [multiLayer, hf]
      have h3 : colorLayer m p pid = false := by simp [colorLayer, hf]
      simp only [List.mem_append, ih, h1, h2, h3, hf, hs, mem_ite_single]
      generalize (e = Err.of .materialMulti) = e1
      generalize (e = Err.of .multiRefMulti) = e2
      generalize (e = Err.of .multiColors) = e3
      generalize (e = Err.of .missingResource) = e4
      clear ih
      simp
      exact or_absorb1
    · next hf =>
      have h1 : materialLayer m p pid = false := by simp [materialLayer, hf]
      have h2 : multiLayer m p pid = true := by simp [multiLayer, hf]
      have h3 : colorLayer m p pid = false := by simp [colorLayer, hf]
      simp only [List.mem_cons, ih, h1, h2, h3, hf, hs]
      generalize (e = Err.of .materialMulti) = e1
      generalize (e = Err.of .multiRefMulti) = e2
      generalize (e = Err.of .multiColors) = e3
      generalize (e = Err.of .missingResource) = e4
      clear ih
      simp
      exact or_absorb2
    · next hf =>
      have h1 : materialLayer m p pid = false := by simp [materialLayer, hf]
      have h2 : multiLayer m p pid = false := by simp [multiLayer, hf]
      have h3 : colorLayer m p pid = true := by simp [colorLayer, hf]
      simp only [List.mem_append, ih, h1, h2, h3, hf, hs, mem_ite_single]
      have hk : ((c = 1 ∨ (c + 1 ≤ 1 ∧ 2 ≤ c + 1 + List.countP (colorLayer m p) pids)) ↔
          (c ≤ 1 ∧ 2 ≤ c + (List.countP (colorLayer m p) pids + 1))) := by omega
      generalize (e = Err.of .materialMulti) = e1
      generalize (e = Err.of .multiRefMulti) = e2
      generalize (e = Err.of .multiColors) = e3
      generalize (e = Err.of .missingResource) = e4
      clear ih
      simp only [if_true, ← hk]
      simp
      exact or_absorb3
    · next hf =>
      rename_i a h1' h2' h3' h4'
      have h1 : materialLayer m p pid = false := by
        unfold materialLayer; rw [hf]; split
        · next h => cases h; exact absurd rfl (h1' _)
        · next h => cases h; exact absurd rfl (h2' _)
        · rfl
      have h2 : multiLayer m p pid = false := by
        unfold multiLayer; rw [hf]; split
        · next h => cases h; exact absurd rfl (h3' _)
        · rfl
      have h3 : colorLayer m p pid = false := by
        unfold colorLayer; rw [hf]; split
        · next h => cases h; exact absurd rfl (h4' _)
        · rfl
      simp only [ih, h1, h2, h3, hf, hs]
      simp
    · next hf =>
      have h1 : materialLayer m p pid = false := by simp [materialLayer, hf]
      have h2 : multiLayer m p pid = false := by simp [multiLayer, hf]
      have h3 : colorLayer m p pid = false := by simp [colorLayer, hf]
      simp only [List.mem_append, ih, h1, h2, h3, hf, hs]
      cases u
      · simp only [Bool.false_eq_true, if_false, List.mem_singleton]
        generalize (e = Err.of .materialMulti) = e1
        generalize (e = Err.of .multiRefMulti) = e2
        generalize (e = Err.of .multiColors) = e3
        generalize (e = Err.of .missingResource) = e4
        clear ih
        simp
        exact or_absorb4
      · simp

theorem multiLayers_snd (m : Model) (p : Str) (pids : List UInt32) : ∀ (j c : Nat) (u : Bool),
    (multiLayers m p j c u pids).2 = pids.map fun pid => ((m.findAsset p pid).map layerSize).getD 0 := by
  induction pids with
  | nil => intro j c u; rfl
  | cons pid pids ih =>
    intro j c u
    unfold multiLayers
    split <;> simp [*, layerSize]

theorem two_le_countP {α : Type} (q : α → Bool) (l : List α) :
    2 ≤ l.countP q ↔ ∃ (i j : Nat) (a b : α), i < j ∧ l[i]? = some a ∧ l[j]? = some b ∧ q a = true ∧ q b = true := by
  induction l with
  | nil => simp
  | cons x l ih =>
    rw [List.countP_cons]
    constructor
    · intro h
      by_cases hx : q x = true
      · have h1 : 0 < l.countP q := by rw [if_pos hx] at h; omega
        obtain ⟨b, hb, hq⟩ := List.countP_pos_iff.1 h1
        obtain ⟨j, hj⟩ := List.mem_iff_getElem?.1 hb
        exact ⟨0, j + 1, x, b, by omega, rfl, by simpa using hj, hx, hq⟩
      · rw [if_neg hx] at h
        obtain ⟨i, j, a, b, h1, h2, h3, h4⟩ := ih.1 h
        exact ⟨i + 1, j + 1, a, b, by omega, by simpa using h2, by simpa using h3, h4⟩
    · rintro ⟨i, j, a, b, h1, h2, h3, h4, h5⟩
      cases j with
      | zero => omega
      | succ j =>
        simp only [List.getElem?_cons_succ] at h3
        cases i with
        | zero =>
          cases h2
          have : 0 < l.countP q := List.countP_pos_iff.2 ⟨b, List.mem_of_getElem? h3, h5⟩
          rw [if_pos h4]; omega
        | succ i =>
          simp only [List.getElem?_cons_succ] at h2
          have := ih.2 ⟨i, j, a, b, by omega, h2, h3, h4, h5⟩
          omega

theorem colorLayer_iff {m : Model} (hwf : m.WF) {p : Str} {pid : UInt32} :
    colorLayer m p pid = true ↔ ∃ g, AssetFound m p pid (.res (.colorGroup g)) := by
  simp only [← findAsset_iff hwf]
  unfold colorLayer
  split <;> simp_all

theorem multiLayer_iff {m : Model} (hwf : m.WF) {p : Str} {pid : UInt32} :
    multiLayer m p pid = true ↔ ∃ g, AssetFound m p pid (.res (.multi g)) := by
  simp only [← findAsset_iff hwf]
  unfold multiLayer
  split <;> simp_all

theorem materialLayer_iff {m : Model} (hwf : m.WF) {p : Str} {pid : UInt32} :
    materialLayer m p pid = true ↔ ∃ a, AssetFound m p pid a ∧ IsMaterial a := by
  simp only [← findAsset_iff hwf]
  unfold materialLayer
  split
  · next r h => simp [h, IsMaterial]
  · next r h => simp [h, IsMaterial]
  · next h1 h2 =>
    simp only [Bool.false_eq_true, false_iff, not_exists, not_and]
    intro a ha
    unfold IsMaterial
    split
    · exact absurd ha (h1 _)
    · exact absurd ha (h2 _)
    · exact id

theorem layerSize_iff {m : Model} (hwf : m.WF) {p : Str} {pid : UInt32} {n : Nat} :
    LayerSize m p pid n ↔ ((m.findAsset p pid).map layerSize).getD 0 = n := by
  unfold LayerSize
  simp only [← findAsset_iff hwf]
  cases m.findAsset p pid with
  | none => simp [eq_comm]
  | some a => simp

theorem multiOut_iff (sizes : List Nat) (xs : List UInt32) :
    multiOut sizes xs = true ↔ ∃ (k : Nat) (n : Nat) (x : UInt32), sizes[k]? = some n ∧ xs[k]? = some x ∧ n < x.toNat := by
  unfold multiOut
  rw [List.any_eq_true]
  constructor
  · rintro ⟨q, hq, h⟩
    obtain ⟨k, hk⟩ := List.mem_iff_getElem?.1 hq
    rw [List.getElem?_zip_eq_some] at hk
    exact ⟨k, q.1, q.2, hk.1, hk.2, by simpa using h⟩
  · rintro ⟨k, n, x, h1, h2, h3⟩
    exact ⟨(n, x), List.mem_of_getElem? (i := k) (List.getElem?_zip_eq_some.2 ⟨h1, h2⟩), by simpa using h3⟩

theorem multi_reports (env : Env) {m : Model} (hwf : m.WF) (p : Str) (r : MultiProperties) :
    Reports (r.validate m p) (MaterialRule env m p (.res (.multi r))) := by
  unfold MultiProperties.validate
  simp only [multiLayers_snd]
  have hl : Reports (multiLayers m p 0 0 false r.pids).1 fun loc l => loc = [] ∧
      (((∃ (k : Nat) (pid : UInt32) (a : Asset), r.pids[k]? = some pid ∧ k ≠ 0 ∧ AssetFound m p pid a ∧ IsMaterial a) ∧
        l = .sentinel .materialMulti) ∨
      ((∃ pid ∈ r.pids, ∃ g, AssetFound m p pid (.res (.multi g))) ∧ l = .sentinel .multiRefMulti) ∨
      ((∃ (i j : Nat) (a b : UInt32) (g g' : ColorGroup), i < j ∧ r.pids[i]? = some a ∧ r.pids[j]? = some b ∧
        AssetFound m p a (.res (.colorGroup g)) ∧ AssetFound m p b (.res (.colorGroup g'))) ∧ l = .sentinel .multiColors) ∨
      ((∃ pid ∈ r.pids, ¬ ∃ a, AssetFound m p pid a) ∧ l = .sentinel .missingResource)) := by
    intro e
    rw [multiLayers_mem]
    simp only [Nat.zero_add, two_le_countP, colorLayer_iff hwf, multiLayer_iff hwf, materialLayer_iff hwf, findAsset_none hwf,
      Nat.zero_le, true_and]
    constructor
    · rintro (⟨⟨k, pid, h, h1, a, h2, h3⟩, rfl⟩ | ⟨h, rfl⟩ | ⟨⟨i, j, a, b, h, h1, h2, ⟨g, h3⟩, g', h4⟩, rfl⟩ | ⟨h, rfl⟩)
      · exact ⟨[], _, ⟨rfl, .inl ⟨⟨k, pid, a, h, h1, h2, h3⟩, rfl⟩⟩, rfl⟩
      · exact ⟨[], _, ⟨rfl, .inr (.inl ⟨h, rfl⟩)⟩, rfl⟩
      · exact ⟨[], _, ⟨rfl, .inr (.inr (.inl ⟨⟨i, j, a, b, g, g', h, h1, h2, h3, h4⟩, rfl⟩))⟩, rfl⟩
      · exact ⟨[], _, ⟨rfl, .inr (.inr (.inr ⟨h, rfl⟩))⟩, rfl⟩
    · rintro ⟨_, _, ⟨rfl, ⟨⟨k, pid, a, h, h1, h2, h3⟩, rfl⟩ | ⟨h, rfl⟩ | ⟨⟨i, j, a, b, g, g', h, h1, h2, h3, h4⟩, rfl⟩ | ⟨h, rfl⟩⟩, rfl⟩
      · exact .inl ⟨⟨k, pid, h, h1, a, h2, h3⟩, rfl⟩
      · exact .inr (.inl ⟨h, rfl⟩)
      · exact .inr (.inr (.inl ⟨⟨i, j, a, b, h, h1, h2, ⟨g, h3⟩, g', h4⟩, rfl⟩))
      · exact .inr (.inr (.inr ⟨h, rfl⟩))
  refine ((((((Reports.one (c := r.id = 0) [] (.sentinel .missingID)).append
    (Reports.one (c := r.pids.length = 0) [] (.missingField b!"pids"))).append
    (Reports.one (c := (r.blend.length : Int) > (r.pids.length : Int) - 1) [] (.sentinel .multiBlend))).append
    (Reports.one (c := r.multis.length = 0) [] (.sentinel .emptyResourceProps))).append hl).append
    (Reports.idx fun j xs _ => Reports.one (c := multiOut (r.pids.map fun pid => ((m.findAsset p pid).map layerSize).getD 0) xs = true)
      [nth b!"multi" j] (.sentinel .indexOutOfBounds))).congr fun loc l => ?_
  simp only [multiOut_iff, List.getElem?_map, Option.map_eq_some_iff]
  constructor
  · rintro (((((⟨h, rfl, rfl⟩ | ⟨h, rfl, rfl⟩) | ⟨h, rfl, rfl⟩) | ⟨h, rfl, rfl⟩) | ⟨rfl, ⟨⟨k, pid, a, h, h1, h2, h3⟩, rfl⟩ |
      ⟨⟨pid, h, g, h1⟩, rfl⟩ | ⟨⟨i, j, a, b, g, g', h, h1, h2, h3, h4⟩, rfl⟩ | ⟨⟨pid, h, h1⟩, rfl⟩⟩) |
      ⟨j, xs, hj, ⟨k, n, x, ⟨pid, h, h1⟩, h2, h3⟩, rfl, rfl⟩)
    · exact .multiId h
    · exact .multiNoLayer (List.length_eq_zero_iff.1 h)
    · exact .multiBlend (by omega)
    · exact .multiEmpty (List.length_eq_zero_iff.1 h)
    · exact .multiMaterial h h1 h2 h3
    · exact .multiMulti h h1
    · exact .multiColors h h1 h2 h3 h4
    · exact .multiMissing h h1
    · exact .multiIndex hj h h2 ((layerSize_iff hwf).2 h1) h3
  · intro h
    cases h with
    | multiId h => exact .inl (.inl (.inl (.inl (.inl ⟨h, rfl, rfl⟩))))
    | multiNoLayer h => exact .inl (.inl (.inl (.inl (.inr ⟨List.length_eq_zero_iff.2 h, rfl, rfl⟩))))
    | multiBlend h => exact .inl (.inl (.inl (.inr ⟨by omega, rfl, rfl⟩)))
    | multiEmpty h => exact .inl (.inl (.inr ⟨List.length_eq_zero_iff.2 h, rfl, rfl⟩))
    | multiMaterial h h1 h2 h3 => exact .inl (.inr ⟨rfl, .inl ⟨⟨_, _, _, h, h1, h2, h3⟩, rfl⟩⟩)
    | multiMulti h h1 => exact .inl (.inr ⟨rfl, .inr (.inl ⟨⟨_, h, _, h1⟩, rfl⟩)⟩)
    | multiColors h h1 h2 h3 h4 => exact .inl (.inr ⟨rfl, .inr (.inr (.inl ⟨⟨_, _, _, _, _, _, h, h1, h2, h3, h4⟩, rfl⟩))⟩)
    | multiMissing h h1 => exact .inl (.inr ⟨rfl, .inr (.inr (.inr ⟨⟨_, h, h1⟩, rfl⟩))⟩)
    | multiIndex hj h h2 h1 h3 =>
      exact .inr ⟨_, _, hj, ⟨_, _, _, ⟨_, h, (layerSize_iff hwf).1 h1⟩, h2, h3⟩, rfl, rfl⟩

theorem material_reports (env : Env) {m : Model} (hwf : m.WF) (p : Str) (a : Asset) :
    Reports (materialsValidateAsset env m p a) (MaterialRule env m p a) := by
  unfold materialsValidateAsset
  split
  · exact colorGroup_reports env m p _
  · exact textureGroup_reports env hwf p _
  · exact texture_reports env m p _
  · exact multi_reports env hwf p _
  · exact composite_reports env hwf p _
  · next h1 h2 h3 h4 h5 =>
    refine Reports.nil.congr fun loc l => ?_
    simp only [false_iff]
    intro h
    cases h with
    | colorId | colorEmpty | color => exact h1 _ rfl
    | coordsId | coordsNoTexture | coordsTexture | coordsEmpty => exact h2 _ rfl
    | textureId | textureNoPath | texturePart | textureType => exact h3 _ rfl
    | compositeId | compositeNoBase | compositeMissing | compositeBase | compositeIndex | compositeNoIndex | compositeEmpty => exact h5 _ rfl
    | multiId | multiNoLayer | multiBlend | multiEmpty | multiMissing | multiMaterial | multiMulti | multiColors | multiIndex => exact h4 _ rfl

/-! ## Beam lattice -/

theorem isFirst_cons {α : Type} {q : α → Prop} {x a : α} {l : List α} :
    IsFirst q (x :: l) a ↔ (q x ∧ a = x) ∨ (¬ q x ∧ IsFirst q l a) := by
  constructor
  · rintro ⟨pre, post, h, ha, hpre⟩
    cases pre with
    | nil => cases h; exact .inl ⟨ha, rfl⟩
    | cons y pre =>
      cases h
      exact .inr ⟨hpre _ (List.mem_cons_self ..), pre, post, rfl, ha, fun b hb => hpre b (List.mem_cons_of_mem _ hb)⟩
  · rintro (⟨h, rfl⟩ | ⟨h, pre, post, rfl, ha, hpre⟩)
    · exact ⟨[], l, rfl, h, fun b hb => by cases hb⟩
    · refine ⟨x :: pre, post, rfl, ha, fun b hb => ?_⟩
      rcases List.mem_cons.1 hb with rfl | hb
      · exact h
      · exact hpre b hb

theorem refMeshErrs_reports (id self : UInt32) (hne : id ≠ self) (os : List Object) :
    Reports (refMeshErrs id self os) fun loc l => loc = [] ∧ ∃ o, IsFirst (fun o => o.id = self ∨ o.id = id) os o ∧
      ((o.id = self ∧ l = .sentinel .missingResource) ∨
       (o.id = id ∧ (∀ mesh, o.mesh = some mesh → o.type ≠ .model ∨ ∃ b, latticeOf mesh.any = some b) ∧
        l = .sentinel .latticeInvalidMesh)) := by
  induction os with
  | nil => exact Reports.nil.congr fun loc l => by simp [IsFirst]
  | cons x os ih =>
    unfold refMeshErrs
    by_cases h1 : x.id = self
    · rw [if_pos h1]
      refine (Reports.single [] (.sentinel .missingResource)).congr fun loc l => ?_
      have hx : IsFirst (fun o => o.id = self ∨ o.id = id) (x :: os) x := isFirst_cons.2 (.inl ⟨.inl h1, rfl⟩)
      constructor
      · rintro ⟨rfl, rfl⟩; exact ⟨rfl, x, hx, .inl ⟨h1, rfl⟩⟩
      · rintro ⟨rfl, o, ho, h⟩
        rcases isFirst_cons.1 ho with ⟨-, rfl⟩ | ⟨h2, -⟩
        · rcases h with ⟨-, rfl⟩ | ⟨h, -⟩
          · exact ⟨rfl, rfl⟩
          · exact absurd (h.symm.trans h1) hne
        · exact absurd (.inl h1) h2
    · rw [if_neg h1]
      by_cases h2 : x.id = id
      · rw [if_pos h2]
        have hx : IsFirst (fun o => o.id = self ∨ o.id = id) (x :: os) x := isFirst_cons.2 (.inl ⟨.inr h2, rfl⟩)
        have key : Reports (match x.mesh with
            | none => [.of .latticeInvalidMesh]
            | some mesh => if x.type ≠ .model ∨ (getBeamLattice mesh.any).isSome then [.of .latticeInvalidMesh] else []) fun loc l =>
            (∀ mesh, x.mesh = some mesh → x.type ≠ .model ∨ ∃ b, latticeOf mesh.any = some b) ∧ loc = [] ∧
              l = .sentinel .latticeInvalidMesh := by
          cases x.mesh with
          | none => exact (Reports.single [] (.sentinel .latticeInvalidMesh)).congr fun loc l => by simp
          | some mesh =>
            refine (Reports.one (c := x.type ≠ .model ∨ (getBeamLattice mesh.any).isSome) []
              (.sentinel .latticeInvalidMesh)).congr fun loc l => ?_
            simp [getBeamLattice_find, Option.isSome_iff_exists]
        refine key.congr fun loc l => ?_
        constructor
        · rintro ⟨h, rfl, rfl⟩; exact ⟨rfl, x, hx, .inr ⟨h2, h, rfl⟩⟩
        · rintro ⟨rfl, o, ho, h⟩
          rcases isFirst_cons.1 ho with ⟨-, rfl⟩ | ⟨h3, -⟩
          · rcases h with ⟨h, -⟩ | ⟨-, h, rfl⟩
            · exact absurd h h1
            · exact ⟨h, rfl, rfl⟩
          · exact absurd (.inr h2) h3
      · rw [if_neg h2]
        refine ih.congr fun loc l => ?_
        have : ∀ o, IsFirst (fun o => o.id = self ∨ o.id = id) (x :: os) o ↔ IsFirst (fun o => o.id = self ∨ o.id = id) os o :=
          fun o => by rw [isFirst_cons]; simp [h1, h2]
        simp only [this]

theorem refMesh_reports {m : Model} (hwf : m.WF) (p : Str) (id self : UInt32) :
    Reports (validateRefMesh m p id self) fun loc l => loc = [] ∧ RefMeshRule m p self id l := by
  unfold validateRefMesh
  by_cases h : id = self
  · rw [if_pos h]
    refine (Reports.single [] (.sentinel .recursion)).congr fun loc l => ?_
    constructor
    · rintro ⟨rfl, rfl⟩; exact ⟨rfl, .recursion h⟩
    · rintro ⟨rfl, h1 | h1 | h1⟩
      · exact ⟨rfl, rfl⟩
      · exact absurd h h1
      · exact absurd h h1
  · rw [if_neg h]
    cases hr : m.findResources p with
    | none =>
      have hn : ∀ rs, ¬ PartAt m p rs := fun rs hp => by rw [← partAt_iff m hwf, hr] at hp; cases hp
      refine Reports.nil.congr fun loc l => ?_
      simp only [false_iff]
      rintro ⟨-, h1 | ⟨-, h1, -⟩ | ⟨-, h1, -⟩⟩
      · exact h h1
      · exact hn _ h1
      · exact hn _ h1
    | some rs =>
      have hp := (partAt_iff m hwf p rs).1 hr
      have hu : ∀ rs', PartAt m p rs' → rs' = rs := fun rs' h' => by
        rw [← partAt_iff m hwf, hr] at h'; exact (Option.some.inj h').symm
      refine (refMeshErrs_reports id self h rs.objects).congr fun loc l => ?_
      constructor
      · rintro ⟨rfl, o, ho, ⟨h1, rfl⟩ | ⟨h1, h2, rfl⟩⟩
        · exact ⟨rfl, .missing h hp ho h1⟩
        · exact ⟨rfl, .mesh h hp ho h1 h2⟩
      · rintro ⟨rfl, h1 | ⟨-, h1, h2, h3⟩ | ⟨-, h1, h2, h3, h4⟩⟩
        · exact absurd h1 h
        · cases hu _ h1; exact ⟨rfl, _, h2, .inl ⟨h3, rfl⟩⟩
        · cases hu _ h1; exact ⟨rfl, _, h2, .inr ⟨h3, h4, rfl⟩⟩

theorem beam_reports (radius : F32) (nv i : Nat) (x : Beam) : Reports (x.validate radius nv i) fun loc l =>
    loc = [nth b!"beam" i] ∧ ((x.v1 = x.v2 ∧ l = .sentinel .latticeSameVertex) ∨
      (x.v1 ≠ x.v2 ∧ (∃ v ∈ [x.v1, x.v2], nv ≤ v.toNat) ∧ l = .sentinel .indexOutOfBounds) ∨
      ((x.r1.eq .zero = false ∧ x.r1.eq radius = false ∧ x.r1.eq x.r2 = false) ∧ l = .sentinel .latticeBeamR2)) := by
  unfold Beam.validate
  refine ((Reports.ite (fun _ => Reports.single [nth b!"beam" i] (.sentinel .latticeSameVertex)) (fun _ =>
    Reports.one (c := x.v1.toNat ≥ nv ∨ x.v2.toNat ≥ nv) [nth b!"beam" i] (.sentinel .indexOutOfBounds))).append
    (Reports.one (c := x.r1.eq .zero = false ∧ x.r1.eq radius = false ∧ x.r1.eq x.r2 = false) [nth b!"beam" i]
      (.sentinel .latticeBeamR2))).congr fun loc l => ?_
  simp only [List.mem_cons, List.not_mem_nil, or_false, exists_eq_or_imp, exists_eq_left, ge_iff_le]
  constructor
  · rintro ((⟨h, rfl, rfl⟩ | ⟨h, h1, rfl, rfl⟩) | ⟨h, rfl, rfl⟩)
    · exact ⟨rfl, .inl ⟨h, rfl⟩⟩
    · exact ⟨rfl, .inr (.inl ⟨h, h1, rfl⟩)⟩
    · exact ⟨rfl, .inr (.inr ⟨h, rfl⟩)⟩
  · rintro ⟨rfl, ⟨h, rfl⟩ | ⟨h, h1, rfl⟩ | ⟨h, rfl⟩⟩
    · exact .inl (.inl ⟨h, rfl, rfl⟩)
    · exact .inl (.inr ⟨h, h1, rfl, rfl⟩)
    · exact .inr ⟨h, rfl, rfl⟩

theorem lattice_reports {m : Model} (hwf : m.WF) (p : Str) (o : Object) : Reports (beamValidateObject m p o) fun loc l =>
    ∃ mesh b loc', o.mesh = some mesh ∧ latticeOf mesh.any = some b ∧ LatticeRule m p o mesh b loc' l ∧
      loc = loc' ++ [lvl b!"beamlattice", lvl b!"mesh"] := by
  unfold beamValidateObject
  cases hm : o.mesh with
  | none => exact Reports.nil.congr fun loc l => by simp
  | some mesh =>
    simp only [getBeamLattice_find]
    cases hb : latticeOf mesh.any with
    | none => exact Reports.nil.congr fun loc l => by simp [hb]
    | some b =>
      simp only
      have hin := (((((((Reports.one (c := o.type ≠ .model ∧ o.type ≠ .solidSupport) [] (.sentinel .latticeObjType)).append
        (Reports.one (c := b.minLength.eq .zero = true) [] (.missingField b!"minlength"))).append
        (Reports.one (c := b.radius.eq .zero = true) [] (.missingField b!"radius"))).append
        (Reports.one (c := b.clipMode = .none ∧ b.clippingMeshID = 0) [] (.sentinel .latticeClippedNoMesh))).append
        (Reports.ite (c := b.clippingMeshID ≠ 0) (fun _ => refMesh_reports hwf p b.clippingMeshID o.id) fun _ => Reports.nil)).append
        (Reports.ite (c := b.representationMeshID ≠ 0) (fun _ => refMesh_reports hwf p b.representationMeshID o.id)
          fun _ => Reports.nil)).append
        (Reports.idx (l := b.beams) fun i x _ => beam_reports b.radius mesh.vertices.length i x)).append
        (Reports.idx (l := b.beamSets) fun i (s : BeamSet) _ => Reports.one (c := (s.refs.any fun r => decide (r.toNat ≥ s.refs.length)) = true)
          [nth b!"beamset" i] (.sentinel .indexOutOfBounds))
      have hin' : Reports _ (LatticeRule m p o mesh b) := hin.congr fun loc l => by
        simp only [List.any_eq_true, decide_eq_true_eq]
        constructor
        · rintro (((((((⟨⟨h, h1⟩, rfl, rfl⟩ | ⟨h, rfl, rfl⟩) | ⟨h, rfl, rfl⟩) | ⟨⟨h, h1⟩, rfl, rfl⟩) | (⟨h, rfl, h1⟩ | ⟨-, h⟩)) |
            (⟨h, rfl, h1⟩ | ⟨-, h⟩)) | ⟨i, x, hi, rfl, ⟨h, rfl⟩ | ⟨h, ⟨v, h1, h2⟩, rfl⟩ | ⟨⟨h, h1, h2⟩, rfl⟩⟩) |
            ⟨i, s, hi, ⟨x, h, h1⟩, rfl, rfl⟩)
          · exact .type h h1
          · exact .minLength h
          · exact .radius h
          · exact .clip h h1
          · exact .clipMesh h h1
          · exact h.elim
          · exact .representation h h1
          · exact h.elim
          · exact .same hi h
          · exact .vertex hi h h1 h2
          · exact .radii hi h h1 h2
          · exact .sets hi h h1
        · rintro (⟨h, h1⟩ | h | h | ⟨h, h1⟩ | ⟨h, h1⟩ | ⟨h, h1⟩ | ⟨hi, h⟩ | ⟨hi, h, h1, h2⟩ | ⟨hi, h, h1, h2⟩ | ⟨hi, h, h1⟩)
          · exact .inl (.inl (.inl (.inl (.inl (.inl (.inl ⟨⟨h, h1⟩, rfl, rfl⟩))))))
          · exact .inl (.inl (.inl (.inl (.inl (.inl (.inr ⟨h, rfl, rfl⟩))))))
          · exact .inl (.inl (.inl (.inl (.inl (.inr ⟨h, rfl, rfl⟩)))))
          · exact .inl (.inl (.inl (.inl (.inr ⟨⟨h, h1⟩, rfl, rfl⟩))))
          · exact .inl (.inl (.inl (.inr (.inl ⟨h, rfl, h1⟩))))
          · exact .inl (.inl (.inr (.inl ⟨h, rfl, h1⟩)))
          · exact .inl (.inr ⟨_, _, hi, rfl, .inl ⟨h, rfl⟩⟩)
          · exact .inl (.inr ⟨_, _, hi, rfl, .inr (.inl ⟨h, ⟨_, h1, h2⟩, rfl⟩)⟩)
          · exact .inl (.inr ⟨_, _, hi, rfl, .inr (.inr ⟨⟨h, h1, h2⟩, rfl⟩)⟩)
          · exact .inr ⟨_, _, hi, ⟨_, h, h1⟩, rfl, rfl⟩
      intro e
      rw [List.mem_map]
      constructor
      · rintro ⟨a, ha, rfl⟩
        obtain ⟨loc, l, h, rfl⟩ := (hin' a).1 ha
        exact ⟨_, l, ⟨mesh, b, loc, rfl, hb, h, rfl⟩, by rw [wrap_errAt, wrap_errAt, List.append_assoc]; rfl⟩
      · rintro ⟨_, l, ⟨mesh', b', loc, hm', hb', h, rfl⟩, rfl⟩
        cases hm'
        rw [hb] at hb'
        cases hb'
        exact ⟨errAt loc l, (hin' _).2 ⟨loc, l, h, rfl⟩, by rw [wrap_errAt, wrap_errAt, List.append_assoc]; rfl⟩

end Go3mf
