import Verif.Lemmas.RulesSlices
import Verif.Lemmas.Accepts

/-!
# The validators report the broken rules: parts and the model
-/

namespace Go3mf
open Spec

theorem load_iff (env : Env) (ns : Str) (x : Ext) : env.load ns = some x ↔ registered env x = true ∧ ns = nsOf x := by
  have h1 : nsSlices ≠ nsProduction := by decide +kernel
  have h2 : nsBeam ≠ nsProduction := by decide +kernel
  have h3 : nsBeam ≠ nsSlices := by decide +kernel
  have h4 : nsMaterials ≠ nsProduction := by decide +kernel
  have h5 : nsMaterials ≠ nsSlices := by decide +kernel
  have h6 : nsMaterials ≠ nsBeam := by decide +kernel
  constructor
  · intro h
    unfold Env.load at h
    split at h
    · next hh => cases h; exact ⟨hh.2, hh.1⟩
    · split at h
      · next hh => cases h; exact ⟨hh.2, hh.1⟩
      · split at h
        · next hh => cases h; exact ⟨hh.2, hh.1⟩
        · split at h
          · next hh => cases h; exact ⟨hh.2, hh.1⟩
          · cases h
  · rintro ⟨h, rfl⟩
    cases x <;> simp only [registered, nsOf] at h ⊢ <;> simp [Env.load, h, h1, h2, h3, h4, h5, h6]

theorem active_iff (env : Env) (m : Model) (x : Ext) : Active env m x ↔ ∃ e ∈ m.extensions, env.load e.ns = some x := by
  simp only [load_iff, Active]
  constructor
  · rintro ⟨h, e, he, h1⟩; exact ⟨e, he, h, h1⟩
  · rintro ⟨e, he, h, h1⟩; exact ⟨h, e, he, h1⟩

theorem load_none (env : Env) (ns : Str) : env.load ns = none ↔ ∀ x, ns = nsOf x → registered env x = false := by
  rw [Option.eq_none_iff_forall_ne_some]
  simp only [ne_eq, load_iff, not_and']
  exact forall_congr' fun x => by simp

/-- A loop over the declared extensions. -/
theorem Reports.exts {env : Env} {m : Model} {f : Extension → List Err} {R : Ext → Rule}
    (h : ∀ e ∈ m.extensions, Reports (f e) fun loc l => ∃ x, env.load e.ns = some x ∧ R x loc l) :
    Reports (m.extensions.flatMap f) fun loc l => ∃ x, Active env m x ∧ R x loc l := by
  intro e
  rw [List.mem_flatMap]
  constructor
  · rintro ⟨x, hx, he⟩
    obtain ⟨loc, l, ⟨y, hy, hr⟩, h2⟩ := (h x hx e).1 he
    exact ⟨loc, l, ⟨y, (active_iff env m y).2 ⟨x, hx, hy⟩, hr⟩, h2⟩
  · rintro ⟨loc, l, ⟨y, hy, hr⟩, h2⟩
    obtain ⟨x, hx, hl⟩ := (active_iff env m y).1 hy
    exact ⟨x, hx, (h x hx e).2 ⟨loc, l, ⟨y, hl, hr⟩, h2⟩⟩

/-- The rules of an extension for the build, for an asset and for an object. -/
def buildRules (m : Model) : Ext → Rule
  | .production => ProdBuildRule m
  | _ => fun _ _ => False
@[inherit_doc buildRules] def assetRules (env : Env) (m : Model) (p : Str) (a : Asset) : Ext → Rule
  | .materials => MaterialRule env m p a
  | .slices => fun loc l => ∃ r, a = .res (.sliceStack r) ∧ StackRule m p r loc l
  | _ => fun _ _ => False
@[inherit_doc buildRules] def objectRules (m : Model) (p : Str) (o : Object) : Ext → Rule
  | .production => ProdObjectRule m p o
  | .slices => SliceObjectRule m p o
  | .beamlattice => fun loc l => ∃ mesh b loc', o.mesh = some mesh ∧ latticeOf mesh.any = some b ∧ LatticeRule m p o mesh b loc' l ∧
      loc = loc' ++ [lvl b!"beamlattice", lvl b!"mesh"]
  | .materials => fun _ _ => False

theorem extModel_reports (env : Env) (m : Model) : Reports (extModelErrs env m) fun loc l => ∃ x, Active env m x ∧ buildRules m x loc l := by
  refine Reports.exts fun e _ => ?_
  cases h : env.load e.ns with
  | none => exact Reports.nil.congr fun loc l => by simp
  | some x =>
    cases x with
    | production => exact (prodBuild_reports m).congr fun loc l => by simp [buildRules]
    | _ => exact Reports.nil.congr fun loc l => by simp [buildRules]

theorem extAsset_reports (env : Env) {m : Model} (hwf : m.WF) (p : Str) (a : Asset) :
    Reports (extAssetErrs env m p a) fun loc l => ∃ x, Active env m x ∧ assetRules env m p a x loc l := by
  refine Reports.exts fun e _ => ?_
  cases h : env.load e.ns with
  | none => exact Reports.nil.congr fun loc l => by simp
  | some x =>
    cases x with
    | materials => exact (material_reports env hwf p a).congr fun loc l => by simp [assetRules]
    | slices =>
      simp only
      split
      · exact (stack_reports hwf p _).congr fun loc l => by simp [assetRules]
      · next hn =>
        refine Reports.nil.congr fun loc l => ?_
        simp only [false_iff, not_exists, not_and, Option.some.injEq]
        rintro _ rfl ⟨r, rfl, -⟩
        exact hn r rfl
    | _ => exact Reports.nil.congr fun loc l => by simp [assetRules]

theorem mapM_reports {env : Env} {m : Model} {f : Extension → Option (List Err)} {R : Ext → Rule} {es : List Err}
    (hm : (m.extensions.mapM f).map List.flatten = some es)
    (h : ∀ e es, f e = some es → Reports es fun loc l => ∃ x, env.load e.ns = some x ∧ R x loc l) :
    Reports es fun loc l => ∃ x, Active env m x ∧ R x loc l := by
  simp only [active_iff]
  generalize m.extensions = xs at hm
  induction xs generalizing es with
  | nil =>
    simp at hm
    subst hm
    exact Reports.nil.congr fun loc l => by simp
  | cons e xs ih =>
    rw [List.mapM_cons] at hm
    cases h1 : f e with
    | none => rw [h1] at hm; cases hm
    | some a =>
      cases h2 : xs.mapM f with
      | none => rw [h1, h2] at hm; cases hm
      | some b =>
        rw [h1, h2] at hm
        cases hm
        refine ((h e a h1).append (ih (es := b.flatten) (by rw [h2]; rfl))).congr fun loc l => ?_
        simp only [List.mem_cons, exists_eq_or_imp]
        constructor
        · rintro (⟨x, hx, hr⟩ | ⟨x, hx, hr⟩)
          · exact ⟨x, .inl hx, hr⟩
          · exact ⟨x, .inr hx, hr⟩
        · rintro ⟨x, hx | hx, hr⟩
          · exact .inl ⟨x, hx, hr⟩
          · exact .inr ⟨x, hx, hr⟩

theorem extObject_reports (env : Env) {m : Model} (hwf : m.WF) (fuel : Nat) (p : Str) (o : Object) (es : List Err)
    (h : extObjectErrs env m fuel p o = some es) : Reports es fun loc l => ∃ x, Active env m x ∧ objectRules m p o x loc l := by
  refine mapM_reports h fun e es he => ?_
  cases hl : env.load e.ns with
  | none => rw [hl] at he; cases he; exact Reports.nil.congr fun loc l => by simp
  | some x =>
    rw [hl] at he
    cases x with
    | production => cases he; exact (prodObject_reports m p o).congr fun loc l => by simp [objectRules]
    | slices => exact (sliceObject_reports hwf fuel p o es he).congr fun loc l => by simp [objectRules]
    | beamlattice => cases he; exact (lattice_reports hwf p o).congr fun loc l => by simp [objectRules]
    | materials => cases he; exact Reports.nil.congr fun loc l => by simp [objectRules]

theorem xmlLocal_name (a : Asset) : a.xmlLocal = assetName a := by
  cases a with
  | base r => rfl
  | res r => cases r <;> rfl
  | unknown i ts =>
    cases ts with
    | nil => rfl
    | cons t ts => cases t <;> rfl

theorem assetValidate_reports (a : Asset) : Reports a.validate fun loc l => ∃ r, a = .base r ∧ BaseRule r loc l := by
  cases a with
  | base r => exact (base_reports r).congr fun loc l => by simp
  | _ => exact Reports.nil.congr fun loc l => by simp

theorem assets_reports (env : Env) {m : Model} (hwf : m.WF) (p : Str) (as : List Asset) :
    Reports (assetsErrs env m p 0 [] as) fun loc l => ∃ (i : Nat) (a : Asset), as[i]? = some a ∧ ∃ loc',
      ((((a.identify ≠ 0 ∧ ∃ b ∈ as.take i, b.identify = a.identify) ∧ loc' = [] ∧ l = .sentinel .duplicatedID) ∨
        ∃ r, a = .base r ∧ BaseRule r loc' l) ∨
        ∃ x, Active env m x ∧ assetRules env m p a x loc' l) ∧ loc = loc' ++ [nth (assetName a) i] := by
  have hscan := errsIdx_scan (fun i done as => assetsErrs env m p i (done.map Asset.identify).reverse as) (fun done i a =>
    (((if a.identify ≠ 0 ∧ a.identify ∈ (done.map Asset.identify).reverse then [.of .duplicatedID] else []) ++
      a.validate ++
      extAssetErrs env m p a : List Err)).map (wrapIndex a.xmlLocal i)) (fun i done => rfl)
    (fun i done a l => by simp only [assetsErrs, List.map_append, List.map_cons, List.map_nil, List.reverse_append,
      List.reverse_cons, List.reverse_nil, List.nil_append, List.cons_append]) as
  have h0 : assetsErrs env m p 0 [] as = _ := hscan
  rw [h0]
  refine Reports.idx fun i a _ => ?_
  rw [xmlLocal_name]
  refine (((Reports.one (c := a.identify ≠ 0 ∧ a.identify ∈ ((as.take i).map Asset.identify).reverse) [] (.sentinel .duplicatedID)).append
    (assetValidate_reports a)).append (extAsset_reports env hwf p a)).wrapIndex (assetName a) i |>.congr fun loc l => ?_
  simp only [List.mem_reverse, List.mem_map]

theorem objects_reports (env : Env) {m : Model} (hwf : m.WF) (fuel : Nat) (p : Str) (os : List Object) :
    ∀ (i : Nat) (seen : List UInt32) (es : List Err), objectsErrs env m fuel p i seen os = some es →
      Reports es fun loc l => ∃ (k : Nat) (o : Object), os[k]? = some o ∧ ∃ loc',
        (((o.id ≠ 0 ∧ (o.id ∈ seen ∨ ∃ x ∈ os.take k, x.id = o.id)) ∧ loc' = [] ∧ l = .sentinel .duplicatedID) ∨
          ObjectRule m p o loc' l ∨ ∃ x, Active env m x ∧ objectRules m p o x loc' l) ∧ loc = loc' ++ [nth b!"object" (i + k)] := by
  induction os with
  | nil =>
    intro i seen es h
    cases h
    exact Reports.nil.congr fun loc l => by simp
  | cons o os ih =>
    intro i seen es h
    unfold objectsErrs at h
    cases h1 : o.validate env m fuel p with
    | none => rw [h1] at h; cases h
    | some e =>
      cases h2 : objectsErrs env m fuel p (i + 1) (o.id :: seen) os with
      | none => rw [h1, h2] at h; cases h
      | some t =>
        rw [h1, h2] at h
        cases h
        unfold Object.validate at h1
        obtain ⟨xs, hx, rfl⟩ := Option.map_eq_some_iff.1 h1
        have hdup : Reports (if o.id ≠ 0 ∧ o.id ∈ seen then [wrapIndex b!"object" i (.of .duplicatedID)] else []) _ :=
          Reports.one (c := o.id ≠ 0 ∧ o.id ∈ seen) [nth b!"object" i] (.sentinel .duplicatedID)
        refine ((hdup.append (((object_reports hwf p o).append (extObject_reports env hwf fuel p o xs hx)).wrapIndex b!"object" i)).append
          (ih (i + 1) (o.id :: seen) t h2)).congr fun loc l => ?_
        rw [exists_cons (P := fun k o' => ∃ loc', (((o'.id ≠ 0 ∧ (o'.id ∈ seen ∨ ∃ x ∈ (o :: os).take k, x.id = o'.id)) ∧ loc' = [] ∧
          l = .sentinel .duplicatedID) ∨ ObjectRule m p o' loc' l ∨ ∃ x, Active env m x ∧ objectRules m p o' x loc' l) ∧
          loc = loc' ++ [nth b!"object" (i + k)])]
        have hk : ∀ k, i + 1 + k = i + (k + 1) := fun k => by omega
        have hseen : ∀ (o' : Object) (k : Nat), (o'.id ∈ seen ∨ ∃ x ∈ (o :: os).take (k + 1), x.id = o'.id) ↔
            (o'.id ∈ o.id :: seen ∨ ∃ x ∈ os.take k, x.id = o'.id) := by
          intro o' k
          simp only [List.take_succ_cons, List.mem_cons, exists_eq_or_imp, eq_comm (a := o.id)]
          exact or_left_comm.trans or_assoc.symm
        simp only [hk, hseen]
        refine or_congr ?_ Iff.rfl
        constructor
        · rintro (⟨h, rfl, rfl⟩ | ⟨loc', h, rfl⟩)
          · exact ⟨[], .inl ⟨⟨h.1, .inl h.2⟩, rfl, rfl⟩, rfl⟩
          · exact ⟨loc', .inr h, rfl⟩
        · rintro ⟨loc', ⟨⟨h, h1⟩, rfl, rfl⟩ | h, rfl⟩
          · refine .inl ⟨⟨h, ?_⟩, rfl, rfl⟩
            simpa using h1
          · exact .inr ⟨loc', h, rfl⟩

theorem part_reports (env : Env) {m : Model} (hwf : m.WF) (fuel : Nat) (p : Str) (rs : Resources) (es : List Err)
    (h : rs.validate env m fuel p = some es) : Reports es (PartRule env m p rs) := by
  unfold Resources.validate at h
  obtain ⟨xs, hx, rfl⟩ := Option.map_eq_some_iff.1 h
  refine ((assets_reports env hwf p rs.assets).append (objects_reports env hwf fuel p rs.objects 0 _ xs hx)).congr fun loc l => ?_
  simp only [Nat.zero_add, List.mem_map]
  constructor
  · rintro (⟨i, a, hi, loc', (⟨⟨h, b, h1, h2⟩, rfl, rfl⟩ | ⟨r, rfl, h⟩) | ⟨x, hx, h⟩, rfl⟩ |
      ⟨i, o, hi, loc', ⟨⟨h, ⟨a, h1, h2⟩ | ⟨y, h1, h2⟩⟩, rfl, rfl⟩ | h | ⟨x, hx, h⟩, rfl⟩)
    · exact .assetId hi h h1 h2
    · exact .base hi h
    · cases x with
      | materials => exact .materials hx hi h
      | slices =>
        obtain ⟨r, rfl, h⟩ := h
        exact .stack hx hi h
      | production => exact h.elim
      | beamlattice => exact h.elim
    · exact .objectAssetId hi h h1 h2
    · exact .objectId hi h h1 h2
    · exact .object hi h
    · cases x with
      | production => exact .production hx hi h
      | slices => exact .slices hx hi h
      | beamlattice =>
        obtain ⟨mesh, b, loc'', h1, h2, h3, rfl⟩ := h
        rw [List.append_assoc]
        exact .lattice hx hi h1 h2 h3
      | materials => exact h.elim
  · intro h
    cases h with
    | assetId hi h h1 h2 => exact .inl ⟨_, _, hi, [], .inl (.inl ⟨⟨h, _, h1, h2⟩, rfl, rfl⟩), rfl⟩
    | base hi h => exact .inl ⟨_, _, hi, _, .inl (.inr ⟨_, rfl, h⟩), rfl⟩
    | materials hx hi h => exact .inl ⟨_, _, hi, _, .inr ⟨_, hx, h⟩, rfl⟩
    | stack hx hi h => exact .inl ⟨_, _, hi, _, .inr ⟨_, hx, _, rfl, h⟩, rfl⟩
    | objectAssetId hi h h1 h2 => exact .inr ⟨_, _, hi, [], .inl ⟨⟨h, .inl ⟨_, h1, h2⟩⟩, rfl, rfl⟩, rfl⟩
    | objectId hi h h1 h2 => exact .inr ⟨_, _, hi, [], .inl ⟨⟨h, .inr ⟨_, h1, h2⟩⟩, rfl, rfl⟩, rfl⟩
    | object hi h => exact .inr ⟨_, _, hi, _, .inr (.inl h), rfl⟩
    | production hx hi h => exact .inr ⟨_, _, hi, _, .inr (.inr ⟨_, hx, h⟩), rfl⟩
    | slices hx hi h => exact .inr ⟨_, _, hi, _, .inr (.inr ⟨_, hx, h⟩), rfl⟩
    | lattice hx hi h1 h2 h3 =>
      exact .inr ⟨_, _, hi, _, .inr (.inr ⟨.beamlattice, hx, _, _, _, h1, h2, h3, rfl⟩), by simp⟩

/-! ## The model -/

/-- The errors are those of the rule, with the path of the part. -/
def PReports (es : List Err) (R : List Level → Leaf → Str → Prop) : Prop :=
  ∀ e, e ∈ es ↔ ∃ loc l p, R loc l p ∧ e = .wrapped loc (.leaf l) p

theorem wrapped_errAt (n : Str) (loc : List Level) (l : Leaf) : wrap n (errAt loc l) = .wrapped (loc ++ [lvl n]) (.leaf l) [] := by
  rw [wrap_errAt]
  simp [errAt]

theorem wrapPath_errAt (n p : Str) (loc : List Level) (l : Leaf) :
    wrapPath n p (errAt loc l) = .wrapped (loc ++ [lvl n]) (.leaf l) p := by
  unfold errAt
  by_cases h : loc = []
  · subst h; rfl
  · simp [h, wrapPath, lvl]

theorem Reports.top {es : List Err} {R : Rule} (h : Reports es R) (n : Str) :
    PReports (es.map (Go3mf.wrap n)) fun loc l p => p = [] ∧ ∃ loc', R loc' l ∧ loc = loc' ++ [lvl n] := by
  intro e
  rw [List.mem_map]
  constructor
  · rintro ⟨a, ha, rfl⟩
    obtain ⟨loc, l, h1, rfl⟩ := (h a).1 ha
    exact ⟨_, l, [], ⟨rfl, loc, h1, rfl⟩, wrapped_errAt n loc l⟩
  · rintro ⟨_, l, _, ⟨rfl, loc, h1, rfl⟩, rfl⟩
    exact ⟨errAt loc l, (h _).2 ⟨loc, l, h1, rfl⟩, wrapped_errAt n loc l⟩

theorem Reports.path {es : List Err} {R : Rule} (h : Reports es R) (n p : Str) :
    PReports (es.map (wrapPath n p)) fun loc l q => q = p ∧ ∃ loc', R loc' l ∧ loc = loc' ++ [lvl n] := by
  intro e
  rw [List.mem_map]
  constructor
  · rintro ⟨a, ha, rfl⟩
    obtain ⟨loc, l, h1, rfl⟩ := (h a).1 ha
    exact ⟨_, l, p, ⟨rfl, loc, h1, rfl⟩, wrapPath_errAt n p loc l⟩
  · rintro ⟨_, l, _, ⟨rfl, loc, h1, rfl⟩, rfl⟩
    exact ⟨errAt loc l, (h _).2 ⟨loc, l, h1, rfl⟩, wrapPath_errAt n _ loc l⟩

theorem PReports.wrap {es : List Err} {R : List Level → Leaf → Str → Prop} (h : PReports es R) (n : Str) :
    PReports (es.map (Go3mf.wrap n)) fun loc l p => ∃ loc', R loc' l p ∧ loc = loc' ++ [lvl n] := by
  intro e
  rw [List.mem_map]
  constructor
  · rintro ⟨a, ha, rfl⟩
    obtain ⟨loc, l, p, h1, rfl⟩ := (h a).1 ha
    exact ⟨_, l, p, ⟨loc, h1, rfl⟩, rfl⟩
  · rintro ⟨_, l, p, ⟨loc, h1, rfl⟩, rfl⟩
    exact ⟨_, (h _).2 ⟨loc, l, p, h1, rfl⟩, rfl⟩

theorem PReports.append {es fs : List Err} {R S : List Level → Leaf → Str → Prop} (h : PReports es R) (h' : PReports fs S) :
    PReports (es ++ fs) fun loc l p => R loc l p ∨ S loc l p := by
  intro e
  rw [List.mem_append, h e, h' e]
  constructor
  · rintro (⟨loc, l, p, a, b⟩ | ⟨loc, l, p, a, b⟩)
    · exact ⟨loc, l, p, .inl a, b⟩
    · exact ⟨loc, l, p, .inr a, b⟩
  · rintro ⟨loc, l, p, a | a, b⟩
    · exact .inl ⟨loc, l, p, a, b⟩
    · exact .inr ⟨loc, l, p, a, b⟩

theorem PReports.congr {es : List Err} {R S : List Level → Leaf → Str → Prop} (h : PReports es R)
    (he : ∀ loc l p, R loc l p ↔ S loc l p) : PReports es S := by
  intro e
  rw [h e]
  simp only [he]

theorem rel_reports (env : Env) (m : Model) (rels : List Relationship) (path : Str) :
    PReports (validateRelationship env m rels path) fun loc l p => ∃ (i : Nat) (r : Relationship) (s : Sentinel), rels[i]? = some r ∧
      RelFault env m (rels.take i) r s ∧ loc = [nth b!"relationship" i] ∧ l = .sentinel s ∧ p = path := by
  intro e
  rw [C40_exact, List.mem_flatten]
  constructor
  · rintro ⟨x, hx, he⟩
    obtain ⟨i, hi, rfl⟩ := List.mem_mapIdx.1 hx
    obtain ⟨s, hs, rfl⟩ := List.mem_map.1 he
    have := (List.mem_filter.1 hs).2
    exact ⟨_, _, _, ⟨i, _, s, List.getElem?_eq_getElem hi, by simpa using this, rfl, rfl, rfl⟩, rfl⟩
  · rintro ⟨_, _, _, ⟨i, r, s, h1, h2, rfl, rfl, rfl⟩, rfl⟩
    obtain ⟨h3, h4⟩ := List.getElem?_eq_some_iff.1 h1
    refine ⟨_, List.mem_mapIdx.2 ⟨i, h3, rfl⟩, List.mem_map.2 ⟨s, List.mem_filter.2 ⟨?_, ?_⟩, rfl⟩⟩
    · cases s <;> first | exact False.elim h2 | simp [relFaults]
    · rw [h4]; simpa using h2

theorem mapM_flatten_iff {α : Type} {f : α → Option (List Err)} {l : List α} {es : List Err}
    (h : (l.mapM f).map List.flatten = some es) :
    (∀ a ∈ l, ∃ x, f a = some x) ∧ ∀ e, e ∈ es ↔ ∃ a ∈ l, ∃ x, f a = some x ∧ e ∈ x := by
  induction l generalizing es with
  | nil => simp at h; subst h; simp
  | cons a l ih =>
    rw [List.mapM_cons] at h
    cases h1 : f a with
    | none => rw [h1] at h; cases h
    | some x =>
      cases h2 : l.mapM f with
      | none => rw [h1, h2] at h; cases h
      | some b =>
        rw [h1, h2] at h
        cases h
        have := ih (es := b.flatten) (by rw [h2]; rfl)
        refine ⟨?_, fun e => ?_⟩
        · intro c hc
          rcases List.mem_cons.1 hc with rfl | hc
          · exact ⟨x, h1⟩
          · exact this.1 c hc
        · change e ∈ x ++ b.flatten ↔ _
          rw [List.mem_append, this.2]
          simp [h1]

theorem childs_reports (env : Env) {m : Model} (hwf : m.WF) (fuel : Nat) (paths : List Str) (es : List Err)
    (h : childsErrs env m fuel paths = some es) : PReports es fun loc l q => q ∈ paths ∧ ∃ c, (q, c) ∈ m.childs ∧
      ∃ loc', PartRule env m q c.resources loc' l ∧ loc = loc' ++ [lvl b!"resources"] := by
  obtain ⟨hs, hm⟩ := mapM_flatten_iff h
  intro e
  rw [hm]
  constructor
  · rintro ⟨q, hq, x, hx, he⟩
    split at hx
    · next c hc =>
      obtain ⟨a, ha, rfl⟩ := Option.map_eq_some_iff.1 hx
      obtain ⟨loc, l, _, ⟨rfl, h1⟩, rfl⟩ := ((part_reports env hwf fuel q c.resources a ha).path b!"resources" q e).1 he
      exact ⟨loc, l, _, ⟨hq, c, (lookupChild_spec hwf _ c).1 hc, h1⟩, rfl⟩
    · cases hx; cases he
  · rintro ⟨loc, l, q, ⟨hq, c, hc, h1⟩, rfl⟩
    have hl := (lookupChild_spec hwf q c).2 hc
    obtain ⟨x, hx⟩ := hs q hq
    refine ⟨q, hq, x, hx, ?_⟩
    rw [hl] at hx
    obtain ⟨a, ha, rfl⟩ := Option.map_eq_some_iff.1 hx
    exact ((part_reports env hwf fuel q c.resources a ha).path b!"resources" q _).2 ⟨loc, l, q, ⟨rfl, h1⟩, rfl⟩

end Go3mf
