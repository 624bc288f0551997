import Verif.Spec.Rules
import Verif.Lemmas.Core

/-!
# The validators report the broken rules: core
-/

namespace Go3mf
open Spec

/-- An error with its location, before it has a path. -/
def errAt (loc : List Level) (l : Leaf) : Err := if loc = [] then .leaf l else .wrapped loc (.leaf l) []

/-- The errors are those of the rule. -/
def Reports (es : List Err) (R : Rule) : Prop := ∀ e, e ∈ es ↔ ∃ loc l, R loc l ∧ e = errAt loc l

theorem wrapIndex_errAt (n : Str) (i : Int) (loc : List Level) (l : Leaf) :
    wrapIndex n i (errAt loc l) = errAt (loc ++ [⟨n, i⟩]) l := by
  unfold errAt
  by_cases h : loc = []
  · subst h; simp [wrapIndex]
  · simp [h, wrapIndex]

theorem wrap_errAt (n : Str) (loc : List Level) (l : Leaf) : wrap n (errAt loc l) = errAt (loc ++ [lvl n]) l :=
  wrapIndex_errAt n (-1) loc l

theorem Reports.map {es : List Err} {R : Rule} {f : Err → Err} {x : Level} (h : Reports es R)
    (hf : ∀ loc l, f (errAt loc l) = errAt (loc ++ [x]) l) :
    Reports (es.map f) fun loc l => ∃ loc', R loc' l ∧ loc = loc' ++ [x] := by
  intro e
  rw [List.mem_map]
  constructor
  · rintro ⟨a, ha, rfl⟩
    obtain ⟨loc, l, h1, rfl⟩ := (h a).1 ha
    exact ⟨_, l, ⟨loc, h1, rfl⟩, hf loc l⟩
  · rintro ⟨_, l, ⟨loc, h1, rfl⟩, rfl⟩
    exact ⟨errAt loc l, (h _).2 ⟨loc, l, h1, rfl⟩, hf loc l⟩

theorem Reports.wrapIndex {es : List Err} {R : Rule} (h : Reports es R) (n : Str) (i : Nat) :
    Reports (es.map (wrapIndex n i)) fun loc l => ∃ loc', R loc' l ∧ loc = loc' ++ [nth n i] :=
  h.map fun loc l => wrapIndex_errAt n i loc l

theorem Reports.wrap {es : List Err} {R : Rule} (h : Reports es R) (n : Str) :
    Reports (es.map (wrap n)) fun loc l => ∃ loc', R loc' l ∧ loc = loc' ++ [lvl n] :=
  h.map fun loc l => wrap_errAt n loc l

theorem Reports.append {es fs : List Err} {R S : Rule} (h : Reports es R) (h' : Reports fs S) :
    Reports (es ++ fs) fun loc l => R loc l ∨ S loc l := by
  intro e
  rw [List.mem_append, h e, h' e]
  constructor
  · rintro (⟨loc, l, a, b⟩ | ⟨loc, l, a, b⟩)
    · exact ⟨loc, l, .inl a, b⟩
    · exact ⟨loc, l, .inr a, b⟩
  · rintro ⟨loc, l, a | a, b⟩
    · exact .inl ⟨loc, l, a, b⟩
    · exact .inr ⟨loc, l, a, b⟩

theorem Reports.nil : Reports [] fun _ _ => False := by
  intro e; simp

theorem Reports.single (loc : List Level) (l : Leaf) : Reports [errAt loc l] fun loc' l' => loc' = loc ∧ l' = l := by
  intro e
  rw [List.mem_singleton]
  constructor
  · rintro rfl; exact ⟨loc, l, ⟨rfl, rfl⟩, rfl⟩
  · rintro ⟨_, _, ⟨rfl, rfl⟩, h⟩; exact h

theorem Reports.ite {c : Prop} [Decidable c] {es fs : List Err} {R S : Rule} (h : c → Reports es R) (h' : ¬ c → Reports fs S) :
    Reports (if c then es else fs) fun loc l => (c ∧ R loc l) ∨ (¬ c ∧ S loc l) := by
  intro e
  by_cases hc : c
  · rw [if_pos hc, h hc e]; simp [hc]
  · rw [if_neg hc, h' hc e]; simp [hc]

theorem Reports.one {c : Prop} [Decidable c] (loc : List Level) (l : Leaf) :
    Reports (if c then [errAt loc l] else []) fun loc' l' => c ∧ loc' = loc ∧ l' = l := by
  intro e
  by_cases hc : c
  · rw [if_pos hc, Reports.single loc l e]; simp [hc]
  · rw [if_neg hc]; simp [hc]

theorem Reports.idx {α : Type} {f : Nat → α → List Err} {l : List α} {R : Nat → α → Rule}
    (h : ∀ i a, l[i]? = some a → Reports (f i a) (R i a)) :
    Reports (errsIdx f l) fun loc lf => ∃ i a, l[i]? = some a ∧ R i a loc lf := by
  intro e
  rw [mem_errsIdx]
  constructor
  · rintro ⟨i, a, h1, h2⟩
    obtain ⟨loc, lf, h3, h4⟩ := (h i a h1 e).1 h2
    exact ⟨loc, lf, ⟨i, a, h1, h3⟩, h4⟩
  · rintro ⟨loc, lf, ⟨i, a, h1, h3⟩, h4⟩
    exact ⟨i, a, h1, (h i a h1 e).2 ⟨loc, lf, h3, h4⟩⟩

theorem Reports.congr {es : List Err} {R S : Rule} (h : Reports es R) (he : ∀ loc l, R loc l ↔ S loc l) : Reports es S := by
  intro e
  rw [h e]
  simp only [he]

/-! ## Look-ups -/

theorem findObject_iff {m : Model} (hwf : m.WF) {p : Str} {id : UInt32} {o : Object} :
    m.findObject p id = some o ↔ ObjectFound m p id o := by
  rw [C03_findObject]
  simp only [partAt_iff m hwf, ObjectFound]

theorem findAsset_iff {m : Model} (hwf : m.WF) {p : Str} {id : UInt32} {a : Asset} :
    m.findAsset p id = some a ↔ AssetFound m p id a := by
  rw [C03_findAsset]
  simp only [partAt_iff m hwf, AssetFound]

theorem findObject_none {m : Model} (hwf : m.WF) {p : Str} {id : UInt32} :
    m.findObject p id = none ↔ ¬ ∃ o, ObjectFound m p id o := by
  rw [Option.eq_none_iff_forall_ne_some]
  simp only [ne_eq, findObject_iff hwf, not_exists]

theorem findAsset_none {m : Model} (hwf : m.WF) {p : Str} {id : UInt32} :
    m.findAsset p id = none ↔ ¬ ∃ a, AssetFound m p id a := by
  rw [Option.eq_none_iff_forall_ne_some]
  simp only [ne_eq, findAsset_iff hwf, not_exists]

theorem assetFound_unique {m : Model} (hwf : m.WF) {p : Str} {id : UInt32} {a b : Asset} (ha : AssetFound m p id a)
    (hb : AssetFound m p id b) : a = b :=
  Option.some.inj (((findAsset_iff hwf).2 ha).symm.trans ((findAsset_iff hwf).2 hb))

theorem objectFound_unique {m : Model} (hwf : m.WF) {p : Str} {id : UInt32} {a b : Object} (ha : ObjectFound m p id a)
    (hb : ObjectFound m p id b) : a = b :=
  Option.some.inj (((findObject_iff hwf).2 ha).symm.trans ((findObject_iff hwf).2 hb))

theorem objectFound_id {m : Model} {p : Str} {id : UInt32} {o : Object} (h : ObjectFound m p id o) : o.id = id := by
  obtain ⟨rs, -, h⟩ := h
  exact (isFirst_mem h).2

theorem getD_findAsset {m : Model} {p : Str} {id : UInt32} :
    ((m.findResources p).getD .zero).findAsset id = m.findAsset p id := by
  unfold Model.findAsset
  cases m.findResources p <;> rfl

theorem rootPath_eq (m : Model) : m.pathOrDefault = rootPath m := rfl

/-! ## Core -/

theorem metadata_reports (m : Model) (mds : List Metadata) : Reports (checkMetadata m mds) (MetaRule m mds) := by
  intro e
  rw [C41_exact, List.mem_flatten]
  constructor
  · rintro ⟨x, hx, he⟩
    obtain ⟨i, hi, rfl⟩ := List.mem_mapIdx.1 hx
    obtain ⟨k, hk, rfl⟩ := List.mem_map.1 he
    have := (List.mem_filter.1 hk).2
    exact ⟨_, _, .fault (i := i) (List.getElem?_eq_getElem hi) (by simpa using this), rfl⟩
  · rintro ⟨loc, l, ⟨h1, h2⟩, rfl⟩
    rename_i i md k
    obtain ⟨h3, h4⟩ := List.getElem?_eq_some_iff.1 h1
    refine ⟨_, List.mem_mapIdx.2 ⟨i, h3, rfl⟩, List.mem_map.2 ⟨k, List.mem_filter.2 ⟨by cases k <;> simp, ?_⟩, rfl⟩⟩
    rw [h4]
    simpa using h2

theorem item_reports {m : Model} (hwf : m.WF) (it : Item) : Reports (it.validate m) (ItemRule m it) := by
  unfold Item.validate
  have hfirst : Reports (if it.objectID = 0 then [.missingField b!"objectid"]
      else match m.findObject it.objectPath it.objectID with
        | some o => if o.type = .other then [.of .otherItem] else []
        | none => [.of .missingResource]) fun loc l => loc = [] ∧ ((it.objectID = 0 ∧ l = .missingField b!"objectid") ∨
          (it.objectID ≠ 0 ∧ (((¬ ∃ o, ObjectFound m it.objectPath it.objectID o) ∧ l = .sentinel .missingResource) ∨
            ∃ o, ObjectFound m it.objectPath it.objectID o ∧ o.type = .other ∧ l = .sentinel .otherItem))) := by
    by_cases h0 : it.objectID = 0
    · rw [if_pos h0]
      exact (Reports.single [] _).congr fun loc l => by simp [h0]
    · rw [if_neg h0]
      cases hf : m.findObject it.objectPath it.objectID with
      | none =>
        have := (findObject_none hwf).1 hf
        refine (Reports.single [] (.sentinel .missingResource)).congr fun loc l => ?_
        have h2 : ∀ o, ¬ ObjectFound m it.objectPath it.objectID o := fun o ho => this ⟨o, ho⟩
        simp [h0, h2]
      | some o =>
        have hf' := (findObject_iff hwf).1 hf
        refine (Reports.one (c := o.type = .other) [] (.sentinel .otherItem)).congr fun loc l => ?_
        constructor
        · rintro ⟨a, rfl, rfl⟩
          exact ⟨rfl, .inr ⟨h0, .inr ⟨o, hf', a, rfl⟩⟩⟩
        · rintro ⟨rfl, ⟨h, -⟩ | ⟨-, ⟨h, -⟩ | ⟨x, hx, h, rfl⟩⟩⟩
          · exact absurd h h0
          · exact absurd ⟨o, hf'⟩ h
          · rw [objectFound_unique hwf hx hf'] at h
            exact ⟨h, rfl, rfl⟩
  refine (hfirst.append (metadata_reports m _)).congr fun loc l => ?_
  constructor
  · rintro (⟨rfl, ⟨h, rfl⟩ | ⟨h, ⟨h1, rfl⟩ | ⟨o, h1, h2, rfl⟩⟩⟩ | h)
    · exact .id h
    · exact .missing h h1
    · exact .other h h1 h2
    · exact .metadata h
  · rintro (h | ⟨h, h1⟩ | ⟨h, h1, h2⟩ | h)
    · exact .inl ⟨rfl, .inl ⟨h, rfl⟩⟩
    · exact .inl ⟨rfl, .inr ⟨h, .inl ⟨h1, rfl⟩⟩⟩
    · exact .inl ⟨rfl, .inr ⟨h, .inr ⟨_, h1, h2, rfl⟩⟩⟩
    · exact .inr h

theorem base_reports (r : BaseMaterials) : Reports r.validate (BaseRule r) := by
  unfold BaseMaterials.validate
  refine (((Reports.one (c := r.id = 0) [] (.sentinel .missingID)).append
    (Reports.one (c := r.materials.length = 0) [] (.sentinel .emptyResourceProps))).append
    (Reports.idx fun j b _ => (Reports.one (c := b.name = []) [nth b!"base" j] (.missingField b!"name")).append
      (Reports.one (c := b.color = .zero) [nth b!"base" j] (.missingField b!"displaycolor")))).congr fun loc l => ?_
  constructor
  · rintro ((⟨h, rfl, rfl⟩ | ⟨h, rfl, rfl⟩) | ⟨j, b, hb, ⟨h, rfl, rfl⟩ | ⟨h, rfl, rfl⟩⟩)
    · exact .id h
    · exact .empty (List.length_eq_zero_iff.1 h)
    · exact .name hb h
    · exact .color hb h
  · rintro (h | h | ⟨hb, h⟩ | ⟨hb, h⟩)
    · exact .inl (.inl ⟨h, rfl, rfl⟩)
    · exact .inl (.inr ⟨List.length_eq_zero_iff.2 h, rfl, rfl⟩)
    · exact .inr ⟨_, _, hb, .inl ⟨h, rfl, rfl⟩⟩
    · exact .inr ⟨_, _, hb, .inr ⟨h, rfl, rfl⟩⟩

theorem uint_ge {v : UInt32} {n : Nat} : v ≥ UInt32.ofNat n ↔ n % 2 ^ 32 ≤ v.toNat := by
  rw [ge_iff_le, UInt32.le_iff_toNat_le, UInt32.toNat_ofNat']

theorem triangle_reports {m : Model} (hwf : m.WF) (p : Str) (o : Object) (n i : Nat) (t : Triangle) :
    Reports (t.validate ((m.findResources p).getD .zero) o (UInt32.ofNat n) i) fun loc l => loc = [nth b!"triangle" i] ∧
      ((¬ [t.v1, t.v2, t.v3].Nodup ∧ l = .sentinel .duplicatedIndices) ∨
      ((∃ v ∈ [t.v1, t.v2, t.v3], n % 2 ^ 32 ≤ v.toNat) ∧ l = .sentinel .indexOutOfBounds) ∨
      (t.pid ≠ 0 ∧ ¬ Inherits o t ∧ (((¬ ∃ a, AssetFound m p t.pid a) ∧ l = .sentinel .missingResource) ∨
        ∃ a k, AssetFound m p t.pid a ∧ groupSize a = some k ∧ (∃ x ∈ [t.p1, t.p2, t.p3], k ≤ x.toNat) ∧
          l = .sentinel .indexOutOfBounds))) := by
  unfold Triangle.validate
  rw [getD_findAsset]
  have hlast : Reports (if t.pid = 0 then []
      else if t.pid = o.pid ∧ t.p1 = o.pindex ∧ t.p2 = o.pindex ∧ t.p3 = o.pindex then []
      else match m.findAsset p t.pid with
        | some a =>
          match a.len with
          | some l =>
            if t.p1.toNat ≥ l ∨ t.p2.toNat ≥ l ∨ t.p3.toNat ≥ l then [wrapIndex b!"triangle" i (.of .indexOutOfBounds)] else []
          | none => []
        | none => [wrapIndex b!"triangle" i (.of .missingResource)]) fun loc l => loc = [nth b!"triangle" i] ∧
      (t.pid ≠ 0 ∧ ¬ Inherits o t ∧ (((¬ ∃ a, AssetFound m p t.pid a) ∧ l = .sentinel .missingResource) ∨
        ∃ a k, AssetFound m p t.pid a ∧ groupSize a = some k ∧ (∃ x ∈ [t.p1, t.p2, t.p3], k ≤ x.toNat) ∧
          l = .sentinel .indexOutOfBounds)) := by
    by_cases h0 : t.pid = 0
    · rw [if_pos h0]; exact Reports.nil.congr fun loc l => by simp [h0]
    · rw [if_neg h0]
      by_cases h1 : t.pid = o.pid ∧ t.p1 = o.pindex ∧ t.p2 = o.pindex ∧ t.p3 = o.pindex
      · rw [if_pos h1]; exact Reports.nil.congr fun loc l => by simp [Inherits, h1]
      · rw [if_neg h1]
        cases hf : m.findAsset p t.pid with
        | none =>
          have hn := (findAsset_none hwf).1 hf
          refine (Reports.single [nth b!"triangle" i] (.sentinel .missingResource)).congr fun loc l => ?_
          constructor
          · rintro ⟨rfl, rfl⟩; exact ⟨rfl, h0, h1, .inl ⟨hn, rfl⟩⟩
          · rintro ⟨rfl, -, -, ⟨-, rfl⟩ | ⟨a, k, ha, -⟩⟩
            · exact ⟨rfl, rfl⟩
            · exact absurd ⟨a, ha⟩ hn
        | some a =>
          have ha := (findAsset_iff hwf).1 hf
          simp only [len_eq]
          cases hg : groupSize a with
          | none =>
            refine Reports.nil.congr fun loc l => ?_
            simp only [false_iff]
            rintro ⟨-, -, -, ⟨h, -⟩ | ⟨b, k, hb, hk, -⟩⟩
            · exact h ⟨a, ha⟩
            · rw [assetFound_unique hwf hb ha, hg] at hk; cases hk
          | some k =>
            refine (Reports.one (c := t.p1.toNat ≥ k ∨ t.p2.toNat ≥ k ∨ t.p3.toNat ≥ k) [nth b!"triangle" i]
              (.sentinel .indexOutOfBounds)).congr fun loc l => ?_
            constructor
            · rintro ⟨h, rfl, rfl⟩; exact ⟨rfl, h0, h1, .inr ⟨a, k, ha, hg, by simpa using h, rfl⟩⟩
            · rintro ⟨rfl, -, -, ⟨h, -⟩ | ⟨b, k', hb, hk, h, rfl⟩⟩
              · exact absurd ⟨a, ha⟩ h
              · rw [assetFound_unique hwf hb ha, hg] at hk
                cases hk
                exact ⟨by simpa using h, rfl, rfl⟩
  refine (((Reports.one (c := t.v1 = t.v2 ∨ t.v1 = t.v3 ∨ t.v2 = t.v3) [nth b!"triangle" i] (.sentinel .duplicatedIndices)).append
    (Reports.one (c := t.v1 ≥ UInt32.ofNat n ∨ t.v2 ≥ UInt32.ofNat n ∨ t.v3 ≥ UInt32.ofNat n) [nth b!"triangle" i]
      (.sentinel .indexOutOfBounds))).append hlast).congr fun loc l => ?_
  have hd : (t.v1 = t.v2 ∨ t.v1 = t.v3 ∨ t.v2 = t.v3) ↔ ¬ [t.v1, t.v2, t.v3].Nodup := by
    simp only [List.nodup_cons, List.mem_cons, List.not_mem_nil, or_false, not_false_eq_true, List.nodup_nil, and_true]
    tauto
  have hv : (t.v1 ≥ UInt32.ofNat n ∨ t.v2 ≥ UInt32.ofNat n ∨ t.v3 ≥ UInt32.ofNat n) ↔
      ∃ v ∈ [t.v1, t.v2, t.v3], n % 2 ^ 32 ≤ v.toNat := by
    simp only [uint_ge, List.mem_cons, List.not_mem_nil, or_false, exists_eq_or_imp, exists_eq_left]
  rw [hd, hv]
  constructor
  · rintro ((⟨h, rfl, rfl⟩ | ⟨h, rfl, rfl⟩) | ⟨rfl, h⟩)
    · exact ⟨rfl, .inl ⟨h, rfl⟩⟩
    · exact ⟨rfl, .inr (.inl ⟨h, rfl⟩)⟩
    · exact ⟨rfl, .inr (.inr h)⟩
  · rintro ⟨rfl, ⟨h, rfl⟩ | ⟨h, rfl⟩ | h⟩
    · exact .inl (.inl ⟨h, rfl, rfl⟩)
    · exact .inl (.inr ⟨h, rfl, rfl⟩)
    · exact .inr ⟨rfl, h⟩

theorem mesh_reports {m : Model} (hwf : m.WF) (p : Str) (o : Object) (mesh : Mesh) :
    Reports (o.validateMesh ((m.findResources p).getD .zero) mesh) (MeshRule m p o mesh) := by
  unfold Object.validateMesh
  refine ((Reports.ite (S := fun _ _ => False) (fun _ => (Reports.one (c := mesh.vertices.length < 3) [] (.sentinel .insufficientVertices)).append
    (Reports.one (c := mesh.triangles.length ≤ 3 ∧ mesh.any.length = 0) [] (.sentinel .insufficientTriangles)))
    (fun _ => Reports.nil)).append
    (Reports.idx fun i t _ => triangle_reports hwf p o mesh.vertices.length i t)).congr fun loc l => ?_
  constructor
  · rintro ((⟨h, ⟨h1, rfl, rfl⟩ | ⟨⟨h1, h2⟩, rfl, rfl⟩⟩ | ⟨-, h⟩) | ⟨i, t, ht, rfl, ⟨h, rfl⟩ | ⟨⟨v, h, h1⟩, rfl⟩ |
      ⟨h, h1, ⟨h2, rfl⟩ | ⟨a, k, h2, h3, ⟨x, h4, h5⟩, rfl⟩⟩⟩)
    · exact .vertices h h1
    · exact .triangles h (by omega) (List.length_eq_zero_iff.1 h2)
    · exact h.elim
    · exact .repeated ht h
    · exact .vertex ht h h1
    · exact .missing ht h h1 h2
    · exact .property ht h h1 h2 h3 h4 h5
  · rintro (⟨h, h1⟩ | ⟨h, h1, h2⟩ | ⟨ht, h⟩ | ⟨ht, h, h1⟩ | ⟨ht, h, h1, h2⟩ | ⟨ht, h, h1, h2, h3, h4, h5⟩)
    · exact .inl (.inl ⟨h, .inl ⟨h1, rfl, rfl⟩⟩)
    · exact .inl (.inl ⟨h, .inr ⟨⟨by omega, by simp [h2]⟩, rfl, rfl⟩⟩)
    · exact .inr ⟨_, _, ht, rfl, .inl ⟨h, rfl⟩⟩
    · exact .inr ⟨_, _, ht, rfl, .inr (.inl ⟨⟨_, h, h1⟩, rfl⟩)⟩
    · exact .inr ⟨_, _, ht, rfl, .inr (.inr ⟨h, h1, .inl ⟨h2, rfl⟩⟩)⟩
    · exact .inr ⟨_, _, ht, rfl, .inr (.inr ⟨h, h1, .inr ⟨_, _, h2, h3, ⟨_, h4, h5⟩, rfl⟩⟩)⟩

theorem components_reports {m : Model} (hwf : m.WF) (p : Str) (o : Object) (cs : List Component) :
    Reports (o.validateComponents m p cs) fun loc l => ∃ j c, cs[j]? = some c ∧ ComponentRule m p o c l ∧
      loc = [nth b!"component" j, lvl b!"components"] := by
  unfold Object.validateComponents
  refine ((Reports.idx (R := fun j c loc l => ComponentRule m p o c l ∧ loc = [nth b!"component" j]) fun j c _ => ?_).wrap
    b!"components").congr fun loc l => ?_
  · rw [componentPart_eq]
    by_cases h0 : c.objectID = 0
    · rw [if_pos h0]
      refine (Reports.single [nth b!"component" j] (.missingField b!"objectid")).congr fun loc l => ?_
      constructor
      · rintro ⟨rfl, rfl⟩; exact ⟨.id h0, rfl⟩
      · rintro ⟨_ | ⟨h, -⟩ | ⟨h, -⟩, rfl⟩
        · exact ⟨rfl, rfl⟩
        · exact absurd h0 h
        · exact absurd h0 h
    · rw [if_neg h0]
      cases hf : m.findObject (componentPart p c) c.objectID with
      | none =>
        have hn := (findObject_none hwf).1 hf
        refine (Reports.single [nth b!"component" j] (.sentinel .missingResource)).congr fun loc l => ?_
        constructor
        · rintro ⟨rfl, rfl⟩; exact ⟨.missing h0 hn, rfl⟩
        · rintro ⟨h | h | ⟨-, h, -⟩, rfl⟩
          · exact absurd h h0
          · exact ⟨rfl, rfl⟩
          · exact absurd ⟨_, h⟩ hn
      | some x =>
        have hx := (findObject_iff hwf).1 hf
        refine (Reports.one (c := x.id = o.id ∧ componentPart p c = p) [nth b!"component" j] (.sentinel .recursion)).congr
          fun loc l => ?_
        rw [objectFound_id hx]
        constructor
        · rintro ⟨⟨h1, h2⟩, rfl, rfl⟩; exact ⟨.recursion h0 hx h1 h2, rfl⟩
        · rintro ⟨h | ⟨-, h⟩ | ⟨-, -, h1, h2⟩, rfl⟩
          · exact absurd h h0
          · exact absurd ⟨_, hx⟩ h
          · exact ⟨⟨h1, h2⟩, rfl, rfl⟩
  · constructor
    · rintro ⟨loc', ⟨j, c, hc, h, rfl⟩, rfl⟩; exact ⟨j, c, hc, h, rfl⟩
    · rintro ⟨j, c, hc, h, rfl⟩; exact ⟨_, ⟨j, c, hc, h, rfl⟩, rfl⟩

theorem object_reports {m : Model} (hwf : m.WF) (p : Str) (o : Object) : Reports (o.validateCore m p) (ObjectRule m p o) := by
  unfold Object.validateCore
  simp only [getD_findAsset]
  have hmesh : Reports (match o.mesh with
      | some mesh =>
        (if o.pid ≠ 0 then
          match m.findAsset p o.pid with
          | some a =>
            match a.len with
            | some l => if o.pindex.toNat ≥ l then [.of .indexOutOfBounds] else []
            | none => []
          | none => [.of .missingResource]
         else []) ++
        (o.validateMesh ((m.findResources p).getD .zero) mesh).map (wrap b!"mesh")
      | none => []) fun loc l => ∃ mesh, o.mesh = some mesh ∧ ((loc = [] ∧ o.pid ≠ 0 ∧
          (((¬ ∃ a, AssetFound m p o.pid a) ∧ l = .sentinel .missingResource) ∨
            ∃ a n, AssetFound m p o.pid a ∧ groupSize a = some n ∧ n ≤ o.pindex.toNat ∧ l = .sentinel .indexOutOfBounds)) ∨
          ∃ loc', MeshRule m p o mesh loc' l ∧ loc = loc' ++ [lvl b!"mesh"]) := by
    cases o.mesh with
    | none => exact Reports.nil.congr fun loc l => by simp
    | some mesh =>
      refine (Reports.append (R := fun loc l => loc = [] ∧ o.pid ≠ 0 ∧
          (((¬ ∃ a, AssetFound m p o.pid a) ∧ l = .sentinel .missingResource) ∨
            ∃ a n, AssetFound m p o.pid a ∧ groupSize a = some n ∧ n ≤ o.pindex.toNat ∧ l = .sentinel .indexOutOfBounds)) ?_
        ((mesh_reports hwf p o mesh).wrap b!"mesh")).congr fun loc l => by simp
      by_cases h0 : o.pid = 0
      · rw [if_neg (by simpa using h0)]; exact Reports.nil.congr fun loc l => by simp [h0]
      · rw [if_pos h0]
        cases hf : m.findAsset p o.pid with
        | none =>
          have hn := (findAsset_none hwf).1 hf
          refine (Reports.single [] (.sentinel .missingResource)).congr fun loc l => ?_
          constructor
          · rintro ⟨rfl, rfl⟩; exact ⟨rfl, h0, .inl ⟨hn, rfl⟩⟩
          · rintro ⟨rfl, -, ⟨-, rfl⟩ | ⟨a, k, ha, -⟩⟩
            · exact ⟨rfl, rfl⟩
            · exact absurd ⟨a, ha⟩ hn
        | some a =>
          have ha := (findAsset_iff hwf).1 hf
          simp only [len_eq]
          cases hg : groupSize a with
          | none =>
            refine Reports.nil.congr fun loc l => ?_
            simp only [false_iff]
            rintro ⟨-, -, ⟨h, -⟩ | ⟨b, k, hb, hk, -⟩⟩
            · exact h ⟨a, ha⟩
            · rw [assetFound_unique hwf hb ha, hg] at hk; cases hk
          | some k =>
            refine (Reports.one (c := o.pindex.toNat ≥ k) [] (.sentinel .indexOutOfBounds)).congr fun loc l => ?_
            constructor
            · rintro ⟨h, rfl, rfl⟩; exact ⟨rfl, h0, .inr ⟨a, k, ha, hg, h, rfl⟩⟩
            · rintro ⟨rfl, -, ⟨h, -⟩ | ⟨b, k', hb, hk, h, rfl⟩⟩
              · exact absurd ⟨a, ha⟩ h
              · rw [assetFound_unique hwf hb ha, hg] at hk
                cases hk
                exact ⟨h, rfl, rfl⟩
  have hcomp : Reports (match o.components with
      | some cs =>
        if cs.component.length > 0 then
          (if o.pid ≠ 0 then [.of .componentsPID] else []) ++ o.validateComponents m p cs.component
        else []
      | none => []) fun loc l => ∃ cs, o.components = some cs ∧
        ((cs.component ≠ [] ∧ o.pid ≠ 0 ∧ loc = [] ∧ l = .sentinel .componentsPID) ∨
          ∃ j c, cs.component[j]? = some c ∧ ComponentRule m p o c l ∧ loc = [nth b!"component" j, lvl b!"components"]) := by
    cases o.components with
    | none => exact Reports.nil.congr fun loc l => by simp
    | some cs =>
      by_cases h0 : cs.component = []
      · simp only [h0, List.length_nil, gt_iff_lt, lt_irrefl, if_false]
        exact Reports.nil.congr fun loc l => by simp [h0]
      · have : cs.component.length > 0 := List.length_pos_iff.2 h0
        simp only [this, if_true]
        refine ((Reports.one (c := o.pid ≠ 0) [] (.sentinel .componentsPID)).append
          (components_reports hwf p o cs.component)).congr fun loc l => ?_
        simp [h0]
  refine (((((Reports.one (c := o.id = 0) [] (.sentinel .missingID)).append
    (Reports.one (c := o.pindex ≠ 0 ∧ o.pid = 0) [] (.missingField b!"pid"))).append
    (Reports.one (c := (o.mesh.isSome ∧ o.components.isSome) ∨ (o.mesh.isNone ∧ o.components.isNone)) []
      (.sentinel .invalidObject))).append hmesh).append hcomp).congr fun loc l => ?_
  constructor
  · rintro ((((⟨h, rfl, rfl⟩ | ⟨⟨h, h1⟩, rfl, rfl⟩) | ⟨h, rfl, rfl⟩) |
      ⟨mesh, hm, ⟨rfl, h, ⟨h1, rfl⟩ | ⟨a, n, h1, h2, h3, rfl⟩⟩ | ⟨loc', h, rfl⟩⟩) |
      ⟨cs, hc, ⟨h, h1, rfl, rfl⟩ | ⟨j, c, h, h1, rfl⟩⟩)
    · exact .id h
    · exact .pid h h1
    · refine .shape ?_
      cases ho : o.mesh <;> cases hc : o.components <;> simp [ho, hc] at h ⊢
    · exact .missing hm h h1
    · exact .property hm h h1 h2 h3
    · exact .mesh hm h
    · exact .componentsPid hc h h1
    · exact .component hc h h1
  · rintro (h | ⟨h, h1⟩ | h | ⟨hm, h, h1⟩ | ⟨hm, h, h1, h2, h3⟩ | ⟨hm, h⟩ | ⟨hc, h, h1⟩ | ⟨hc, h, h1⟩)
    · exact .inl (.inl (.inl (.inl ⟨h, rfl, rfl⟩)))
    · exact .inl (.inl (.inl (.inr ⟨⟨h, h1⟩, rfl, rfl⟩)))
    · refine .inl (.inl (.inr ⟨?_, rfl, rfl⟩))
      cases ho : o.mesh <;> cases hc : o.components <;> simp [ho, hc] at h ⊢
    · exact .inl (.inr ⟨_, hm, .inl ⟨rfl, h, .inl ⟨h1, rfl⟩⟩⟩)
    · exact .inl (.inr ⟨_, hm, .inl ⟨rfl, h, .inr ⟨_, _, h1, h2, h3, rfl⟩⟩⟩)
    · exact .inl (.inr ⟨_, hm, .inr ⟨_, h, rfl⟩⟩)
    · exact .inr ⟨_, hc, .inl ⟨h, h1, rfl, rfl⟩⟩
    · exact .inr ⟨_, hc, .inr ⟨_, _, h, h1, rfl⟩⟩

end Go3mf
