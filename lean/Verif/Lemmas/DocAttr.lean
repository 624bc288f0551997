import Verif.Lemmas.Runs
import Mathlib.Data.List.Induction

/-!
# The attributes of a document
-/

namespace Go3mf
open Spec

/-! ## Look-up -/

theorem attr?_snoc {p : List Attr} {a : Attr} (h : a.name ∉ p.map (·.name)) (n : Name) :
    attr? (p ++ [a]) n = if a.name = n then some a.value else attr? p n := by
  unfold attr?
  rw [List.find?_append]
  by_cases hn : a.name = n
  · have : p.find? (fun x => x.name = n) = none := by
      rw [List.find?_eq_none]
      intro x hx hxn
      exact h (List.mem_map.2 ⟨x, hx, by rw [hn]; simpa using hxn⟩)
    simp [this, hn]
  · simp [hn]

theorem attr?_fresh {p : List Attr} {n : Name} (h : n ∉ p.map (·.name)) : attr? p n = none := by
  unfold attr?
  rw [Option.map_eq_none_iff, List.find?_eq_none]
  intro x hx hxn
  exact h (List.mem_map.2 ⟨x, hx, by simpa using hxn⟩)

theorem plain?_snoc {p : List Attr} {a : Attr} (h : a.name ∉ p.map (·.name)) (l : Str) :
    plain? (p ++ [a]) l = if a.name = ⟨[], l⟩ then some a.value else plain? p l := attr?_snoc h _

/-! ## Loops -/

/-- A loop over the attributes, described by what it has computed after each of them. -/
theorem attrFold_spec {σ : Type} {f : σ → Attr → Option (σ × List Leaf)} {g : List Attr → σ} {e : Attr → List Leaf} :
    ∀ (as p : List Attr), (∀ q a s, p ++ as = q ++ a :: s → f (g q) a = some (g (q ++ [a]), e a)) →
      attrFold f (g p) as = some (g (p ++ as), as.flatMap e)
  | [], p, _ => by simp [attrFold]
  | a :: as, p, h => by
    rw [attrFold, h p a as rfl]
    simp only
    rw [attrFold_spec as (p ++ [a]) (fun q b s hq => h q b s (by rw [← hq]; simp))]
    simp

/-- The same for a loop that cannot panic. -/
theorem attrLoop_spec {σ : Type} {f : σ → Attr → σ × List Leaf} {g : List Attr → σ} {e : Attr → List Leaf} :
    ∀ (as p : List Attr), (∀ q a s, p ++ as = q ++ a :: s → f (g q) a = (g (q ++ [a]), e a)) →
      attrLoop f (g p) as = (g (p ++ as), as.flatMap e)
  | [], p, _ => by simp [attrLoop]
  | a :: as, p, h => by
    rw [attrLoop, h p a as rfl]
    simp only
    rw [attrLoop_spec as (p ++ [a]) (fun q b s hq => h q b s (by rw [← hq]; simp))]
    simp

theorem fresh_of {as q s : List Attr} {a : Attr} (h : (as.map (·.name)).Nodup) (e : as = q ++ a :: s) :
    a.name ∉ q.map (·.name) := by
  subst e
  rw [List.map_append, List.map_cons, List.nodup_append] at h
  intro hm
  exact h.2.2 _ hm _ (by simp) rfl

/-! ## Faults -/

theorem uint_faults (req : Bool) (a : Attr) :
    (uintAttr req a).2 = List.replicate (mistakes .uint a.value) (.parseAttr a.name.loc req) := by
  unfold uintAttr mistakes
  cases h : parseUint a.value <;> simp [h, Except.isOk, Except.toBool]

theorem float_faults (req : Bool) (a : Attr) :
    (floatAttr req a).2 = List.replicate (mistakes .float a.value) (.parseAttr a.name.loc req) := by
  unfold floatAttr mistakes
  cases h : parseFloat a.value <;> simp [h, Except.isOk, Except.toBool]

theorem enum_faults {α : Type} (x : Option α) (z : α) (a : Attr) :
    (enumAttr x z a).2 = List.replicate (if x.isSome then 0 else 1) (.parseAttr a.name.loc false) := by
  cases x <;> simp [enumAttr]

theorem enum_value {α : Type} (x : Option α) (z : α) (a : Attr) : (enumAttr x z a).1 = x.getD z := by
  cases x <;> simp [enumAttr]

theorem color_faults (a : Attr) :
    (colorAttr a).2 = List.replicate (mistakes .color a.value) (.parseAttr a.name.loc true) := by
  unfold colorAttr mistakes
  cases h : (parseRGBA a.value).2 <;> simp [h]

theorem flatMap_countP {α β : Type} (p : α → Bool) (b : β) : ∀ l : List α,
    (l.flatMap fun x => if p x then [b] else []) = List.replicate (l.countP p) b
  | [] => rfl
  | x :: l => by
    rw [List.flatMap_cons, flatMap_countP p b l, List.countP_cons]
    cases p x <;> simp [List.replicate_succ]

theorem uints_faults (a : Attr) :
    (uintsAttr a).2 = List.replicate (mistakes .uints a.value) (.parseAttr a.name.loc true) := by
  simp only [uintsAttr, mistakes]
  rw [← flatMap_countP]
  refine congrArg (List.flatMap · (fields a.value)) (funext fun f => ?_)
  cases h : parseUint f <;> simp [h, Except.isOk, Except.toBool]

theorem floats_faults (a : Attr) :
    (floatsAttr a).2 = List.replicate (mistakes .floats a.value) (.parseAttr a.name.loc true) := by
  simp only [floatsAttr, mistakes]
  rw [← flatMap_countP]
  refine congrArg (List.flatMap · (fields a.value)) (funext fun f => ?_)
  cases h : parseFloat f <;> simp [h, Except.isOk, Except.toBool]

/-! ## Attributes of extensions -/

/-- The name space of an extension. -/
def extSpace : Ext → Str
  | .production => nsProduction
  | .slices => nsSlices
  | .beamlattice => nsBeam
  | .materials => nsMaterials

theorem load_space {env : Env} {ns : Str} {x : Ext} (h : env.load ns = some x) : ns = extSpace x := by
  unfold Env.load at h
  split at h
  · cases h; exact (by assumption : _ ∧ _).1
  · split at h
    · cases h; exact (by assumption : _ ∧ _).1
    · split at h
      · cases h; exact (by assumption : _ ∧ _).1
      · split at h
        · cases h; exact (by assumption : _ ∧ _).1
        · cases h

theorem load_nil (env : Env) : env.load [] = none := by
  cases h : env.load [] with
  | none => rfl
  | some x => have := load_space h; cases x <;> exact absurd this (by decide +kernel)

theorem groupOf_ns {env : Env} {k : Kind} {p : List Attr} {ns : Str} (h : Allowed env k ns) :
    (groupOf env k p ns).ns = ns := by
  unfold Allowed at h
  unfold groupOf
  cases hl : env.load ns with
  | none => rfl
  | some x =>
    have hs := load_space hl
    rw [hl] at h
    cases x with
    | production => simp only [extSpace] at hs ⊢; subst hs; split <;> rfl
    | slices => simp only [extSpace] at hs ⊢; subst hs; rfl
    | beamlattice => exact h.elim
    | materials => exact h.elim

/-- The faults of an attribute with a name space. -/
def extFault (env : Env) (k : Kind) (a : Attr) : List Leaf := if a.name.space = [] then [] else attrFault env k a

theorem prod_ne : (nsProduction : Str) ≠ [] ∧ (nsSlices : Str) ≠ [] := by decide +kernel

/-- One more attribute of the name space. -/
theorem groupOf_same {env : Env} {k : Kind} {p : List Attr} {a : Attr} (h : Allowed env k a.name.space)
    (hf : a.name ∉ p.map (·.name)) :
    (groupOf env k p a.name.space).unmarshal a = (groupOf env k (p ++ [a]) a.name.space, extFault env k a) := by
  obtain ⟨⟨s, l⟩, v⟩ := a
  unfold Allowed at h
  unfold groupOf extFault attrFault attrType
  simp only at h hf ⊢
  cases hl : env.load s with
  | none => by_cases hs : s = [] <;> simp [hs, AttrGroup.unmarshal, hl]
  | some x =>
    have hs := load_space hl
    rw [hl] at h
    cases x with
    | beamlattice => exact h.elim
    | materials => exact h.elim
    | production =>
      simp only [extSpace] at hs h ⊢
      subst hs
      simp only [uuidAt, attr?_snoc (a := ⟨⟨nsProduction, l⟩, v⟩) hf, Name.mk.injEq, true_and, prod_ne.1, if_false]
      have hfu : l = b!"UUID" → attr? p ⟨nsProduction, b!"UUID"⟩ = none := by
        rintro rfl; exact attr?_fresh hf
      have hup : (b!"path" : Str) ≠ b!"UUID" := by decide +kernel
      by_cases h1 : l = b!"UUID"
      · have hn := hfu h1
        subst h1
        simp only [List.mem_cons, List.not_mem_nil, or_false] at h
        rcases h with rfl | rfl | rfl | rfl <;>
          by_cases hv : uuidValid v = true <;>
          simp [AttrGroup.unmarshal, hn, hv, productionAttributes, List.lookup, mistakes, hup.symm]
      · by_cases h2 : l = b!"path"
        · subst h2
          simp only [List.mem_cons, List.not_mem_nil, or_false] at h
          rcases h with rfl | rfl | rfl | rfl <;>
            simp [AttrGroup.unmarshal, hup, productionAttributes, List.lookup, mistakes]
        · have b1 : (l == b!"UUID") = false := by simpa using h1
          have b2 : (l == b!"path") = false := by simpa using h2
          simp only [List.mem_cons, List.not_mem_nil, or_false] at h
          rcases h with rfl | rfl | rfl | rfl <;>
            simp [AttrGroup.unmarshal, h1, h2, b1, b2, productionAttributes, List.lookup]
    | slices =>
      simp only [extSpace] at hs h ⊢
      subst hs h
      simp only [attr?_snoc (a := ⟨⟨nsSlices, l⟩, v⟩) hf, Name.mk.injEq, true_and, prod_ne.2, if_false]
      have hup : (b!"meshresolution" : Str) ≠ b!"slicestackid" := by decide +kernel
      by_cases h1 : l = b!"slicestackid"
      · have hn : attr? p ⟨nsSlices, b!"slicestackid"⟩ = none := by rw [← h1]; exact attr?_fresh hf
        subst h1
        cases hv : parseUint v <;>
          simp [AttrGroup.unmarshal, hn, hv, sliceAttributes, List.lookup, mistakes, hup.symm, Except.isOk,
            Except.toBool, Except.toOption]
      · by_cases h2 : l = b!"meshresolution"
        · have hn : attr? p ⟨nsSlices, b!"meshresolution"⟩ = none := by rw [← h2]; exact attr?_fresh hf
          subst h2
          have b1 : ((b!"meshresolution" : Str) == b!"slicestackid") = false := by simpa using h1
          cases hv : newMeshResolution v <;>
            simp [AttrGroup.unmarshal, hn, hv, hup, b1, sliceAttributes, List.lookup, mistakes]
        · have b1 : (l == b!"slicestackid") = false := by simpa using h1
          have b2 : (l == b!"meshresolution") = false := by simpa using h2
          simp [AttrGroup.unmarshal, h1, h2, b1, b2, sliceAttributes, List.lookup]

/-- One more attribute of another name space. -/
theorem groupOf_other {env : Env} {k : Kind} {p : List Attr} {a : Attr} {ns : Str} (h : a.name.space ≠ ns)
    (hall : Allowed env k ns) (hf : a.name ∉ p.map (·.name)) : groupOf env k (p ++ [a]) ns = groupOf env k p ns := by
  have h1 : ∀ l, attr? (p ++ [a]) ⟨ns, l⟩ = attr? p ⟨ns, l⟩ := by
    intro l
    rw [attr?_snoc hf, if_neg]
    intro e; exact h (by rw [e])
  unfold Allowed at hall
  unfold groupOf
  cases hl : env.load ns with
  | none => simp [h]
  | some x =>
    have hs := load_space hl
    rw [hl] at hall
    cases x with
    | beamlattice => exact hall.elim
    | materials => exact hall.elim
    | production =>
      simp only [extSpace] at hs
      have h2 : uuidAt (p ++ [a]) = uuidAt p := by unfold uuidAt; rw [← hs, h1]
      simp only [h1, h2]
    | slices => simp only [h1]

theorem anyUpdate_map {a : Attr} {g : Str → AttrGroup} : ∀ {ns : List Str}, (∀ n ∈ ns, (g n).ns = n) → ns.Nodup →
    a.name.space ∈ ns → anyUpdate a (ns.map g) =
      some (ns.map fun n => if n = a.name.space then ((g n).unmarshal a).1 else g n, ((g a.name.space).unmarshal a).2)
  | [], _, _, h => by simp at h
  | n :: ns, hg, hd, h => by
    rw [List.map_cons, anyUpdate, hg n (by simp)]
    rw [List.nodup_cons] at hd
    by_cases hn : n = a.name.space
    · subst hn
      rw [if_pos rfl]
      have : ns.map (fun n => if n = a.name.space then ((g n).unmarshal a).1 else g n) = ns.map g := by
        refine List.map_congr_left fun m hm => ?_
        rw [if_neg]
        rintro rfl; exact hd.1 hm
      rw [List.map_cons, this, if_pos rfl]
    · rw [if_neg hn]
      have hm : a.name.space ∈ ns := by
        rcases List.mem_cons.1 h with h | h
        · exact absurd h.symm hn
        · exact h
      rw [anyUpdate_map (fun m hm => hg m (by simp [hm])) hd.2 hm]
      simp [hn]

theorem newAttrGroup_fresh {env : Env} {k : Kind} {parent : Str} {p : List Attr} {ns : Str} (hk : k.holder = some parent)
    (h : Allowed env k ns) (hf : ∀ a ∈ p, a.name.space ≠ ns) :
    newAttrGroup env parent ns = some (groupOf env k p ns) := by
  have h1 : ∀ l, attr? p ⟨ns, l⟩ = none := by
    intro l
    refine attr?_fresh fun hm => ?_
    obtain ⟨a, ha, e⟩ := List.mem_map.1 hm
    exact hf a ha (by rw [e])
  unfold Allowed at h
  unfold newAttrGroup groupOf
  cases hl : env.load ns with
  | none =>
    have : p.filter (fun a => a.name.space = ns) = [] := by
      rw [List.filter_eq_nil_iff]; intro a ha; simpa using hf a ha
    simp [this]
  | some x =>
    have hs := load_space hl
    rw [hl] at h
    cases x with
    | beamlattice => exact h.elim
    | materials => exact h.elim
    | production =>
      simp only [extSpace] at hs h
      have h2 : uuidAt p = [] := by unfold uuidAt; rw [← hs, h1]
      simp only [List.mem_cons, List.not_mem_nil, or_false] at h
      rcases h with rfl | rfl | rfl | rfl <;>
        (simp only [Kind.holder, Option.some.injEq] at hk; subst hk; simp [h1, h2])
    | slices =>
      simp only at h
      subst h
      simp only [Kind.holder, Option.some.injEq] at hk
      subst hk
      simp [h1]

theorem eraseDups_snoc (l : List Str) (a : Str) :
    (l ++ [a]).eraseDups = l.eraseDups ++ if a ∈ l then [] else [a] := by
  rw [List.eraseDups_append]
  by_cases h : a ∈ l
  · simp [List.removeAll, h]
  · simp [List.removeAll, h, List.eraseDups_cons]

theorem eraseDups_nodup (l : List Str) : l.eraseDups.Nodup := by
  induction l using List.reverseRecOn with
  | nil => simp
  | append_singleton l a ih =>
    rw [eraseDups_snoc]
    by_cases h : a ∈ l
    · simpa [h] using ih
    · rw [if_neg h, List.nodup_append]
      refine ⟨ih, by simp, ?_⟩
      rintro x hx y hy rfl
      rw [List.mem_singleton] at hy
      subst hy
      exact h (List.mem_eraseDups.1 hx)

/-- An attribute of an extension. -/
theorem groups_step {env : Env} {k : Kind} {parent : Str} {p : List Attr} {a : Attr} (hk : k.holder = some parent)
    (hall : ∀ b ∈ p ++ [a], Allowed env k b.name.space) (hf : a.name ∉ p.map (·.name)) :
    anyAttrAdd env parent (groupsOf env k p) a = some (groupsOf env k (p ++ [a]), extFault env k a) := by
  have ha : Allowed env k a.name.space := hall a (by simp)
  have hs := groupOf_same ha hf
  have hmem : ∀ n, n ∈ (p.map (·.name.space)).eraseDups ↔ ∃ b ∈ p, b.name.space = n := by
    intro n; rw [List.mem_eraseDups]; simp
  have hns : ∀ n ∈ (p.map (·.name.space)).eraseDups, Allowed env k n := by
    intro n hn
    obtain ⟨b, hb, rfl⟩ := (hmem n).1 hn
    exact hall b (by simp [hb])
  have hold : ∀ n ∈ (p.map (·.name.space)).eraseDups, n ≠ a.name.space →
      groupOf env k (p ++ [a]) n = groupOf env k p n := fun n hn h => groupOf_other (Ne.symm h) (hns n hn) hf
  unfold anyAttrAdd groupsOf
  rw [List.map_append, List.map_singleton, eraseDups_snoc]
  by_cases hm : a.name.space ∈ p.map (·.name.space)
  · rw [anyUpdate_map (fun n hn => groupOf_ns (hns n hn)) (eraseDups_nodup _) (by rwa [List.mem_eraseDups])]
    simp only [hs, if_pos hm, List.append_nil]
    congr 2
    refine List.map_congr_left fun n hn => ?_
    by_cases h : n = a.name.space
    · rw [if_pos h, h, hs]
    · rw [if_neg h, hold n hn h]
  · have h0 : anyUpdate a ((p.map (·.name.space)).eraseDups.map (groupOf env k p)) = none := by
      refine anyUpdate_none fun h => hm ?_
      rw [List.map_map] at h
      obtain ⟨n, hn, e⟩ := List.mem_map.1 h
      rw [Function.comp_apply, groupOf_ns (hns n hn)] at e
      rw [← e, ← List.mem_eraseDups]; exact hn
    rw [h0]
    simp only
    rw [newAttrGroup_fresh (p := p) hk ha (by intro b hb e; exact hm (List.mem_map.2 ⟨b, hb, e⟩))]
    simp only [hs, if_neg hm, List.map_append, List.map_singleton]
    congr 3
    refine List.map_congr_left fun n hn => ?_
    refine (hold n hn ?_).symm
    rintro rfl
    exact hm (List.mem_eraseDups.1 hn)

/-- The attributes of an element all of whose attributes are kept. -/
theorem groups_all {env : Env} {k : Kind} {parent : Str} {as : List Attr} (hk : k.holder = some parent)
    (ha : attributes k = []) (h : AttrsFit env k as) :
    anyAttrs env parent [] as = some (groupsOf env k as, attrFaults env k as) := by
  have := attrFold_spec (f := anyAttrAdd env parent) (g := groupsOf env k) (e := attrFault env k) as [] (by
    intro q a s e
    rw [List.nil_append] at e
    have hin : ∀ b ∈ q ++ [a], b ∈ as := by intro b hb; rw [e]; simp at hb ⊢; tauto
    rw [groups_step hk (fun b hb => h.allowed (by simp [hk]) b (hin b hb)) (fresh_of h.distinct e)]
    have : extFault env k a = attrFault env k a := by
      unfold extFault
      by_cases hs : a.name.space = []
      · simp [hs, attrFault, attrType, ha]
      · rw [if_neg hs]
    rw [this])
  exact this

/-- An attribute of an extension of an element that has attributes of its own. -/
theorem ext_step {env : Env} {k : Kind} {parent : Str} {as q s : List Attr} {a : Attr} (hk : k.holder = some parent)
    (h : AttrsFit env k as) (e : as = q ++ a :: s) (hs : a.name.space ≠ []) :
    anyAttrAdd env parent (extAttrs env k q) a = some (extAttrs env k (q ++ [a]), attrFault env k a) := by
  unfold extAttrs
  have hf := fresh_of h.distinct e
  have h1 : (q ++ [a]).filter (fun a => a.name.space ≠ []) = q.filter (fun a => a.name.space ≠ []) ++ [a] := by
    simp [hs]
  rw [h1, groups_step hk]
  · rw [extFault, if_neg hs]
  · intro b hb
    refine h.allowed (by simp [hk]) b ?_
    rw [e]
    simp only [List.mem_append, List.mem_filter, List.mem_singleton, List.mem_cons] at hb ⊢
    tauto
  · intro hm
    obtain ⟨b, hb, eb⟩ := List.mem_map.1 hm
    exact hf (List.mem_map.2 ⟨b, (List.mem_filter.1 hb).1, eb⟩)

/-- An attribute without name space does not change them. -/
theorem ext_same {env : Env} {k : Kind} {q : List Attr} {a : Attr} (hs : a.name.space = []) :
    extAttrs env k (q ++ [a]) = extAttrs env k q := by
  unfold extAttrs; simp [hs]

theorem extAttrs_nil {env : Env} {k : Kind} : extAttrs env k [] = [] := rfl

end Go3mf
