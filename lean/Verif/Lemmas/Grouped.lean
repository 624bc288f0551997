import Mathlib.Data.List.Induction
import Verif.Lemmas.RtWritable

/-!
# The groups of unknown attributes that are decoded
-/

namespace Go3mf

open Spec

/-- The groups of the attributes in unknown name spaces: one for each name space, in the order in which they first occur,
with all attributes of the name space in the order of the document. -/
def loadGrouped (env : Env) (as : List Attr) : AnyAttr :=
  ((as.filter fun a => env.load a.name.space = none).map (·.name.space)).eraseDups.map fun ns =>
    .unknown ns (as.filter fun a => a.name.space = ns)

/-- Attributes that no extension has decoded. -/
def isUnknown : AttrGroup → Bool
  | .unknown _ _ => true
  | _ => false

/-- The groups for unknown name spaces are the unknown groups. -/
def UnkInv (env : Env) (any : AnyAttr) : Prop := ∀ g ∈ any, (isUnknown g = true ↔ env.load g.ns = none)

/-- Add an attribute to the group of its name space. -/
def addUnknown (a : Attr) : AnyAttr → AnyAttr
  | [] => [.unknown a.name.space [a]]
  | g :: gs => if g.ns = a.name.space then (g.unmarshal a).1 :: gs else g :: addUnknown a gs

theorem unmarshal_ns (g : AttrGroup) (a : Attr) : (g.unmarshal a).1.ns = g.ns := by
  cases g <;> simp only [AttrGroup.unmarshal] <;> repeat' (first | rfl | split)

theorem unmarshal_unknown (g : AttrGroup) (a : Attr) : isUnknown (g.unmarshal a).1 = isUnknown g := by
  cases g <;> simp only [AttrGroup.unmarshal] <;> repeat' (first | rfl | split)

theorem newAttrGroup_unknown {env : Env} {parent space : Str} {g : AttrGroup} (h : newAttrGroup env parent space = some g) :
    g.ns = space ∧ (isUnknown g = true ↔ env.load space = none) ∧ (env.load space = none → g = .unknown space []) := by
  unfold newAttrGroup at h
  cases hl : env.load space with
  | none =>
    rw [hl] at h
    simp only [Option.some.injEq] at h
    subst h
    simp [AttrGroup.ns, isUnknown]
  | some x =>
    have hs : (x = .production → space = nsProduction) ∧ (x = .slices → space = nsSlices) := by
      unfold Env.load at hl
      constructor
      · rintro rfl
        split at hl
        · rename_i h; exact h.1
        · split at hl
          · simp at hl
          · split at hl
            · simp at hl
            · split at hl <;> simp at hl
      · rintro rfl
        split at hl
        · simp at hl
        · split at hl
          · rename_i h; exact h.1
          · split at hl
            · simp at hl
            · split at hl <;> simp at hl
    rw [hl] at h
    cases x with
    | production =>
      simp only at h
      have := hs.1 rfl
      subst this
      repeat' (first | (simp only [Option.some.injEq] at h; subst h; simp [AttrGroup.ns, isUnknown]; done) | simp at h; done | split at h)
    | slices =>
      simp only at h
      have := hs.2 rfl
      subst this
      repeat' (first | (simp only [Option.some.injEq] at h; subst h; simp [AttrGroup.ns, isUnknown]; done) | simp at h; done | split at h)
    | beamlattice => simp at h
    | materials => simp at h

theorem anyUpdate_some {env : Env} {a : Attr} : ∀ {any any' : AnyAttr} {e : List Leaf}, UnkInv env any → anyUpdate a any = some (any', e) →
    UnkInv env any' ∧ any'.filter isUnknown =
      if env.load a.name.space = none then addUnknown a (any.filter isUnknown) else any.filter isUnknown
  | [], _, _, _, h => by simp [anyUpdate] at h
  | g :: gs, any', e, hi, h => by
    rw [anyUpdate] at h
    have hg := hi g (by simp)
    have hgs : UnkInv env gs := fun x hx => hi x (by simp [hx])
    by_cases hn : g.ns = a.name.space
    · rw [if_pos hn] at h
      simp only [Option.some.injEq, Prod.mk.injEq] at h
      obtain ⟨rfl, -⟩ := h
      constructor
      · intro x hx
        rcases List.mem_cons.1 hx with rfl | hx
        · rw [unmarshal_ns, unmarshal_unknown]; exact hg
        · exact hgs x hx
      · rw [hn] at hg
        by_cases hl : env.load a.name.space = none
        · rw [if_pos hl, List.filter_cons_of_pos (by rw [unmarshal_unknown]; exact hg.2 hl), List.filter_cons_of_pos (hg.2 hl),
            addUnknown, if_pos hn]
        · rw [if_neg hl, List.filter_cons_of_neg (by rw [unmarshal_unknown]; exact fun e => hl (hg.1 e)),
            List.filter_cons_of_neg (fun e => hl (hg.1 e))]
    · rw [if_neg hn] at h
      cases hu : anyUpdate a gs with
      | none => rw [hu] at h; simp at h
      | some p =>
        rw [hu] at h
        simp only [Option.map_some, Option.some.injEq, Prod.mk.injEq] at h
        obtain ⟨rfl, -⟩ := h
        obtain ⟨h1, h2⟩ := anyUpdate_some (any' := p.1) (e := p.2) hgs hu
        constructor
        · intro x hx
          rcases List.mem_cons.1 hx with rfl | hx
          · exact hg
          · exact h1 x hx
        · cases hgu : isUnknown g with
          | false => rw [List.filter_cons_of_neg (by simp [hgu]), List.filter_cons_of_neg (by simp [hgu]), h2]
          | true =>
            rw [List.filter_cons_of_pos hgu, List.filter_cons_of_pos hgu, h2]
            by_cases hl : env.load a.name.space = none
            · rw [if_pos hl, if_pos hl, addUnknown, if_neg hn]
            · rw [if_neg hl, if_neg hl]

theorem anyUpdate_eq_none {a : Attr} : ∀ {any : AnyAttr}, anyUpdate a any = none → ∀ g ∈ any, g.ns ≠ a.name.space
  | [], _ => by simp
  | g :: gs, h => by
    rw [anyUpdate] at h
    by_cases hn : g.ns = a.name.space
    · rw [if_pos hn] at h; simp at h
    · rw [if_neg hn, Option.map_eq_none_iff] at h
      intro x hx
      rcases List.mem_cons.1 hx with rfl | hx
      · exact hn
      · exact anyUpdate_eq_none h x hx

theorem addUnknown_new {a : Attr} : ∀ {any : AnyAttr}, (∀ g ∈ any, g.ns ≠ a.name.space) →
    addUnknown a any = any ++ [.unknown a.name.space [a]]
  | [], _ => rfl
  | g :: gs, h => by
    rw [addUnknown, if_neg (h g (by simp)), addUnknown_new fun x hx => h x (by simp [hx])]
    rfl

theorem anyAttrAdd_unknown {env : Env} {parent : Str} {a : Attr} {any any' : AnyAttr} {e : List Leaf} (hi : UnkInv env any)
    (h : anyAttrAdd env parent any a = some (any', e)) : UnkInv env any' ∧ any'.filter isUnknown =
      if env.load a.name.space = none then addUnknown a (any.filter isUnknown) else any.filter isUnknown := by
  unfold anyAttrAdd at h
  cases hu : anyUpdate a any with
  | some p =>
    rw [hu] at h
    simp only [Option.some.injEq] at h
    subst h
    exact anyUpdate_some hi hu
  | none =>
    rw [hu] at h
    cases hn : newAttrGroup env parent a.name.space with
    | none => rw [hn] at h; simp at h
    | some g =>
      rw [hn] at h
      simp only [Option.some.injEq, Prod.mk.injEq] at h
      obtain ⟨rfl, -⟩ := h
      obtain ⟨h1, h2, h3⟩ := newAttrGroup_unknown hn
      constructor
      · intro x hx
        rcases List.mem_append.1 hx with hx | hx
        · exact hi x hx
        · rw [List.mem_singleton] at hx
          subst hx
          rw [unmarshal_ns, unmarshal_unknown, h1]
          exact h2
      · rw [List.filter_append]
        by_cases hl : env.load a.name.space = none
        · have := h3 hl
          subst this
          rw [if_pos hl, addUnknown_new fun x hx => anyUpdate_eq_none hu x (List.mem_of_mem_filter hx)]
          rfl
        · rw [if_neg hl, List.filter_cons_of_neg (by rw [unmarshal_unknown]; exact fun e => hl (h2.1 e))]
          simp

theorem addUnknown_map {f : Str → List Attr} {a : Attr} : ∀ {l : List Str}, l.Nodup →
    addUnknown a (l.map fun ns => .unknown ns (f ns)) =
      if a.name.space ∈ l then l.map fun ns => AttrGroup.unknown ns (if ns = a.name.space then f ns ++ [a] else f ns)
      else l.map (fun ns => AttrGroup.unknown ns (f ns)) ++ [.unknown a.name.space [a]]
  | [], _ => rfl
  | n :: l, h => by
    obtain ⟨h1, h2⟩ := List.nodup_cons.1 h
    rw [List.map_cons, addUnknown]
    by_cases hn : n = a.name.space
    · subst hn
      rw [if_pos (show (AttrGroup.unknown a.name.space (f a.name.space)).ns = a.name.space from rfl), if_pos (by simp), List.map_cons, if_pos rfl]
      simp only [AttrGroup.unmarshal, List.cons.injEq, true_and]
      refine List.map_congr_left fun ns hns => ?_
      rw [if_neg (fun e : ns = a.name.space => h1 (e ▸ hns))]
    · rw [if_neg (by exact hn), addUnknown_map h2]
      by_cases hm : a.name.space ∈ l
      · rw [if_pos hm, if_pos (by simp [hm]), List.map_cons, if_neg hn]
      · rw [if_neg hm, if_neg (by simp [hm, Ne.symm hn])]
        rfl

theorem eraseDups_one (x : Str) : [x].eraseDups = [x] := by
  rw [List.eraseDups_cons]
  rfl

theorem removeAll_mem {x : Str} {l : List Str} (h : x ∈ l) : List.removeAll [x] l = [] := by
  simp [List.removeAll, h]

theorem removeAll_not_mem {x : Str} {l : List Str} (h : x ∉ l) : List.removeAll [x] l = [x] := by
  simp [List.removeAll, h]

theorem nodup_eraseDups (l : List Str) : l.eraseDups.Nodup := by
  induction l using List.reverseRecOn with
  | nil => simp
  | append_singleton l x ih =>
    rw [List.eraseDups_append]
    by_cases hx : x ∈ l
    · rw [removeAll_mem hx]
      simpa using ih
    · rw [removeAll_not_mem hx, eraseDups_one, List.nodup_append]
      refine ⟨ih, by simp, ?_⟩
      intro a ha b hb
      simp only [List.mem_singleton] at hb
      subst hb
      rintro rfl
      exact hx (List.mem_eraseDups.1 ha)

theorem grouped_step (env : Env) (as : List Attr) (a : Attr) : loadGrouped env (as ++ [a]) =
    if env.load a.name.space = none then addUnknown a (loadGrouped env as) else loadGrouped env as := by
  unfold loadGrouped
  by_cases hl : env.load a.name.space = none
  · rw [if_pos hl, addUnknown_map (nodup_eraseDups _)]
    rw [List.filter_append, List.map_append, List.eraseDups_append, List.filter_cons_of_pos (by simpa using hl)]
    simp only [List.filter_nil, List.map_cons, List.map_nil, List.mem_eraseDups]
    by_cases hm : a.name.space ∈ (as.filter fun a => env.load a.name.space = none).map (·.name.space)
    · rw [if_pos hm]
      rw [removeAll_mem hm]
      simp only [List.eraseDups_nil, List.append_nil]
      refine List.map_congr_left fun ns _ => ?_
      rw [List.filter_append]
      by_cases hn : ns = a.name.space
      · subst hn; simp
      · rw [if_neg hn]; simp [Ne.symm hn]
    · rw [if_neg hm]
      rw [removeAll_not_mem hm, eraseDups_one, List.map_append]
      congr 1
      · refine List.map_congr_left fun ns hns => ?_
        rw [List.filter_append]
        have : ns ≠ a.name.space := by
          rintro rfl
          exact hm (List.mem_eraseDups.1 hns)
        simp [Ne.symm this]
      · simp only [List.map_cons, List.map_nil, List.filter_append, List.cons.injEq, and_true,
          AttrGroup.unknown.injEq, true_and]
        have : as.filter (fun x => decide (x.name.space = a.name.space)) = [] := by
          rw [List.filter_eq_nil_iff]
          intro x hx hs
          simp only [decide_eq_true_eq] at hs
          exact hm (List.mem_map.2 ⟨x, List.mem_filter.2 ⟨hx, by simpa [hs] using hl⟩, hs⟩)
        rw [this]
        simp
  · rw [if_neg hl, List.filter_append, List.filter_cons_of_neg (by simpa using hl)]
    simp only [List.filter_nil, List.append_nil]
    refine List.map_congr_left fun ns hns => ?_
    have : ns ≠ a.name.space := by
      rintro rfl
      obtain ⟨x, hx, e⟩ := List.mem_map.1 (List.mem_eraseDups.1 hns)
      have := (List.mem_filter.1 hx).2
      rw [e] at this
      exact hl (by simpa using this)
    rw [List.filter_append]
    simp [Ne.symm this]

theorem anyAttrs_grouped {env : Env} {parent : Str} : ∀ {as done : List Attr} {any any' : AnyAttr} {e : List Leaf}, UnkInv env any →
    any.filter isUnknown = loadGrouped env done → attrFold (anyAttrAdd env parent) any as = some (any', e) →
    any'.filter isUnknown = loadGrouped env (done ++ as)
  | [], done, any, any', e, _, h, hf => by
    simp only [attrFold, Option.some.injEq, Prod.mk.injEq] at hf
    rw [← hf.1, h, List.append_nil]
  | a :: as, done, any, any', e, hi, h, hf => by
    rw [attrFold] at hf
    cases ha : anyAttrAdd env parent any a with
    | none => rw [ha] at hf; simp at hf
    | some p =>
      rw [ha] at hf
      simp only at hf
      cases hb : attrFold (anyAttrAdd env parent) p.1 as with
      | none => rw [hb] at hf; simp at hf
      | some q =>
        rw [hb] at hf
        simp only [Option.some.injEq, Prod.mk.injEq] at hf
        obtain ⟨h1, h2⟩ := anyAttrAdd_unknown (any' := p.1) (e := p.2) hi ha
        have := anyAttrs_grouped (done := done ++ [a]) (any' := q.1) (e := q.2) h1 (by rw [h2, h, grouped_step]) hb
        rw [← hf.1, this, List.append_assoc]
        rfl

/-- An element with other attributes, too. -/
theorem fold_get {σ : Type} {f : σ → Attr → Option (σ × List Leaf)} {get : σ → AnyAttr} {env : Env} {parent : Str} {p : Attr → Bool}
    (h1 : ∀ s a s' e, p a = false → f s a = some (s', e) → get s' = get s)
    (h2 : ∀ s a s' e, p a = true → f s a = some (s', e) → ∃ e', anyAttrAdd env parent (get s) a = some (get s', e')) :
    ∀ {as : List Attr} {s s' : σ} {e : List Leaf}, attrFold f s as = some (s', e) →
      ∃ e', attrFold (anyAttrAdd env parent) (get s) (as.filter p) = some (get s', e')
  | [], s, s', e, h => by
    simp only [attrFold, Option.some.injEq, Prod.mk.injEq] at h
    exact ⟨[], by rw [← h.1]; rfl⟩
  | a :: as, s, s', e, h => by
    rw [attrFold] at h
    cases ha : f s a with
    | none => rw [ha] at h; simp at h
    | some x =>
      rw [ha] at h
      simp only at h
      cases hb : attrFold f x.1 as with
      | none => rw [hb] at h; simp at h
      | some q =>
        rw [hb] at h
        simp only [Option.some.injEq, Prod.mk.injEq] at h
        obtain ⟨e', ih⟩ := fold_get h1 h2 (s' := q.1) (e := q.2) hb
        rw [← h.1]
        cases hp : p a with
        | false =>
          rw [List.filter_cons_of_neg (by simp [hp]), ← h1 s a x.1 x.2 hp ha]
          exact ⟨e', ih⟩
        | true =>
          obtain ⟨e'', h3⟩ := h2 s a x.1 x.2 hp ha
          rw [List.filter_cons_of_pos hp, attrFold, h3]
          simp only [ih]
          exact ⟨_, rfl⟩

theorem fold_grouped {σ : Type} {f : σ → Attr → Option (σ × List Leaf)} {get : σ → AnyAttr} {env : Env} {parent : Str} {p : Attr → Bool}
    (h1 : ∀ s a s' e, p a = false → f s a = some (s', e) → get s' = get s)
    (h2 : ∀ s a s' e, p a = true → f s a = some (s', e) → ∃ e', anyAttrAdd env parent (get s) a = some (get s', e'))
    {as : List Attr} {s s' : σ} {e : List Leaf} (h : attrFold f s as = some (s', e)) (h0 : get s = []) :
    (get s').filter isUnknown = loadGrouped env (as.filter p) := by
  obtain ⟨e', h⟩ := fold_get h1 h2 h
  rw [h0] at h
  exact anyAttrs_grouped (done := []) (by intro g hg; simp at hg) rfl h

end Go3mf
