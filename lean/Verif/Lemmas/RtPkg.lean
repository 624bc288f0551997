import Verif.Spec.Package
import Verif.Lemmas.RtChild
import Verif.Props.C28
import Verif.Props.C48

/-!
# Written packages read
-/

namespace Go3mf

open Spec

/-! ## Lists -/

theorem forall₂_left {α β : Type} {R : α → β → Prop} {l : List α} {l' : List β} (h : List.Forall₂ R l l') :
    ∀ a ∈ l, ∃ b ∈ l', R a b := by
  induction h with
  | nil => simp
  | cons h _ ih =>
    intro a ha
    rcases List.mem_cons.mp ha with rfl | ha
    · exact ⟨_, List.mem_cons_self, h⟩
    · obtain ⟨b, hb, hr⟩ := ih a ha
      exact ⟨b, List.mem_cons_of_mem _ hb, hr⟩

theorem forall₂_right {α β : Type} {R : α → β → Prop} {l : List α} {l' : List β} (h : List.Forall₂ R l l') :
    ∀ b ∈ l', ∃ a ∈ l, R a b := by
  induction h with
  | nil => simp
  | cons h _ ih =>
    intro a ha
    rcases List.mem_cons.mp ha with rfl | ha
    · exact ⟨_, List.mem_cons_self, h⟩
    · obtain ⟨b, hb, hr⟩ := ih a ha
      exact ⟨b, List.mem_cons_of_mem _ hb, hr⟩

theorem filter_single {α β : Type} (p : α → Bool) (f : α → β) {x : α} : ∀ {l : List α}, (l.map f).Nodup → x ∈ l → p x = true →
    (∀ y ∈ l, p y = true → f y = f x) → l.filter p = [x]
  | [], _, hx, _, _ => by simp at hx
  | a :: l, hn, hx, hp, h => by
    simp only [List.map_cons, List.nodup_cons] at hn
    by_cases ha : p a = true
    · have hax : f a = f x := h a List.mem_cons_self ha
      have hxa : x = a := by
        rcases List.mem_cons.mp hx with e | e
        · exact e
        · exact absurd (hax ▸ List.mem_map_of_mem e) hn.1
      subst hxa
      rw [List.filter_cons_of_pos ha]
      congr 1
      rw [List.filter_eq_nil_iff]
      intro y hy hpy
      apply hn.1
      rw [← h y (List.mem_cons_of_mem _ hy) hpy]
      exact List.mem_map_of_mem hy
    · rw [List.filter_cons_of_neg ha]
      have hxl : x ∈ l := by
        rcases List.mem_cons.mp hx with e | e
        · subst e; exact absurd hp ha
        · exact e
      exact filter_single p f hn.2 hxl hp fun y hy => h y (List.mem_cons_of_mem _ hy)

theorem find_unique : ∀ {files : List InFile} {f : InFile}, (files.map (·.name)).Nodup → f ∈ files →
    files.find? (fun g => decide (g.name = f.name)) = some f
  | [], _, _, hf => by simp at hf
  | a :: files, f, hn, hf => by
    simp only [List.map_cons, List.nodup_cons] at hn
    by_cases ha : a.name = f.name
    · have : f = a := by
        rcases List.mem_cons.mp hf with e | e
        · exact e
        · exact absurd (ha ▸ List.mem_map_of_mem e) hn.1
      subst this
      simp
    · rw [List.find?_cons_of_neg (by simpa using ha)]
      refine find_unique hn.2 ?_
      rcases List.mem_cons.mp hf with e | e
      · subst e; exact absurd rfl ha
      · exact e

theorem filterMap_names {T : Relationship → Option InFile} : ∀ {rels : List Relationship},
    (∀ r ∈ rels, ∃ f, T r = some f ∧ f.name = r.path) → (rels.filterMap T).map (·.name) = rels.map (·.path)
  | [], _ => rfl
  | r :: rels, h => by
    obtain ⟨f, hf, e⟩ := h r List.mem_cons_self
    rw [List.filterMap_cons_some hf, List.map_cons, List.map_cons, e, filterMap_names fun x hx => h x (List.mem_cons_of_mem _ hx)]

theorem nodup_fst {α β : Type} {g : α → β} {l : List α} (h : (l.map g).Nodup) : ∀ x ∈ l, ∀ y ∈ l, g x = g y → x = y := by
  induction l with
  | nil => simp
  | cons a l ih =>
    simp only [List.map_cons, List.nodup_cons] at h
    intro x hx y hy e
    rcases List.mem_cons.mp hx with hx' | hx' <;> rcases List.mem_cons.mp hy with hy' | hy'
    · rw [hx', hy']
    · rw [hx'] at e; exact absurd (e ▸ List.mem_map_of_mem hy') h.1
    · rw [hy'] at e; exact absurd (e ▸ List.mem_map_of_mem hx') h.1
    · exact ih h.2 x hx' y hy' e

/-! ## What `processOPC` leaves alone -/

theorem resetChild_keys (n : Str) : ∀ cs : List (Str × ChildModel),
    (resetChild n cs).map (·.1) = if n ∈ cs.map (·.1) then cs.map (·.1) else cs.map (·.1) ++ [n]
  | [] => by simp [resetChild]
  | c :: cs => by
    have ih := resetChild_keys n cs
    unfold resetChild
    by_cases h : c.1 = n
    · simp [h]
    · have h' : ¬ n = c.1 := fun e => h e.symm
      rw [if_neg h, List.map_cons, ih]
      by_cases hm : n ∈ cs.map (·.1)
      · rw [if_pos hm, if_pos (by simp only [List.map_cons, List.mem_cons]; exact .inr hm), List.map_cons]
      · rw [if_neg hm, if_neg (by simp only [List.map_cons, List.mem_cons, not_or]; exact ⟨h', hm⟩), List.map_cons, List.cons_append]

theorem mem_resetChild {n : Str} {x : Str × ChildModel} : ∀ {cs : List (Str × ChildModel)}, x ∈ resetChild n cs → x ∈ cs ∨ x = (n, .zero)
  | [], h => .inr (by simpa [resetChild] using h)
  | c :: cs, h => by
    unfold resetChild at h
    by_cases hc : c.1 = n
    · rw [if_pos hc] at h
      rcases List.mem_cons.mp h with h | h
      · exact .inr h
      · exact .inl (List.mem_cons_of_mem _ h)
    · rw [if_neg hc] at h
      rcases List.mem_cons.mp h with rfl | h
      · exact .inl List.mem_cons_self
      · exact (mem_resetChild h).imp (List.mem_cons_of_mem _) id

theorem addChildRel_keys (n : Str) (r : Relationship) : ∀ cs : List (Str × ChildModel),
    (addChildRel n r cs).map (·.1) = cs.map (·.1)
  | [] => rfl
  | c :: cs => by
    unfold addChildRel
    by_cases h : c.1 = n
    · rw [if_pos h]; rfl
    · rw [if_neg h, List.map_cons, addChildRel_keys n r cs]; rfl

theorem mem_addChildRel {n : Str} {r : Relationship} {x : Str × ChildModel} : ∀ {cs : List (Str × ChildModel)},
    x ∈ addChildRel n r cs → ∃ y ∈ cs, x.2.resources = y.2.resources ∧ x.2.any = y.2.any
  | [], h => by simp [addChildRel] at h
  | c :: cs, h => by
    unfold addChildRel at h
    by_cases hc : c.1 = n
    · rw [if_pos hc] at h
      rcases List.mem_cons.mp h with rfl | h
      · exact ⟨c, List.mem_cons_self, rfl, rfl⟩
      · exact ⟨x, List.mem_cons_of_mem _ h, rfl, rfl⟩
    · rw [if_neg hc] at h
      rcases List.mem_cons.mp h with rfl | h
      · exact ⟨x, List.mem_cons_self, rfl, rfl⟩
      · obtain ⟨y, hy, e⟩ := mem_addChildRel h
        exact ⟨y, List.mem_cons_of_mem _ hy, e⟩

/-- The model has only a path, attachments, relationships and empty child models with the given names. -/
structure OpcInv (m : Model) (names : List Str) : Prop where
  rest : m = m.over .zero
  zero : ∀ x ∈ m.childs, x.2.resources = .zero ∧ x.2.any = []
  nodup : (m.childs.map (·.1)).Nodup
  same : ∀ k, k ∈ m.childs.map (·.1) ↔ k ∈ names

theorem rest_set {m : Model} (h : m = m.over .zero) (p : Str) (a : List Attachment) (c : List (Str × ChildModel))
    (r s : List Relationship) :
    ({ m with path := p, attachments := a, childs := c, rootRelationships := r, relationships := s } : Model) =
      ({ m with path := p, attachments := a, childs := c, rootRelationships := r, relationships := s } : Model).over .zero :=
  congrArg (fun x : Model => { x with path := p, attachments := a, childs := c, rootRelationships := r, relationships := s }) h

theorem extractRoot_inv {env : Env} {o : Opc} {pk : InPkg} {root : InFile} {s : OpcState} {rel : Relationship}
    (h : OpcInv s.model (s.childs.map (·.name))) :
    OpcInv (extractRoot env o pk root s rel).model ((extractRoot env o pk root s rel).childs.map (·.name)) := by
  unfold extractRoot
  cases pk.find o root.name rel.path with
  | none => exact h
  | some f =>
    by_cases ht : rel.type = relModel
    · simp only [if_pos ht]
      refine ⟨rest_set h.rest _ _ _ _ _, ?_, ?_, ?_⟩
      · intro x hx
        rcases mem_resetChild hx with hx | rfl
        · exact h.zero x hx
        · exact ⟨rfl, rfl⟩
      · simp only [resetChild_keys]
        by_cases hm : f.name ∈ s.model.childs.map (·.1)
        · rw [if_pos hm]; exact h.nodup
        · rw [if_neg hm, List.nodup_append]
          refine ⟨h.nodup, by simp, ?_⟩
          intro a ha b hb e
          simp only [List.mem_singleton] at hb
          subst hb; subst e; exact hm ha
      · intro k
        simp only [resetChild_keys, List.map_append, List.map_cons, List.map_nil, List.mem_append, List.mem_singleton]
        rw [← h.same k]
        by_cases hm : f.name ∈ s.model.childs.map (·.1)
        · rw [if_pos hm]
          constructor
          · exact .inl
          · rintro (h | rfl)
            · exact h
            · exact hm
        · rw [if_neg hm]; simp
    · simp only [if_neg ht]
      exact ⟨rest_set h.rest _ _ _ _ _, h.zero, h.nodup, h.same⟩

theorem extractRoots_inv {env : Env} {o : Opc} {pk : InPkg} {root : InFile} : ∀ {rels : List Relationship} {s : OpcState},
    OpcInv s.model (s.childs.map (·.name)) →
    OpcInv (rels.foldl (extractRoot env o pk root) s).model ((rels.foldl (extractRoot env o pk root) s).childs.map (·.name))
  | [], _, h => h
  | r :: rels, s, h => extractRoots_inv (rels := rels) (s := extractRoot env o pk root s r) (extractRoot_inv h)

theorem extractChild_inv {env : Env} {o : Opc} {pk : InPkg} {file : InFile} {m : Model} {rel : Relationship} {names : List Str}
    (h : OpcInv m names) : OpcInv (extractChild env o pk file m rel) names := by
  unfold extractChild
  cases pk.find o file.name rel.path with
  | none => exact h
  | some f =>
    by_cases ht : rel.type = relModel
    · simp only [if_pos ht]; exact h
    · simp only [if_neg ht]
      cases lookupChild m.childs file.name with
      | none => exact h
      | some c =>
        refine ⟨rest_set h.rest _ _ _ _ _, ?_, ?_, ?_⟩
        · intro x hx
          obtain ⟨y, hy, e1, e2⟩ := mem_addChildRel hx
          rw [e1, e2]; exact h.zero y hy
        · simp only [addChildRel_keys]; exact h.nodup
        · simp only [addChildRel_keys]; exact h.same

theorem extractChilds_inv {env : Env} {o : Opc} {pk : InPkg} {names : List Str} : ∀ {cs : List InFile} {m : Model},
    OpcInv m names → OpcInv (cs.foldl (fun m c => c.rels.foldl (extractChild env o pk c) m) m) names
  | [], _, h => h
  | c :: cs, m, h => by
    have : ∀ (rels : List Relationship) (m : Model), OpcInv m names → OpcInv (rels.foldl (extractChild env o pk c) m) names := by
      intro rels
      induction rels with
      | nil => exact fun _ h => h
      | cons r rels ih => exact fun m h => ih _ (extractChild_inv h)
    exact extractChilds_inv (cs := cs) (this c.rels m h)

theorem processRel_inv {env : Env} {o : Opc} {pk : InPkg} {s s' : OpcState} {r : Relationship}
    (h : OpcInv s.model (s.childs.map (·.name))) (e : processRel env o pk s r = some s') :
    OpcInv s'.model (s'.childs.map (·.name)) := by
  unfold processRel at e
  cases hf : pk.find o b!"/" r.path with
  | none =>
    simp only [hf] at e
    by_cases ht : r.type = relModel
    · rw [if_pos ht] at e; cases e
    · rw [if_neg ht] at e; injection e with e; subst e; exact h
  | some f =>
    simp only [hf] at e
    by_cases ht : r.type = relModel
    · rw [if_pos ht] at e
      injection e with e; subst e
      exact extractChilds_inv (extractRoots_inv (s := { s with model := { s.model with path := f.name }, root := some f })
        ⟨rest_set h.rest _ _ _ _ _, h.zero, h.nodup, h.same⟩)
    · rw [if_neg ht] at e
      injection e with e; subst e
      exact ⟨rest_set h.rest _ _ _ _ _, h.zero, h.nodup, h.same⟩

theorem processRels_inv {env : Env} {o : Opc} {pk : InPkg} : ∀ {rs : List Relationship} {s s' : OpcState},
    OpcInv s.model (s.childs.map (·.name)) → processRels env o pk s rs = some s' → OpcInv s'.model (s'.childs.map (·.name))
  | [], _, _, h, e => by injection e with e; subst e; exact h
  | _ :: _, _, _, h, e => by
    simp only [processRels, Option.bind_eq_some_iff] at e
    obtain ⟨t, e1, e2⟩ := e
    exact processRels_inv (processRel_inv h e1) e2

theorem processOPC_inv {env : Env} {o : Opc} {pk : InPkg} {m' : Model} {root : InFile} {fs : List InFile}
    (h : processOPC env o pk .zero = some (m', root, fs)) : OpcInv m' (fs.map (·.name)) :=
  processRels_inv (s := ⟨.zero, none, []⟩) ⟨rfl, by simp [Model.zero], by simp [Model.zero], by simp [Model.zero]⟩ (processOPC_some h)

theorem extractRoots_root {env : Env} {o : Opc} {pk : InPkg} {f : InFile} : ∀ {rels : List Relationship} {s : OpcState},
    (rels.foldl (extractRoot env o pk f) s).root = s.root
  | [], _ => rfl
  | x :: rels, s => by
    rw [List.foldl_cons, extractRoots_root]
    unfold extractRoot
    split
    · rfl
    · split <;> rfl

theorem processRels_root {env : Env} {o : Opc} {pk : InPkg} : ∀ {rs : List Relationship} {s s' : OpcState},
    (∀ r ∈ rs, r ∈ pk.rels) → processRels env o pk s rs = some s' → ∀ f, s'.root = some f → s.root = some f ∨ IsRootPart o pk f
  | [], _, _, _, e, f, hf => by injection e with e; subst e; exact .inl hf
  | r :: rs, s, s', h, e, f, hf => by
    simp only [processRels, Option.bind_eq_some_iff] at e
    obtain ⟨t, e1, e2⟩ := e
    rcases processRels_root (fun x hx => h x (List.mem_cons_of_mem _ hx)) e2 f hf with ht | ht
    · unfold processRel at e1
      cases hg : pk.find o b!"/" r.path with
      | none =>
        simp only [hg] at e1
        by_cases hr : r.type = relModel
        · rw [if_pos hr] at e1; cases e1
        · rw [if_neg hr] at e1; injection e1 with e1; subst e1; exact .inl ht
      | some g =>
        simp only [hg] at e1
        by_cases hr : r.type = relModel
        · rw [if_pos hr] at e1
          injection e1 with e1; subst e1
          simp only [extractRoots_root, Option.some.injEq] at ht
          subst ht
          exact .inr ⟨r, h r List.mem_cons_self, hr, hg⟩
        · rw [if_neg hr] at e1; injection e1 with e1; subst e1; exact .inl ht
    · exact .inr ht

theorem processOPC_root {env : Env} {o : Opc} {pk : InPkg} {m m' : Model} {root : InFile} {fs : List InFile}
    (h : processOPC env o pk m = some (m', root, fs)) : IsRootPart o pk root := by
  rcases processRels_root (fun _ h => h) (processOPC_some h) root rfl with h | h
  · cases h
  · exact h

/-- Reading the relationships succeeds if the root parts exist. -/
theorem processRels_total {env : Env} {o : Opc} {pk : InPkg} : ∀ {rs : List Relationship} {s : OpcState},
    (∀ r ∈ rs, r.type = relModel → (relTarget o pk b!"/" r).isSome) →
    ∃ s', processRels env o pk s rs = some s' ∧ (s.root.isSome ∨ (∃ r ∈ rs, r.type = relModel) → s'.root.isSome)
  | [], s, _ => ⟨s, rfl, by rintro (h | ⟨r, hr, -⟩); exacts [h, by simp at hr]⟩
  | r :: rs, s, h => by
    have key : ∃ t, processRel env o pk s r = some t ∧ (s.root.isSome ∨ r.type = relModel → t.root.isSome) := by
      unfold processRel
      have hr := h r List.mem_cons_self
      rw [target_eq] at hr
      cases hf : pk.find o b!"/" r.path with
      | none =>
        by_cases ht : r.type = relModel
        · rw [hf] at hr; simp at hr; exact absurd ht hr
        · simp only [if_neg ht]
          exact ⟨s, rfl, fun h => h.elim id fun e => absurd e ht⟩
      | some f =>
        by_cases ht : r.type = relModel
        · simp only [if_pos ht]
          exact ⟨_, rfl, fun _ => by simp only [extractRoots_root]; rfl⟩
        · simp only [if_neg ht]
          exact ⟨_, rfl, fun h => h.elim id fun e => absurd e ht⟩
    obtain ⟨t, e1, h1⟩ := key
    obtain ⟨s', e2, h2⟩ := processRels_total (env := env) (o := o) (pk := pk) (rs := rs) (s := t)
      fun x hx => h x (List.mem_cons_of_mem _ hx)
    refine ⟨s', by rw [processRels, e1]; exact e2, ?_⟩
    rintro (h | ⟨x, hx, hxt⟩)
    · exact h2 (.inl (h1 (.inl h)))
    · rcases List.mem_cons.mp hx with rfl | hx
      · exact h2 (.inl (h1 (.inr hxt)))
      · exact h2 (.inr ⟨x, hx, hxt⟩)

theorem processOPC_total {env : Env} {o : Opc} {pk : InPkg}
    (h : ∀ r ∈ pk.rels, r.type = relModel → (relTarget o pk b!"/" r).isSome) (hr : ∃ r ∈ pk.rels, r.type = relModel) :
    ∃ x, processOPC env o pk .zero = some x := by
  obtain ⟨s, e, hs⟩ := processRels_total (env := env) (s := ⟨.zero, none, []⟩) h
  unfold processOPC
  rw [e]
  simp only
  obtain ⟨f, hf⟩ := Option.isSome_iff_exists.mp (hs (.inr hr))
  rw [hf]
  exact ⟨_, rfl⟩

/-! ## Lookups -/

theorem lookup_mem : ∀ {cs : List (Str × ChildModel)} {k : Str} {c : ChildModel}, lookupChild cs k = some c → (k, c) ∈ cs
  | [], _, _, h => by simp [lookupChild] at h
  | (a, x) :: cs, k, c, h => by
    rw [lookupChild] at h
    by_cases e : a = k
    · rw [if_pos e] at h; injection h with h; subst h; subst e; exact List.mem_cons_self
    · rw [if_neg e] at h; exact List.mem_cons_of_mem _ (lookup_mem h)

theorem lookup_isSome : ∀ {cs : List (Str × ChildModel)} {k : Str}, k ∈ cs.map (·.1) → (lookupChild cs k).isSome
  | [], _, h => by simp at h
  | (a, x) :: cs, k, h => by
    rw [lookupChild]
    by_cases e : a = k
    · rw [if_pos e]; rfl
    · rw [if_neg e]
      simp only [List.map_cons, List.mem_cons] at h
      exact lookup_isSome (h.resolve_left fun h => e h.symm)

theorem lookup_congr {β : Type} (g : ChildModel → β) : ∀ {cs ds : List (Str × ChildModel)} {k : Str}, cs.map (·.1) = ds.map (·.1) →
    cs.map (fun c => g c.2) = ds.map (fun c => g c.2) → (lookupChild cs k).map g = (lookupChild ds k).map g
  | [], [], _, _, _ => rfl
  | [], _ :: _, _, h, _ => by simp at h
  | _ :: _, [], _, h, _ => by simp at h
  | (a, x) :: cs, (b, y) :: ds, k, h1, h2 => by
    simp only [List.map_cons, List.cons.injEq] at h1 h2
    rw [lookupChild, lookupChild, h1.1]
    by_cases e : b = k
    · rw [if_pos e, if_pos e]; simp [h2.1]
    · rw [if_neg e, if_neg e]; exact lookup_congr g h1.2 h2.2

/-! ## Child models -/

theorem childWritable_dom {env : Env} {m : Model} {c : ChildModel} (hw : Writable env m) (h : ChildWritable env m.extensions c) :
    c.Dom env m False [] := by
  exact ⟨(writable_dom hw).root, ⟨fun a ha => asset_dom (h.assets a ha), fun o ho => object_dom (h.objects o ho), attrs_dom h.attrs⟩,
    by rw [h.any]; simp⟩

theorem near_resources {prec : Int} {c : ChildModel} (h : ChildOk prec c) : NearResources prec c.resources (c.resources.back prec) :=
  (near_model (m := { Model.zero with resources := c.resources }) ⟨h.assets, h.objects, ⟨by simp [Model.zero], by simp [Model.zero]⟩⟩).resources

end Go3mf
