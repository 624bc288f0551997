import Mathlib.Data.List.Forall2
import Verif.Props.C55

/-!
# C86: what is saved does not depend on chance

`Encode` goes through the map of child models twice, and Go visits a map in an order that differs from one time to the next.
-/

namespace Go3mf

/-- The same part, with the relationships in any order. -/
structure SamePart (p q : OutPart) : Prop where
  name : p.name = q.name
  contentType : p.contentType = q.contentType
  data : p.data = q.data
  rels : p.rels.Perm q.rels

/-- The same package, with the parts in any order. -/
def SamePackage (pk pk' : OutPkg) : Prop :=
  pk.rels = pk'.rels ∧ ∃ ps, ps.Perm pk.parts ∧ List.Forall₂ SamePart ps pk'.parts

/-- The library refuses a part because of its name and type, or because of another part with which it clashes, whichever comes first. -/
def Opc.Fair (o : Opc) : Prop :=
  ∃ (good : Str → Str → Bool) (clash : Str → Str → Bool), (∀ a b, clash a b = clash b a) ∧
    ∀ names n t, o.accepts names n t = (good n t && names.all fun x => !clash x n)

/-! ## Relationships -/

/-- What `addRelationship` appends. -/
def newRels (seen : List Str) : List Relationship → List Relationship
  | [] => []
  | r :: rs => if r.path ∈ seen then newRels seen rs else r :: newRels (seen ++ [r.path]) rs

theorem foldl_addRelationship : ∀ (rs rels : List Relationship),
    rs.foldl addRelationship rels = rels ++ newRels (rels.map (·.path)) rs
  | [], rels => by simp [newRels]
  | r :: rs, rels => by
    rw [List.foldl_cons, foldl_addRelationship rs]
    simp only [addRelationship, newRels]
    by_cases h : r.path ∈ rels.map (·.path)
    · have h' : (rels.any fun x => decide (x.path = r.path)) = true := by
        obtain ⟨x, hx, e⟩ := List.mem_map.1 h
        exact List.any_eq_true.2 ⟨x, hx, by simp [e]⟩
      rw [if_pos h', if_pos h]
    · have h' : ¬ (rels.any fun x => decide (x.path = r.path)) = true := by
        intro h'
        obtain ⟨x, hx, e⟩ := List.any_eq_true.1 h'
        exact h (List.mem_map.2 ⟨x, hx, by simpa using e⟩)
      rw [if_neg h', if_neg h, List.map_append, List.append_assoc]
      rfl

theorem newRels_congr : ∀ (rs : List Relationship) {s s' : List Str}, (∀ p, p ∈ s ↔ p ∈ s') → newRels s rs = newRels s' rs
  | [], _, _, _ => rfl
  | r :: rs, s, s', h => by
    simp only [newRels, h]
    split
    · exact newRels_congr rs h
    · rw [newRels_congr rs (s := s ++ [r.path]) (s' := s' ++ [r.path]) fun p => by simp [h]]

theorem newRels_append : ∀ (rs rs' : List Relationship) (s : List Str),
    newRels s (rs ++ rs') = newRels s rs ++ newRels (s ++ rs.map (·.path)) rs'
  | [], rs', s => by simp [newRels]
  | r :: rs, rs', s => by
    simp only [List.cons_append, newRels]
    split
    · rename_i h
      rw [newRels_append rs rs' s]
      congr 1
      refine newRels_congr rs' fun p => ?_
      simp only [List.mem_append, List.map_cons, List.mem_cons]
      constructor
      · rintro (h | h)
        · exact .inl h
        · exact .inr (.inr h)
      · rintro (h | rfl | h')
        · exact .inl h
        · exact .inl h
        · exact .inr h'
    · rw [newRels_append rs rs' (s ++ [r.path]), List.cons_append]
      simp

theorem newRels_distinct : ∀ (rs : List Relationship) (s : List Str), (rs.map (·.path)).Nodup →
    newRels s rs = rs.filter fun r => decide (r.path ∉ s)
  | [], _, _ => rfl
  | r :: rs, s, h => by
    rw [List.map_cons, List.nodup_cons] at h
    simp only [newRels]
    by_cases hr : r.path ∈ s
    · rw [if_pos hr, List.filter_cons_of_neg (by simp [hr]), newRels_distinct rs s h.2]
    · rw [if_neg hr, List.filter_cons_of_pos (by simp [hr]), newRels_distinct rs _ h.2]
      congr 1
      refine List.filter_congr fun x hx => ?_
      have : x.path ≠ r.path := fun e => h.1 (List.mem_map.2 ⟨x, hx, e⟩)
      simp [this]

theorem newRels_fresh : ∀ (rs : List Relationship) (s : List Str),
    ((newRels s rs).map (·.path)).Nodup ∧ ∀ r ∈ newRels s rs, r.path ∉ s
  | [], _ => by simp [newRels]
  | r :: rs, s => by
    simp only [newRels]
    split
    · exact newRels_fresh rs s
    · rename_i hr
      obtain ⟨h1, h2⟩ := newRels_fresh rs (s ++ [r.path])
      refine ⟨?_, ?_⟩
      · rw [List.map_cons, List.nodup_cons]
        refine ⟨?_, h1⟩
        intro h
        obtain ⟨x, hx, e⟩ := List.mem_map.1 h
        exact h2 x hx (by simp [e])
      · intro x hx
        rcases List.mem_cons.1 hx with rfl | hx
        · exact hr
        · exact fun h => h2 x hx (by simp [h])

theorem opcAddRels_paths : ∀ (rs rels : List Relationship), ∀ x ∈ rs.foldl opcAddRel rels, x ∈ rels ∨ x ∈ rs
  | [], _, x, h => .inl h
  | r :: rs, rels, x, h => by
    rw [List.foldl_cons] at h
    rcases opcAddRels_paths rs _ x h with h | h
    · simp only [opcAddRel] at h
      split at h
      · exact .inl h
      · rcases List.mem_append.1 h with h | h
        · exact .inl h
        · exact .inr (by simp at h; simp [h])
    · exact .inr (by simp [h])

theorem opcAddRels_fresh : ∀ (rs rels : List Relationship), (rs.map (·.path)).Nodup → (∀ r ∈ rs, r.path ∉ rels.map (·.path)) →
    rs.foldl opcAddRel rels = rels ++ rs
  | [], _, _, _ => by simp
  | r :: rs, rels, h1, h2 => by
    rw [List.map_cons, List.nodup_cons] at h1
    have hr := h2 r (by simp)
    rw [List.foldl_cons, opcAddRel, if_neg, opcAddRels_fresh rs _ h1.2]
    · simp
    · intro x hx h
      rw [List.map_append] at h
      rcases List.mem_append.1 h with h | h
      · exact h2 x (by simp [hx]) h
      · simp only [List.map_cons, List.map_nil, List.mem_singleton] at h
        exact h1.1 (List.mem_map.2 ⟨x, hx, h⟩)
    · intro h
      obtain ⟨x, hx, e⟩ := List.any_eq_true.1 h
      simp only [decide_eq_true_eq] at e
      exact hr (List.mem_map.2 ⟨x, hx, e.2⟩)

/-- The relationships of the root part do not depend on the order. -/
theorem rootPartRels_perm {m : Model} {order order' : List Str} (hn : order.Nodup) (hp : order.Perm order') :
    ((m.rootPartRels order).foldl opcAddRel []).Perm ((m.rootPartRels order').foldl opcAddRel []) := by
  have key : ∀ ord : List Str, (m.rootPartRels ord).foldl opcAddRel [] = m.relationships.foldl opcAddRel [] ++
      newRels (m.relationships.map (·.path)) (ord.map (fun p => (⟨p, relModel, []⟩ : Relationship)) ++ (m.resources.rels ++ anyRels m.any)) := by
    intro ord
    obtain ⟨f1, f2⟩ := newRels_fresh (ord.map (fun p => (⟨p, relModel, []⟩ : Relationship)) ++ (m.resources.rels ++ anyRels m.any))
      (m.relationships.map (·.path))
    rw [Model.rootPartRels, foldl_addRelationship, List.foldl_append, List.append_assoc, opcAddRels_fresh _ _ f1]
    intro r hr h
    obtain ⟨x, hx, e⟩ := List.mem_map.1 h
    rcases opcAddRels_paths _ _ x hx with h | h
    · simp at h
    · exact f2 r hr (List.mem_map.2 ⟨x, h, e⟩)
  have hn' : order'.Nodup := hp.nodup_iff.1 hn
  have e : ∀ ord : List Str, (ord.map (fun p => (⟨p, relModel, []⟩ : Relationship))).map (·.path) = ord := by
    intro ord
    rw [List.map_map]
    exact List.map_id ord
  rw [key, key]
  refine .append (.refl _) ?_
  rw [newRels_append (order.map _), newRels_append (order'.map _), newRels_distinct (order.map _) _ (by rw [e]; exact hn),
    newRels_distinct (order'.map _) _ (by rw [e]; exact hn')]
  refine .append ((hp.map _).filter _) (.of_eq ?_)
  refine newRels_congr _ fun p => ?_
  rw [e, e]
  simp [hp.mem_iff]

/-! ## Parts -/

/-- The library accepts a list of parts after others. -/
def fits (good : Str → Str → Bool) (clash : Str → Str → Bool) (names : List Str) (ns : List Str) : Prop :=
  (∀ n ∈ ns, good n contentTypeModel = true ∧ ∀ x ∈ names, clash x n = false) ∧ ns.Pairwise fun a b => clash a b = false

theorem writeChilds_fits {o : Opc} {prec : Int} {m : Model} {good clash : Str → Str → Bool}
    (ha : ∀ names n t, o.accepts names n t = (good n t && names.all fun x => !clash x n)) :
    ∀ (cs : List (Str × ChildModel)) (ps : List OutPart), (∃ qs, writeChilds o prec m cs ps = some qs) ↔
      fits good clash (ps.map (·.name)) (cs.map fun c => o.norm (o.resolve m.pathOrDefault c.1))
  | [], ps => by simp [writeChilds, fits]
  | c :: cs, ps => by
    simp only [writeChilds, createPart, ha]
    by_cases h : (good (o.norm (o.resolve m.pathOrDefault c.1)) contentTypeModel &&
        (ps.map (·.name)).all fun x => !clash x (o.norm (o.resolve m.pathOrDefault c.1))) = true
    · rw [if_pos h, Option.bind_some, writeChilds_fits ha cs]
      simp only [Bool.and_eq_true, List.all_eq_true, Bool.not_eq_true'] at h
      simp only [fits, List.map_append, List.map_cons, List.map_nil, List.mem_append, List.mem_singleton, List.mem_cons,
        List.pairwise_cons]
      constructor
      · rintro ⟨h1, h2⟩
        refine ⟨?_, ?_, h2⟩
        · rintro n (rfl | hn)
          · exact h
          · exact ⟨(h1 n hn).1, fun x hx => (h1 n hn).2 x (.inl hx)⟩
        · exact fun n hn => (h1 n hn).2 _ (.inr (.inl rfl))
      · rintro ⟨h1, h2, h3⟩
        refine ⟨fun n hn => ⟨(h1 n (.inr hn)).1, ?_⟩, h3⟩
        rintro x (hx | rfl | hx)
        · exact (h1 n (.inr hn)).2 x hx
        · exact h2 n hn
        · cases hx
    · rw [if_neg h, Option.bind_none]
      constructor
      · rintro ⟨_, h⟩; cases h
      · rintro ⟨h1, -⟩
        exfalso
        apply h
        have := h1 (o.norm (o.resolve m.pathOrDefault c.1)) (by simp)
        simp only [Bool.and_eq_true, List.all_eq_true, Bool.not_eq_true']
        exact this

theorem fits_perm {good clash : Str → Str → Bool} (hs : ∀ a b, clash a b = clash b a) {names ns ns' : List Str} (h : ns.Perm ns') :
    fits good clash names ns ↔ fits good clash names ns' := by
  unfold fits
  rw [h.pairwise_iff fun {a b} hab => by rw [hs]; exact hab]
  simp [h.mem_iff]

theorem forall₂_samePart : ∀ ps : List OutPart, List.Forall₂ SamePart ps ps
  | [] => .nil
  | _ :: ps => .cons ⟨rfl, rfl, rfl, .refl _⟩ (forall₂_samePart ps)

variable {o : Opc} {prec : Int} {m : Model} {order1 order1' : List Str} {order2 order2' : List (Str × ChildModel)}

/-- **C86**: whether `Encode` returns an error does not depend on the order in which the child models are visited, and the packages
have the same parts with the same contents and the same relationships, except for the order of the parts of the child models and the
order of the relationships of the root part. -/
theorem C86_same_partial (ho : o.Fair) (hm : (m.childs.map (·.1)).Nodup) (h1 : order1.Perm (m.childs.map (·.1)))
    (h1' : order1'.Perm (m.childs.map (·.1))) (h2 : order2.Perm m.childs) (h2' : order2'.Perm m.childs) :
    ((∃ pk, encodePkg o prec m order1 order2 = some pk) ↔ ∃ pk, encodePkg o prec m order1' order2' = some pk) ∧
    ∀ pk pk', encodePkg o prec m order1 order2 = some pk → encodePkg o prec m order1' order2' = some pk' → SamePackage pk pk' := by
  obtain ⟨good, clash, hs, ha⟩ := ho
  have hr : ((m.rootPartRels order1).foldl opcAddRel []).Perm ((m.rootPartRels order1').foldl opcAddRel []) :=
    rootPartRels_perm (h1.nodup_iff.2 hm) (h1.trans h1'.symm)
  constructor
  · have key : ∀ (r : List Relationship) (ord : List (Str × ChildModel)), ord.Perm m.childs → ∀ ps,
        ((∃ pk, (createPart o m.pathOrDefault contentTypeModel (m.partBytes prec) r ps).bind (fun ps =>
          (writeChilds o prec m ord ps).map fun ps => (⟨m.pkgRels.foldl opcAddRel [], ps⟩ : OutPkg)) = some pk) ↔
        o.accepts (ps.map (·.name)) (o.norm m.pathOrDefault) contentTypeModel = true ∧
          fits good clash (ps.map (·.name) ++ [o.norm m.pathOrDefault])
            (m.childs.map fun c => o.norm (o.resolve m.pathOrDefault c.1))) := by
      intro r ord hord ps
      simp only [createPart]
      by_cases hacc : o.accepts (ps.map (·.name)) (o.norm m.pathOrDefault) contentTypeModel = true
      · rw [if_pos hacc, Option.bind_some]
        have := writeChilds_fits (prec := prec) (m := m) ha ord
          (ps ++ [⟨o.norm m.pathOrDefault, contentTypeModel, m.partBytes prec, r.foldl opcAddRel []⟩])
        rw [fits_perm hs (hord.map _)] at this
        simp only [List.map_append, List.map_cons, List.map_nil] at this
        rw [← this]
        constructor
        · rintro ⟨pk, h⟩
          obtain ⟨qs, hq, -⟩ := Option.map_eq_some_iff.1 h
          exact ⟨hacc, qs, hq⟩
        · rintro ⟨-, qs, hq⟩
          exact ⟨_, by rw [hq]; rfl⟩
      · rw [if_neg hacc, Option.bind_none]
        simp [hacc]
    simp only [encodePkg]
    cases hw : writeAttachments o m.attachments [] with
    | none => simp
    | some ps =>
      simp only [Option.bind_some]
      rw [key _ _ h2, key _ _ h2']
  · intro pk pk' h h'
    obtain ⟨rfl, -⟩ := encodePkg_some h
    obtain ⟨rfl, -⟩ := encodePkg_some h'
    refine ⟨rfl, m.attachments.map (attachmentPart o) ++ rootPart o prec m order1 :: order2'.map (childPart o prec m), ?_, ?_⟩
    · exact .append (.refl _) (.cons _ ((h2'.trans h2.symm).map _))
    · refine List.rel_append (forall₂_samePart _) (.cons ⟨rfl, rfl, rfl, hr⟩ (forall₂_samePart _))

/-! ## Examples -/

/-- A library that accepts every name once. -/
theorem c50Opc_fair : c50Opc.Fair :=
  ⟨fun _ _ => true, fun a b => decide (a = b), fun a b => by simp [eq_comm], fun names n t => by
    simp only [c50Opc, Bool.true_and]
    by_cases h : n ∈ names
    · rw [decide_eq_false (by simpa using h), eq_comm, Bool.eq_false_iff]
      intro h'
      have := List.all_eq_true.1 h' n h
      simp at this
    · rw [decide_eq_true h, eq_comm, List.all_eq_true]
      intro x hx
      have : x ≠ n := fun e => h (e ▸ hx)
      simp [this]⟩

/-- The hypotheses hold for a model with two children. -/
example : c50Opc.Fair ∧ (c50Model.childs.map (·.1)).Nodup ∧ [b!"/c.model", b!"/b.model"].Perm (c50Model.childs.map (·.1)) ∧
    c50Model.childs.reverse.Perm c50Model.childs ∧ c50Run.isSome = true :=
  ⟨c50Opc_fair, by decide, by decide, List.reverse_perm _, by decide +kernel⟩

/-- **C86 does not hold for the bytes of the package**: the same model saved twice gives packages in which the parts, and the
relationships of the root part, come in different orders. -/
theorem C86_order_false : ¬ ∀ (m : Model) (order1 order1' : List Str) (order2 order2' : List (Str × ChildModel)),
    order1.Perm (m.childs.map (·.1)) → order1'.Perm (m.childs.map (·.1)) → order2.Perm m.childs → order2'.Perm m.childs →
    (encodePkg c50Opc 4 m order1 order2).map (fun pk => (pk.parts.map (·.name))) =
      (encodePkg c50Opc 4 m order1' order2').map (fun pk => (pk.parts.map (·.name))) := by
  intro h
  have := h c50Model [b!"/c.model", b!"/b.model"] [b!"/b.model", b!"/c.model"] c50Model.childs c50Model.childs.reverse
    (by decide) (by decide) (.refl _) (List.reverse_perm _)
  revert this
  decide +kernel

/-- Nor for the relationships of the root part. -/
theorem C86_relationships_false : ¬ ∀ (m : Model) (order1 order1' : List Str),
    order1.Perm (m.childs.map (·.1)) → order1'.Perm (m.childs.map (·.1)) →
    (encodePkg c50Opc 4 m order1 m.childs).map (fun pk => pk.parts.map fun p => p.rels.map (·.path)) =
      (encodePkg c50Opc 4 m order1' m.childs).map (fun pk => pk.parts.map fun p => p.rels.map (·.path)) := by
  intro h
  have := h c50Model [b!"/c.model", b!"/b.model"] [b!"/b.model", b!"/c.model"] (by decide) (by decide)
  revert this
  decide +kernel

end Go3mf
