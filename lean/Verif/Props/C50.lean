import Verif.Model.Package

/-!
# C50: package writing registers each part and relationship once
-/

namespace Go3mf

/-- The type and target of a relationship. -/
def Spec.relLink (r : Relationship) : Str × Str := (r.type, r.path)

theorem opcAddRel_mem {rels : List Relationship} {r x : Relationship} (h : x ∈ opcAddRel rels r) : x ∈ rels ∨ x = r := by
  unfold opcAddRel at h
  split at h
  · exact .inl h
  · simpa using h

theorem opcAddRel_link {rels : List Relationship} {r : Relationship} : ∀ (l : Str × Str),
    l ∈ (opcAddRel rels r).map Spec.relLink ↔ l ∈ rels.map Spec.relLink ∨ l = Spec.relLink r := by
  intro l
  unfold opcAddRel
  by_cases h : (rels.any fun x => decide (x.type = r.type ∧ x.path = r.path)) = true
  · rw [if_pos h]
    constructor
    · exact .inl
    · rintro (h' | rfl)
      · exact h'
      · simp only [List.any_eq_true, decide_eq_true_eq] at h
        obtain ⟨x, hx, h1, h2⟩ := h
        exact List.mem_map.mpr ⟨x, hx, by simp [Spec.relLink, h1, h2]⟩
  · rw [if_neg h]
    simp

theorem opcAddRel_nodup {rels : List Relationship} {r : Relationship} (h : (rels.map Spec.relLink).Nodup) :
    ((opcAddRel rels r).map Spec.relLink).Nodup := by
  unfold opcAddRel
  by_cases hc : (rels.any fun x => decide (x.type = r.type ∧ x.path = r.path)) = true
  · rw [if_pos hc]; exact h
  · rw [if_neg hc, List.map_append, List.nodup_append]
    refine ⟨h, by simp, ?_⟩
    intro a ha b hb e
    simp only [List.map_cons, List.map_nil, List.mem_singleton] at hb
    subst hb; subst e
    obtain ⟨x, hx, hx'⟩ := List.mem_map.mp ha
    apply hc
    simp only [List.any_eq_true, decide_eq_true_eq]
    simp only [Spec.relLink, Prod.mk.injEq] at hx'
    exact ⟨x, hx, hx'⟩

theorem opcAddRels {rs : List Relationship} : ∀ {rels : List Relationship}, (rels.map Spec.relLink).Nodup →
    ((rs.foldl opcAddRel rels).map Spec.relLink).Nodup ∧
    (∀ l, l ∈ (rs.foldl opcAddRel rels).map Spec.relLink ↔ l ∈ rels.map Spec.relLink ∨ l ∈ rs.map Spec.relLink) ∧
    ∀ x ∈ rs.foldl opcAddRel rels, x ∈ rels ∨ x ∈ rs := by
  induction rs with
  | nil => intro rels h; exact ⟨h, by simp, fun x hx => .inl hx⟩
  | cons r rs ih =>
    intro rels h
    obtain ⟨h1, h2, h3⟩ := ih (opcAddRel_nodup (r := r) h)
    refine ⟨h1, ?_, ?_⟩
    · intro l
      simp only [List.foldl_cons]
      rw [h2, opcAddRel_link]
      simp only [List.map_cons, List.mem_cons, or_assoc]
    · intro x hx
      rcases h3 x hx with h | h
      · rcases opcAddRel_mem h with h | rfl
        · exact .inl h
        · exact .inr List.mem_cons_self
      · exact .inr (List.mem_cons_of_mem _ h)

theorem addRelationship_mem {rels : List Relationship} {r x : Relationship} :
    (x ∈ rels → x ∈ addRelationship rels r) ∧ (x ∈ addRelationship rels r → x ∈ rels ∨ x = r) := by
  unfold addRelationship
  split
  · exact ⟨id, .inl⟩
  · exact ⟨fun h => by simp [h], fun h => by simpa using h⟩

theorem addRelationship_path {rels : List Relationship} {r : Relationship} : ∃ x ∈ addRelationship rels r, x.path = r.path := by
  unfold addRelationship
  by_cases h : (rels.any fun x => decide (x.path = r.path)) = true
  · rw [if_pos h]
    simp only [List.any_eq_true, decide_eq_true_eq] at h
    exact h
  · rw [if_neg h]
    exact ⟨r, by simp, rfl⟩

theorem addRelationships {rs : List Relationship} : ∀ {rels : List Relationship},
    (∀ x ∈ rels, x ∈ rs.foldl addRelationship rels) ∧ (∀ x ∈ rs.foldl addRelationship rels, x ∈ rels ∨ x ∈ rs) ∧
    ∀ r ∈ rs, ∃ x ∈ rs.foldl addRelationship rels, x.path = r.path := by
  induction rs with
  | nil => intro rels; exact ⟨fun _ h => h, fun _ h => .inl h, by simp⟩
  | cons r rs ih =>
    intro rels
    obtain ⟨h1, h2, h3⟩ := ih (rels := addRelationship rels r)
    refine ⟨fun x hx => h1 x (addRelationship_mem.1 hx), ?_, ?_⟩
    · intro x hx
      rcases h2 x hx with h | h
      · rcases addRelationship_mem.2 h with h | rfl
        · exact .inl h
        · exact .inr List.mem_cons_self
      · exact .inr (List.mem_cons_of_mem _ h)
    · intro q hq
      rcases List.mem_cons.mp hq with rfl | hq
      · obtain ⟨x, hx, hp⟩ := addRelationship_path (rels := rels) (r := q)
        exact ⟨x, h1 x hx, hp⟩
      · exact h3 q hq

/-- A relationship is added only if there is none with the same target. -/
theorem addRelationships_new {rs : List Relationship} : ∀ {rels : List Relationship}, ∀ x ∈ rs.foldl addRelationship rels,
    x ∈ rels ∨ x.path ∉ rels.map (·.path) := by
  induction rs with
  | nil => exact fun x h => .inl h
  | cons r rs ih =>
    intro rels x hx
    rw [List.foldl_cons] at hx
    have hsub : ∀ p ∈ rels.map (·.path), p ∈ (addRelationship rels r).map (·.path) := by
      intro p hp
      obtain ⟨y, hy, rfl⟩ := List.mem_map.1 hp
      exact List.mem_map_of_mem (addRelationship_mem.1 hy)
    rcases ih x hx with h | h
    · unfold addRelationship at h
      split at h
      · exact .inl h
      · rename_i hn
        rcases List.mem_append.1 h with h | h
        · exact .inl h
        · rw [List.mem_singleton] at h
          subst h
          refine .inr fun hp => hn ?_
          obtain ⟨y, hy, e⟩ := List.mem_map.1 hp
          exact List.any_eq_true.2 ⟨y, hy, by simpa using e⟩
    · exact .inr fun hp => h (hsub _ hp)

/-- The same for the links of the part that is created. -/
theorem addedLinks {rs rels : List Relationship} {l : Str × Str}
    (h : l ∈ ((rs.foldl addRelationship rels).foldl opcAddRel []).map Spec.relLink) :
    l ∈ rels.map Spec.relLink ∨ l.2 ∉ rels.map (·.path) := by
  rw [(opcAddRels (by simp)).2.1] at h
  rcases h with h | h
  · simp at h
  · obtain ⟨x, hx, rfl⟩ := List.mem_map.1 h
    exact (addRelationships_new x hx).imp (fun h => List.mem_map_of_mem h) id

/-! ## Parts -/

/-- The name, content type and content of a part. -/
def Spec.content (p : OutPart) : Str × Str × Str := (p.name, p.contentType, p.data)

/-- The part of an attachment. -/
def attachmentPart (o : Opc) (a : Attachment) : OutPart := ⟨o.norm a.path, a.contentType, a.stream, []⟩

/-- The part of a child model. -/
def childPart (o : Opc) (prec : Int) (m : Model) (c : Str × ChildModel) : OutPart :=
  ⟨o.norm (o.resolve m.pathOrDefault c.1), contentTypeModel, c.2.partBytes prec m, c.2.partRels.foldl opcAddRel []⟩

/-- The part of the root model. -/
def rootPart (o : Opc) (prec : Int) (m : Model) (order : List Str) : OutPart :=
  ⟨o.norm m.pathOrDefault, contentTypeModel, m.partBytes prec, (m.rootPartRels order).foldl opcAddRel []⟩

theorem createPart_some {o : Opc} {name ct data : Str} {rels : List Relationship} {ps ps' : List OutPart}
    (h : createPart o name ct data rels ps = some ps') :
    ps' = ps ++ [⟨o.norm name, ct, data, rels.foldl opcAddRel []⟩] ∧ o.accepts (ps.map (·.name)) (o.norm name) ct = true := by
  unfold createPart at h
  by_cases hc : o.accepts (ps.map (·.name)) (o.norm name) ct = true
  · rw [if_pos hc] at h; injection h with h; exact ⟨h.symm, hc⟩
  · rw [if_neg hc] at h; cases h

/-- The library does not create two parts with the same name. -/
def Opc.Distinct (o : Opc) : Prop := ∀ names name ct, o.accepts names name ct = true → name ∉ names

theorem createPart_nodup {o : Opc} (ho : o.Distinct) {name ct data : Str} {rels : List Relationship} {ps ps' : List OutPart}
    (hn : (ps.map (·.name)).Nodup) (h : createPart o name ct data rels ps = some ps') : (ps'.map (·.name)).Nodup := by
  obtain ⟨rfl, h2⟩ := createPart_some h
  have := ho _ _ _ h2
  rw [List.map_append, List.nodup_append]
  refine ⟨hn, by simp, ?_⟩
  intro a ha b hb e
  simp only [List.map_cons, List.map_nil, List.mem_singleton] at hb
  subst hb; subst e; exact this ha

theorem writeAttachments_some {o : Opc} : ∀ {as : List Attachment} {ps ps' : List OutPart},
    writeAttachments o as ps = some ps' → ps' = ps ++ as.map (attachmentPart o) ∧
      (o.Distinct → (ps.map (·.name)).Nodup → (ps'.map (·.name)).Nodup)
  | [], ps, ps', h => by injection h with h; subst h; simp
  | a :: as, ps, ps', h => by
    simp only [writeAttachments, Option.bind_eq_some_iff] at h
    obtain ⟨p1, h1, h2⟩ := h
    obtain ⟨h3, h4⟩ := writeAttachments_some h2
    obtain ⟨h5, -⟩ := createPart_some h1
    refine ⟨by rw [h3, h5]; simp [attachmentPart], fun ho hn => h4 ho (createPart_nodup ho hn h1)⟩

theorem writeChilds_some {o : Opc} {prec : Int} {m : Model} : ∀ {cs : List (Str × ChildModel)} {ps ps' : List OutPart},
    writeChilds o prec m cs ps = some ps' → ps' = ps ++ cs.map (childPart o prec m) ∧
      (o.Distinct → (ps.map (·.name)).Nodup → (ps'.map (·.name)).Nodup)
  | [], ps, ps', h => by injection h with h; subst h; simp
  | a :: as, ps, ps', h => by
    simp only [writeChilds, Option.bind_eq_some_iff] at h
    obtain ⟨p1, h1, h2⟩ := h
    obtain ⟨h3, h4⟩ := writeChilds_some h2
    obtain ⟨h5, -⟩ := createPart_some h1
    refine ⟨by rw [h3, h5]; simp [childPart], fun ho hn => h4 ho (createPart_nodup ho hn h1)⟩

theorem encodePkg_some {o : Opc} {prec : Int} {m : Model} {order1 : List Str} {order2 : List (Str × ChildModel)} {pk : OutPkg}
    (h : encodePkg o prec m order1 order2 = some pk) :
    pk = ⟨m.pkgRels.foldl opcAddRel [], m.attachments.map (attachmentPart o) ++ rootPart o prec m order1 ::
      order2.map (childPart o prec m)⟩ ∧ (o.Distinct → (pk.parts.map (·.name)).Nodup) := by
  simp only [encodePkg, Option.bind_eq_some_iff, Option.map_eq_some_iff] at h
  obtain ⟨p1, h1, p2, h2, p3, h3, rfl⟩ := h
  obtain ⟨e1, n1⟩ := writeAttachments_some h1
  obtain ⟨e2, -⟩ := createPart_some h2
  obtain ⟨e3, n3⟩ := writeChilds_some h3
  refine ⟨?_, fun ho => n3 ho (createPart_nodup ho (n1 ho (by simp)) h2)⟩
  rw [e3, e2, e1]
  simp [rootPart]

/-- **C50**: `Encode` creates exactly one part per attachment, for the root model and per child model, in any order in which the
map of child models is visited. -/
theorem C50_parts (o : Opc) (prec : Int) (m : Model) (order1 : List Str) (order2 : List (Str × ChildModel)) (pk : OutPkg)
    (h2 : order2.Perm m.childs) (h : encodePkg o prec m order1 order2 = some pk) :
    (pk.parts.map Spec.content).Perm
      (m.attachments.map (fun a => (o.norm a.path, a.contentType, a.stream)) ++
        (o.norm m.pathOrDefault, contentTypeModel, m.partBytes prec) ::
        m.childs.map fun c => (o.norm (o.resolve m.pathOrDefault c.1), contentTypeModel, c.2.partBytes prec m)) := by
  obtain ⟨rfl, -⟩ := encodePkg_some h
  simp only [List.map_append, List.map_cons, List.map_map]
  refine List.Perm.append (.of_eq ?_) (.cons _ ?_)
  · apply List.map_congr_left; intro a _; rfl
  · exact (h2.map _).trans (.of_eq (List.map_congr_left fun c _ => rfl))

/-- **C50**: if the library refuses names that are taken, then all the parts have different names. -/
theorem C50_names (o : Opc) (ho : o.Distinct) (prec : Int) (m : Model) (order1 : List Str) (order2 : List (Str × ChildModel))
    (pk : OutPkg) (h : encodePkg o prec m order1 order2 = some pk) : (pk.parts.map (·.name)).Nodup :=
  (encodePkg_some h).2 ho

/-- **C50**: the relationships of the package are those of the model, the one of the root part and the one of the thumbnail, each
once. -/
theorem C50_package (o : Opc) (prec : Int) (m : Model) (order1 : List Str) (order2 : List (Str × ChildModel)) (pk : OutPkg)
    (h : encodePkg o prec m order1 order2 = some pk) :
    (pk.rels.map Spec.relLink).Nodup ∧
    (∀ l, l ∈ pk.rels.map Spec.relLink ↔ l ∈ m.rootRelationships.map Spec.relLink ∨ l = (relModel, m.pathOrDefault) ∨
      (m.thumbnail ≠ [] ∧ l = (relThumbnail, m.thumbnail))) ∧
    ∀ r ∈ pk.rels, r ∈ m.rootRelationships ∨ r.id = [] := by
  obtain ⟨rfl, -⟩ := encodePkg_some h
  obtain ⟨h1, h2, h3⟩ := opcAddRels (rs := m.pkgRels) (rels := []) (by simp)
  refine ⟨h1, ?_, ?_⟩
  · intro l
    rw [h2]
    by_cases ht : m.thumbnail = []
    · simp [Model.pkgRels, ht, Spec.relLink]
    · simp [Model.pkgRels, ht, Spec.relLink]
  · intro r hr
    rcases h3 r hr with h | h
    · simp at h
    · simp only [Model.pkgRels, List.mem_append, List.mem_singleton] at h
      rcases h with (h | rfl) | h
      · exact .inl h
      · exact .inr rfl
      · split at h
        · simp only [List.mem_singleton] at h; subst h; exact .inr rfl
        · simp at h

/-! ## Relationships of parts -/

/-- The resources of a part and its other elements refer to the file `l.2`, to which there must be a relationship of type `l.1`:
the image of a texture or the thumbnail of an object.  Of the elements that are not resources only the first one is
written (`encodeAny`). -/
def Spec.Uses (rs : Resources) (any : List AnyElem) (l : Str × Str) : Prop :=
  (∃ t : Texture2D, .res (.texture2D t) ∈ rs.assets ∧ l = (relTexture, t.path)) ∨
  (∃ ob ∈ rs.objects, ob.thumbnail ≠ [] ∧ l = (relThumbnail, ob.thumbnail)) ∨
  (∃ ob ∈ rs.objects, ∃ me t, ob.mesh = some me ∧ me.any.head? = some (.res (.texture2D t)) ∧ l = (relTexture, t.path)) ∨
  ∃ t : Texture2D, any.head? = some (.res (.texture2D t)) ∧ l = (relTexture, t.path)

theorem anyRels_link {any : List AnyElem} {l : Str × Str} : l ∈ (anyRels any).map Spec.relLink ↔
    ∃ t : Texture2D, any.head? = some (.res (.texture2D t)) ∧ l = (relTexture, t.path) := by
  cases any with
  | nil => simp [anyRels]
  | cons a as =>
    cases a with
    | res r => cases r <;> simp [anyRels, Spec.relLink]
    | _ => simp [anyRels]

theorem uses_iff {rs : Resources} {any : List AnyElem} {l : Str × Str} :
    Spec.Uses rs any l ↔ l ∈ (rs.rels ++ anyRels any).map Spec.relLink := by
  rw [List.map_append, List.mem_append, anyRels_link]
  simp only [Resources.rels, List.map_append, List.mem_append, List.map_flatMap, List.mem_flatMap, Spec.Uses]
  constructor
  · rintro (⟨t, h1, h2⟩ | ⟨ob, h1, h2, h3⟩ | ⟨ob, h1, me, t, h2, h3, h4⟩ | h)
    · exact .inl (.inl ⟨_, h1, by simp [Asset.rels, Spec.relLink, h2]⟩)
    · exact .inl (.inr ⟨ob, h1, .inl (by simp [Object.rels, h2, Spec.relLink, h3])⟩)
    · exact .inl (.inr ⟨ob, h1, .inr (by simp only [h2]; exact anyRels_link.mpr ⟨t, h3, h4⟩)⟩)
    · exact .inr h
  · rintro ((⟨a, h1, h2⟩ | ⟨ob, h1, h2 | h2⟩) | h)
    · left
      cases a with
      | res r => cases r <;> simp [Asset.rels, Spec.relLink] at h2; exact ⟨_, h1, h2⟩
      | _ => simp [Asset.rels] at h2
    · right; left
      by_cases ht : ob.thumbnail = []
      · simp [Object.rels, ht] at h2
      · simp [Object.rels, ht, Spec.relLink] at h2
        exact ⟨ob, h1, ht, h2⟩
    · right; right; left
      cases hm : ob.mesh with
      | none => simp [hm] at h2
      | some me =>
        simp only [hm] at h2
        obtain ⟨t, h3, h4⟩ := anyRels_link.mp h2
        exact ⟨ob, h1, me, t, hm, h3, h4⟩
    · right; right; right; exact h

/-- The part that has the relationships of the root model. -/
def Spec.rootRels (o : Opc) (m : Model) (pk : OutPkg) : List Relationship :=
  match pk.parts[m.attachments.length]? with
  | some p => if p.name = o.norm m.pathOrDefault then p.rels else []
  | none => []

theorem rootRels_eq {o : Opc} {prec : Int} {m : Model} {order1 : List Str} {order2 : List (Str × ChildModel)} {pk : OutPkg}
    (h : encodePkg o prec m order1 order2 = some pk) :
    Spec.rootRels o m pk = (m.rootPartRels order1).foldl opcAddRel [] := by
  obtain ⟨rfl, -⟩ := encodePkg_some h
  unfold Spec.rootRels
  have : (m.attachments.map (attachmentPart o) ++ rootPart o prec m order1 :: order2.map (childPart o prec m))[m.attachments.length]? =
      some (rootPart o prec m order1) := by
    rw [List.getElem?_append_right (by simp)]
    simp
  simp only [this]
  simp [rootPart]

/-- **C50**, the root part: no type and target twice; every relationship of the model is there; every child model and every file that
is used is the target of a relationship; there is nothing else.  Partly: the type of the relationship to a child model or file
that is used may be another one, see `C50_type_false`. -/
theorem C50_root_partial (o : Opc) (prec : Int) (m : Model) (order1 : List Str) (order2 : List (Str × ChildModel)) (pk : OutPkg)
    (h1 : order1.Perm (m.childs.map (·.1))) (h : encodePkg o prec m order1 order2 = some pk) :
    ((Spec.rootRels o m pk).map Spec.relLink).Nodup ∧
    (∀ r ∈ m.relationships, Spec.relLink r ∈ (Spec.rootRels o m pk).map Spec.relLink) ∧
    (∀ path ∈ m.childs.map (·.1), path ∈ (Spec.rootRels o m pk).map (·.path)) ∧
    (∀ l, Spec.Uses m.resources m.any l → l.2 ∈ (Spec.rootRels o m pk).map (·.path)) ∧
    ∀ l ∈ (Spec.rootRels o m pk).map Spec.relLink, l ∈ m.relationships.map Spec.relLink ∨
      (l.1 = relModel ∧ l.2 ∈ m.childs.map (·.1)) ∨ Spec.Uses m.resources m.any l := by
  rw [rootRels_eq h]
  obtain ⟨a1, a2, a3⟩ := opcAddRels (rs := m.rootPartRels order1) (rels := []) (by simp)
  obtain ⟨b1, b2, b3⟩ := addRelationships (rels := m.relationships)
    (rs := order1.map (fun p => (⟨p, relModel, []⟩ : Relationship)) ++ m.resources.rels ++ anyRels m.any)
  have hl : ∀ r ∈ m.rootPartRels order1, Spec.relLink r ∈ ((m.rootPartRels order1).foldl opcAddRel []).map Spec.relLink :=
    fun r hr => (a2 _).mpr (.inr (List.mem_map_of_mem hr))
  have hp : ∀ r ∈ m.rootPartRels order1, r.path ∈ ((m.rootPartRels order1).foldl opcAddRel []).map (·.path) := by
    intro r hr
    obtain ⟨x, hx, hx'⟩ := List.mem_map.mp (hl r hr)
    exact List.mem_map.mpr ⟨x, hx, congrArg Prod.snd hx'⟩
  refine ⟨a1, fun r hr => hl r (b1 r hr), ?_, ?_, ?_⟩
  · intro path hpath
    obtain ⟨x, hx, hx'⟩ := b3 ⟨path, relModel, []⟩ (by
      simp only [List.mem_append, List.mem_map]
      exact .inl (.inl ⟨path, h1.mem_iff.mpr hpath, rfl⟩))
    have := hp x hx
    rw [hx'] at this
    exact this
  · intro l hlm
    obtain ⟨r, hr, rfl⟩ := List.mem_map.mp (uses_iff.mp hlm)
    obtain ⟨x, hx, hx'⟩ := b3 r (by
      simp only [List.mem_append] at hr ⊢
      tauto)
    have := hp x hx
    rw [hx'] at this
    exact this
  · intro l hlm
    rcases (a2 l).mp hlm with hh | hh
    · simp at hh
    · obtain ⟨r, hr, rfl⟩ := List.mem_map.mp hh
      rcases b2 r hr with h' | h'
      · exact .inl (List.mem_map_of_mem h')
      · right
        rw [List.append_assoc, List.mem_append] at h'
        rcases h' with h' | h'
        · obtain ⟨p, hp1, rfl⟩ := List.mem_map.mp h'
          exact .inl ⟨rfl, h1.mem_iff.mp hp1⟩
        · exact .inr (uses_iff.mpr (List.mem_map_of_mem h'))

/-- **C50**, the parts of the child models: no type and target twice; every relationship of the child is there; every file that is used
is the target of a relationship; there is nothing else.  Partly, as for the root part. -/
theorem C50_child_partial (o : Opc) (prec : Int) (m : Model) (order1 : List Str) (order2 : List (Str × ChildModel)) (pk : OutPkg)
    (h2 : order2.Perm m.childs) (h : encodePkg o prec m order1 order2 = some pk) :
    ∀ path c, (path, c) ∈ m.childs → ∃ p ∈ pk.parts, p.name = o.norm (o.resolve m.pathOrDefault path) ∧
      (p.rels.map Spec.relLink).Nodup ∧ (∀ r ∈ c.relationships, Spec.relLink r ∈ p.rels.map Spec.relLink) ∧
      (∀ l, Spec.Uses c.resources c.any l → l.2 ∈ p.rels.map (·.path)) ∧
      ∀ l ∈ p.rels.map Spec.relLink, l ∈ c.relationships.map Spec.relLink ∨ Spec.Uses c.resources c.any l := by
  intro path c hc
  obtain ⟨rfl, -⟩ := encodePkg_some h
  refine ⟨childPart o prec m (path, c), ?_, rfl, ?_⟩
  · simp only [List.mem_append, List.mem_cons]
    exact .inr (.inr (List.mem_map_of_mem (h2.mem_iff.mpr hc)))
  · obtain ⟨a1, a2, a3⟩ := opcAddRels (rs := c.partRels) (rels := []) (by simp)
    obtain ⟨b1, b2, b3⟩ := addRelationships (rels := c.relationships) (rs := c.resources.rels ++ anyRels c.any)
    have hl : ∀ r ∈ c.partRels, Spec.relLink r ∈ (c.partRels.foldl opcAddRel []).map Spec.relLink :=
      fun r hr => (a2 _).mpr (.inr (List.mem_map_of_mem hr))
    have hp : ∀ r ∈ c.partRels, r.path ∈ (c.partRels.foldl opcAddRel []).map (·.path) := by
      intro r hr
      obtain ⟨x, hx, hx'⟩ := List.mem_map.mp (hl r hr)
      exact List.mem_map.mpr ⟨x, hx, congrArg Prod.snd hx'⟩
    refine ⟨a1, fun r hr => hl r (b1 r hr), ?_, ?_⟩
    · intro l hlm
      obtain ⟨r, hr, rfl⟩ := List.mem_map.mp (uses_iff.mp hlm)
      obtain ⟨x, hx, hx'⟩ := b3 r hr
      have := hp x hx
      rw [hx'] at this
      exact this
    · intro l hlm
      rcases (a2 l).mp hlm with hh | hh
      · simp at hh
      · obtain ⟨r, hr, rfl⟩ := List.mem_map.mp hh
        rcases b2 r hr with h' | h'
        · exact .inl (List.mem_map_of_mem h')
        · exact .inr (uses_iff.mpr (List.mem_map_of_mem h'))

/-! ## Examples -/

/-- A library for the examples that keeps names and refuses names that are taken. -/
def c50Opc : Opc := ⟨id, fun _ p => p, fun names name _ => decide (name ∉ names)⟩

example : c50Opc.Distinct := fun _ _ _ h => by simpa [c50Opc] using h

/-- A model with an attachment that is a texture and the thumbnail of an object. -/
def c50Model : Model :=
  { Model.zero with
    attachments := [⟨b!"png", b!"/a.png", b!"image/png"⟩],
    thumbnail := b!"/t.png",
    rootRelationships := [⟨b!"/t.png", relThumbnail, b!"r1"⟩, ⟨b!"/t.png", relThumbnail, b!"r2"⟩],
    relationships := [⟨b!"/a.png", b!"x", b!"r"⟩],
    childs := [(b!"/b.model", .zero), (b!"/c.model", .zero)],
    resources := { Resources.zero with assets := [.res (.texture2D ⟨1, b!"/a.png", .png, .wrap, .wrap, .auto⟩)] } }

/-- The links of the package and of the root part, and the names of the parts. -/
def c50Run : Option (List (Str × Str) × List (Str × Str) × List Str) :=
  (encodePkg c50Opc 4 c50Model [b!"/c.model", b!"/b.model"] c50Model.childs).map fun pk =>
    (pk.rels.map Spec.relLink, (Spec.rootRels c50Opc c50Model pk).map Spec.relLink, pk.parts.map (·.name))

/-- The hypotheses hold; the package has each part and relationship once. -/
example : [b!"/c.model", b!"/b.model"].Perm (c50Model.childs.map (·.1)) ∧
    c50Run = some ([(relThumbnail, b!"/t.png"), (relModel, b!"/3D/3dmodel.model")],
      [(b!"x", b!"/a.png"), (relModel, b!"/c.model"), (relModel, b!"/b.model")],
      [b!"/a.png", b!"/3D/3dmodel.model", b!"/b.model", b!"/c.model"]) := by
  constructor
  · decide
  · decide +kernel

/-- **C50** is false of the types of the relationships of parts: `xmlEncoder.AddRelationship` only compares the targets.  The
relationship of the texture is not written because there is another one with the same target. -/
theorem C50_type_false : Spec.Uses c50Model.resources c50Model.any (relTexture, b!"/a.png") ∧
    c50Run.any (fun x => decide ((relTexture, b!"/a.png") ∈ x.2.1)) = false ∧ c50Run.isSome = true :=
  ⟨.inl ⟨_, List.mem_cons_self, rfl⟩, by decide +kernel⟩

/-- A model with a texture that is also the thumbnail of an object. -/
def c50Shared : Model :=
  { Model.zero with
    resources := { Resources.zero with
      assets := [.res (.texture2D ⟨1, b!"/a.png", .png, .wrap, .wrap, .auto⟩)],
      objects := [{ Object.zero with id := 2, thumbnail := b!"/a.png" }] } }

/-- **C50** is false if an image is both a texture and the thumbnail of an object: the relationship of the thumbnail is missing. -/
theorem C50_shared_false : Spec.Uses c50Shared.resources c50Shared.any (relThumbnail, b!"/a.png") ∧
    (encodePkg c50Opc 4 c50Shared [] []).map (fun pk => (Spec.rootRels c50Opc c50Shared pk).map Spec.relLink) =
      some [(relTexture, b!"/a.png")] :=
  ⟨.inr (.inl ⟨_, List.mem_cons_self, by decide, rfl⟩), by decide +kernel⟩

end Go3mf
