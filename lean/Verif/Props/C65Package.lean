import Verif.Props.C65
import Verif.Props.C69

/-!
# C65 for packages

A package that was saved and read twice does not change any more: the content of the root model, the child models, the targets and
types of the relationships and the attachments are the same after each further round, in every interleaving of the goroutines.
-/

namespace Go3mf
open Spec

namespace Spec

/-- The model `m'` may be what is read after `m` was saved as a package: for some order in which the map of child models is visited,
some identifiers that the library gives to the relationships, and some interleaving of the goroutines. -/
def Resaved (env : Env) (o : Opc) (prec : Int) (m m' : Model) : Prop :=
  ∃ (strict : Bool) (mem : Str → Nat → Str → Str) (order1 : List Str) (order2 : List (Str × ChildModel)) (pk : OutPkg) (ip : InPkg)
    (r : PkgResult), order1.Perm (m.childs.map (·.1)) ∧ order2.Perm m.childs ∧ encodePkg o prec m order1 order2 = some pk ∧
    Reopened pk ip ∧ DecodesBg ⟨env, strict, mem⟩ o ip .zero m' r

/-- The same types and targets of relationships, in any order. -/
def SameLinks (rels rels' : List Relationship) : Prop := ∀ l, l ∈ rels.map relLink ↔ l ∈ rels'.map relLink

/-- The same package: the content, the child models by path, the relationships and the attachments, in any order. -/
structure SamePackage (m m' : Model) : Prop where
  content : m' = { m with
    path := m'.path
    attachments := m'.attachments
    childs := m'.childs
    rootRelationships := m'.rootRelationships
    relationships := m'.relationships }
  path : m'.path = m.path
  paths : (m'.childs.map (·.1)).Perm (m.childs.map (·.1))
  childs : ∀ p c, (p, c) ∈ m.childs → ∃ c', (p, c') ∈ m'.childs ∧ c'.resources = c.resources ∧ c'.any = c.any ∧
    SameLinks c.relationships c'.relationships
  rootRelationships : SameLinks m.rootRelationships m'.rootRelationships
  relationships : SameLinks m.relationships m'.relationships
  attachments : ∀ a, a ∈ m'.attachments ↔ a ∈ m.attachments

/-- No value becomes a default value by rounding, in the root model or in a child model. -/
structure SettledPackage (prec : Int) (m : Model) : Prop where
  model : SettledModel prec m
  assets : ∀ c ∈ m.childs, ∀ x, Asset.res x ∈ c.2.resources.assets → SettledRes prec x
  objects : ∀ c ∈ m.childs, ∀ o ∈ c.2.resources.objects, SettledObject prec o

/-- The paths and relationships, and the texts, are such that the model can be saved and read back. -/
structure Savable (env : Env) (o : Opc) (m : Model) : Prop where
  packed : Packed env o m
  writable : Writable env m
  childs : ∀ x ∈ m.childs, ChildWritable env m.extensions x.2

/-- The library accepts the parts of the model: their names are different up to case, and it creates such parts. -/
structure Accepted (env : Env) (o : Opc) (m : Model) : Prop where
  distinct : (m.attachments.map (fun a => env.fold a.path) ++ env.fold m.pathOrDefault :: m.childs.map fun x => env.fold x.1).Nodup
  attachments : ∀ a ∈ m.attachments, ∀ names, (∀ n ∈ names, env.fold n ≠ env.fold a.path) → o.accepts names a.path a.contentType = true
  models : ∀ p ∈ m.pathOrDefault :: m.childs.map (·.1), ∀ names, (∀ n ∈ names, env.fold n ≠ env.fold p) →
    o.accepts names p contentTypeModel = true

end Spec

/-! ## Resources that were written and read -/

theorem Resources.back_thrice {prec : Int} (rs : Resources) : ((rs.back prec).back prec).back prec = (rs.back prec).back prec := by
  unfold Resources.back
  simp only [List.map_map, Function.comp_def, Asset.back_thrice, Object.back_thrice]

theorem Resources.back_twice {prec : Int} {rs : Resources} (h1 : ∀ x, Asset.res x ∈ rs.assets → SettledRes prec x)
    (h2 : ∀ o ∈ rs.objects, SettledObject prec o) : (rs.back prec).back prec = rs.back prec := by
  unfold Resources.back
  simp only [List.map_map]
  congr 1
  · refine List.map_congr_left fun a ha => ?_
    cases a with
    | base => rfl
    | unknown => rfl
    | res x => simp only [Function.comp_def, Asset.back, ExtRes.back_twice (h1 x ha)]
  · exact List.map_congr_left fun o ho => Object.back_twice (h2 o ho)

theorem elem_back_texture {prec : Int} {e : AnyElem} {t : Texture2D} (h : e.back prec = .res (.texture2D t)) : e = .res (.texture2D t) := by
  cases e with
  | res x => cases x <;> simp_all [AnyElem.back, ExtRes.back]
  | _ => simp [AnyElem.back] at h

theorem anyBack_texture {prec : Int} {es : List AnyElem} {t : Texture2D} (h : (anyBack prec es).head? = some (.res (.texture2D t))) :
    es.head? = some (.res (.texture2D t)) := by
  cases es with
  | nil => simp [anyBack] at h
  | cons e es =>
    simp only [anyBack, List.take_succ_cons, List.take_zero, List.map_cons, List.map_nil, List.head?_cons, Option.some.injEq] at h
    rw [List.head?_cons, elem_back_texture h]

/-- The files that are used are used by what was written. -/
theorem uses_back {prec : Int} {rs : Resources} {any : List AnyElem} {l : Str × Str} (h : Uses (rs.back prec) (anyBack prec any) l) :
    Uses rs any l := by
  rcases h with ⟨t, h1, h2⟩ | ⟨ob, h1, h2, h3⟩ | ⟨ob, h1, me, t, h2, h3, h4⟩ | ⟨t, h1, h2⟩
  · obtain ⟨a, ha, e⟩ := List.mem_map.1 h1
    have : a = .res (.texture2D t) := by
      cases a with
      | res x => cases x <;> simp_all [Asset.back, ExtRes.back]
      | _ => simp [Asset.back] at e
    exact .inl ⟨t, this ▸ ha, h2⟩
  · obtain ⟨a, ha, rfl⟩ := List.mem_map.1 h1
    exact .inr (.inl ⟨a, ha, h2, h3⟩)
  · obtain ⟨a, ha, rfl⟩ := List.mem_map.1 h1
    obtain ⟨x, hx, rfl⟩ := Option.map_eq_some_iff.1 h2
    exact .inr (.inr (.inl ⟨a, ha, x, t, hx, anyBack_texture h3, h4⟩))
  · exact .inr (.inr (.inr ⟨t, anyBack_texture h1, h2⟩))

theorem uses_type {rs : Resources} {any : List AnyElem} {l : Str × Str} (h : Uses rs any l) : l.1 ≠ relModel := by
  rcases h with ⟨t, h1, h2⟩ | ⟨ob, h1, h2, h3⟩ | ⟨ob, h1, me, t, h2, h3, h4⟩ | ⟨t, h1, h2⟩ <;> subst l <;>
    first | exact (by decide +kernel : relTexture ≠ relModel) | exact (by decide +kernel : relThumbnail ≠ relModel)

theorem link_path {rels : List Relationship} {p : Str} : p ∈ rels.map (·.path) ↔ ∃ l ∈ rels.map relLink, l.2 = p := by
  simp [relLink]

/-- The relationships of a part that was read do not change any more. -/
theorem nearRels_twice {rels rels1 rels2 : List Relationship} {rs rs1 : Resources} {any any1 : List AnyElem}
    (h1 : NearRels rels rs any rels1) (h2 : NearRels rels1 rs1 any1 rels2) (hu : ∀ l, Uses rs1 any1 l → Uses rs any l) :
    SameLinks rels1 rels2 := by
  intro l
  constructor
  · intro h
    obtain ⟨r, hr, rfl⟩ := List.mem_map.1 h
    exact h2.kept r hr
  · intro h
    rcases h2.added l h with g | g
    · exact g
    · rcases h2.nothingElse l h with h3 | h3
      · exact h3
      · exact absurd (h1.used l (hu l h3)) g

namespace BackPackage

variable {env : Env} {o : Opc} {prec : Int} {m m' : Model}

theorem fields (h : BackPackage prec m m') : m'.thumbnail = m.thumbnail ∧ m'.extensions = m.extensions ∧
    m'.resources = m.resources.back prec ∧ m'.any = anyBack prec m.any := by
  have := h.model
  refine ⟨?_, ?_, ?_, ?_⟩ <;> rw [this] <;> rfl

theorem pathOrDefault_eq (h : BackPackage prec m m') : m'.pathOrDefault = m.pathOrDefault := by
  have hp := h.path
  have : m.pathOrDefault ≠ [] := by
    unfold Model.pathOrDefault
    split
    · decide +kernel
    · assumption
  rw [show m'.pathOrDefault = m'.path from if_neg (by rw [hp]; exact this), hp]

theorem child (h : BackPackage prec m m') (hk : (m.childs.map (·.1)).Nodup) {p : Str} {c' : ChildModel} (hc : (p, c') ∈ m'.childs) :
    ∃ c, (p, c) ∈ m.childs ∧ c'.resources = c.resources.back prec ∧ c'.any = c.any ∧
      NearRels c.relationships c.resources c.any c'.relationships := by
  obtain ⟨⟨q, c⟩, hq, e⟩ := List.mem_map.1 (h.paths.mem_iff.1 (List.mem_map_of_mem (f := (·.1)) hc))
  obtain rfl : q = p := e
  obtain ⟨c2, g1, g2⟩ := h.childs q c hq
  have : c2 = c' := by
    have := List.inj_on_of_nodup_map (h.paths.nodup_iff.2 hk) g1 hc rfl
    exact congrArg Prod.snd this
  subst this
  exact ⟨c, hq, g2⟩

theorem leads (h : BackPackage prec m m') (hk : (m.childs.map (·.1)).Nodup) (hw : ∀ x ∈ m.childs, x.2.any = []) (p : Str) :
    Leads m' p ↔ Leads m p := by
  obtain ⟨e1, e2, e3, e4⟩ := h.fields
  constructor
  · rintro ⟨l, hl, g | g | ⟨⟨q, c'⟩, hx, g⟩⟩
    · rcases g with g | g
      · exact ⟨l, hl, .inl ((h.rootRelationships.2 l).1 g)⟩
      · rw [e1] at g
        exact ⟨l, hl, .inl (.inr g)⟩
    · rcases g with g | g
      · exact ⟨l, hl, .inr (.inl (h.relationships.nothingElse l g))⟩
      · rw [e3, e4] at g
        exact ⟨l, hl, .inr (.inl (.inr (uses_back g)))⟩
    · obtain ⟨c, k1, k2, k3, k4⟩ := h.child hk hx
      refine ⟨l, hl, .inr (.inr ⟨_, k1, ?_⟩)⟩
      rcases g with g | g
      · exact k4.nothingElse l g
      · simp only at g
        have hn : c.any = [] := hw _ k1
        rw [k2, k3, hn, show ([] : List AnyElem) = anyBack prec [] from rfl] at g
        rw [hn]
        exact .inr (uses_back g)
  · rintro ⟨l, rfl, g | g | ⟨⟨q, c⟩, hx, g⟩⟩
    · exact ⟨l, rfl, .inl (.inl ((h.rootRelationships.2 l).2 g))⟩
    · have : l.2 ∈ m'.relationships.map (·.path) := by
        rcases g with g | g
        · obtain ⟨r, hr, rfl⟩ := List.mem_map.1 g
          exact link_path.2 ⟨_, h.relationships.kept r hr, rfl⟩
        · exact h.relationships.used l g
      obtain ⟨l', hl', e⟩ := link_path.1 this
      exact ⟨l', e, .inr (.inl (.inl hl'))⟩
    · obtain ⟨c', k1, k2, k3, k4⟩ := h.childs q c hx
      have : l.2 ∈ c'.relationships.map (·.path) := by
        rcases g with g | g
        · obtain ⟨r, hr, rfl⟩ := List.mem_map.1 g
          exact link_path.2 ⟨_, k4.kept r hr, rfl⟩
        · exact k4.used l g
      obtain ⟨l', hl', e⟩ := link_path.1 this
      exact ⟨l', e, .inr (.inr ⟨_, k1, .inl hl'⟩)⟩

theorem link_types {rels rels' : List Relationship} {rs : Resources} {any : List AnyElem} (h : NearRels rels rs any rels')
    (ht : ∀ r ∈ rels, r.type ≠ relModel) : ∀ r ∈ rels', r.type ≠ relModel := by
  intro r hr
  rcases h.nothingElse _ (List.mem_map_of_mem hr) with g | g
  · obtain ⟨r', hr', e⟩ := List.mem_map.1 g
    have : r'.type = r.type := congrArg Prod.fst e
    exact this ▸ ht r' hr'
  · exact uses_type g

/-- What was read can be saved again. -/
theorem savable (h : BackPackage prec m m') (hk : (m.childs.map (·.1)).Nodup) (hs : Savable env o m) : Savable env o m' := by
  obtain ⟨e1, e2, e3, e4⟩ := h.fields
  obtain ⟨hp, hw, hc⟩ := hs
  have hl := h.leads hk fun x hx => (hc x hx).any
  refine ⟨⟨?_, ?_, ?_, ?_, ?_, ?_, ?_, ?_⟩, ?_, ?_⟩
  · rw [h.pathOrDefault_eq]; exact hp.root
  · exact fun a ha => hp.attachments a ((h.attachments a).1 ha).1
  · rintro ⟨p, c'⟩ hx
    obtain ⟨c, k1, -⟩ := h.child hk hx
    exact hp.childs (p, c) k1
  · refine List.Nodup.map_on (fun a ha b hb e => ?_) h.once
    exact List.inj_on_of_nodup_map hp.once ((h.attachments a).1 ha).1 ((h.attachments b).1 hb).1 e
  · intro r hr
    rcases (h.rootRelationships.2 _).1 (List.mem_map_of_mem hr) with g | g
    · obtain ⟨r', hr', e⟩ := List.mem_map.1 g
      have : r'.type = r.type := congrArg Prod.fst e
      exact this ▸ hp.pkgTypes r' hr'
    · have : r.type = relThumbnail := congrArg Prod.fst g.2
      rw [this]
      decide +kernel
  · exact link_types h.relationships hp.rootTypes
  · rintro ⟨p, c'⟩ hx
    obtain ⟨c, k1, k2, k3, k4⟩ := h.child hk hx
    exact link_types k4 (hp.childTypes _ k1)
  · intro p g
    have g := (hl p).1 g
    obtain ⟨a, ha, rfl⟩ := List.mem_map.1 (hp.targets p g)
    exact List.mem_map_of_mem ((h.attachments a).2 ⟨ha, g⟩)
  · have := model_back_writable (prec := prec) hw
    rw [h.model]
    exact ⟨this.extensions, this.distinct, this.language, this.thumbnail, this.attrs, this.noXml, this.metadata, this.assets, this.objects,
      this.resourcesAttrs, this.items, this.buildAttrs, this.any⟩
  · rintro ⟨p, c'⟩ hx
    obtain ⟨c, k1, k2, k3, k4⟩ := h.child hk hx
    have g := hc _ k1
    refine ⟨?_, ?_, ?_, k3.trans g.any⟩
    · intro a ha
      simp only [k2] at ha
      obtain ⟨x, hx, rfl⟩ := List.mem_map.1 ha
      have hw := g.assets x hx
      rw [e2]
      cases x with
      | base => exact hw
      | unknown => exact hw
      | res x => exact res_back_writable hw
    · intro a ha
      simp only [k2] at ha
      obtain ⟨x, hx, rfl⟩ := List.mem_map.1 ha
      rw [e2]
      exact object_back_writable (g.objects x hx)
    · simp only [k2, e2]
      exact g.attrs

/-- The names of the parts are accepted again. -/
theorem accepted (h : BackPackage prec m m') (ha : Accepted env o m) : Accepted env o m' := by
  have hd := List.nodup_append.1 ha.distinct
  have hperm : (env.fold m'.pathOrDefault :: m'.childs.map fun x => env.fold x.1).Perm
      (env.fold m.pathOrDefault :: m.childs.map fun x => env.fold x.1) := by
    rw [h.pathOrDefault_eq]
    have := h.paths.map env.fold
    rw [List.map_map, List.map_map] at this
    exact .cons _ this
  refine ⟨List.nodup_append.2 ⟨?_, hperm.nodup_iff.2 hd.2.1, ?_⟩, fun a g => ha.attachments a ((h.attachments a).1 g).1, fun p hp => ha.models p ?_⟩
  · refine List.Nodup.map_on (fun a g b hb e => ?_) h.once
    exact List.inj_on_of_nodup_map hd.1 ((h.attachments a).1 g).1 ((h.attachments b).1 hb).1 e
  · intro x hx y hy
    obtain ⟨a, g, rfl⟩ := List.mem_map.1 hx
    exact hd.2.2 _ (List.mem_map_of_mem ((h.attachments a).1 g).1) y (hperm.mem_iff.1 hy)
  · rw [h.pathOrDefault_eq] at hp
    exact (List.Perm.cons _ h.paths).mem_iff.1 hp

/-- Two rounds: only the numbers can still change. -/
theorem same {m'' : Model} (h : BackPackage prec m m') (h' : BackPackage prec m' m'') (hk : (m.childs.map (·.1)).Nodup)
    (hw : ∀ x ∈ m.childs, x.2.any = []) (hm : m'.back prec = m.back prec)
    (hc : ∀ x ∈ m.childs, (x.2.resources.back prec).back prec = x.2.resources.back prec) : SamePackage m' m'' := by
  obtain ⟨e1, e2, e3, e4⟩ := h.fields
  refine ⟨?_, ?_, h'.paths, ?_, ?_, ?_, ?_⟩
  · have g1 := h.model
    have g2 := h'.model
    rw [hm] at g2
    rw [g1]
    exact g2
  · rw [h'.path, h.pathOrDefault_eq, h.path]
  · intro p c' hp
    obtain ⟨c, k1, k2, k3, k4⟩ := h.child hk hp
    obtain ⟨c2, l1, l2, l3, l4⟩ := h'.childs p c' hp
    refine ⟨c2, l1, ?_, l3, nearRels_twice k4 l4 fun l g => ?_⟩
    · rw [l2, k2, hc _ k1]
    · have hn : c.any = [] := hw _ k1
      rw [k2, k3, hn, show ([] : List AnyElem) = anyBack prec [] from rfl] at g
      rw [hn]
      exact uses_back g
  · intro l
    rw [h'.rootRelationships.2 l]
    refine ⟨fun g => .inl g, fun g => ?_⟩
    rcases g with g | g
    · exact g
    · rw [e1] at g
      exact (h.rootRelationships.2 l).2 (.inr g)
  · refine nearRels_twice h.relationships h'.relationships fun l g => ?_
    rw [e3, e4] at g
    exact uses_back g
  · intro a
    rw [h'.attachments a]
    refine ⟨fun g => g.1, fun g => ⟨g, ?_⟩⟩
    rw [h.leads hk hw]
    exact ((h.attachments a).1 g).2

end BackPackage

/-! ## Rounds -/

section
variable {env : Env} {o : Opc} {prec : Int} {m m' : Model}

theorem resaved_back (ho : o.Distinct) (hs : Savable env o m) (h : Resaved env o prec m m') :
    BackPackage prec m m' ∧ (m.childs.map (·.1)).Nodup := by
  obtain ⟨strict, mem, order1, order2, pk, ip, r, h1, h2, h3, h4, h5⟩ := h
  have hr : Reread env o prec m order1 order2 pk ip := ⟨ho, hs.packed, h1, h2, h3, h4⟩
  exact ⟨((package_back (c := ⟨env, strict, mem⟩) hr hs.writable hs.childs).1 m' r h5).2, hr.childKeys⟩

theorem back_model (h : BackPackage prec m m') : m'.back prec = (m.back prec).back prec := by
  rw [h.model]
  rfl

/-- **C65** (saving): a model that the library accepts can be saved for every order of the child models, and what was saved is read
without error. -/
theorem C65_package_saves (ho : o.Distinct) (hs : Savable env o m) (ha : Accepted env o m) (order1 : List Str)
    (order2 : List (Str × ChildModel)) (h1 : order1.Perm (m.childs.map (·.1))) (h2 : order2.Perm m.childs) :
    ∃ pk, encodePkg o prec m order1 order2 = some pk ∧ ∀ ip, Reopened pk ip → ∀ strict mem,
      (∀ m' r, DecodesBg ⟨env, strict, mem⟩ o ip .zero m' r → r = .root .ok) ∧
      ∃ m', DecodesBg ⟨env, strict, mem⟩ o ip .zero m' (.root .ok) ∧ Savable env o m' ∧ Accepted env o m' := by
  have hd := List.nodup_append.1 ha.distinct
  have hd2 := List.nodup_cons.1 hd.2.1
  have e1 := writeAttachments_ok (env := env) (o := o) (as := m.attachments) (ps := [])
    (fun a h => ⟨(hs.packed.attachments a h).1, ha.attachments a h⟩) hd.1 (by simp)
  rw [List.nil_append] at e1
  have hacc : o.accepts ((m.attachments.map (attachmentPart o)).map (·.name)) (o.norm m.pathOrDefault) contentTypeModel = true := by
    rw [hs.packed.root.1]
    refine ha.models _ List.mem_cons_self _ fun n hn => ?_
    obtain ⟨p, hp, rfl⟩ := List.mem_map.1 hn
    obtain ⟨a, h, rfl⟩ := List.mem_map.1 hp
    show env.fold (o.norm a.path) ≠ _
    rw [(hs.packed.attachments a h).1]
    exact hd.2.2 _ (List.mem_map_of_mem h) _ List.mem_cons_self
  obtain ⟨qs, e3⟩ := writeChilds_ok (env := env) (o := o) (m := m) (prec := prec) (cs := order2)
    (ps := m.attachments.map (attachmentPart o) ++ [⟨o.norm m.pathOrDefault, contentTypeModel, m.partBytes prec,
      (m.rootPartRels order1).foldl opcAddRel []⟩])
    (fun x hx => ⟨(hs.packed.childs x (h2.mem_iff.1 hx)).1,
      ha.models _ (List.mem_cons_of_mem _ (List.mem_map_of_mem (h2.mem_iff.1 hx)))⟩)
    ((h2.map _).nodup_iff.2 hd2.2) (by
      intro x hx p hp
      have hx' : env.fold x.1 ∈ m.childs.map fun x => env.fold x.1 := List.mem_map_of_mem (h2.mem_iff.1 hx)
      rcases List.mem_append.1 hp with hp | hp
      · obtain ⟨a, h, rfl⟩ := List.mem_map.1 hp
        show env.fold (o.norm a.path) ≠ _
        rw [(hs.packed.attachments a h).1]
        exact hd.2.2 _ (List.mem_map_of_mem h) _ (List.mem_cons_of_mem _ hx')
      · rw [List.mem_singleton] at hp
        subst hp
        show env.fold (o.norm m.pathOrDefault) ≠ _
        rw [hs.packed.root.1]
        exact fun e => hd2.1 (e ▸ hx'))
  have he : encodePkg o prec m order1 order2 = some ⟨m.pkgRels.foldl opcAddRel [], qs⟩ := by
    rw [encodePkg, e1, Option.bind_some, createPart, if_pos hacc, Option.bind_some, e3, Option.map_some]
  refine ⟨_, he, fun ip hr strict mem => ?_⟩
  have hrr : Reread env o prec m order1 order2 _ ip := ⟨ho, hs.packed, h1, h2, he, hr⟩
  obtain ⟨g1, m', g2⟩ := package_back (c := ⟨env, strict, mem⟩) hrr hs.writable hs.childs
  have g3 := (g1 m' _ g2).2
  exact ⟨fun m' r h => (g1 m' r h).1, m', g2, g3.savable hrr.childKeys hs, g3.accepted ha⟩

/-- **C65** (packages): whenever a model is saved as a package and read three times, the third result is the same as the second, for
every order of the child models and every interleaving of the goroutines; if no value becomes a default value by rounding, already
the second is the same as the first. -/
theorem C65_package (env : Env) (o : Opc) (prec : Int) (m m1 m2 : Model) (ho : o.Distinct) (hs : Savable env o m)
    (h1 : Resaved env o prec m m1) (h2 : Resaved env o prec m1 m2) :
    (∀ m3, Resaved env o prec m2 m3 → SamePackage m2 m3) ∧ (SettledPackage prec m → SamePackage m1 m2) := by
  obtain ⟨b1, k1⟩ := resaved_back ho hs h1
  have s1 := b1.savable k1 hs
  obtain ⟨b2, k2⟩ := resaved_back ho s1 h2
  have s2 := b2.savable k2 s1
  refine ⟨fun m3 h3 => ?_, fun hset => ?_⟩
  · obtain ⟨b3, k3⟩ := resaved_back ho s2 h3
    refine b2.same b3 k2 (fun x hx => (s1.childs x hx).any) ?_ ?_
    · rw [back_model b2, back_model b1, Model.back_thrice]
    · rintro ⟨p, c'⟩ hx
      obtain ⟨c, l1, l2, -⟩ := b1.child k1 hx
      simp only [l2, Resources.back_thrice]
  · refine b1.same b2 k1 (fun x hx => (hs.childs x hx).any) ?_ ?_
    · rw [back_model b1, Model.back_twice hset.model]
    · intro x hx
      exact Resources.back_twice (hset.assets x hx) (hset.objects x hx)

/-- **C65** (packages): a model that the library accepts can be saved and read as often as one likes. -/
theorem C65_package_again (env : Env) (o : Opc) (prec : Int) (m : Model) (ho : o.Distinct) (hs : Savable env o m) (ha : Accepted env o m) :
    ∃ m', Resaved env o prec m m' ∧ Savable env o m' ∧ Accepted env o m' := by
  obtain ⟨pk, h1, h2⟩ := C65_package_saves (prec := prec) ho hs ha _ _ (List.Perm.refl _) (List.Perm.refl _)
  obtain ⟨-, m', h3, h4, h5⟩ := h2 (reopen pk) (reopen_spec pk) true (fun _ _ t => t)
  exact ⟨m', ⟨true, fun _ _ t => t, _, _, pk, reopen pk, .root .ok, .refl _, .refl _, h1, reopen_spec pk, h3⟩, h4, h5⟩

end

/-! ## Example -/

theorem c65_savable : Savable exEnv c50Opc c55Model := ⟨c55_packed, c55_writable, fun x hx => (c55_child x hx).1⟩

theorem c65_accepted : Accepted exEnv c50Opc c55Model :=
  ⟨by decide +kernel, fun a _ names h => decide_eq_true fun hn => h _ hn rfl, fun p _ names h => decide_eq_true fun hn => h _ hn rfl⟩

/-- The model of C55 is saved three times. -/
example : ∃ m1 m2 m3, Resaved exEnv c50Opc 4 c55Model m1 ∧ Resaved exEnv c50Opc 4 m1 m2 ∧ Resaved exEnv c50Opc 4 m2 m3 ∧ SamePackage m2 m3 := by
  have ho : c50Opc.Distinct := fun _ _ _ h => by simpa [c50Opc] using h
  obtain ⟨m1, h1, s1, a1⟩ := C65_package_again exEnv c50Opc 4 c55Model ho c65_savable c65_accepted
  obtain ⟨m2, h2, s2, a2⟩ := C65_package_again exEnv c50Opc 4 m1 ho s1 a1
  obtain ⟨m3, h3, -⟩ := C65_package_again exEnv c50Opc 4 m2 ho s2 a2
  exact ⟨m1, m2, m3, h1, h2, h3, (C65_package exEnv c50Opc 4 c55Model m1 m2 ho c65_savable h1 h2).1 m3 h3⟩

end Go3mf
