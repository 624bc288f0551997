import Verif.Lemmas.AlikeRuns
import Verif.Props.C63
import Verif.Props.C55
import Verif.Props.C07
import Verif.Lemmas.StableNum

/-!
# C64: saving and loading does not change the result of validation

Numbers are rounded when a model is written.  If the heights of slices, the radii of beams and the entries of transforms that
`Validate` looks at survive (`Spec.StableModel`), `Validate` says the same of the model before and after.
-/

namespace Go3mf
open Spec

/-- Two models that agree for the rules and have the same relationships, child paths included. -/
theorem modelRule_alike {env : Env} {m m' : Model} (h : Alike env m m') (ha : m'.attachments = m.attachments)
    (hr : m'.rootRelationships = m.rootRelationships) (hr' : m'.relationships = m.relationships)
    (hc : ∀ p c, (p, c) ∈ m.childs → ∃ c', (p, c') ∈ m'.childs ∧ AlikeResources c.resources c'.resources ∧ c'.relationships = c.relationships)
    {loc : List Level} {l : Leaf} {p : Str} (hm : ModelRule env m loc l p) : ModelRule env m' loc l p := by
  have ht : ∀ q, target env m' q = target env m q := fun q => by unfold target; rw [ha]
  have hf : ∀ rs r s, RelFault env m' rs r s ↔ RelFault env m rs r s := by
    intro rs r s
    cases s <;> simp only [RelFault, IsTicket, ht]
  cases hm with
  | packageRel h1 h2 => exact .packageRel (by rw [hr]; exact h1) (by rw [hr]; exact (hf ..).2 h2)
  | rel h1 h2 => rw [← h.path]; exact .rel (by rw [hr']; exact h1) (by rw [hr']; exact (hf ..).2 h2)
  | childRel h1 h2 h3 h4 =>
    obtain ⟨c', h5, -, h6⟩ := hc _ _ h1
    exact .childRel h5 (by rw [h.path]; exact h2) (by rw [h6]; exact h3) (by rw [h6]; exact (hf ..).2 h4)
  | childName h1 h2 =>
    obtain ⟨c', h5, -⟩ := hc _ _ h1
    exact .childName h5 (by rw [h.path]; exact h2)
  | extension h1 h2 h3 => exact .extension (by rw [h.extensions]; exact h1) h2 h3
  | metadata h1 => exact .metadata (by rw [h.metadata]; exact h1.alike h.extensions)
  | production h1 h2 => exact .production (h1.alike h) (h2.alike h)
  | child h1 h2 =>
    obtain ⟨c', h5, h6, -⟩ := hc _ _ h1
    exact .child h5 (h2.alike h h6 fun t ht => h.textures _ (.inr ⟨_, h1, rfl⟩) t ht)
  | root h1 => exact .root (by rw [h.path]; exact h1.alike h h.resources fun t ht => h.textures _ (.inl rfl) t ht)
  | item h1 h2 =>
    obtain ⟨i, h3, h4⟩ := forall2_getElem h.items h1
    exact .item h3 (h2.alike h h4)

/-- A model that agrees with another up to the precision of numbers, and has the same other parts. -/
theorem near_alike (env : Env) {prec : Int} {m m' : Model} (h : NearModel prec m m') (hs : StableModel prec m) (hp : m'.path = m.path)
    (ha : m'.attachments = m.attachments) (hc : m'.childs = m.childs) : Alike env m m' where
  path := by unfold rootPath; rw [hp]
  extensions := h.extensions
  metadata := h.metadata
  resources := near_resources_alike h.resources hs.resources
  items := near_items_alike h.build.items hs.items
  build := h.build.anyAttr
  childs p c hx := ⟨c, hc ▸ hx, alike_refl _⟩
  childs' p c hx := ⟨c, hc ▸ hx, alike_refl _⟩
  textures := by intros; rw [ha]
where
  alike_refl (rs : Resources) : AlikeResources rs rs := by
    refine ⟨List.forall₂_same.2 fun a _ => .same a, List.forall₂_same.2 fun o _ => ?_⟩
    refine ⟨rfl, rfl, rfl, rfl, ?_, ?_, rfl⟩
    · cases o.mesh with
      | none => exact .none
      | some x => exact .some ⟨rfl, List.forall₂_same.2 fun t _ => ⟨rfl, rfl, rfl, .inl ⟨rfl, rfl, rfl, rfl⟩⟩, .rfl, rfl⟩
    · cases o.components with
      | none => exact .none
      | some x => exact .some (List.forall₂_same.2 fun t _ => ⟨rfl, .rfl, rfl⟩)

/-- **C64**: validation of the model that is decoded from the root part that `Encode` writes returns the errors that validation of
the original returns, if it returns, and vice versa.  The decoder starts with the path, the other parts and the relationships
of the model. -/
theorem C64_part (env : Env) (mem : Nat → Str → Str) (strict : Bool) (prec : Int) (m : Model) (hwf : m.WF)
    (hw : Writable env m) (hk : ModelOk prec m) (hs : StableModel prec m) :
    ∃ m', decodeEvents ⟨env, true, mem⟩ strict (fun _ => false) { Model.zero with
        path := m.path
        attachments := m.attachments
        childs := m.childs
        rootRelationships := m.rootRelationships
        relationships := m.relationships } m.path (lex .eof (.new (m.partBytes prec))).1
        (lex .eof (.new (m.partBytes prec))).2 = some (m', .ok) ∧
      ((∃ errs, m.Validate env errs) ↔ ∃ errs', m'.Validate env errs') ∧
      ∀ errs errs', m.Validate env errs → m'.Validate env errs' → ∀ e, e ∈ errs' ↔ e ∈ errs := by
  obtain ⟨m', h1, h2, h3, h4, h5, h6, h7⟩ := C28_part env mem strict prec m { Model.zero with
        path := m.path
        attachments := m.attachments
        childs := m.childs
        rootRelationships := m.rootRelationships
        relationships := m.relationships } m.path hw hk rfl rfl
  have ha : Alike env m m' := near_alike env h2 hs h3 h4 h5
  have hwf' : m'.WF := by
    unfold Model.WF at hwf ⊢
    rw [show m'.childs = m.childs from h5]
    exact hwf
  refine ⟨m', h1, ⟨fun ⟨errs, h⟩ => validate_alike ha hwf hwf' h, fun ⟨errs, h⟩ => validate_alike ha.symm hwf' hwf h⟩, ?_⟩
  intro errs errs' hv hv' e
  rw [C63_exact env m hwf errs hv, C63_exact env m' hwf' errs' hv']
  constructor
  · rintro ⟨loc, l, p, hr, he⟩
    exact ⟨loc, l, p, modelRule_alike ha.symm h4.symm h6.symm h7.symm (fun p c hx => ⟨c, h5 ▸ hx, near_alike.alike_refl _, rfl⟩) hr, he⟩
  · rintro ⟨loc, l, p, hr, he⟩
    exact ⟨loc, l, p, modelRule_alike ha h4 h6 h7 (fun p c hx => ⟨c, (show m'.childs = m.childs from h5) ▸ hx, near_alike.alike_refl _, rfl⟩) hr, he⟩

/-! ## Packages -/

section Package

variable {env : Env} {o : Opc} {prec : Int} {m m' : Model}

theorem package_alike (hn : NearPackage prec m m') (hp : Packed env o m) (hs : StableModel prec m) (hwf : m.WF) : Alike env m m' where
  path := by
    have h : rootPath m = m.pathOrDefault := rfl
    have hne : m.pathOrDefault ≠ [] := by
      unfold Model.pathOrDefault
      split
      · decide
      · assumption
    rw [h]
    unfold rootPath
    rw [hn.path, if_neg hne]
  extensions := hn.model.extensions
  metadata := hn.model.metadata
  resources := near_resources_alike hn.model.resources hs.resources
  items := near_items_alike hn.model.build.items hs.items
  build := hn.model.build.anyAttr
  childs p c hx := by
    obtain ⟨c', h1, h2, -⟩ := hn.childs p c hx
    exact ⟨c', h1, near_resources_alike h2 (hs.childs _ hx)⟩
  childs' p c' hx := by
    obtain ⟨⟨q, c⟩, h1, h2⟩ := List.mem_map.1 (hn.paths.mem_iff.1 (List.mem_map_of_mem (f := (·.1)) hx))
    cases h2
    obtain ⟨c'', h3, h4, -⟩ := hn.childs _ c h1
    have hwf' : (m'.childs.map (·.1)).Nodup := hn.paths.nodup_iff.2 hwf
    have : c'' = c' := by
      have := nodup_fst hwf' _ h3 _ hx rfl
      exact congrArg Prod.snd this
    subst this
    exact ⟨c, h1, near_resources_alike h4 (hs.childs _ h1)⟩
  textures := by
    intro rs hrs t ht
    have hl : Leads m t.path := by
      rcases hrs with rfl | ⟨x, hx, rfl⟩
      · exact ⟨(relTexture, t.path), rfl, .inr (.inl (.inr (.inl ⟨t, ht, rfl⟩)))⟩
      · exact ⟨(relTexture, t.path), rfl, .inr (.inr ⟨x, hx, .inr (.inl ⟨t, ht, rfl⟩)⟩)⟩
    obtain ⟨a, ha, he⟩ := List.mem_map.1 (hp.targets _ hl)
    have he' : a.path = t.path := he
    exact iff_of_true ⟨a, (hn.attachments a).2 ⟨ha, he' ▸ hl⟩, by rw [he']⟩ ⟨a, ha, by rw [he']⟩

/-- The attachment that a path leads to. -/
theorem target_found {p : Str} {a : Attachment} : target env m p = some a → a ∈ m.attachments ∧ env.fold a.path = env.fold p := by
  intro h
  unfold target at h
  exact ⟨List.mem_of_find?_eq_some h, by simpa using List.find?_some h⟩

theorem target_unique (ho : OnceEach env m.attachments) {p : Str} {a : Attachment} (ha : a ∈ m.attachments)
    (hp : env.fold a.path = env.fold p) : target env m p = some a := by
  cases h : target env m p with
  | none =>
    unfold target at h
    rw [List.find?_eq_none] at h
    exact absurd hp (by simpa using h a ha)
  | some b =>
    obtain ⟨h1, h2⟩ := target_found h
    have := List.inj_on_of_nodup_map ho h1 ha (h2.trans hp.symm)
    rw [this]

theorem take_some_iff {α : Type} {l : List α} {n j : Nat} {x : α} : (l.take n)[j]? = some x ↔ j < n ∧ l[j]? = some x := by
  rw [List.getElem?_take]
  split <;> simp [*]

/-- Relationships that were read: if those that were written have no fault, they have none. -/
theorem rels_ok (hn : NearPackage prec m m') (hp : Packed env o m) (hpart : ∀ p, Leads m p → PartName p)
    {rels rels' : List Relationship} (hok : RelsOk env m rels) (honce : (rels'.map relLink).Nodup)
    (hleads : ∀ r ∈ rels', Leads m r.path) (hticket : ∀ r ∈ rels', r.type = relPrintTicket → relLink r ∈ rels.map relLink) :
    RelsOk env m' rels' := by
  have hfound : ∀ r ∈ rels', ∃ a, target env m r.path = some a ∧ a ∈ m'.attachments := by
    intro r hr
    have hl := hleads r hr
    obtain ⟨a, ha, he⟩ := List.mem_map.1 (hp.targets _ hl)
    have he' : a.path = r.path := he
    exact ⟨a, target_unique hp.once ha (by rw [he']), (hn.attachments a).2 ⟨ha, he' ▸ hl⟩⟩
  have honce' : OnceEach env m'.attachments := by
    unfold OnceEach
    refine List.Nodup.map_on ?_ hn.once
    intro x hx y hy hxy
    exact List.inj_on_of_nodup_map hp.once ((hn.attachments x).1 hx).1 ((hn.attachments y).1 hy).1 hxy
  have htarget : ∀ r ∈ rels', target env m' r.path = target env m r.path := by
    intro r hr
    obtain ⟨a, h1, h2⟩ := hfound r hr
    rw [h1]
    exact target_unique honce' h2 (target_found h1).2
  intro i r hi s hf
  have hr := List.mem_of_getElem? hi
  obtain ⟨a, h1, h2⟩ := hfound r hr
  have hpos : ∀ r1 ∈ rels', r1.type = relPrintTicket → ∃ (j : Nat) (r2 : Relationship), rels[j]? = some r2 ∧ r2.path = r1.path ∧ r2.type = r1.type := by
    intro r1 hr1 ht
    obtain ⟨r2, h3, h4⟩ := List.mem_map.1 (hticket r1 hr1 ht)
    obtain ⟨j, hj⟩ := List.getElem?_of_mem h3
    exact ⟨j, r2, hj, congrArg Prod.snd h4, congrArg Prod.fst h4⟩
  cases s <;> simp only [RelFault] at hf
  case opcPartName => exact hf (hpart _ (hleads r hr))
  case opcRelTarget => rw [htarget r hr, h1] at hf; cases hf.2
  case opcDuplicatedRel =>
    obtain ⟨-, r', h3, h4, h5⟩ := hf
    obtain ⟨j, hj⟩ := List.getElem?_of_mem h3
    obtain ⟨hji, hj'⟩ := take_some_iff.1 hj
    have e : (rels'.map relLink)[j]? = (rels'.map relLink)[i]? := by
      rw [List.getElem?_map, List.getElem?_map, hj', hi]
      simp only [Option.map_some, relLink, h4, h5]
    have hlen : j < (rels'.map relLink).length := by
      rw [List.length_map]
      exact (List.getElem?_eq_some_iff.1 hj').1
    have := (List.getElem?_inj hlen honce).1 e
    omega
  case opcContentType =>
    obtain ⟨ht, b, h3, h4⟩ := hf
    obtain ⟨j, r2, h5, h6, h7⟩ := hpos r hr ht
    rw [htarget r hr] at h3
    exact hok j r2 h5 .opcContentType ⟨h7.trans ht, b, by rw [h6]; exact h3, h4⟩
  case opcDuplicatedTicket =>
    obtain ⟨⟨ht, -⟩, r', h3, ⟨ht', -⟩⟩ := hf
    have hr' : r' ∈ rels' := List.mem_of_mem_take h3
    obtain ⟨a', h1', -⟩ := hfound r' hr'
    obtain ⟨j, r2, h5, h6, h7⟩ := hpos r hr ht
    obtain ⟨j', r2', h5', h6', h7'⟩ := hpos r' hr' ht'
    have tk : IsTicket env m r2 := ⟨h7.trans ht, by rw [h6, h1]; simp⟩
    have tk' : IsTicket env m r2' := ⟨h7'.trans ht', by rw [h6', h1']; simp⟩
    rcases Nat.lt_trichotomy j j' with h | rfl | h
    · exact hok j' r2' h5' .opcDuplicatedTicket ⟨tk', r2, List.mem_of_getElem? (take_some_iff.2 ⟨h, h5⟩), tk⟩
    · rw [h5, Option.some.injEq] at h5'
      subst h5'
      obtain ⟨k, hk⟩ := List.getElem?_of_mem h3
      obtain ⟨hki, hk'⟩ := take_some_iff.1 hk
      have e : (rels'.map relLink)[k]? = (rels'.map relLink)[i]? := by
        rw [List.getElem?_map, List.getElem?_map, hk', hi]
        simp only [Option.map_some, relLink, ← h6, ← h6', ht, ht']
      have hlen : k < (rels'.map relLink).length := by
        rw [List.length_map]
        exact (List.getElem?_eq_some_iff.1 hk').1
      have := (List.getElem?_inj hlen honce).1 e
      omega
    · exact hok j r2 h5 .opcDuplicatedTicket ⟨tk, r2', List.mem_of_getElem? (take_some_iff.2 ⟨h, h5'⟩), tk'⟩

theorem texture_ne_ticket : relTexture ≠ relPrintTicket := by decide +kernel
theorem thumbnail_ne_ticket : relThumbnail ≠ relPrintTicket := by decide +kernel

theorem uses_ticket {rs : Resources} {any : List AnyElem} {l : Str × Str} (h : Uses rs any l) : l.1 ≠ relPrintTicket := by
  rcases h with ⟨t, -, rfl⟩ | ⟨ob, -, -, rfl⟩ | ⟨ob, -, me, t, -, -, rfl⟩ | ⟨t, -, rfl⟩
  · exact texture_ne_ticket
  · exact thumbnail_ne_ticket
  · exact texture_ne_ticket
  · exact texture_ne_ticket

/-- **C64**: a model that `Validate` accepts, written as a package and read again, is accepted.  Besides the conditions of C55 and the
numbers that must survive, the files that the package refers to have valid part names. -/
theorem C64_package (c : PkgCfg) (o : Opc) (prec : Int) (m : Model) (order1 : List Str) (order2 : List (Str × ChildModel))
    (pk : OutPkg) (ip : InPkg) (ho : o.Distinct) (hp : Packed c.env o m) (hw : Writable c.env m) (hk : ModelOk prec m)
    (hc : ∀ x ∈ m.childs, ChildWritable c.env m.extensions x.2 ∧ ChildOk prec x.2)
    (h1 : order1.Perm (m.childs.map (·.1))) (h2 : order2.Perm m.childs)
    (he : encodePkg o prec m order1 order2 = some pk) (hr : Reopened pk ip)
    (hs : StableModel prec m) (hpart : ∀ p, Leads m p → PartName p) (hacc : m.Accepts c.env) :
    (∀ m' r, DecodesBg c o ip .zero m' r → r = .root .ok ∧ m'.Accepts c.env) ∧ ∃ m', DecodesBg c o ip .zero m' (.root .ok) := by
  obtain ⟨h3, h4⟩ := C55_package_partial c o prec m order1 order2 pk ip ho hp hw hk hc h1 h2 he hr
  refine ⟨fun m' r hd => ?_, h4⟩
  obtain ⟨h5, hn⟩ := h3 m' r hd
  refine ⟨h5, ?_⟩
  have hwf : m.WF := (Reread.mk ho hp h1 h2 he hr).childKeys
  have hwf' : m'.WF := hn.paths.nodup_iff.2 hwf
  have ha : Alike c.env m m' := package_alike hn hp hs hwf
  obtain ⟨errs, hv⟩ := validate_alike ha hwf hwf' hacc
  have hno := (C63_accepts c.env m hwf [] hacc).1 rfl
  have hroot : RelsOk c.env m' m'.rootRelationships := by
    refine rels_ok hn hp hpart (rels := m.rootRelationships) (fun i r hi s hf => hno _ _ _ (.packageRel hi hf)) hn.rootRelationships.1 ?_ ?_
    · intro r hr
      exact ⟨_, rfl, .inl ((hn.rootRelationships.2 _).1 (List.mem_map_of_mem (f := relLink) hr))⟩
    · intro r hr ht
      rcases (hn.rootRelationships.2 _).1 (List.mem_map_of_mem (f := relLink) hr) with h | ⟨-, h⟩
      · exact h
      · exact absurd (ht.symm.trans (congrArg Prod.fst h)) thumbnail_ne_ticket.symm
  have hpartRels : ∀ rels rs any rels', NearRels rels rs any rels' → RelsOk c.env m rels →
      (∀ l, PartLink rels rs any l → Leads m l.2) → RelsOk c.env m' rels' := by
    intro rels rs any rels' hnr hok hl
    refine rels_ok hn hp hpart hok hnr.once (fun r hr => hl _ (hnr.nothingElse _ (List.mem_map_of_mem (f := relLink) hr))) ?_
    intro r hr ht
    rcases hnr.nothingElse _ (List.mem_map_of_mem (f := relLink) hr) with h | h
    · exact h
    · exact absurd ht (uses_ticket h)
  have hrel : RelsOk c.env m' m'.relationships :=
    hpartRels _ _ _ _ hn.relationships (fun i r hi s hf => hno _ _ _ (.rel hi hf)) fun l hl => ⟨l, rfl, .inr (.inl hl)⟩
  have hempty : errs = [] := by
    rw [C63_accepts c.env m' hwf' errs hv]
    intro loc l p hm
    have back : ∀ p c', (p, c') ∈ m'.childs → ∃ c0, (p, c0) ∈ m.childs ∧ AlikeResources c'.resources c0.resources ∧
        NearRels c0.relationships c0.resources c0.any c'.relationships := by
      intro p c' hx
      obtain ⟨⟨q, c0⟩, g1, g2⟩ := List.mem_map.1 (hn.paths.mem_iff.1 (List.mem_map_of_mem (f := (·.1)) hx))
      cases g2
      obtain ⟨c'', g3, g4, -, g5⟩ := hn.childs _ c0 g1
      have : c'' = c' := congrArg Prod.snd (nodup_fst (show (m'.childs.map (·.1)).Nodup from hwf') _ g3 _ hx rfl)
      subst this
      exact ⟨c0, g1, (near_resources_alike g4 (hs.childs _ g1)).symm, g5⟩
    have has := ha.symm
    cases hm with
    | packageRel g1 g2 => exact hroot _ _ g1 _ g2
    | rel g1 g2 => exact hrel _ _ g1 _ g2
    | childRel g1 g2 g3 g4 =>
      obtain ⟨c0, g5, -, g6⟩ := back _ _ g1
      refine hpartRels _ _ _ _ g6 (fun i r hi s hf => ?_) (fun l hl => ⟨l, rfl, .inr (.inr ⟨_, g5, hl⟩)⟩) _ _ g3 _ g4
      exact hno _ _ _ (.childRel g5 (by rw [← ha.path]; exact g2) hi hf)
    | childName g1 g2 =>
      obtain ⟨c0, g5, -⟩ := back _ _ g1
      exact hno _ _ _ (.childName g5 (by rw [← ha.path]; exact g2))
    | extension g1 g2 g3 => exact hno _ _ _ (.extension (by rw [← ha.extensions]; exact g1) g2 g3)
    | metadata g1 => exact hno _ _ _ (.metadata (by rw [← ha.metadata]; exact g1.alike has.extensions))
    | production g1 g2 => exact hno _ _ _ (.production (g1.alike has) (g2.alike has))
    | child g1 g2 =>
      obtain ⟨c0, g5, g6, -⟩ := back _ _ g1
      exact hno _ _ _ (.child g5 (g2.alike has g6 fun t ht => has.textures _ (.inr ⟨_, g1, rfl⟩) t ht))
    | root g1 => exact hno _ _ _ (.root (by rw [← ha.path]; exact g1.alike has has.resources fun t ht => has.textures _ (.inl rfl) t ht))
    | item g1 g2 =>
      obtain ⟨i, g3, g4⟩ := forall2_getElem has.items g1
      exact hno _ _ _ (.item g3 (g2.alike has g4))
  rw [hempty] at hv
  exact hv

end Package

/-! ## Examples

A model with a texture, two slices, a tetrahedron that is built with a transform, and a child model. -/

def c64Exts : List Extension := [⟨nsSlices, b!"s", true⟩, ⟨nsMaterials, b!"m", true⟩]

def c64Slice (z : F32) : Slice :=
  ⟨z, [⟨.zero, .zero⟩, ⟨.one, .zero⟩, ⟨.zero, .one⟩], [⟨0, [⟨1, 0, 0, 0⟩, ⟨2, 0, 0, 0⟩, ⟨0, 0, 0, 0⟩]⟩]⟩

def c64Stack (z1 z2 : F32) : SliceStack := ⟨2, .zero, [c64Slice z1, c64Slice z2], []⟩

def c64Object : Object :=
  { Object.zero with
    id := 3
    mesh := some Spec.tetra
    anyAttr := [.sliceObject 2 .full] }

def c64With (z1 z2 : F32) (t : Matrix) : Model :=
  { Model.zero with
    extensions := c64Exts
    resources := { Resources.zero with
      assets := [.res (.texture2D ⟨1, b!"/t.png", .png, .wrap, .wrap, .auto⟩), .res (.sliceStack (c64Stack z1 z2))]
      objects := [c64Object] }
    build := { Build.zero with
      items := [{ Item.zero with
        objectID := 3
        transform := t }] }
    attachments := [⟨b!"tttt", b!"/t.png", b!"image/png"⟩]
    relationships := [⟨b!"/t.png", relTexture, b!"r1"⟩]
    childs := [(b!"/c.model", { ChildModel.zero with
      resources := { Resources.zero with
        objects := [{ c64Object with
          anyAttr := [] }] } })] }

theorem c64_empty : Text [] := text_closed (by decide)

theorem c64_tetra : MeshWritable exEnv c64Exts Spec.tetra := by
  refine ⟨attrsOk_nil, attrsOk_nil, attrsOk_nil, ?_, by simp [Spec.tetra, Mesh.zero]⟩
  intro t ht
  simp only [Spec.tetra, List.mem_cons, List.not_mem_nil, or_false] at ht
  rcases ht with rfl | rfl | rfl | rfl <;> exact ⟨attrsOk_nil, by simp [unknownValues]⟩

theorem c64_object {known : List Extension} {any : AnyAttr} (h : AttrsOk exEnv c64Exts b!"object" any) : ObjectWritable exEnv c64Exts known { c64Object with
    anyAttr := any } := by
  refine ⟨c64_empty, c64_empty, c64_empty, groupWritable_nil, ?_, by simp [c64Object, Object.zero], h,
    by rintro x ⟨⟩; exact undisturbed_plain (by simp [Spec.tetra])⟩
  rintro x ⟨⟩
  exact c64_tetra

theorem c64_slices : Declared c64Exts nsSlices := ⟨by decide +kernel, _, List.mem_cons_self, rfl⟩

theorem c64_materials : Declared c64Exts nsMaterials := ⟨by decide +kernel, _, List.mem_cons_of_mem _ (List.mem_singleton.2 rfl), rfl⟩

theorem c64_writable (z1 z2 : F32) (t : Matrix) : Writable exEnv (c64With z1 z2 t) := by
  refine ⟨?_, by simp [c64With, c64Exts], c64_empty, c64_empty, attrsOk_nil, by simp [c64With, Model.zero],
    by simp [c64With, Model.zero], ?_, ?_, attrsOk_nil, ?_, attrsOk_nil, by simp [c64With, Model.zero]⟩
  · intro x hx
    simp only [c64With, c64Exts, List.mem_cons, List.not_mem_nil, or_false] at hx
    rcases hx with rfl | rfl <;>
    exact ⟨⟨by simp, by decide +kernel⟩, text_closed (by decide +kernel), by decide +kernel, ⟨text_closed (by decide +kernel), by decide +kernel⟩,
      fun _ => ⟨by simp, by decide +kernel⟩⟩
  · intro a ha
    simp only [c64With, List.mem_cons, List.not_mem_nil, or_false] at ha
    rcases ha with rfl | rfl
    · exact ⟨rfl, c64_materials, text_closed (by decide +kernel)⟩
    · exact ⟨rfl, c64_slices, by simp [c64Stack]⟩
  · intro o ho
    simp only [c64With, List.mem_singleton] at ho
    subst ho
    refine c64_object ⟨by simp, fun g hg => ?_⟩
    simp only [List.mem_singleton] at hg
    subst hg
    exact ⟨rfl, c64_slices, rfl⟩
  · intro i hi
    simp only [c64With, List.mem_singleton] at hi
    subst hi
    exact ⟨c64_empty, groupWritable_nil, attrsOk_nil⟩

theorem c64_fits (prec : Int) (any : AnyAttr) : ObjectFits prec { c64Object with
    anyAttr := any } := by
  refine ⟨Or.inr rfl, fun h => absurd h (by simp [c64Object]), ?_⟩
  rintro x ⟨⟩
  exact ⟨by simp [Spec.tetra, Mesh.zero], by simp [Spec.tetra, Mesh.zero]⟩

theorem c64_ok (prec : Int) (z1 z2 : F32) (t : Matrix) : ModelOk prec (c64With z1 z2 t) := by
  refine ⟨?_, ?_, ⟨by simp [c64With, Model.zero], by simp [c64With, Model.zero]⟩⟩
  · intro a ha
    simp only [c64With, List.mem_cons, List.not_mem_nil, or_false] at ha
    rcases ha with rfl | rfl
    · trivial
    · intro l hl p hp g hg
      have hl' : l = c64Slice z1 ∨ l = c64Slice z2 := by simpa [c64Stack] using hl
      have hg' : g ∈ [(⟨1, 0, 0, 0⟩ : Segment), ⟨2, 0, 0, 0⟩, ⟨0, 0, 0, 0⟩] := by
        rcases hl' with rfl | rfl <;> (simp only [c64Slice, List.mem_singleton] at hp; subst hp; exact hg)
      clear hg
      revert g
      unfold SegmentOk
      decide
  · intro o ho
    simp only [c64With, List.mem_singleton] at ho
    subst ho
    exact c64_fits prec _

theorem c64_child (prec : Int) (z1 z2 : F32) (t : Matrix) : ∀ x ∈ (c64With z1 z2 t).childs,
    ChildWritable exEnv (c64With z1 z2 t).extensions x.2 ∧ ChildOk prec x.2 := by
  intro x hx
  simp only [c64With, List.mem_singleton] at hx
  subst hx
  refine ⟨⟨by simp [Resources.zero], ?_, attrsOk_nil, rfl⟩, ⟨by simp [Resources.zero], ?_⟩⟩
  · intro o ho
    simp only [List.mem_singleton] at ho
    subst ho
    exact c64_object attrsOk_nil
  · intro o ho
    simp only [List.mem_singleton] at ho
    subst ho
    exact c64_fits prec _

theorem c64_leads (z1 z2 : F32) (t : Matrix) (p : Str) (h : Leads (c64With z1 z2 t) p) : p = b!"/t.png" := by
  obtain ⟨l, rfl, (h | ⟨h, -⟩) | (h | h) | ⟨x, hx, h⟩⟩ := h
  · simp [c64With, Model.zero] at h
  · exact absurd rfl h
  · simp only [c64With, List.map_cons, List.map_nil, List.mem_singleton] at h
    subst h; rfl
  · rcases h with ⟨t, h, rfl⟩ | ⟨ob, h, h', -⟩ | ⟨ob, h, me, t, h1, h2, -⟩ | ⟨t, h, -⟩
    · simp only [c64With, List.mem_cons, List.not_mem_nil, or_false] at h
      rcases h with h | h
      · injection h with h; injection h with h; subst h; rfl
      · injection h with h; cases h
    · simp only [c64With, List.mem_singleton] at h
      subst h; exact absurd rfl h'
    · simp only [c64With, List.mem_singleton] at h
      subst h; injection h1 with h1; subst h1; simp [Spec.tetra, Mesh.zero] at h2
    · simp [c64With, Model.zero] at h
  · simp only [c64With, List.mem_singleton] at hx
    subst hx
    rcases h with h | ⟨t, h, rfl⟩ | ⟨ob, h, h', -⟩ | ⟨ob, h, me, t, h1, h2, -⟩ | ⟨t, h, -⟩
    · simp [ChildModel.zero] at h
    · simp [Resources.zero] at h
    · simp only [List.mem_singleton] at h
      subst h; exact absurd rfl h'
    · simp only [List.mem_singleton] at h
      subst h; injection h1 with h1; subst h1; simp [Spec.tetra, Mesh.zero] at h2
    · simp [ChildModel.zero] at h

theorem c64_packed (z1 z2 : F32) (t : Matrix) : Packed exEnv c50Opc (c64With z1 z2 t) := by
  refine ⟨c55_absolute _, fun _ _ => c55_absolute _, ?_, by unfold OnceEach; simp [c64With], ?_, ?_, ?_, ?_⟩
  · intro x hx
    simp only [c64With, List.mem_singleton] at hx
    subst hx
    exact ⟨c55_absolute _, by simp⟩
  · intro r hr
    simp [c64With, Model.zero] at hr
  · intro r hr
    simp only [c64With, List.mem_singleton] at hr
    subst hr
    exact (by decide +kernel : relTexture ≠ relModel)
  · intro x hx r hr
    simp only [c64With, List.mem_singleton] at hx
    subst hx
    simp [ChildModel.zero] at hr
  · intro p hp
    rw [c64_leads z1 z2 t p hp]
    simp [c64With]

theorem c64_stable {prec : Nat} {z1 z2 : F32} {t : Matrix} (h1 : survives prec z1 = true) (h2 : survives prec z2 = true)
    (h3 : StableTransform t) (h0 : survives prec F32.zero = true) : StableModel prec (c64With z1 z2 t) := by
  have ho : ∀ any, StableObject prec { c64Object with
      anyAttr := any } := fun any => ⟨by rintro m ⟨⟩ b hb; simp [Spec.tetra, Mesh.zero] at hb, by rintro cs ⟨⟩⟩
  refine ⟨⟨?_, ?_⟩, ?_, ?_⟩
  · intro s hs
    simp only [c64With, List.mem_cons, List.not_mem_nil, or_false] at hs
    rcases hs with h | h
    · injection h with h; cases h
    · injection h with h; injection h with h; subst h
      refine ⟨stable_of_survives h0, fun l hl => ?_⟩
      have hl' : l = c64Slice z1 ∨ l = c64Slice z2 := by simpa [c64Stack] using hl
      rcases hl' with rfl | rfl
      · exact stable_of_survives h1
      · exact stable_of_survives h2
  · intro o h
    simp only [c64With, List.mem_singleton] at h
    subst h
    exact ho _
  · intro x hx
    simp only [c64With, List.mem_singleton] at hx
    subst hx
    refine ⟨by simp [Resources.zero], fun o h => ?_⟩
    simp only [List.mem_singleton] at h
    subst h
    exact ho _
  · intro i hi
    simp only [c64With, List.mem_singleton] at hi
    subst hi
    exact h3

/-- Slices at 0.1 and 0.2, moved by 0.3. -/
def c64Model : Model := c64With (.ofBits 0x3dcccccd) (.ofBits 0x3e4ccccd) { Matrix.identity with
  m12 := .ofBits 0x3e99999a }

theorem c64_accepted : c64Model.Accepts exEnv := by
  have h : (c64Model.validateFuel exEnv 3).map List.isEmpty = some true := by decide +kernel
  obtain ⟨errs, h1, h2⟩ := Option.map_eq_some_iff.1 h
  rw [List.isEmpty_iff] at h2
  exact ⟨3, h2 ▸ h1⟩

theorem c64Model_stable : StableModel 4 c64Model :=
  c64_stable (by decide +kernel) (by decide +kernel)
    ⟨stable_of_survives (by decide +kernel), stable_of_survives (by decide +kernel), stable_of_survives (by decide +kernel),
      stable_of_survives (by decide +kernel), stable_of_survives (by decide +kernel)⟩ (by decide +kernel)

/-- The root part of the model is written and read, and validation says the same of it. -/
example (mem : Nat → Str → Str) (strict : Bool) := C64_part exEnv mem strict 4 c64Model (by decide) (c64_writable ..) (c64_ok ..) c64Model_stable

/-- The model is accepted, written as a package, read again and accepted again. -/
example (mem : Str → Nat → Str → Str) (strict : Bool) : ∃ pk, encodePkg c50Opc 4 c64Model [b!"/c.model"] c64Model.childs = some pk ∧
    (∀ m' r, DecodesBg ⟨exEnv, strict, mem⟩ c50Opc (reopen pk) .zero m' r → r = .root .ok ∧ m'.Accepts exEnv) ∧
    ∃ m', DecodesBg ⟨exEnv, strict, mem⟩ c50Opc (reopen pk) .zero m' (.root .ok) := by
  have h : (encodePkg c50Opc 4 c64Model [b!"/c.model"] c64Model.childs).isSome = true := by decide +kernel
  obtain ⟨pk, hpk⟩ := Option.isSome_iff_exists.mp h
  refine ⟨pk, hpk, C64_package ⟨exEnv, strict, mem⟩ c50Opc 4 c64Model _ _ pk _ (fun _ _ _ h => by simpa [c50Opc] using h)
    (c64_packed ..) (c64_writable ..) (c64_ok ..) (c64_child _ _ _ _) (by decide) (List.Perm.refl _) hpk (reopen_spec pk) c64Model_stable ?_ c64_accepted⟩
  intro p hp
  rw [c64_leads _ _ _ p hp]
  exact ⟨⟨_, rfl⟩, by
    rintro ⟨a, b, h⟩
    rcases a with _ | ⟨x, a⟩
    · injection h with _ h; injection h with h; exact absurd h (by decide)
    · have : (47 : Byte) ∈ b!"t.png" := by
        injection h with _ h
        rw [h]; simp
      exact absurd this (by decide)⟩

/-! ## What is lost -/

/-- The model without texture and child. -/
def c64Plain (z1 z2 : F32) (t : Matrix) : Model :=
  { c64With z1 z2 t with
    resources := { Resources.zero with
      assets := [.res (.sliceStack (c64Stack z1 z2))]
      objects := [c64Object] }
    attachments := []
    relationships := []
    childs := [] }

theorem c64_plain (z1 z2 : F32) (t : Matrix) : Writable exEnv (c64Plain z1 z2 t) :=
  have h := c64_writable z1 z2 t
  ⟨h.extensions, h.distinct, h.language, h.thumbnail, h.attrs, h.noXml, h.metadata, fun a ha => h.assets a (List.mem_cons_of_mem _ ha),
    h.objects, h.resourcesAttrs, h.items, h.buildAttrs, h.any⟩

theorem c64_plainOk (prec : Int) (z1 z2 : F32) (t : Matrix) : ModelOk prec (c64Plain z1 z2 t) :=
  have h := c64_ok prec z1 z2 t
  ⟨fun a ha => h.assets a (List.mem_cons_of_mem _ ha), h.objects, h.any⟩

/-- Whether a model is accepted. -/
def c64Valid (m : Model) : Option Bool := (m.validateFuel exEnv 3).map List.isEmpty

theorem c64_valid {m : Model} {b : Bool} (h : c64Valid m = some b) : ∃ errs, m.Validate exEnv errs ∧ (errs = [] ↔ b = true) := by
  obtain ⟨errs, h1, h2⟩ := Option.map_eq_some_iff.1 h
  exact ⟨errs, ⟨3, h1⟩, by rw [← h2, List.isEmpty_iff]⟩

/-- Without `StableModel` the statement is false: slices at 0.00001 and 0.00002 are accepted, and with four decimals both are
read at 0 and rejected. -/
theorem C64_heights_false (mem : Nat → Str → Str) : ∃ m m' errs, Writable exEnv m ∧ ModelOk 4 m ∧
    unmarshalModel exEnv mem (printOps (fun _ => []) (m.ops 4)) .zero = some (m', .ok) ∧ m.Accepts exEnv ∧
    m'.Validate exEnv errs ∧ errs ≠ [] := by
  obtain ⟨e1, h1, h2⟩ := c64_valid (m := c64Plain (.ofBits 0x3727c5ac) (.ofBits 0x37a7c5ac) .zero) (b := true) (by decide +kernel)
  obtain ⟨e2, h3, h4⟩ := c64_valid (m := (c64Plain (.ofBits 0x3727c5ac) (.ofBits 0x37a7c5ac) .zero).back 4) (b := false) (by decide +kernel)
  obtain rfl := h2.2 rfl
  exact ⟨_, _, e2, c64_plain .., c64_plainOk .., decode_marshal (writable_dom (c64_plain ..)) False.elim, h1, h3, fun h => absurd (h4.1 h) (by decide)⟩

/-- And what is rejected may be accepted after it was written: a transform with an entry 0.0001 tilts, and is read as one that does
not, for transforms are written with three decimals. -/
theorem C64_tilted_false (mem : Nat → Str → Str) : ∃ m m' errs, Writable exEnv m ∧ ModelOk 4 m ∧
    unmarshalModel exEnv mem (printOps (fun _ => []) (m.ops 4)) .zero = some (m', .ok) ∧ m.Validate exEnv errs ∧ errs ≠ [] ∧
    m'.Accepts exEnv := by
  obtain ⟨e1, h1, h2⟩ := c64_valid (m := c64Plain (.ofBits 0x3dcccccd) (.ofBits 0x3e4ccccd) { Matrix.identity with
    m2 := .ofBits 0x38d1b717 }) (b := false) (by decide +kernel)
  obtain ⟨e2, h3, h4⟩ := c64_valid (m := (c64Plain (.ofBits 0x3dcccccd) (.ofBits 0x3e4ccccd) { Matrix.identity with
    m2 := .ofBits 0x38d1b717 }).back 4) (b := true) (by decide +kernel)
  obtain rfl := h4.2 rfl
  exact ⟨_, _, e1, c64_plain .., c64_plainOk .., decode_marshal (writable_dom (c64_plain ..)) False.elim, h1, fun h => absurd (h2.1 h) (by decide), h3⟩

end Go3mf
