import Verif.Lemmas.RtPkg

/-!
# C55: packages survive encode then decode
-/

namespace Go3mf

open Spec

/-- What is known of the package that was written and the one that is read. -/
structure Reread (env : Env) (o : Opc) (prec : Int) (m : Model) (order1 : List Str) (order2 : List (Str × ChildModel)) (pk : OutPkg)
    (ip : InPkg) : Prop where
  distinct : o.Distinct
  packed : Packed env o m
  perm1 : order1.Perm (m.childs.map (·.1))
  perm2 : order2.Perm m.childs
  written : encodePkg o prec m order1 order2 = some pk
  read : Reopened pk ip

namespace Reread

variable {env : Env} {o : Opc} {prec : Int} {m : Model} {order1 : List Str} {order2 : List (Str × ChildModel)} {pk : OutPkg} {ip : InPkg}

theorem childName (h : Reread env o prec m order1 order2 pk ip) {x : Str × ChildModel} (hx : x ∈ m.childs) :
    (childPart o prec m x).name = x.1 := by
  have := (h.packed.childs x hx).1
  show o.norm (o.resolve m.pathOrDefault x.1) = x.1
  rw [this.2, this.1]

theorem partNames (h : Reread env o prec m order1 order2 pk ip) :
    pk.parts.map (·.name) = m.attachments.map (·.path) ++ m.pathOrDefault :: order2.map (·.1) := by
  rw [(encodePkg_some h.written).1]
  simp only [List.map_append, List.map_cons, List.map_map]
  congr 1
  · apply List.map_congr_left
    intro a ha
    exact (h.packed.attachments a ha).1
  · congr 1
    · exact h.packed.root.1
    · apply List.map_congr_left
      intro x hx
      exact h.childName (h.perm2.mem_iff.mp hx)

theorem nodup (h : Reread env o prec m order1 order2 pk ip) :
    (m.attachments.map (·.path) ++ m.pathOrDefault :: order2.map (·.1)).Nodup := by
  rw [← h.partNames]
  exact C50_names o h.distinct prec m order1 order2 pk h.written

theorem fileNames (h : Reread env o prec m order1 order2 pk ip) : (ip.files.map (·.name)).Nodup := by
  have : ip.files.map (·.name) = pk.parts.map (·.name) := by
    have := h.read.parts
    generalize pk.parts = ps at this
    generalize ip.files = fs at this
    induction this with
    | nil => rfl
    | cons h1 _ ih => rw [List.map_cons, List.map_cons, ih, h1.name]
  rw [this, h.partNames]
  exact h.nodup

theorem mem_order2 (h : Reread env o prec m order1 order2 pk ip) {k : Str} : k ∈ order2.map (·.1) ↔ k ∈ m.childs.map (·.1) :=
  (h.perm2.map _).mem_iff

theorem childKeys (h : Reread env o prec m order1 order2 pk ip) : (m.childs.map (·.1)).Nodup := by
  have := h.nodup
  rw [List.nodup_append] at this
  exact (h.perm2.map _).nodup_iff.mp (List.nodup_cons.mp this.2.1).2

theorem child_ne_root (h : Reread env o prec m order1 order2 pk ip) : m.pathOrDefault ∉ m.childs.map (·.1) := by
  have := h.nodup
  rw [List.nodup_append] at this
  rw [← h.mem_order2]
  exact (List.nodup_cons.mp this.2.1).1

theorem child_ne_attachment (h : Reread env o prec m order1 order2 pk ip) {k : Str} (hk : k ∈ m.childs.map (·.1)) :
    k ∉ m.attachments.map (·.path) := by
  have := h.nodup
  rw [List.nodup_append] at this
  intro ha
  exact this.2.2 k ha k (List.mem_cons_of_mem _ (h.mem_order2.mpr hk)) rfl

theorem rootFile (h : Reread env o prec m order1 order2 pk ip) :
    ∃ f ∈ ip.files, SamePart (rootPart o prec m order1) f ∧ f.name = m.pathOrDefault := by
  obtain ⟨f, hf, hs⟩ := forall₂_left h.read.parts (rootPart o prec m order1) (by rw [(encodePkg_some h.written).1]; simp)
  exact ⟨f, hf, hs, hs.name.trans h.packed.root.1⟩

theorem attachmentFile (h : Reread env o prec m order1 order2 pk ip) {a : Attachment} (ha : a ∈ m.attachments) :
    ∃ f ∈ ip.files, SamePart (attachmentPart o a) f ∧ f.name = a.path := by
  obtain ⟨f, hf, hs⟩ := forall₂_left h.read.parts (attachmentPart o a) (by
    rw [(encodePkg_some h.written).1]; simp only [List.mem_append]; exact .inl (List.mem_map_of_mem ha))
  exact ⟨f, hf, hs, hs.name.trans (h.packed.attachments a ha).1⟩

theorem childFile (h : Reread env o prec m order1 order2 pk ip) {x : Str × ChildModel} (hx : x ∈ m.childs) :
    ∃ f ∈ ip.files, SamePart (childPart o prec m x) f ∧ f.name = x.1 := by
  obtain ⟨f, hf, hs⟩ := forall₂_left h.read.parts (childPart o prec m x) (by
    rw [(encodePkg_some h.written).1]; simp only [List.mem_append, List.mem_cons]
    exact .inr (.inr (List.mem_map_of_mem (h.perm2.mem_iff.mpr hx))))
  exact ⟨f, hf, hs, hs.name.trans (h.childName hx)⟩

theorem target (h : Reread env o prec m order1 order2 pk ip) {f : InFile} (hf : f ∈ ip.files) {r : Relationship} (hr : r.path = f.name)
    (ha : Absolute o r.path) (source : Str) : relTarget o ip source r = some f := by
  unfold relTarget
  rw [ha.2, hr]
  exact find_unique h.fileNames hf

/-- A relationship that leads to an attachment. -/
theorem leads (h : Reread env o prec m order1 order2 pk ip) {r : Relationship} (hl : Leads m r.path) (source : Str) :
    ∃ a ∈ m.attachments, a.path = r.path ∧ ∃ f, relTarget o ip source r = some f ∧ SamePart (attachmentPart o a) f ∧ f.name = a.path := by
  obtain ⟨a, ha, e⟩ := List.mem_map.mp (h.packed.targets _ hl)
  obtain ⟨f, hf, hs, hn⟩ := h.attachmentFile ha
  refine ⟨a, ha, e, f, h.target hf (by rw [hn, e]) (by rw [← e]; exact h.packed.attachments a ha) source, hs, hn⟩

theorem uses_type {rs : Resources} {any : List AnyElem} {l : Str × Str} (h : Uses rs any l) : l.1 ≠ relModel := by
  have h1 : relTexture ≠ relModel := by decide +kernel
  have h2 : relThumbnail ≠ relModel := by decide +kernel
  rcases h with ⟨t, -, rfl⟩ | ⟨ob, -, -, rfl⟩ | ⟨ob, -, me, t, -, -, rfl⟩ | ⟨t, -, rfl⟩
  · exact h1
  · exact h2
  · exact h1
  · exact h1

theorem partLink_type {rels : List Relationship} {rs : Resources} {any : List AnyElem} {l : Str × Str} (h : PartLink rels rs any l)
    (ht : ∀ r ∈ rels, r.type ≠ relModel) : l.1 ≠ relModel := by
  rcases h with h | h
  · obtain ⟨r, hr, rfl⟩ := List.mem_map.mp h
    exact ht r hr
  · exact uses_type h

theorem present_links {source : Str} {rels : List Relationship}
    (ht : ∀ r ∈ rels, r.type ≠ relModel → (relTarget o ip source r).isSome) (l : Str × Str) :
    l ∈ (present o ip source rels).map relLink ↔ l ∈ rels.map relLink ∧ l.1 ≠ relModel := by
  constructor
  · intro h
    obtain ⟨r, hr, rfl⟩ := List.mem_map.mp h
    obtain ⟨h1, h2⟩ := List.mem_filter.mp hr
    simp only [ne_eq, Bool.and_eq_true, decide_eq_true_eq] at h2
    exact ⟨List.mem_map_of_mem h1, h2.1⟩
  · rintro ⟨h, hl⟩
    obtain ⟨r, hr, rfl⟩ := List.mem_map.mp h
    refine List.mem_map_of_mem (List.mem_filter.mpr ⟨hr, ?_⟩)
    have hl' : r.type ≠ relModel := hl
    simp [hl', ht r hr hl']

theorem present_nodup {source : Str} {rels : List Relationship} (h : (rels.map relLink).Nodup) :
    ((present o ip source rels).map relLink).Nodup :=
  h.sublist (List.filter_sublist.map _)

/-! ### The package -/

theorem pkg_links (h : Reread env o prec m order1 order2 pk ip) : (ip.rels.map relLink).Nodup ∧
    ∀ l, l ∈ ip.rels.map relLink ↔ PkgLink m l ∨ l = (relModel, m.pathOrDefault) := by
  obtain ⟨h1, h2, -⟩ := C50_package o prec m order1 order2 pk h.written
  rw [h.read.rels]
  refine ⟨h1, fun l => ?_⟩
  rw [h2]
  unfold PkgLink
  tauto

theorem pkgLink_type (h : Reread env o prec m order1 order2 pk ip) {l : Str × Str} (hl : PkgLink m l) : l.1 ≠ relModel := by
  rcases hl with hl | ⟨-, rfl⟩
  · obtain ⟨r, hr, rfl⟩ := List.mem_map.mp hl
    exact h.packed.pkgTypes r hr
  · exact (by decide +kernel : relThumbnail ≠ relModel)

theorem pkg_root (h : Reread env o prec m order1 order2 pk ip) :
    ∃ r0, ip.rels.filter (fun r => decide (r.type = relModel)) = [r0] ∧ r0.path = m.pathOrDefault := by
  obtain ⟨h1, h2⟩ := h.pkg_links
  obtain ⟨r0, hr0, e⟩ := List.mem_map.mp ((h2 _).mpr (.inr rfl))
  have et : r0.type = relModel := congrArg Prod.fst e
  refine ⟨r0, filter_single _ relLink h1 hr0 (by simpa using et) ?_, congrArg Prod.snd e⟩
  intro y hy hyt
  simp only [decide_eq_true_eq] at hyt
  rcases (h2 _).mp (List.mem_map_of_mem hy) with hl | hl
  · exact absurd hyt (h.pkgLink_type hl)
  · rw [hl, e]

theorem pkg_total (h : Reread env o prec m order1 order2 pk ip) {r : Relationship} (hr : r ∈ ip.rels) :
    (r.type ≠ relModel → PkgLink m (relLink r) ∧ Leads m r.path) ∧ (r.type = relModel → ∃ f ∈ ip.files,
      SamePart (rootPart o prec m order1) f ∧ f.name = m.pathOrDefault ∧ relTarget o ip b!"/" r = some f) := by
  have hl := (h.pkg_links.2 _).mp (List.mem_map_of_mem (f := relLink) hr)
  constructor
  · intro ht
    rcases hl with hl | hl
    · exact ⟨hl, _, rfl, .inl hl⟩
    · exact absurd (congrArg Prod.fst hl) ht
  · intro ht
    rcases hl with hl | hl
    · exact absurd ht (h.pkgLink_type hl)
    · have hp : r.path = m.pathOrDefault := congrArg Prod.snd hl
      obtain ⟨f, hf, hs, hn⟩ := h.rootFile
      exact ⟨f, hf, hs, hn, h.target hf (by rw [hp, hn]) (by rw [hp]; exact h.packed.root) _⟩

/-! ### The root part -/

theorem root_links (h : Reread env o prec m order1 order2 pk ip) {root : InFile} (hr : SamePart (rootPart o prec m order1) root) :
    (root.rels.map relLink).Nodup ∧ (∀ r ∈ m.relationships, relLink r ∈ root.rels.map relLink) ∧
    (∀ l, Uses m.resources m.any l → l.2 ∈ root.rels.map (·.path)) ∧
    (∀ k ∈ m.childs.map (·.1), (relModel, k) ∈ root.rels.map relLink) ∧
    ∀ l ∈ root.rels.map relLink, PartLink m.relationships m.resources m.any l ∨ (l.1 = relModel ∧ l.2 ∈ m.childs.map (·.1)) := by
  obtain ⟨h1, h2, h3, h4, h5⟩ := C50_root_partial o prec m order1 order2 pk h.perm1 h.written
  rw [rootRels_eq h.written] at h1 h2 h3 h4 h5
  have e : root.rels.map relLink = ((m.rootPartRels order1).foldl opcAddRel []).map relLink := hr.rels
  have ep : root.rels.map (·.path) = ((m.rootPartRels order1).foldl opcAddRel []).map (·.path) := by
    have := congrArg (List.map Prod.snd) e
    rw [List.map_map, List.map_map] at this
    exact this
  rw [e, ep]
  have h5' : ∀ l ∈ ((m.rootPartRels order1).foldl opcAddRel []).map relLink,
      PartLink m.relationships m.resources m.any l ∨ (l.1 = relModel ∧ l.2 ∈ m.childs.map (·.1)) := by
    intro l hl
    unfold PartLink
    have := h5 l hl
    tauto
  refine ⟨h1, h2, h4, ?_, h5'⟩
  intro k hk
  obtain ⟨r, hr1, hr2⟩ := List.mem_map.mp (h3 k hk)
  have hm := List.mem_map_of_mem (f := relLink) hr1
  rcases h5' _ hm with hl | hl
  · have : Leads m r.path := ⟨_, rfl, .inr (.inl hl)⟩
    have := h.packed.targets _ this
    rw [show r.path = k from hr2] at this
    exact absurd this (h.child_ne_attachment hk)
  · have : relLink r = (relModel, k) := by
      have e1 : r.type = relModel := hl.1
      show (r.type, r.path) = _
      rw [e1]
      exact congrArg _ hr2
    rw [← this]
    exact hm

theorem root_total (h : Reread env o prec m order1 order2 pk ip) {root : InFile} (hr : SamePart (rootPart o prec m order1) root)
    {r : Relationship} (hm : r ∈ root.rels) : (r.type ≠ relModel → PartLink m.relationships m.resources m.any (relLink r) ∧ Leads m r.path) ∧
    (r.type = relModel → ∃ x ∈ m.childs, x.1 = r.path ∧ ∃ f, SamePart (childPart o prec m x) f ∧ f.name = r.path ∧
      ∀ source, relTarget o ip source r = some f) := by
  have hl := (h.root_links hr).2.2.2.2 _ (List.mem_map_of_mem (f := relLink) hm)
  constructor
  · intro ht
    rcases hl with hl | hl
    · exact ⟨hl, _, rfl, .inr (.inl hl)⟩
    · exact absurd hl.1 ht
  · intro ht
    rcases hl with hl | hl
    · exact absurd ht (partLink_type hl h.packed.rootTypes)
    · obtain ⟨x, hx, e⟩ := List.mem_map.mp hl.2
      have e' : x.1 = r.path := e
      obtain ⟨f, hf, hs, hn⟩ := h.childFile hx
      exact ⟨x, hx, e, f, hs, by rw [hn, e'], fun source =>
        h.target hf (by rw [hn, e']) (by rw [← e']; exact (h.packed.childs x hx).1) source⟩

/-- The child parts that are found. -/
theorem childParts_spec (h : Reread env o prec m order1 order2 pk ip) {root : InFile} (hr : SamePart (rootPart o prec m order1) root) :
    ((childParts o ip root).map (·.name)).Nodup ∧ (∀ k, k ∈ (childParts o ip root).map (·.name) ↔ k ∈ m.childs.map (·.1)) ∧
    ∀ f ∈ childParts o ip root, ∃ x ∈ m.childs, SamePart (childPart o prec m x) f ∧ f.name = x.1 := by
  have hn : (childParts o ip root).map (·.name) = (root.rels.filter fun r => decide (r.type = relModel)).map (·.path) := by
    refine filterMap_names fun r hm => ?_
    obtain ⟨h1, h2⟩ := List.mem_filter.mp hm
    obtain ⟨x, -, -, f, -, hf, ht⟩ := (h.root_total hr h1).2 (by simpa using h2)
    exact ⟨f, ht _, hf⟩
  obtain ⟨l1, -, -, l4, l5⟩ := h.root_links hr
  refine ⟨?_, ?_, ?_⟩
  · rw [hn]
    have h1 : ((root.rels.filter fun r => decide (r.type = relModel)).map relLink).Nodup := l1.sublist (List.filter_sublist.map _)
    have h2 : (root.rels.filter fun r => decide (r.type = relModel)).map relLink =
        ((root.rels.filter fun r => decide (r.type = relModel)).map (·.path)).map (fun p => (relModel, p)) := by
      rw [List.map_map]
      apply List.map_congr_left
      intro r hm
      obtain ⟨-, h2⟩ := List.mem_filter.mp hm
      simp only [decide_eq_true_eq] at h2
      show (r.type, r.path) = _
      rw [h2]; rfl
    rw [h2] at h1
    exact h1.of_map _
  · intro k
    rw [hn]
    constructor
    · intro hk
      obtain ⟨r, hm, rfl⟩ := List.mem_map.mp hk
      obtain ⟨h1, h2⟩ := List.mem_filter.mp hm
      obtain ⟨x, hx, e, -⟩ := (h.root_total hr h1).2 (by simpa using h2)
      exact List.mem_map.mpr ⟨x, hx, e⟩
    · intro hk
      obtain ⟨r, hm, e⟩ := List.mem_map.mp (l4 k hk)
      refine List.mem_map.mpr ⟨r, List.mem_filter.mpr ⟨hm, decide_eq_true (congrArg Prod.fst e : r.type = relModel)⟩, congrArg Prod.snd e⟩
  · intro f hf
    obtain ⟨r, hm, e⟩ := List.mem_filterMap.mp hf
    obtain ⟨h1, h2⟩ := List.mem_filter.mp hm
    obtain ⟨x, hx, e1, f', hs, hf', ht⟩ := (h.root_total hr h1).2 (by simpa using h2)
    rw [ht, Option.some.injEq] at e
    subst e
    exact ⟨x, hx, hs, by rw [hf', e1]⟩

/-! ### Child parts -/

theorem child_links (h : Reread env o prec m order1 order2 pk ip) {x : Str × ChildModel} (hx : x ∈ m.childs) {f : InFile}
    (hs : SamePart (childPart o prec m x) f) :
    (f.rels.map relLink).Nodup ∧ (∀ r ∈ x.2.relationships, relLink r ∈ f.rels.map relLink) ∧
    (∀ l, Uses x.2.resources x.2.any l → l.2 ∈ f.rels.map (·.path)) ∧
    ∀ l ∈ f.rels.map relLink, PartLink x.2.relationships x.2.resources x.2.any l := by
  obtain ⟨p, hp, hn, h1, h2, h3, h4⟩ := C50_child_partial o prec m order1 order2 pk h.perm2 h.written x.1 x.2 hx
  have hm : childPart o prec m x ∈ pk.parts := by
    rw [(encodePkg_some h.written).1]; simp only [List.mem_append, List.mem_cons]
    exact .inr (.inr (List.mem_map_of_mem (h.perm2.mem_iff.mpr hx)))
  have hnd := C50_names o h.distinct prec m order1 order2 pk h.written
  have : p = childPart o prec m x := nodup_fst hnd p hp _ hm hn
  subst this
  have ep : f.rels.map (·.path) = (childPart o prec m x).rels.map (·.path) := by
    have := congrArg (List.map Prod.snd) hs.rels
    rw [List.map_map, List.map_map] at this
    exact this
  rw [hs.rels, ep]
  exact ⟨h1, h2, h3, h4⟩

theorem child_total (h : Reread env o prec m order1 order2 pk ip) {x : Str × ChildModel} (hx : x ∈ m.childs) {f : InFile}
    (hs : SamePart (childPart o prec m x) f) {r : Relationship} (hm : r ∈ f.rels) : r.type ≠ relModel ∧ Leads m r.path := by
  have hl := (h.child_links hx hs).2.2.2 _ (List.mem_map_of_mem (f := relLink) hm)
  exact ⟨partLink_type hl (h.packed.childTypes x hx), _, rfl, .inr (.inr ⟨x, hx, hl⟩)⟩

/-! ### Attachments -/

theorem isRoot (h : Reread env o prec m order1 order2 pk ip) {f : InFile} :
    IsRootPart o ip f → SamePart (rootPart o prec m order1) f ∧ f.name = m.pathOrDefault := by
  rintro ⟨r, hr, ht, hf⟩
  obtain ⟨f', -, hs, hn, e⟩ := (h.pkg_total hr).2 ht
  rw [e, Option.some.injEq] at hf
  subst hf
  exact ⟨hs, hn⟩

theorem isChild (h : Reread env o prec m order1 order2 pk ip) {f : InFile} :
    IsChildPart o ip f → ∃ x ∈ m.childs, SamePart (childPart o prec m x) f := by
  rintro ⟨root, hroot, r, hr, ht, hf⟩
  obtain ⟨x, hx, -, f', hs, -, e⟩ := (h.root_total (h.isRoot hroot).1 hr).2 ht
  rw [e, Option.some.injEq] at hf
  subst hf
  exact ⟨x, hx, hs⟩

theorem referenced (h : Reread env o prec m order1 order2 pk ip) {f : InFile} (hf : Referenced o ip f) :
    ∃ a ∈ m.attachments, Leads m a.path ∧ SamePart (attachmentPart o a) f ∧ f.name = a.path := by
  have key : ∀ r source, Leads m r.path → relTarget o ip source r = some f →
      ∃ a ∈ m.attachments, Leads m a.path ∧ SamePart (attachmentPart o a) f ∧ f.name = a.path := by
    intro r source hl ht
    obtain ⟨a, ha, e, f', hf', hs, hn⟩ := h.leads hl source
    rw [ht, Option.some.injEq] at hf'
    subst hf'
    exact ⟨a, ha, e ▸ hl, hs, hn⟩
  rcases hf with ⟨r, hr, ht, hf⟩ | ⟨p, hp | hp, r, hr, ht, hf⟩
  · exact key r _ ((h.pkg_total hr).1 ht).2 hf
  · exact key r _ ((h.root_total (h.isRoot hp).1 hr).1 ht).2 hf
  · obtain ⟨x, hx, hs⟩ := h.isChild hp
    exact key r _ (h.child_total hx hs hr).2 hf

/-- The root part is found. -/
theorem isRoot_of (h : Reread env o prec m order1 order2 pk ip) : ∃ f, IsRootPart o ip f := by
  obtain ⟨r, hr, e⟩ := List.mem_map.mp ((h.pkg_links.2 _).mpr (.inr rfl))
  have et : r.type = relModel := congrArg Prod.fst e
  obtain ⟨f, -, -, -, ht⟩ := (h.pkg_total hr).2 et
  exact ⟨f, r, hr, et, ht⟩

theorem referenced_of (h : Reread env o prec m order1 order2 pk ip) {a : Attachment} (ha : a ∈ m.attachments) (hl : Leads m a.path) :
    ∃ f, Referenced o ip f ∧ SamePart (attachmentPart o a) f ∧ f.name = a.path := by
  have fin : ∀ r source, r.path = a.path → ∃ f, relTarget o ip source r = some f ∧ SamePart (attachmentPart o a) f ∧ f.name = a.path := by
    intro r source e
    obtain ⟨f, hf, hs, hn⟩ := h.attachmentFile ha
    exact ⟨f, h.target hf (by rw [hn, e]) (by rw [e]; exact h.packed.attachments a ha) source, hs, hn⟩
  obtain ⟨root, hroot⟩ := h.isRoot_of
  have hrs := (h.isRoot hroot).1
  obtain ⟨l, e, hl⟩ := hl
  rcases hl with hl | hl | ⟨x, hx, hl⟩
  · obtain ⟨r, hr, rfl⟩ := List.mem_map.mp ((h.pkg_links.2 _).mpr (.inl hl))
    obtain ⟨f, hf, hs⟩ := fin r b!"/" e
    exact ⟨f, .inl ⟨r, hr, h.pkgLink_type hl, hf⟩, hs⟩
  · have : ∃ r ∈ root.rels, r.path = a.path := by
      rcases hl with hl | hl
      · obtain ⟨r, hr, rfl⟩ := List.mem_map.mp hl
        obtain ⟨r', hr', e'⟩ := List.mem_map.mp ((h.root_links hrs).2.1 r hr)
        exact ⟨r', hr', (congrArg Prod.snd e').trans e⟩
      · obtain ⟨r', hr', e'⟩ := List.mem_map.mp ((h.root_links hrs).2.2.1 l hl)
        exact ⟨r', hr', e'.trans e⟩
    obtain ⟨r, hr, e⟩ := this
    obtain ⟨f, hf, hs⟩ := fin r root.name e
    refine ⟨f, .inr ⟨root, .inl hroot, r, hr, ?_, hf⟩, hs⟩
    intro ht
    obtain ⟨x, hx, e1, -⟩ := (h.root_total hrs hr).2 ht
    exact h.child_ne_attachment (List.mem_map.mpr ⟨x, hx, e1⟩) (List.mem_map.mpr ⟨a, ha, e.symm⟩)
  · obtain ⟨rc, hrc, ec⟩ := List.mem_map.mp ((h.root_links hrs).2.2.2.1 x.1 (List.mem_map_of_mem hx))
    have et : rc.type = relModel := congrArg Prod.fst ec
    obtain ⟨y, hy, e1, p, hps, -, hpt⟩ := (h.root_total hrs hrc).2 et
    have hxy : y = x := by
      refine nodup_fst h.childKeys y hy x hx ?_
      rw [e1]
      exact congrArg Prod.snd ec
    subst hxy
    have hp : IsChildPart o ip p := ⟨root, hroot, rc, hrc, et, hpt _⟩
    have : ∃ r ∈ p.rels, r.path = a.path := by
      rcases hl with hl | hl
      · obtain ⟨r, hr, rfl⟩ := List.mem_map.mp hl
        obtain ⟨r', hr', e'⟩ := List.mem_map.mp ((h.child_links hy hps).2.1 r hr)
        exact ⟨r', hr', (congrArg Prod.snd e').trans e⟩
      · obtain ⟨r', hr', e'⟩ := List.mem_map.mp ((h.child_links hy hps).2.2.1 l hl)
        exact ⟨r', hr', e'.trans e⟩
    obtain ⟨r, hr, e⟩ := this
    obtain ⟨f, hf, hs⟩ := fin r p.name e
    exact ⟨f, .inr ⟨p, .inr hp, r, hr, (h.child_total hy hps hr).1, hf⟩, hs⟩

/-! ### `processOPC` -/

/-- The model when the relationships have been read. -/
theorem opc (h : Reread env o prec m order1 order2 pk ip) : ∃ m1 root fs, processOPC env o ip .zero = some (m1, root, fs) ∧
    SamePart (rootPart o prec m order1) root ∧ root.name = m.pathOrDefault ∧ m1.path = m.pathOrDefault ∧
    OpcInv m1 (fs.map (·.name)) ∧ (fs.map (·.name)).Nodup ∧ (∀ k, k ∈ fs.map (·.name) ↔ k ∈ m.childs.map (·.1)) ∧
    (∀ f ∈ fs, ∃ x ∈ m.childs, SamePart (childPart o prec m x) f ∧ f.name = x.1 ∧
      ∃ rels, (lookupChild m1.childs f.name).map (·.relationships) = some rels ∧
        NearRels x.2.relationships x.2.resources x.2.any rels) ∧
    ((m1.rootRelationships.map relLink).Nodup ∧ ∀ l, l ∈ m1.rootRelationships.map relLink ↔ PkgLink m l) ∧
    NearRels m.relationships m.resources m.any m1.relationships ∧
    (∀ a, a ∈ m1.attachments ↔ a ∈ m.attachments ∧ Leads m a.path) ∧ m1.attachments.Nodup := by
  obtain ⟨x, hx⟩ := processOPC_total (env := env) (o := o) (pk := ip)
    (fun r hr ht => by obtain ⟨f, -, -, -, e⟩ := (h.pkg_total hr).2 ht; rw [e]; rfl) (by
      obtain ⟨r, hr, e⟩ := List.mem_map.mp ((h.pkg_links.2 _).mpr (.inr rfl))
      exact ⟨r, hr, congrArg Prod.fst e⟩)
  obtain ⟨m1, root, fs⟩ := x
  obtain ⟨r0, h0, -⟩ := h.pkg_root
  have hroot : IsRootPart o ip root := processOPC_root hx
  have hrs := (h.isRoot hroot).1
  have hrn := (h.isRoot hroot).2
  obtain ⟨c1, c2, c3⟩ := h.childParts_spec hrs
  obtain ⟨a1, a2, a3, a4, a5, a6⟩ := C51_relationships_partial env o ip .zero m1 root fs hx r0 h0 c1
  obtain ⟨b1, -, b3, b4⟩ := C51_attachments_partial env o ip .zero m1 root fs hx List.nodup_nil
  have hfwd : ∀ a, a ∈ m1.attachments → a ∈ m.attachments ∧ Leads m a.path := by
    intro a ha
    rcases b3 a ha with h' | ⟨f, hf, hc⟩
    · simp [Model.zero] at h'
    · obtain ⟨a', ha', hl, hs, hn⟩ := h.referenced hf
      have : a = a' := by
        obtain ⟨d, p, t⟩ := a
        obtain ⟨d', p', t'⟩ := a'
        obtain ⟨e1, e2, e3⟩ := hc
        simp only at e1 e2 e3 hn
        have e4 := hs.contentType
        have e5 := hs.content
        simp only [attachmentPart] at e4 e5
        rw [e5] at e3
        simp only [Option.some.injEq, Prod.mk.injEq, and_true] at e3
        rw [e1, e2, hn, e4, e3]
      subst this
      exact ⟨ha', hl⟩
  subst a3
  refine ⟨m1, root, _, hx, hrs, hrn, by rw [a2, hrn], processOPC_inv hx, c1, c2, ?_, ?_, ?_, ?_, ?_⟩
  · intro f hf
    obtain ⟨x, hxm, hs, hn⟩ := c3 f hf
    refine ⟨x, hxm, hs, hn, _, a6 f hf, ?_⟩
    obtain ⟨l1, l2, l3, l4⟩ := h.child_links hxm hs
    have htot : ∀ r ∈ f.rels, r.type ≠ relModel → (relTarget o ip f.name r).isSome := by
      intro r hr _
      obtain ⟨a, -, -, g, hg, -⟩ := h.leads (h.child_total hxm hs hr).2 f.name
      rw [hg]; rfl
    have hpl := present_links (o := o) (ip := ip) htot
    refine ⟨present_nodup l1, ?_, ?_, fun l hl => l4 l ((hpl l).mp hl).1, fun l hl => ?_⟩
    · intro r hr
      exact (hpl _).mpr ⟨l2 r hr, h.packed.childTypes x hxm r hr⟩
    · intro l hl
      obtain ⟨r, hr, e⟩ := List.mem_map.mp (l3 l hl)
      obtain ⟨r', hr', e'⟩ := List.mem_map.mp ((hpl (relLink r)).mpr ⟨List.mem_map_of_mem hr, (h.child_total hxm hs hr).1⟩)
      exact List.mem_map.mpr ⟨r', hr', (congrArg Prod.snd e').trans e⟩
    · have h1 := ((hpl l).mp hl).1
      rw [hs.rels] at h1
      exact addedLinks h1
  · obtain ⟨l1, l2⟩ := h.pkg_links
    have htot : ∀ r ∈ ip.rels, r.type ≠ relModel → (relTarget o ip b!"/" r).isSome := by
      intro r hr ht
      obtain ⟨a, -, -, g, hg, -⟩ := h.leads ((h.pkg_total hr).1 ht).2 b!"/"
      rw [hg]; rfl
    have hpl := present_links (o := o) (ip := ip) htot
    rw [a4]
    simp only [Model.zero, List.nil_append]
    refine ⟨present_nodup l1, fun l => ?_⟩
    rw [hpl, l2]
    constructor
    · rintro ⟨hl | rfl, ht⟩
      · exact hl
      · exact absurd rfl ht
    · exact fun hl => ⟨.inl hl, h.pkgLink_type hl⟩
  · obtain ⟨l1, l2, l3, l4, l5⟩ := h.root_links hrs
    have htot : ∀ r ∈ root.rels, r.type ≠ relModel → (relTarget o ip root.name r).isSome := by
      intro r hr ht
      obtain ⟨a, -, -, g, hg, -⟩ := h.leads ((h.root_total hrs hr).1 ht).2 root.name
      rw [hg]; rfl
    have hpl := present_links (o := o) (ip := ip) htot
    rw [a5]
    simp only [Model.zero, List.nil_append]
    refine ⟨present_nodup l1, ?_, ?_, ?_, ?_⟩
    · intro r hr
      exact (hpl _).mpr ⟨l2 r hr, h.packed.rootTypes r hr⟩
    · intro l hl
      obtain ⟨r, hr, e⟩ := List.mem_map.mp (l3 l hl)
      have ht : r.type ≠ relModel := by
        intro ht
        obtain ⟨x, hx, e1, -⟩ := (h.root_total hrs hr).2 ht
        have : Leads m l.2 := ⟨l, rfl, .inr (.inl (.inr hl))⟩
        refine h.child_ne_attachment (List.mem_map.mpr ⟨x, hx, e1⟩) ?_
        rw [e]
        exact h.packed.targets _ this
      obtain ⟨r', hr', e'⟩ := List.mem_map.mp ((hpl (relLink r)).mpr ⟨List.mem_map_of_mem hr, ht⟩)
      exact List.mem_map.mpr ⟨r', hr', (congrArg Prod.snd e').trans e⟩
    · intro l hl
      obtain ⟨h1, h2⟩ := (hpl l).mp hl
      exact (l5 l h1).resolve_right fun e => h2 e.1
    · intro l hl
      have h1 := ((hpl l).mp hl).1
      rw [hrs.rels] at h1
      exact addedLinks h1
  · intro a
    refine ⟨hfwd a, ?_⟩
    rintro ⟨ha, hl⟩
    obtain ⟨f, hf, hs, hn⟩ := h.referenced_of ha hl
    obtain ⟨a', ha', e⟩ := b4 f _ hf hs.content
    have := nodup_fst h.packed.once a' (hfwd a' ha').1 a ha (by rw [e, hn])
    subst this
    exact ha'
  · exact List.Nodup.of_map _ b1

end Reread

/-! ## Decoding -/

/-- A child part, decoded on its own. -/
theorem alone_child {c : PkgCfg} {o : Opc} {prec : Int} {m m1 : Model} {x : Str × ChildModel} {f : InFile} (hw : Writable c.env m)
    (hx : ChildWritable c.env m.extensions x.2) (hs : SamePart (childPart o prec m x) f) (hext : m1.extensions = [])
    (hres : m1.findResources f.name = some .zero) :
    ∃ s, alone c m1 f = some (s, .token .eof) ∧ s.errs = [] ∧ s.regs.res = some (x.2.resources.back prec) ∧
      s.regs.model.any = m1.any := by
  obtain ⟨s, h1, h2, h3, h4⟩ := run_childPart (env := c.env) (m := m) (m0 := m1) (c := x.2) (txt := False) (prec := prec)
    (by rw [hext]; exact childWritable_dom hw hx) (mem := c.mem f.name) False.elim c.strict hres
  refine ⟨s, ?_, h2, h3, by rw [h4, hx.any]; simp [anyBack]⟩
  unfold alone
  rw [hs.content]
  exact h1

/-- No element is appended to `Any`. -/
theorem anyElems_nil {c : PkgCfg} {m : Model} {fs : List InFile} {st : ChildrenState} (hi : ChildrenInv c m fs st) (hf : st.Finished)
    (he : st.sh.errs = none) (h : ∀ f ∈ fs, ∀ s le, alone c m f = some (s, le) → s.regs.model.any = []) : st.anyElems = [] := by
  unfold ChildrenState.anyElems
  rw [List.filterMap_eq_nil_iff]
  rintro ⟨g, i⟩ -
  cases hg : st.ps[g]? with
  | none => simp
  | some p =>
    have hl : g < fs.length := by rw [← hi.len]; exact (List.getElem?_eq_some_iff.mp hg).1
    obtain ⟨s, rfl⟩ := hf g p hg
    rcases hi.phase g _ _ (List.getElem?_eq_getElem hl) hg with h1 | ⟨s', le, rfl, h1, -⟩
    · rw [he] at h1; cases h1
    · simp [Phase.state, h _ (List.getElem_mem hl) s' le h1]

/-- There is an outcome of decoding child parts that decode on their own. -/
theorem outcome_exists {c : PkgCfg} {m : Model} {fs : List InFile} (h : ∀ f ∈ fs, ∃ mf, Spec.DecodesAlone c m f mf) :
    ∃ m' e, ChildrenOutcome c m fs m' e := by
  have key : ∀ n st, Relation.ReflTransGen (ChildrenStep c m fs) (.init fs false) st → stepsLeft fs st.ps ≤ n →
      ∃ st', Relation.ReflTransGen (ChildrenStep c m fs) (.init fs false) st' ∧ ∀ st'', ¬ ChildrenStep c m fs st' st'' := by
    intro n
    induction n with
    | zero =>
      intro st hr hn
      refine ⟨st, hr, fun st'' hs => ?_⟩
      cases hs with
      | step h1 h2 h3 => have := stepsLeft_set (Phase.step_weight h3) h1 h2; omega
    | succ n ih =>
      intro st hr hn
      by_cases hs : ∃ st'', ChildrenStep c m fs st st''
      · obtain ⟨st'', hs⟩ := hs
        refine ih st'' (hr.tail hs) ?_
        cases hs with
        | step h1 h2 h3 => have := stepsLeft_set (Phase.step_weight h3) h1 h2; simp only; omega
      · exact ⟨st, hr, fun st'' h => hs ⟨st'', h⟩⟩
  obtain ⟨st, hr, hno⟩ := key _ _ .refl (Nat.le_refl _)
  rcases (C48_ends c m fs).2 st hr hno with hf | ⟨f, hf, hn⟩
  · exact ⟨_, _, st, hr, hf, rfl, rfl⟩
  · exact absurd (h f hf) hn

/-- What exactly is read from a package that was written: as `NearPackage`, with the numbers that are written and read. -/
structure BackPackage (prec : Int) (m m' : Model) : Prop where
  model : m' = m'.over (m.back prec)
  path : m'.path = m.pathOrDefault
  paths : (m'.childs.map (·.1)).Perm (m.childs.map (·.1))
  childs : ∀ p c, (p, c) ∈ m.childs → ∃ c', (p, c') ∈ m'.childs ∧ c'.resources = c.resources.back prec ∧ c'.any = c.any ∧
    NearRels c.relationships c.resources c.any c'.relationships
  rootRelationships : (m'.rootRelationships.map relLink).Nodup ∧ ∀ l, l ∈ m'.rootRelationships.map relLink ↔ PkgLink m l
  relationships : NearRels m.relationships m.resources m.any m'.relationships
  attachments : ∀ a, a ∈ m'.attachments ↔ a ∈ m.attachments ∧ Leads m a.path
  once : m'.attachments.Nodup

theorem package_back {c : PkgCfg} {o : Opc} {prec : Int} {m : Model} {order1 : List Str} {order2 : List (Str × ChildModel)}
    {pk : OutPkg} {ip : InPkg} (h : Reread c.env o prec m order1 order2 pk ip) (hw : Writable c.env m)
    (hc : ∀ x ∈ m.childs, ChildWritable c.env m.extensions x.2) :
    (∀ m' r, DecodesBg c o ip .zero m' r → r = .root .ok ∧ BackPackage prec m m') ∧
    ∃ m', DecodesBg c o ip .zero m' (.root .ok) := by
  obtain ⟨m1, root, fs, hopc, hrs, hrn, hpath, hinv, hnd, hmem, hfs, hroot, hrel, hatt, hattn⟩ := h.opc
  have hrest := hinv.rest
  have hext : m1.extensions = [] := by rw [hrest]; rfl
  have hany : m1.any = [] := by rw [hrest]; rfl
  have hne : m.pathOrDefault ≠ [] := by
    unfold Model.pathOrDefault
    split
    · decide
    · assumption
  have hcp : ∀ f ∈ fs, ChildPath m1 f.name := by
    intro f hf
    obtain ⟨x, hx, -, hn, -⟩ := hfs f hf
    have hk : f.name ∈ m.childs.map (·.1) := hn ▸ List.mem_map_of_mem hx
    refine ⟨hn ▸ (h.packed.childs x hx).2, ?_, ?_, lookup_isSome ((hinv.same _).mpr (List.mem_map_of_mem hf))⟩
    · rw [hpath]; intro e; rw [e] at hk; exact h.child_ne_root hk
    · rw [hpath]; exact fun e => hne e.1
  have hz : ∀ f ∈ fs, m1.findResources f.name = some .zero := by
    intro f hf
    obtain ⟨y, hy⟩ := Option.isSome_iff_exists.mp (hcp f hf).2.2.2
    unfold Model.findResources
    rw [if_neg (childPath_root (hcp f hf)), hy]
    exact congrArg some (hinv.zero _ (lookup_mem hy)).1
  have hal : ∀ f ∈ fs, ∃ x ∈ m.childs, f.name = x.1 ∧ ∃ s, alone c m1 f = some (s, .token .eof) ∧ s.errs = [] ∧
      s.regs.res = some (x.2.resources.back prec) ∧ s.regs.model.any = [] := by
    intro f hf
    obtain ⟨x, hx, hs, hn, -⟩ := hfs f hf
    obtain ⟨s, a1, a2, a3, a4⟩ := alone_child hw (hc x hx) hs hext (hz f hf)
    exact ⟨x, hx, hn, s, a1, a2, a3, a4.trans hany⟩
  have hdec : ∀ f ∈ fs, ∃ mf, Spec.DecodesAlone c m1 f mf := by
    intro f hf
    obtain ⟨x, -, -, s, a1, a2, -⟩ := hal f hf
    exact ⟨_, decodesAlone_iff.mpr ⟨s, _, a1, by rw [a2]; simp [decodeResult], rfl⟩⟩
  have hroot' : ∀ m2, ChildrenOutcome c m1 fs m2 none → ∃ m', processRoot c (fun _ => false) m2 root = some (m', .root .ok) ∧
      BackPackage prec m m' := by
    intro m2 ho
    obtain ⟨k1, -, k2, k3, k4⟩ := C48_resources_partial c m1 fs m2 ho hnd hcp
    have hany2 : m2.any = [] := by
      obtain ⟨st, s1, s2, s3, rfl⟩ := ho
      have := anyElems_nil (ChildrenInv.reach s1) s2 s3 (fun f hf s le hs => by
        obtain ⟨x, -, -, s', a1, -, -, a4⟩ := hal f hf
        rw [a1] at hs
        simp only [Option.some.injEq, Prod.mk.injEq] at hs
        rw [← hs.1]; exact a4)
      show m1.any ++ st.anyElems = []
      rw [this, hany]; rfl
    have e2 : m2 = { m1 with childs := m2.childs, any := [] } := by
      have := congrArg (fun y : Model => { y with childs := m2.childs, any := m2.any }) k2
      simp only at this
      rw [hany2] at this
      rw [← hany2]
      rw [← hany2] at this
      exact this
    have hm2 : m2 = m2.over .zero := by
      have := rest_set hrest m1.path m1.attachments m2.childs m1.rootRelationships m1.relationships
      rw [e2]
      have e3 : ({ m1 with childs := m2.childs, any := [] } : Model) = { m1 with childs := m2.childs } := by
        rw [← hany]
      rw [e3]
      exact this
    have hpath2 : m2.path = m.pathOrDefault := by rw [e2]; exact hpath
    have d1 := part_back (env := c.env) (mem := c.mem root.name) (strict := c.strict) (prec := prec) (path := root.name) hw hm2
      (by rw [hrn, hpath2])
    obtain ⟨m', d2⟩ : ∃ m', m' = m2.over (m.back prec) := ⟨_, rfl⟩
    rw [← d2] at d1
    have d3 : m'.path = m2.path := by rw [d2]; rfl
    have d4 : m'.attachments = m2.attachments := by rw [d2]; rfl
    have d5 : m'.childs = m2.childs := by rw [d2]; rfl
    have d6 : m'.rootRelationships = m2.rootRelationships := by rw [d2]; rfl
    have d7 : m'.relationships = m2.relationships := by rw [d2]; rfl
    refine ⟨m', ?_, by rw [d2]; rfl, by rw [d3, hpath2], ?_, ?_, ?_, ?_, ?_, ?_⟩
    · unfold processRoot
      rw [hrs.content]
      simp only [partTokens, PkgCfg.root]
      have d1' : decodeEvents ⟨c.env, true, c.mem root.name⟩ c.strict (fun _ => false) m2 root.name
        (lex .eof (.new (rootPart o prec m order1).data)).1 (lex .eof (.new (rootPart o prec m order1).data)).2 = some (m', .ok) := d1
      rw [d1']
      rfl
    · rw [d5, k3]
      rw [List.perm_ext_iff_of_nodup hinv.nodup h.childKeys]
      intro k
      rw [hinv.same, hmem]
    · intro p ch hpc
      have hkey : p ∈ fs.map (·.name) := (hmem p).mpr (List.mem_map_of_mem (f := (·.1)) hpc)
      obtain ⟨f, hf, rfl⟩ := List.mem_map.mp hkey
      obtain ⟨x, hx, hn, s, a1, a2, a3, a4⟩ := hal f hf
      have hxe : x = (f.name, ch) := nodup_fst h.childKeys x hx _ hpc hn.symm
      have hd := k1 f hf _ (decodesAlone_iff.mpr ⟨s, _, a1, by rw [a2]; simp [decodeResult], rfl⟩)
      rw [alone_find a1 (hcp f hf), a3] at hd
      have hl : ∀ (β : Type) (g : ChildModel → β), m2.childs.map (fun c => g c.2) = m1.childs.map (fun c => g c.2) →
          (lookupChild m2.childs f.name).map g = (lookupChild m1.childs f.name).map g := fun β g hg => lookup_congr g k3 hg
      obtain ⟨c1, hc1⟩ := Option.isSome_iff_exists.mp (hcp f hf).2.2.2
      have hra : (lookupChild m2.childs f.name).map (fun c => (c.relationships, c.any)) = some (c1.relationships, c1.any) := by
        rw [hl _ (fun c => (c.relationships, c.any)) k4, hc1]; rfl
      cases hc2 : lookupChild m2.childs f.name with
      | none => rw [hc2] at hra; simp at hra
      | some c2 =>
        rw [hc2] at hra
        simp only [Option.map_some, Option.some.injEq, Prod.mk.injEq] at hra
        have hp2 : ChildPath m2 f.name := by
          have hq := hcp f hf
          refine ⟨hq.1, ?_, ?_, by rw [hc2]; rfl⟩
          · rw [hpath2, ← hpath]; exact hq.2.1
          · rw [hpath2, ← hpath]; exact hq.2.2.1
        unfold Model.findResources at hd
        rw [if_neg (childPath_root hp2), hc2] at hd
        simp only [Option.some.injEq] at hd
        refine ⟨c2, by rw [d5]; exact lookup_mem hc2, ?_, ?_, ?_⟩
        · rw [hd, hxe]
        · rw [hra.2, (hinv.zero _ (lookup_mem hc1)).2]; exact (hc _ hpc).any.symm
        · obtain ⟨y, hy, -, hyn, rels, hr1, hr2⟩ := hfs f hf
          have hye : y = (f.name, ch) := nodup_fst h.childKeys y hy _ hpc hyn.symm
          rw [hc1] at hr1
          simp only [Option.map_some, Option.some.injEq] at hr1
          rw [hra.1, hr1]
          rw [hye] at hr2
          exact hr2
    · rw [d6, e2]; exact hroot
    · rw [d7, e2]; exact hrel
    · rw [d4, e2]; exact hatt
    · rw [d4, e2]; exact hattn
  constructor
  · intro m' r hd
    cases hd with
    | opc h' => rw [hopc] at h'; cases h'
    | child h' ho =>
      rw [hopc] at h'
      simp only [Option.some.injEq, Prod.mk.injEq] at h'
      obtain ⟨rfl, rfl, rfl⟩ := h'
      have := (C48_success c m1 fs _ _ ho).mpr hdec
      cases this
    | root h' ho hrt =>
      rw [hopc] at h'
      simp only [Option.some.injEq, Prod.mk.injEq] at h'
      obtain ⟨rfl, rfl, rfl⟩ := h'
      obtain ⟨m'', e, hn⟩ := hroot' _ ho
      rw [e] at hrt
      simp only [Option.some.injEq, Prod.mk.injEq] at hrt
      obtain ⟨rfl, rfl⟩ := hrt
      exact ⟨rfl, hn⟩
  · obtain ⟨m2, e, ho⟩ := outcome_exists hdec
    have := (C48_success c m1 fs _ _ ho).mpr hdec
    subst this
    obtain ⟨m', e, -⟩ := hroot' _ ho
    exact ⟨m', .root hopc ho e⟩

/-- **C55**: a model that is encoded as a package and decoded comes back, whatever the schedule of the goroutines: every run of
`Decode` on what `Encode` wrote succeeds and gives the model, its child models, its relationships and the attachments to
which a relationship leads; and there is such a run.  The conditions are `Packed` on paths and relationships, `Writable`
and `ChildWritable` on texts and names, and `ModelOk` and `ChildOk` on what has a written form. -/
theorem C55_package_partial (c : PkgCfg) (o : Opc) (prec : Int) (m : Model) (order1 : List Str) (order2 : List (Str × ChildModel))
    (pk : OutPkg) (ip : InPkg) (ho : o.Distinct) (hp : Packed c.env o m) (hw : Writable c.env m) (hk : ModelOk prec m)
    (hc : ∀ x ∈ m.childs, ChildWritable c.env m.extensions x.2 ∧ ChildOk prec x.2)
    (h1 : order1.Perm (m.childs.map (·.1))) (h2 : order2.Perm m.childs)
    (he : encodePkg o prec m order1 order2 = some pk) (hr : Reopened pk ip) :
    (∀ m' r, DecodesBg c o ip .zero m' r → r = .root .ok ∧ NearPackage prec m m') ∧
    ∃ m', DecodesBg c o ip .zero m' (.root .ok) := by
  obtain ⟨g1, g2⟩ := package_back ⟨ho, hp, h1, h2, he, hr⟩ hw fun x hx => (hc x hx).1
  refine ⟨fun m' r hd => ?_, g2⟩
  obtain ⟨g3, g4⟩ := g1 m' r hd
  refine ⟨g3, ?_, g4.path, g4.paths, fun p ch hch => ?_, g4.rootRelationships, g4.relationships, g4.attachments, g4.once⟩
  · rw [g4.model]
    obtain ⟨h1, h2, h3, h4, h5, h6, h7, h8, h9⟩ := near_model hk
    exact ⟨h1, h2, h3, h4, h5, h6, h7, h8, h9⟩
  · obtain ⟨ch', k1, k2, k3, k4⟩ := g4.childs p ch hch
    exact ⟨ch', k1, by rw [k2]; exact near_resources (hc _ hch).2, k3, k4⟩

/-! ## A model that meets the conditions -/

section Examples

/-- The package read from what was written. -/
def reopen (pk : OutPkg) : InPkg := ⟨pk.rels, pk.parts.map fun p => ⟨p.name, p.contentType, p.rels, some (p.data, .eof)⟩⟩

theorem reopen_spec (pk : OutPkg) : Reopened pk (reopen pk) := by
  refine ⟨rfl, ?_⟩
  unfold reopen
  generalize pk.parts = ps
  induction ps with
  | nil => exact .nil
  | cons p ps ih => exact .cons ⟨rfl, rfl, rfl, rfl⟩ ih

/-- The model of C28 with a child model, a texture of the child, a thumbnail and a relationship. -/
def c55Model : Model :=
  { exModel with
    thumbnail := b!"/t.png"
    attachments := [⟨b!"tttt", b!"/t.png", b!"image/png"⟩, ⟨b!"uuuu", b!"/u.png", b!"image/png"⟩]
    rootRelationships := [⟨b!"/t.png", relThumbnail, b!"r1"⟩]
    relationships := [⟨b!"/t.png", b!"http://example.com/x", b!"r2"⟩]
    childs := [(b!"/c.model", { ChildModel.zero with
      resources := exModel.resources, relationships := [⟨b!"/u.png", relTexture, b!"r3"⟩] })] }

theorem c55_writable : Writable exEnv c55Model :=
  ⟨exWritable.extensions, exWritable.distinct, exWritable.language, text_closed (by decide +kernel), exWritable.attrs, exWritable.noXml,
    exWritable.metadata, exWritable.assets, exWritable.objects, exWritable.resourcesAttrs, exWritable.items, exWritable.buildAttrs,
    exWritable.any⟩

theorem c55_child : ∀ x ∈ c55Model.childs, ChildWritable exEnv c55Model.extensions x.2 ∧ ChildOk 3 x.2 := by
  intro x hx
  simp only [c55Model, List.mem_singleton] at hx
  subst hx
  refine ⟨⟨exWritable.assets, fun o ho => ?_, exWritable.resourcesAttrs, rfl⟩, ⟨(exOk 3).assets, (exOk 3).objects⟩⟩
  have h := exWritable.objects o ho
  refine ⟨h.name, h.partNumber, h.thumbnail, ⟨fun md hmd => ?_, h.metadata.attrs, h.metadata.empty⟩, h.mesh, h.components, h.attrs, h.triangles⟩
  simp only [exModel, List.mem_cons, List.not_mem_nil, or_false] at ho
  rcases ho with rfl | rfl <;> simp at hmd

theorem c55_absolute (p : Str) : Absolute c50Opc p := ⟨rfl, fun _ => rfl⟩

theorem c55_packed : Packed exEnv c50Opc c55Model := by
  refine ⟨c55_absolute _, fun _ _ => c55_absolute _, ?_, by unfold OnceEach; decide, ?_, ?_, ?_, ?_⟩
  · intro x hx
    simp only [c55Model, List.mem_singleton] at hx
    subst hx
    exact ⟨c55_absolute _, by simp⟩
  · intro r hr
    simp only [c55Model, List.mem_singleton] at hr
    subst hr
    exact (by decide +kernel : relThumbnail ≠ relModel)
  · intro r hr
    simp only [c55Model, List.mem_singleton] at hr
    subst hr
    exact (by decide +kernel : b!"http://example.com/x" ≠ relModel)
  · intro x hx r hr
    simp only [c55Model, List.mem_singleton] at hx
    subst hx
    simp only [List.mem_singleton] at hr
    subst hr
    exact (by decide +kernel : relTexture ≠ relModel)
  · have hu : ∀ l, ¬ Uses exModel.resources [] l := by
      rintro l (⟨t, h, -⟩ | ⟨ob, h, h', -⟩ | ⟨ob, h, me, t, h1, h2, -⟩ | ⟨t, h, -⟩)
      · simp [exModel] at h
      · simp only [exModel, List.mem_cons, List.not_mem_nil, or_false] at h
        rcases h with rfl | rfl <;> exact h' rfl
      · simp only [exModel, List.mem_cons, List.not_mem_nil, or_false] at h
        rcases h with rfl | rfl
        · injection h1 with h1; subst h1; simp [exMesh] at h2
        · cases h1
      · simp at h
    rintro p ⟨l, rfl, (h | ⟨-, rfl⟩) | (h | h) | ⟨x, hx, h⟩⟩
    · simp only [c55Model, List.map_cons, List.map_nil, List.mem_singleton] at h
      subst h; simp [c55Model, relLink]
    · simp [c55Model]
    · simp only [c55Model, List.map_cons, List.map_nil, List.mem_singleton] at h
      subst h; simp [c55Model, relLink]
    · exact absurd h (hu l)
    · simp only [c55Model, List.mem_singleton] at hx
      subst hx
      rcases h with h | h
      · simp only [List.map_cons, List.map_nil, List.mem_singleton] at h
        subst h; simp [c55Model, relLink]
      · exact absurd h (hu l)

/-- The model is written, and all that the theorem says of it holds. -/
example (mem : Str → Nat → Str → Str) (strict : Bool) : ∃ pk, encodePkg c50Opc 3 c55Model [b!"/c.model"] c55Model.childs = some pk ∧
    (∀ m' r, DecodesBg ⟨exEnv, strict, mem⟩ c50Opc (reopen pk) .zero m' r → r = .root .ok ∧ NearPackage 3 c55Model m') ∧
    ∃ m', DecodesBg ⟨exEnv, strict, mem⟩ c50Opc (reopen pk) .zero m' (.root .ok) := by
  have h : (encodePkg c50Opc 3 c55Model [b!"/c.model"] c55Model.childs).isSome = true := by decide +kernel
  obtain ⟨pk, hpk⟩ := Option.isSome_iff_exists.mp h
  exact ⟨pk, hpk, C55_package_partial ⟨exEnv, strict, mem⟩ c50Opc 3 c55Model _ _ pk _ (fun _ _ _ h => by simpa [c50Opc] using h)
    c55_packed c55_writable ⟨(exOk 3).assets, (exOk 3).objects, (exOk 3).any⟩ c55_child (by decide) (List.Perm.refl _) hpk (reopen_spec pk)⟩

/-! ## What is lost -/

/-- One run of `Decode`: the goroutines run in the given order. -/
def decodeSeq (c : PkgCfg) (o : Opc) (pk : InPkg) (gs : List Nat) : Option (Model × PkgResult) :=
  (processOPC c.env o pk .zero).bind fun x =>
    (runSchedule c x.1 x.2.2 gs (.init x.2.2 false)).bind fun st =>
      if st.allFinished && st.sh.errs.isNone then processRoot c (fun _ => false) (st.model x.1 x.2.2) x.2.1 else none

theorem decodeSeq_spec {c : PkgCfg} {o : Opc} {pk : InPkg} {gs : List Nat} {m' : Model} {r : PkgResult}
    (h : decodeSeq c o pk gs = some (m', r)) : DecodesBg c o pk .zero m' r := by
  simp only [decodeSeq, Option.bind_eq_some_iff] at h
  obtain ⟨⟨m1, root, fs⟩, h1, st, h2, h3⟩ := h
  simp only at h2 h3
  by_cases hc : (st.allFinished && st.sh.errs.isNone) = true
  · rw [if_pos hc] at h3
    simp only [Bool.and_eq_true, Option.isNone_iff_eq_none] at hc
    exact .root h1 ⟨st, runSchedule_reach h2, allFinished_iff hc.1, hc.2, rfl⟩ h3
  · rw [if_neg hc] at h3; cases h3

/-- Write a model, read it and look at it. -/
def c55Run {α : Type} (m : Model) (gs : List Nat) (view : Model → α) : Option α :=
  (encodePkg c50Opc 3 m (m.childs.map (·.1)) m.childs).bind fun pk =>
    (decodeSeq ⟨exEnv, true, fun _ _ t => t⟩ c50Opc (reopen pk) gs).bind fun x =>
      match x.2 with
      | .root .ok => some (view x.1)
      | _ => none

/-- **C55** is false of attachments to which no relationship leads: they are lost. -/
theorem C55_attachments_false :
    c55Run { Model.zero with attachments := [⟨b!"x", b!"/x", b!"t"⟩] } [] (fun m => m.attachments.length) = some 0 := by
  decide +kernel

/-- A child model with an object that has a metadata, and another element. -/
def c55Lost : Model :=
  { exModel with
    childs := [(b!"/c.model", { ChildModel.zero with
      resources := { Resources.zero with objects := [
        { id := 2, name := [], partNumber := [], thumbnail := [], pid := 0, pindex := 0, type := .model
          metadata := ⟨[⟨⟨b!"v", b!"k"⟩, b!"1", [], false⟩], []⟩, mesh := some exMesh, components := none, anyAttr := [] }] }
      any := [.tokens [.start ⟨b!"http://example.com/v", b!"e"⟩ [], .stop ⟨b!"http://example.com/v", b!"e"⟩]] })] }

/-- **C55** is false of the metadata of the objects of child models: child parts are decoded before the root part, when the
prefixes of the model are not known, and the name space is left in the name. -/
theorem C55_metadata_false :
    (c55Lost.childs.map fun c => c.2.resources.objects.map fun o => o.metadata.metadata.map (·.name)) = [[[⟨b!"v", b!"k"⟩]]] ∧
    c55Run c55Lost (List.replicate 74 0) (fun m => m.childs.map fun c => c.2.resources.objects.map fun o =>
      o.metadata.metadata.map (·.name)) = some [[[⟨[], b!"v:k"⟩]]] := by
  decide +kernel

/-- **C55** is false of the other elements of child models: they become elements of the root model. -/
theorem C55_any_false : c55Lost.any = [] ∧
    c55Run c55Lost (List.replicate 74 0) (fun m => (m.any.length, m.childs.map fun c => c.2.any.length)) = some (1, [0]) := by
  decide +kernel

end Examples

end Go3mf
