import Verif.Props.C62
import Verif.Props.C68

/-!
# C69: a package that was read can be saved and read again

C68 for whole packages: the root part, the child parts, the relationships and the attachments.  Two kinds of packages are
read, but what was read cannot be saved (`C69_twice_false`), or not be read again (`C69_prefix_false`).
-/

namespace Go3mf
open Spec

namespace Spec

/-- The conditions of C68 for the root part. -/
structure SavableRoot (env : Env) (d : Doc) : Prop where
  attrs : RootClean d.attrs
  content : ContentClean env (extensionsOf d.attrs) .model d.content

/-- The conditions of C68 for a child part.  `exts` are the extensions of the root part: child parts are saved with the prefixes of
the root part (`C69_prefix_false`). -/
structure SavableChild (env : Env) (exts : List Extension) (d : Doc) : Prop where
  content : ContentClean env exts .childModel d.content

/-- The file is used by a part or is the thumbnail of the package. -/
def UsedFile (env : Env) (o : Opc) (pk : InPkg) (root : InFile) (doc : InFile → Doc) (p : Str) : Prop :=
  (textAt (doc root).attrs b!"thumbnail" = p ∧ p ≠ []) ∨
  (∃ l, l.2 = p ∧ Uses (resourcesOf env (extensionsOf (doc root).attrs) (child? (core b!"resources") (doc root).content))
    ((doc root).content.filterMap (anyOf env .model)) l) ∨
  ∃ f ∈ childParts o pk root, ∃ l, l.2 = p ∧ Uses (resourcesOf env [] (child? (core b!"resources") (doc f).content)) [] l

/-- The names and relationships of a package that can be saved again. -/
structure SavablePackage (env : Env) (o : Opc) (pk : InPkg) (root : InFile) (doc : InFile → Doc) : Prop where
  /-- The names of the parts are absolute. -/
  names : ∀ f ∈ pk.files, Absolute o f.name
  /-- So are the targets of relationships. -/
  pkgTargets : ∀ r ∈ pk.rels, ∀ f, relTarget o pk b!"/" r = some f → r.path = f.name
  targets : ∀ p, p = root ∨ p ∈ childParts o pk root → ∀ r ∈ p.rels, ∀ f, relTarget o pk p.name r = some f → r.path = f.name
  /-- Files that are not models can be read. -/
  readable : ∀ f, Referenced o pk f → ∃ data, f.content = some (data, .eof)
  /-- They do not have the same name up to case. -/
  cases : ∀ f g, Referenced o pk f → Referenced o pk g → env.fold f.name = env.fold g.name → f.name = g.name
  /-- There is a relationship to each file that is used. -/
  used : ∀ p, UsedFile env o pk root doc p → ∃ f, Referenced o pk f ∧ f.name = p

/-- The library creates parts with the names and types of the package, if their names are new up to case. -/
structure Welcome (env : Env) (o : Opc) (pk : InPkg) : Prop where
  files : ∀ f ∈ pk.files, ∀ names, (∀ n ∈ names, env.fold n ≠ env.fold f.name) → o.accepts names f.name f.contentType = true
  models : ∀ f ∈ pk.files, ∀ names, (∀ n ∈ names, env.fold n ≠ env.fold f.name) → o.accepts names f.name contentTypeModel = true

end Spec

theorem target_mem {o : Opc} {pk : InPkg} {s : Str} {r : Relationship} {f : InFile} (h : relTarget o pk s r = some f) : f ∈ pk.files :=
  List.mem_of_find?_eq_some h

theorem referenced_mem {o : Opc} {pk : InPkg} {f : InFile} (h : Referenced o pk f) : f ∈ pk.files := by
  rcases h with ⟨r, _, _, h⟩ | ⟨p, _, r, _, _, h⟩ <;> exact target_mem h

theorem childParts_mem {o : Opc} {pk : InPkg} {root f : InFile} (h : f ∈ childParts o pk root) :
    ∃ r ∈ root.rels, r.type = relModel ∧ relTarget o pk root.name r = some f := by
  obtain ⟨r, h1, h2⟩ := List.mem_filterMap.1 h
  obtain ⟨h3, h4⟩ := List.mem_filter.1 h1
  exact ⟨r, h3, by simpa using h4, h2⟩

theorem present_mem {o : Opc} {pk : InPkg} {s : Str} {rels : List Relationship} {r : Relationship} (h : r ∈ present o pk s rels) :
    r ∈ rels ∧ r.type ≠ relModel ∧ ∃ f, relTarget o pk s r = some f := by
  obtain ⟨h1, h2⟩ := List.mem_filter.1 h
  simp only [Bool.and_eq_true, decide_eq_true_eq] at h2
  exact ⟨h1, h2.1, Option.isSome_iff_exists.1 h2.2⟩

section
variable {env : Env} {o : Opc} {pk : InPkg} {root : InFile} {doc : InFile → Doc} {m : Model}

theorem plain_root (hp : PlainPackage o pk root) : IsRootPart o pk root ∧ root ∈ pk.files := by
  obtain ⟨r, h1, h2⟩ := hp.one
  have : r ∈ pk.rels.filter (fun r => decide (r.type = relModel)) := by rw [h1]; exact List.mem_cons_self
  obtain ⟨h3, h4⟩ := List.mem_filter.1 this
  exact ⟨⟨r, h3, by simpa using h4, h2⟩, target_mem h2⟩

/-- Each file that is referred to has an attachment with just its name. -/
theorem means_attachment (hs : SavablePackage env o pk root doc) (hm : MeansPackage env o pk root doc m) {f : InFile}
    (hf : Referenced o pk f) : f.name ∈ m.attachments.map (·.path) := by
  obtain ⟨data, hd⟩ := hs.readable f hf
  obtain ⟨a, ha, he⟩ := hm.covered f data hf hd
  obtain ⟨g, hg, hc⟩ := hm.copies a ha
  rw [hc.1] at he
  exact List.mem_map.2 ⟨a, ha, by rw [hc.1]; exact hs.cases g f hg hf he⟩

theorem means_path (hp : PlainPackage o pk root) (hm : MeansPackage env o pk root doc m) : m.path = root.name ∧ m.pathOrDefault = root.name := by
  have h : m.path = root.name := by rw [hm.model]; rfl
  exact ⟨h, by rw [Model.pathOrDefault, h, if_neg hp.rootName]⟩

theorem means_childs (hm : MeansPackage env o pk root doc m) {x : Str × ChildModel} (hx : x ∈ m.childs) :
    ∃ f ∈ childParts o pk root, x = (f.name, ⟨resourcesOf env [] (child? (core b!"resources") (doc f).content), present o pk f.name f.rels, []⟩) := by
  obtain ⟨f, hf, e⟩ := List.mem_map.1 (hm.childs.mem_iff.1 hx)
  exact ⟨f, hf, e.symm⟩

theorem means_packed (hp : PlainPackage o pk root) (hs : SavablePackage env o pk root doc) (hm : MeansPackage env o pk root doc m) :
    Packed env o m := by
  obtain ⟨hroot, hrm⟩ := plain_root hp
  have hrr : m.rootRelationships = present o pk b!"/" pk.rels := by rw [hm.model]; rfl
  have hr : m.relationships = present o pk root.name root.rels := by rw [hm.model]; rfl
  have hth : m.thumbnail = textAt (doc root).attrs b!"thumbnail" := by rw [hm.model]; rfl
  have hres : m.resources = resourcesOf env (extensionsOf (doc root).attrs) (child? (core b!"resources") (doc root).content) := by
    rw [hm.model]; rfl
  have hany : m.any = (doc root).content.filterMap (anyOf env .model) := by rw [hm.model]; rfl
  have hchild : ∀ f ∈ childParts o pk root, IsChildPart o pk f ∧ f ∈ pk.files := by
    intro f hf
    obtain ⟨r, h1, h2, h3⟩ := childParts_mem hf
    exact ⟨⟨root, hroot, r, h1, h2, h3⟩, target_mem h3⟩
  refine ⟨?_, ?_, ?_, hm.once, ?_, ?_, ?_, ?_⟩
  · rw [(means_path hp hm).2]
    exact hs.names root hrm
  · intro a ha
    obtain ⟨f, hf, hc⟩ := hm.copies a ha
    rw [hc.1]
    exact hs.names f (referenced_mem hf)
  · intro x hx
    obtain ⟨f, hf, rfl⟩ := means_childs hm hx
    exact ⟨hs.names f (hchild f hf).2, (hp.childNames f hf).1⟩
  · intro r h
    rw [hrr] at h
    exact (present_mem h).2.1
  · intro r h
    rw [hr] at h
    exact (present_mem h).2.1
  · intro x hx r h
    obtain ⟨f, hf, rfl⟩ := means_childs hm hx
    exact (present_mem h).2.1
  · have huse : ∀ p, UsedFile env o pk root doc p → p ∈ m.attachments.map (·.path) := by
      intro p h
      obtain ⟨f, hf, rfl⟩ := hs.used p h
      exact means_attachment hs hm hf
    have hlink : ∀ (s : InFile) (l : Str × Str), (s = root ∨ s ∈ childParts o pk root) → l ∈ (present o pk s.name s.rels).map relLink →
        l.2 ∈ m.attachments.map (·.path) := by
      intro s l hsrc h
      obtain ⟨r, h1, rfl⟩ := List.mem_map.1 h
      obtain ⟨h2, h3, f, h4⟩ := present_mem h1
      have : Referenced o pk f := .inr ⟨s, hsrc.imp (fun e => by rw [e]; exact hroot) (fun h => (hchild s h).1), r, h2, h3, h4⟩
      show r.path ∈ _
      rw [hs.targets s hsrc r h2 f h4]
      exact means_attachment hs hm this
    rintro p ⟨l, rfl, (h | ⟨h, rfl⟩) | (h | h) | ⟨x, hx, h⟩⟩
    · rw [hrr] at h
      obtain ⟨r, h1, rfl⟩ := List.mem_map.1 h
      obtain ⟨h2, h3, f, h4⟩ := present_mem h1
      show r.path ∈ _
      rw [hs.pkgTargets r h2 f h4]
      exact means_attachment hs hm (.inl ⟨r, h2, h3, h4⟩)
    · exact huse _ (.inl ⟨hth.symm, h⟩)
    · rw [hr] at h
      exact hlink root l (.inl rfl) h
    · rw [hres, hany] at h
      exact huse _ (.inr (.inl ⟨l, rfl, h⟩))
    · obtain ⟨f, hf, rfl⟩ := means_childs hm hx
      rcases h with h | h
      · exact hlink f l (.inr hf) h
      · exact huse _ (.inr (.inr ⟨f, hf, l, rfl, h⟩))

/-- The child models can be written. -/
theorem child_writable {kept : Prop} {exts : List Extension} {f : InFile} {d : Doc} {rels : List Relationship} (hd : ChildDoc env kept f d)
    (hx : ∀ x ∈ exts, ExtensionWritable x) (hs : SavableChild env exts d) :
    ChildWritable env exts ⟨resourcesOf env [] (child? (core b!"resources") d.content), rels, []⟩ := by
  have hsub : ∀ e, child? (core b!"resources") d.content = some e → Sub env kept exts .resources (core b!"resources") e :=
    fun e he => sub_of hd.content hs.content (children_mem (child_mem he)) (mu := .single) (by rw [kind_core]; rfl)
  refine ⟨?_, ?_, ?_, rfl⟩
  · intro a ha
    simp only [resourcesOf] at ha
    split at ha
    next e he => exact asset_writable (hsub e he) a ha
    · simp at ha
  · intro ob h
    simp only [resourcesOf] at h
    split at h
    next e he =>
      obtain ⟨z, hz, rfl⟩ := List.mem_map.1 h
      exact object_writable (by simp) ((hsub e he).children (k' := .object) (mu := .many) rfl hz)
    · simp at h
  · simp only [resourcesOf]
    split
    next e he => exact (hsub e he).groups rfl (by simp)
    · exact ⟨by simp, by simp⟩

/-! ## The library does not refuse the parts -/

theorem writeAttachments_ok : ∀ {as : List Attachment} {ps : List OutPart},
    (∀ a ∈ as, o.norm a.path = a.path ∧ ∀ names, (∀ n ∈ names, env.fold n ≠ env.fold a.path) → o.accepts names a.path a.contentType = true) →
    (as.map fun a => env.fold a.path).Nodup → (∀ a ∈ as, ∀ p ∈ ps, env.fold p.name ≠ env.fold a.path) →
    writeAttachments o as ps = some (ps ++ as.map (attachmentPart o))
  | [], ps, _, _, _ => by simp [writeAttachments]
  | a :: as, ps, h1, h2, h3 => by
    obtain ⟨g1, g2⟩ := h1 a List.mem_cons_self
    rw [List.map_cons, List.nodup_cons] at h2
    have hacc : o.accepts (ps.map (·.name)) (o.norm a.path) a.contentType = true := by
      rw [g1]
      refine g2 _ fun n hn => ?_
      obtain ⟨p, hp, rfl⟩ := List.mem_map.1 hn
      exact h3 a List.mem_cons_self p hp
    rw [writeAttachments, createPart, if_pos hacc, Option.bind_some, writeAttachments_ok (fun b hb => h1 b (List.mem_cons_of_mem _ hb)) h2.2]
    · simp [attachmentPart]
    · intro b hb p hp
      rcases List.mem_append.1 hp with hp | hp
      · exact h3 b (List.mem_cons_of_mem _ hb) p hp
      · rw [List.mem_singleton] at hp
        subst hp
        show env.fold (o.norm a.path) ≠ _
        rw [g1]
        exact fun e => h2.1 (List.mem_map.2 ⟨b, hb, e.symm⟩)

theorem writeChilds_ok {prec : Int} : ∀ {cs : List (Str × ChildModel)} {ps : List OutPart},
    (∀ x ∈ cs, Absolute o x.1 ∧ ∀ names, (∀ n ∈ names, env.fold n ≠ env.fold x.1) → o.accepts names x.1 contentTypeModel = true) →
    (cs.map fun x => env.fold x.1).Nodup → (∀ x ∈ cs, ∀ p ∈ ps, env.fold p.name ≠ env.fold x.1) →
    ∃ qs, writeChilds o prec m cs ps = some qs
  | [], ps, _, _, _ => ⟨ps, rfl⟩
  | a :: as, ps, h1, h2, h3 => by
    obtain ⟨⟨g1, g3⟩, g2⟩ := h1 a List.mem_cons_self
    rw [List.map_cons, List.nodup_cons] at h2
    have hname : o.norm (o.resolve m.pathOrDefault a.1) = a.1 := by rw [g3, g1]
    have hacc : o.accepts (ps.map (·.name)) (o.norm (o.resolve m.pathOrDefault a.1)) contentTypeModel = true := by
      rw [hname]
      refine g2 _ fun n hn => ?_
      obtain ⟨p, hp, rfl⟩ := List.mem_map.1 hn
      exact h3 a List.mem_cons_self p hp
    rw [writeChilds, createPart, if_pos hacc, Option.bind_some]
    refine writeChilds_ok (fun b hb => h1 b (List.mem_cons_of_mem _ hb)) h2.2 fun b hb p hp => ?_
    rcases List.mem_append.1 hp with hp | hp
    · exact h3 b (List.mem_cons_of_mem _ hb) p hp
    · rw [List.mem_singleton] at hp
      subst hp
      show env.fold (o.norm (o.resolve m.pathOrDefault a.1)) ≠ _
      rw [hname]
      exact fun e => h2.1 (List.mem_map.2 ⟨b, hb, e.symm⟩)

end

namespace Spec

/-- The parts of models have different names up to case, and no other relationship leads to them (`C69_twice_false`). -/
structure ModelsApart (env : Env) (o : Opc) (pk : InPkg) (root : InFile) : Prop where
  distinct : ((root :: childParts o pk root).map fun f => env.fold f.name).Nodup
  others : ∀ f, Referenced o pk f → ∀ g ∈ root :: childParts o pk root, env.fold f.name ≠ env.fold g.name

end Spec

/-- **C69** (saving): a model that was read can be saved, for every precision and every order in which the map of child models is
visited. -/
theorem C69_encodes_partial (env : Env) (o : Opc) (pk : InPkg) (root : InFile) (doc : InFile → Doc) (m : Model) (prec : Int)
    (hp : PlainPackage o pk root) (hs : SavablePackage env o pk root doc) (hm : MeansPackage env o pk root doc m)
    (hw : Welcome env o pk) (ha : ModelsApart env o pk root) (order1 : List Str) (order2 : List (Str × ChildModel))
    (h2 : order2.Perm m.childs) : ∃ out, encodePkg o prec m order1 order2 = some out := by
  obtain ⟨hroot, hrm⟩ := plain_root hp
  have hpath := (means_path hp hm).2
  have hnd := ha.distinct
  rw [List.map_cons, List.nodup_cons] at hnd
  have hchild : ∀ x ∈ order2, ∃ f ∈ childParts o pk root, f.name = x.1 ∧ f ∈ pk.files := by
    intro x hx
    obtain ⟨f, hf, rfl⟩ := means_childs hm (h2.mem_iff.1 hx)
    obtain ⟨r, _, _, h⟩ := childParts_mem hf
    exact ⟨f, hf, rfl, target_mem h⟩
  have hatt : ∀ p ∈ m.attachments.map (attachmentPart o), ∃ f, Referenced o pk f ∧ p.name = f.name := by
    intro p hp
    obtain ⟨a, h, rfl⟩ := List.mem_map.1 hp
    obtain ⟨f, hf, hc⟩ := hm.copies a h
    refine ⟨f, hf, ?_⟩
    show o.norm a.path = _
    rw [hc.1]
    exact (hs.names f (referenced_mem hf)).1
  have e1 := writeAttachments_ok (env := env) (o := o) (as := m.attachments) (ps := []) (fun a h => by
    obtain ⟨f, hf, hc⟩ := hm.copies a h
    rw [hc.1, hc.2.1]
    exact ⟨(hs.names f (referenced_mem hf)).1, hw.files f (referenced_mem hf)⟩) hm.once (by simp)
  rw [List.nil_append] at e1
  have hrn : o.norm m.pathOrDefault = root.name := by rw [hpath]; exact (hs.names root hrm).1
  have hacc : o.accepts ((m.attachments.map (attachmentPart o)).map (·.name)) (o.norm m.pathOrDefault) contentTypeModel = true := by
    rw [hrn]
    refine hw.models root hrm _ fun n hn => ?_
    obtain ⟨p, hp, rfl⟩ := List.mem_map.1 hn
    obtain ⟨f, hf, e⟩ := hatt p hp
    rw [e]
    exact ha.others f hf root List.mem_cons_self
  obtain ⟨qs, e3⟩ := writeChilds_ok (env := env) (o := o) (m := m) (prec := prec) (cs := order2)
    (ps := m.attachments.map (attachmentPart o) ++ [⟨o.norm m.pathOrDefault, contentTypeModel, m.partBytes prec,
      (m.rootPartRels order1).foldl opcAddRel []⟩]) (fun x hx => by
      obtain ⟨f, _, e, hf⟩ := hchild x hx
      rw [← e]
      exact ⟨hs.names f hf, hw.models f hf⟩) (by
      have : (order2.map fun x => env.fold x.1).Perm ((childParts o pk root).map fun f => env.fold f.name) := by
        refine ((h2.trans hm.childs).map _).trans (.of_eq ?_)
        rw [List.map_map]
        rfl
      exact this.nodup_iff.2 hnd.2) (by
      intro x hx p hp
      obtain ⟨f, hf, e, _⟩ := hchild x hx
      rw [← e]
      rcases List.mem_append.1 hp with hp | hp
      · obtain ⟨g, hg, e⟩ := hatt p hp
        rw [e]
        exact ha.others g hg f (List.mem_cons_of_mem _ hf)
      · rw [List.mem_singleton] at hp
        subst hp
        show env.fold (o.norm m.pathOrDefault) ≠ _
        rw [hrn]
        exact fun e => hnd.1 (List.mem_map.2 ⟨f, hf, e.symm⟩))
  exact ⟨_, by rw [encodePkg, e1, Option.bind_some, createPart, if_pos hacc, Option.bind_some, e3, Option.map_some]⟩

/-- **C69**: a package is read, in every interleaving of the goroutines, as a model `m1`; whenever that is saved and the result is
read, in every interleaving, there is no error, and the result describes the same as `m1`. -/
theorem C69_saved_partial (c : PkgCfg) (o : Opc) (pk : InPkg) (root : InFile) (doc : InFile → Doc) (ho : o.Distinct)
    (hp : PlainPackage o pk root) (hr : RootDoc c.env False root (doc root))
    (hc : ∀ f ∈ childParts o pk root, ChildDoc c.env False f (doc f))
    (hf : ∀ f ∈ childParts o pk root, partFaults c.env .childModel ([], (doc f).content) = [])
    (hmode : c.strict = false ∨ partFaults c.env .model ((doc root).attrs, (doc root).content) = [])
    (hsr : SavableRoot c.env (doc root))
    (hsc : ∀ f ∈ childParts o pk root, SavableChild c.env (extensionsOf (doc root).attrs) (doc f))
    (hsp : SavablePackage c.env o pk root doc) :
    (∃ m1 r, DecodesBg c o pk .zero m1 r) ∧
    ∀ m1 r, DecodesBg c o pk .zero m1 r →
      r = .root (reportIn c.strict (partFaults c.env .model ((doc root).attrs, (doc root).content))) ∧
      MeansPackage c.env o pk root doc m1 ∧
      ∀ (prec : Int) (order1 : List Str) (order2 : List (Str × ChildModel)) (out : OutPkg) (again : InPkg) (strict2 : Bool)
        (mem2 : Str → Nat → Str → Str),
        ModelOk prec m1 → (∀ x ∈ m1.childs, ChildOk prec x.2) →
        order1.Perm (m1.childs.map (·.1)) → order2.Perm m1.childs → encodePkg o prec m1 order1 order2 = some out → Reopened out again →
        (∀ m2 r2, DecodesBg ⟨c.env, strict2, mem2⟩ o again .zero m2 r2 → r2 = .root .ok ∧ NearPackage prec m1 m2) ∧
        ∃ m2, DecodesBg ⟨c.env, strict2, mem2⟩ o again .zero m2 (.root .ok) := by
  obtain ⟨h1, h2⟩ := (C62_package c o pk root doc False False.elim hp hr hc).1 hf
  refine ⟨h2, fun m1 r hd => ?_⟩
  obtain ⟨hres, hmeans⟩ := h1 m1 r hd
  have hm := hmeans hmode
  refine ⟨hres, hm, fun prec order1 order2 out again strict2 mem2 hok hcok p1 p2 he hre => ?_⟩
  have hext : m1.extensions = extensionsOf (doc root).attrs := by rw [hm.model]; rfl
  have hw : Writable c.env m1 := by
    rw [hm.model]
    exact C68_writable_partial c.env False _ _ _ hr.attrs hsr.attrs hr.content hsr.content
  refine C55_package_partial ⟨c.env, strict2, mem2⟩ o prec m1 order1 order2 out again ho (means_packed hp hsp hm) hw hok (fun x hx => ?_)
    p1 p2 he hre
  refine ⟨?_, hcok x hx⟩
  obtain ⟨f, hfm, rfl⟩ := means_childs hm hx
  rw [hext]
  exact child_writable (hc f hfm) (extensions_writable hsr.attrs) (hsc f hfm)

/-! ## Packages that cannot be saved -/

/-- A package with a root part and a child part. -/
def c69Package (rels : List Relationship) (child : Str) : InPkg :=
  ⟨[⟨b!"/3D/3dmodel.model", relModel, b!"r0"⟩],
    [⟨b!"/3D/3dmodel.model", contentTypeModel, rels, some (b!"<model xmlns=\"http://schemas.microsoft.com/3dmanufacturing/core/2015/02\"/>", .eof)⟩,
     ⟨b!"/c.model", contentTypeModel, [], some (child, .eof)⟩]⟩

/-- Read a package without error and save it: the content of the parts. -/
def c69Run (pk : InPkg) (steps : Nat) : Option (Option (List Str)) :=
  (decodeSeq ⟨exEnv, true, fun _ _ t => t⟩ c50Opc pk (List.replicate steps 0)).bind fun x =>
    match x.2 with
    | .root .ok => some ((encodePkg c50Opc 4 x.1 (x.1.childs.map (·.1)) x.1.childs).map fun out => out.parts.map (·.data))
    | _ => none

/-- **C69** is false if another relationship leads to a child part: the part is an attachment, too, and the library refuses to write
two parts with one name (encoder.go:146-218). -/
theorem C69_twice_false :
    c69Run (c69Package [⟨b!"/c.model", relModel, b!"r1"⟩, ⟨b!"/c.model", relTexture, b!"r2"⟩]
      b!"<model xmlns=\"http://schemas.microsoft.com/3dmanufacturing/core/2015/02\"/>") 7 = some none := by
  decide +kernel

/-- **C69** is false if a child part declares a prefix that the root part does not declare: it is saved without the declaration, and
the reader does not accept what is written in place of the prefix (decoder.go:53-90, internal/xml/printer.go:21-41). -/
theorem C69_prefix_false :
    (c69Run (c69Package [⟨b!"/c.model", relModel, b!"r1"⟩]
      b!"<model xmlns=\"http://schemas.microsoft.com/3dmanufacturing/core/2015/02\" xmlns:v=\"http://u\"><resources><object id=\"1\" v:k=\"1\"/></resources></model>") 15).map
      (fun ps => ps.map fun l => l.map fun data => (lex .eof (.new data)).2) = some (some [.eof, .syntax]) := by
  decide +kernel

/-! ## Non-vacuity -/

def c69Root : InFile :=
  ⟨b!"/3D/3dmodel.model", contentTypeModel, [⟨b!"/c.model", relModel, b!"r1"⟩],
    some (b!"<?xml version=\"1.0\"?><model xmlns=\"http://schemas.microsoft.com/3dmanufacturing/core/2015/02\" xmlns:m=\"http://schemas.microsoft.com/3dmanufacturing/material/2015/02\" thumbnail=\"/t.png\"><build><item objectid=\"1\" transform=\"1\"/></build></model>", .eof)⟩

def c69Child : InFile :=
  ⟨b!"/c.model", contentTypeModel, [⟨b!"/t.png", relTexture, b!"r2"⟩],
    some (b!"<model xmlns=\"http://schemas.microsoft.com/3dmanufacturing/core/2015/02\" xmlns:z=\"http://schemas.microsoft.com/3dmanufacturing/material/2015/02\"><resources><z:texture2d id=\"2\" path=\"/t.png\" contenttype=\"image/png\"/><object id=\"1\" name=\"a\"><metadatagroup><metadata name=\"m:q\"/></metadatagroup></object></resources></model>", .eof)⟩

def c69Image : InFile := ⟨b!"/t.png", b!"image/png", [], some (b!"t", .eof)⟩

def c69Pkg : InPkg :=
  ⟨[⟨b!"/3D/3dmodel.model", relModel, b!"r0"⟩, ⟨b!"/t.png", relThumbnail, b!"r3"⟩], [c69Root, c69Child, c69Image]⟩

def c69RootDoc : Doc :=
  ⟨[.other], [pl b!"xmlns" nsCore, ⟨⟨b!"xmlns", b!"m"⟩, nsMaterials⟩, pl b!"thumbnail" b!"/t.png"],
    [.elem (core b!"build") [] [.elem (core b!"item") [pl b!"objectid" b!"1", pl b!"transform" b!"1"] []]], []⟩

def c69ChildDoc : Doc :=
  ⟨[], [pl b!"xmlns" nsCore, ⟨⟨b!"xmlns", b!"z"⟩, nsMaterials⟩],
    [.elem (core b!"resources") []
      [.elem (mat b!"texture2d") [pl b!"id" b!"2", pl b!"path" b!"/t.png", pl b!"contenttype" b!"image/png"] [],
       .elem (core b!"object") [pl b!"id" b!"1", pl b!"name" b!"a"]
        [.elem (core b!"metadatagroup") [] [.elem (core b!"metadata") [pl b!"name" b!"m:q"] []]]]], []⟩

def c69Doc (f : InFile) : Doc := if f.name = b!"/c.model" then c69ChildDoc else c69RootDoc

theorem c69Doc_root : c69Doc c69Root = c69RootDoc := if_neg (by decide +kernel)

theorem c69Doc_child : c69Doc c69Child = c69ChildDoc := if_pos (by decide +kernel)

theorem c69_plain : PlainPackage c50Opc c69Pkg c69Root :=
  ⟨⟨⟨b!"/3D/3dmodel.model", relModel, b!"r0"⟩, by decide +kernel, by decide +kernel⟩, by decide +kernel, by decide +kernel,
    by decide +kernel⟩

theorem c69_clean_root : ContentClean exEnv (extensionsOf c69RootDoc.attrs) .model c69RootDoc.content :=
  contentClean_of _ (by decide +kernel)

theorem c69_clean_child : ContentClean exEnv (extensionsOf c69RootDoc.attrs) .childModel c69ChildDoc.content :=
  contentClean_of _ (by decide +kernel)

set_option maxRecDepth 8000 in
theorem c69_root : RootDoc exEnv False c69Root c69RootDoc :=
  ⟨⟨_, rfl, by decide +kernel⟩, noElements_of (by decide +kernel), noElements_of (by decide +kernel), attrsFit_of (by decide +kernel),
    once_of (by decide +kernel), contentOk_clean _ (contentOk_of _ (by decide +kernel)) c69_clean_root⟩

set_option maxRecDepth 8000 in
theorem c69_child : ChildDoc exEnv False c69Child c69ChildDoc :=
  ⟨⟨_, rfl, by decide +kernel⟩, noElements_of (by decide +kernel), noElements_of (by decide +kernel), once_of (by decide +kernel),
    contentOk_clean _ (contentOk_of _ (by decide +kernel)) c69_clean_child, by decide +kernel⟩

theorem c69_childs : childParts c50Opc c69Pkg c69Root = [c69Child] := by decide +kernel

theorem c69_target {s : Str} {r : Relationship} {f : InFile} (h : relTarget c50Opc c69Pkg s r = some f) : r.path = f.name := by
  have := List.find?_some h
  simpa [c50Opc, eq_comm] using this

/-- Only the image is an attachment. -/
theorem c69_referenced {f : InFile} : Referenced c50Opc c69Pkg f ↔ f = c69Image := by
  constructor
  · intro h
    have key : ∀ (r : Relationship) (s : Str), r.path = b!"/t.png" → relTarget c50Opc c69Pkg s r = some f → f = c69Image := by
      intro r s hr h
      have : relTarget c50Opc c69Pkg s r = some c69Image := by
        unfold relTarget
        simp only [c50Opc, hr]
        decide +kernel
      rw [this] at h
      exact (Option.some.inj h).symm
    rcases h with ⟨r, h1, h2, h3⟩ | ⟨p, _, r, h1, h2, h3⟩
    · simp only [c69Pkg, List.mem_cons, List.not_mem_nil, or_false] at h1
      rcases h1 with rfl | rfl
      · exact absurd rfl h2
      · exact key _ _ rfl h3
    · have hpm : p ∈ c69Pkg.files := by
        rename_i hp
        rcases hp with ⟨q, _, _, h⟩ | ⟨_, _, q, _, _, h⟩ <;> exact target_mem h
      simp only [c69Pkg, List.mem_cons, List.not_mem_nil, or_false] at hpm
      rcases hpm with rfl | rfl | rfl
      · rw [show c69Root.rels = [⟨b!"/c.model", relModel, b!"r1"⟩] from rfl, List.mem_singleton] at h1
        subst h1
        exact absurd rfl h2
      · rw [show c69Child.rels = [⟨b!"/t.png", relTexture, b!"r2"⟩] from rfl, List.mem_singleton] at h1
        subst h1
        exact key _ _ rfl h3
      · rw [show c69Image.rels = [] from rfl] at h1
        simp at h1
  · rintro rfl
    exact .inl ⟨⟨b!"/t.png", relThumbnail, b!"r3"⟩, by decide +kernel, by decide +kernel, by decide +kernel⟩

theorem c69_savable : SavablePackage exEnv c50Opc c69Pkg c69Root c69Doc := by
  refine ⟨fun f _ => ⟨rfl, fun _ => rfl⟩, fun r _ f h => c69_target h, fun p _ r _ f h => c69_target h, fun f h => ?_, fun f g hf hg _ => ?_,
    fun p h => ⟨c69Image, c69_referenced.2 rfl, ?_⟩⟩
  · rw [c69_referenced.1 h]
    exact ⟨_, rfl⟩
  · rw [c69_referenced.1 hf, c69_referenced.1 hg]
  · have hres : ∀ l : Str × Str, Uses (resourcesOf exEnv [] (child? (core b!"resources") c69ChildDoc.content)) [] l → l.2 = b!"/t.png" := by
      have e : resourcesOf exEnv [] (child? (core b!"resources") c69ChildDoc.content) =
          ⟨[.res (.texture2D ⟨2, b!"/t.png", .png, .wrap, .wrap, .auto⟩)],
           [⟨1, b!"a", [], [], 0, 0, .model, ⟨[⟨⟨[], b!"m:q"⟩, [], [], false⟩], []⟩, none, none, []⟩], []⟩ := by rfl
      rw [e]
      rintro l (⟨t, h, rfl⟩ | ⟨ob, h, h', rfl⟩ | ⟨ob, h, me, t, h1, h2, rfl⟩ | ⟨t, h, rfl⟩)
      · simp only [List.mem_singleton, Asset.res.injEq, ExtRes.texture2D.injEq] at h
        rw [h]
      · simp only [List.mem_singleton] at h
        subst h
        exact absurd rfl h'
      · simp only [List.mem_singleton] at h
        subst h
        cases h1
      · simp at h
    unfold UsedFile at h
    rw [c69Doc_root] at h
    rcases h with ⟨h, _⟩ | ⟨l, rfl, h⟩ | ⟨f, hf, l, rfl, h⟩
    · rw [← h]
      decide +kernel
    · have e1 : resourcesOf exEnv (extensionsOf c69RootDoc.attrs) (child? (core b!"resources") c69RootDoc.content) = ⟨[], [], []⟩ := by rfl
      have e2 : c69RootDoc.content.filterMap (anyOf exEnv .model) = [] := by rfl
      rw [e1, e2] at h
      rcases h with ⟨t, h, -⟩ | ⟨ob, h, -⟩ | ⟨ob, h, -⟩ | ⟨t, h, -⟩ <;> simp at h
    · rw [c69_childs, List.mem_singleton] at hf
      rw [hf, c69Doc_child] at h
      exact (hres l h).symm

theorem c69_savable_root : SavableRoot exEnv c69RootDoc := by
  refine ⟨⟨fun a ha hs => ?_, fun a ha hs => ?_⟩, c69_clean_root⟩
  · obtain rfl : a = ⟨⟨b!"xmlns", b!"m"⟩, nsMaterials⟩ := by
      revert a
      decide +kernel
    exact ⟨plain_of (by decide +kernel), text_closed (by decide +kernel), by decide, by decide, text_closed (by decide +kernel), by decide +kernel⟩
  · have : (a.name.space.isEmpty && plainB a.name.loc && asciiB a.value) = true := by
      revert a
      decide +kernel
    simp only [Bool.and_eq_true, List.isEmpty_iff] at this
    exact ⟨.inl this.1.1, plain_of this.1.2, text_closed this.2⟩

theorem c69_savable_child : SavableChild exEnv (extensionsOf c69RootDoc.attrs) c69ChildDoc :=
  ⟨c69_clean_child⟩

theorem c69_resources : resourcesOf exEnv [] (child? (core b!"resources") c69ChildDoc.content) =
    ⟨[.res (.texture2D ⟨2, b!"/t.png", .png, .wrap, .wrap, .auto⟩)],
      [⟨1, b!"a", [], [], 0, 0, .model, ⟨[⟨⟨[], b!"m:q"⟩, [], [], false⟩], []⟩, none, none, []⟩], []⟩ := by rfl

theorem c69_faults : partFaults exEnv .childModel ([], c69ChildDoc.content) = [] ∧
    partFaults exEnv .model (c69RootDoc.attrs, c69RootDoc.content) ≠ [] := by decide +kernel

theorem c69_apart : ModelsApart exEnv c50Opc c69Pkg c69Root := by
  refine ⟨?_, fun f hf g hg => ?_⟩
  · rw [c69_childs]
    decide +kernel
  · rw [c69_referenced.1 hf]
    rw [c69_childs] at hg
    rcases List.mem_cons.1 hg with rfl | hg
    · decide +kernel
    · rw [List.mem_singleton] at hg
      subst hg
      decide +kernel

/-- The package is read, with an error; it is saved; and what was saved is read without error. -/
example (mem mem2 : Str → Nat → Str → Str) : ∃ m1 r out m2, DecodesBg ⟨exEnv, false, mem⟩ c50Opc c69Pkg .zero m1 r ∧ r ≠ .root .ok ∧
    encodePkg c50Opc 4 m1 (m1.childs.map (·.1)) m1.childs = some out ∧
    DecodesBg ⟨exEnv, true, mem2⟩ c50Opc (reopen out) .zero m2 (.root .ok) ∧ NearPackage 4 m1 m2 := by
  have hall : ∀ {P : InFile → Prop}, P c69Child → ∀ f ∈ childParts c50Opc c69Pkg c69Root, P f := by
    intro P h f hf
    rw [c69_childs, List.mem_singleton] at hf
    rw [hf]
    exact h
  obtain ⟨⟨m1, r, h1⟩, h2⟩ := C69_saved_partial ⟨exEnv, false, mem⟩ c50Opc c69Pkg c69Root c69Doc (fun _ _ _ h => by simpa [c50Opc] using h)
    c69_plain (by rw [c69Doc_root]; exact c69_root) (hall (by rw [c69Doc_child]; exact c69_child))
    (hall (by rw [c69Doc_child]; exact c69_faults.1)) (.inl rfl) (by rw [c69Doc_root]; exact c69_savable_root)
    (hall (by rw [c69Doc_root, c69Doc_child]; exact c69_savable_child)) c69_savable
  obtain ⟨rfl, hm, h3⟩ := h2 m1 r h1
  obtain ⟨out, h4⟩ := C69_encodes_partial exEnv c50Opc c69Pkg c69Root c69Doc m1 4 c69_plain c69_savable hm
    ⟨fun f _ names h => decide_eq_true fun hn => h _ hn rfl, fun f _ names h => decide_eq_true fun hn => h _ hn rfl⟩
    c69_apart (m1.childs.map (·.1)) m1.childs (List.Perm.refl _)
  have hres : m1.resources = ⟨[], [], []⟩ := by rw [hm.model, c69Doc_root]; rfl
  have hany : m1.any = [] := by rw [hm.model, c69Doc_root]; rfl
  have hchild : ∀ x ∈ m1.childs, ChildOk 4 x.2 := by
    intro x hx
    obtain ⟨f, hf, rfl⟩ := means_childs hm hx
    rw [c69_childs, List.mem_singleton] at hf
    rw [hf, c69Doc_child, c69_resources]
    refine ⟨fun a ha => ?_, fun ob hob => ?_⟩
    · rw [List.mem_singleton] at ha
      subst ha
      trivial
    · rw [List.mem_singleton] at hob
      subst hob
      exact ⟨.inl rfl, fun _ => ⟨rfl, rfl⟩, fun m h => by cases h⟩
  obtain ⟨h5, m2, h6⟩ := h3 4 _ _ out (reopen out) true mem2 ⟨by simp [hres], by simp [hres], by rw [hany]; exact ⟨by simp, by simp⟩⟩ hchild
    (List.Perm.refl _) (List.Perm.refl _) h4 (reopen_spec out)
  refine ⟨m1, _, out, m2, h1, ?_, h4, h6, (h5 m2 _ h6).2⟩
  intro e
  injection e with e
  rw [c69Doc_root] at e
  exact c69_faults.2 (reportIn_ok.1 e)

end Go3mf
