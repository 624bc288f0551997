import Verif.Props.C55
import Verif.Props.C60

/-!
# C62: a package is read as what its parts mean

C60 for whole packages: the root part, the child parts that its relationships lead to, the attachments and the
relationships, for every interleaving of the goroutines that decode the child parts.
-/

namespace Go3mf
open Spec

namespace Spec

/-- A document. -/
structure Doc where
  pre : List Node
  attrs : List Attr
  content : List Node
  post : List Node

/-- The XML reader finds the tokens of the document in the part. -/
def HasDoc (f : InFile) (d : Doc) : Prop :=
  ∃ data, f.content = some (data, .eof) ∧ lex .eof (.new data) = (treeEvents (wholeDoc d.pre d.attrs d.content d.post), .eof)

/-- The conditions of C60 for a root part. -/
structure RootDoc (env : Env) (kept : Prop) (f : InFile) (d : Doc) : Prop where
  doc : HasDoc f d
  pre : NoElements d.pre
  post : NoElements d.post
  attrs : AttrsFit env .model d.attrs
  once : Once env .model d.content
  content : ContentOk env kept .model (core b!"model") d.content

/-- The conditions of C60 for a child part.  Elements of extensions in the root element are excluded: the goroutines may
lose them (C48). -/
structure ChildDoc (env : Env) (kept : Prop) (f : InFile) (d : Doc) : Prop where
  doc : HasDoc f d
  pre : NoElements d.pre
  post : NoElements d.post
  once : Once env .childModel d.content
  content : ContentOk env kept .childModel (core b!"model") d.content
  any : d.content.filterMap (anyOf env .childModel) = []

/-- The package has one root part, and the names of its child parts are distinct and not empty. -/
structure PlainPackage (o : Opc) (pk : InPkg) (root : InFile) : Prop where
  one : ∃ r, pk.rels.filter (fun r => decide (r.type = relModel)) = [r] ∧ relTarget o pk b!"/" r = some root
  rootName : root.name ≠ []
  distinct : ((childParts o pk root).map (·.name)).Nodup
  childNames : ∀ f ∈ childParts o pk root, f.name ≠ [] ∧ f.name ≠ root.name

/-- The model says what the parts mean.  The names of metadata in child parts have no prefix: when they are read, the
prefixes of the root part are not known (C55). -/
structure MeansPackage (env : Env) (o : Opc) (pk : InPkg) (root : InFile) (doc : InFile → Doc) (m : Model) : Prop where
  model : m = modelOf env { Model.zero with
    path := root.name, attachments := m.attachments, childs := m.childs
    rootRelationships := present o pk b!"/" pk.rels, relationships := present o pk root.name root.rels }
    ((doc root).attrs, (doc root).content)
  childs : m.childs.Perm ((childParts o pk root).map fun f =>
    (f.name, ⟨resourcesOf env [] (child? (core b!"resources") (doc f).content), present o pk f.name f.rels, []⟩))
  once : OnceEach env m.attachments
  copies : ∀ a ∈ m.attachments, ∃ f, Referenced o pk f ∧ CopyOf a f
  covered : ∀ f data, Referenced o pk f → f.content = some (data, .eof) → Covered env m.attachments f

/-- How faults are reported in the two modes. -/
def reportIn (strict : Bool) (fs : List Fault) : DecodeResult :=
  match strict, fs with
  | true, f :: _ => .first (.wrapped f.1 (.leaf f.2) [])
  | _, fs => report fs

end Spec

theorem report_ok {fs : List Fault} : report fs = .ok ↔ fs = [] := by
  match fs with
  | [] => simp [report]
  | [f] => simp [report]
  | f :: g :: fs => simp [report]

/-- Both modes at once. -/
theorem decode_mode {cfg : DecCfg} {m m1 : Model} {path : Str} {evs : List (Option Event)} {fs : List Fault} (strict : Bool)
    (h : decodeEvents cfg false (fun _ => false) m path evs .eof = some (m1, report fs)) :
    ∃ m2, decodeEvents cfg strict (fun _ => false) m path evs .eof = some (m2, reportIn strict fs) ∧
      (strict = false ∨ fs = [] → m2 = m1) := by
  cases strict with
  | false => exact ⟨m1, h, fun _ => rfl⟩
  | true =>
    obtain ⟨m2, h1⟩ := C27_first _ m path _ _ _ h
    obtain ⟨m3, r3, h2, h3, h4⟩ := C27_fails _ (fun _ => false) m path _ _ _ _ h
    rw [h1] at h2
    obtain ⟨rfl, rfl⟩ := Prod.mk.inj (Option.some.inj h2)
    refine ⟨m2, ?_, fun he => h4 (report_ok.2 (he.resolve_left (by simp)))⟩
    rw [h1]
    match fs with
    | [] => rfl
    | [f] => rfl
    | f :: g :: fs => rfl

theorem reportIn_ok {strict : Bool} {fs : List Fault} : reportIn strict fs = .ok ↔ fs = [] := by
  cases strict with
  | false => exact report_ok
  | true =>
    match fs with
    | [] => simp [reportIn, report]
    | f :: fs => simp [reportIn]

/-- A child part on its own. -/
theorem child_alone {c : PkgCfg} {kept : Prop} {m : Model} {f : InFile} {d : Doc} (hk : kept → ∀ i t, c.mem f.name i t = t)
    (hd : ChildDoc c.env kept f d) (hp : ChildPath m f.name) (hext : m.extensions = [])
    (hz : m.findResources f.name = some ⟨[], [], []⟩) :
    ((∃ mf, DecodesAlone c m f mf) ↔ partFaults c.env .childModel ([], d.content) = []) ∧
    ∀ mf, DecodesAlone c m f mf → mf.any = m.any ∧
      mf.findResources f.name = some (resourcesOf c.env [] (child? (core b!"resources") d.content)) := by
  obtain ⟨data, hc, hl⟩ := hd.doc
  have h := C60_child c.env (c.mem f.name) kept hk m f.name (childPath_root hp) hz d.pre d.post d.content d.attrs hd.pre hd.post
    hd.once hd.content
  obtain ⟨m2, h2, h3⟩ := decode_mode c.strict h
  have key : ∀ mf, DecodesAlone c m f mf → mf = m2 ∧ partFaults c.env .childModel ([], d.content) = [] := by
    rintro mf ⟨data', fin, e1, e2⟩
    rw [hc] at e1
    obtain ⟨rfl, rfl⟩ := Prod.mk.inj (Option.some.inj e1)
    rw [hl] at e2
    simp only at e2
    rw [h2] at e2
    obtain ⟨rfl, e3⟩ := Prod.mk.inj (Option.some.inj e2)
    exact ⟨rfl, reportIn_ok.1 e3⟩
  refine ⟨⟨fun ⟨mf, hmf⟩ => (key mf hmf).2, fun he => ⟨m2, data, .eof, hc, ?_⟩⟩, fun mf hmf => ?_⟩
  · rw [hl]
    simp only
    rw [h2, reportIn_ok.2 he]
  · obtain ⟨rfl, he⟩ := key mf hmf
    have := h3 (.inr he)
    subst this
    refine ⟨by simp [hd.any], ?_⟩
    unfold Model.findResources
    rw [if_neg (childPath_root hp)]
    simp only
    rw [lookup_setResources, hext]
    obtain ⟨y, hy⟩ := Option.isSome_iff_exists.mp hp.2.2.2
    rw [hy]
    simp

/-- **C62**: if no child part has faults, every run of `Decode` on the package reports exactly the faults of the root part and
gives the model that the parts mean, unless the strict mode stops at a fault; and there is such a run.  If a child part has
faults, every run ends with an error of a child part. -/
theorem C62_package (c : PkgCfg) (o : Opc) (pk : InPkg) (root : InFile) (doc : InFile → Doc) (kept : Prop)
    (hk : kept → ∀ n i t, c.mem n i t = t) (hp : PlainPackage o pk root) (hr : RootDoc c.env kept root (doc root))
    (hc : ∀ f ∈ childParts o pk root, ChildDoc c.env kept f (doc f)) :
    ((∀ f ∈ childParts o pk root, partFaults c.env .childModel ([], (doc f).content) = []) →
      (∀ m' r, DecodesBg c o pk .zero m' r →
        r = .root (reportIn c.strict (partFaults c.env .model ((doc root).attrs, (doc root).content))) ∧
        (c.strict = false ∨ partFaults c.env .model ((doc root).attrs, (doc root).content) = [] →
          MeansPackage c.env o pk root doc m')) ∧
      ∃ m' r, DecodesBg c o pk .zero m' r) ∧
    ((∃ f ∈ childParts o pk root, partFaults c.env .childModel ([], (doc f).content) ≠ []) →
      ∀ m' r, DecodesBg c o pk .zero m' r → ∃ e, r = .child e) := by
  obtain ⟨r0, h0, ht0⟩ := hp.one
  have hm0 : r0 ∈ pk.rels ∧ r0.type = relModel := by
    have : r0 ∈ pk.rels.filter fun r => decide (r.type = relModel) := by rw [h0]; exact List.mem_cons_self
    simpa using List.mem_filter.mp this
  obtain ⟨⟨m1, root', fs⟩, hopc⟩ := processOPC_total (env := c.env) (o := o) (pk := pk) (by
    intro r hr ht
    have : r ∈ pk.rels.filter fun r => decide (r.type = relModel) := List.mem_filter.mpr ⟨hr, by simpa using ht⟩
    rw [h0, List.mem_singleton] at this
    rw [this, ht0]; rfl) ⟨r0, hm0⟩
  have hroot : root' = root := by
    obtain ⟨r, hr, ht, he⟩ := processOPC_root hopc
    have : r ∈ pk.rels.filter fun r => decide (r.type = relModel) := List.mem_filter.mpr ⟨hr, by simpa using ht⟩
    rw [h0, List.mem_singleton] at this
    rw [this, ht0] at he
    exact (Option.some.inj he).symm
  subst hroot
  obtain ⟨-, a2, rfl, a4, a5, a6⟩ := C51_relationships_partial c.env o pk .zero m1 root' fs hopc r0 h0 hp.distinct
  obtain ⟨b1, -, b3, b4⟩ := C51_attachments_partial c.env o pk .zero m1 root' _ hopc List.nodup_nil
  have hinv := processOPC_inv hopc
  have hrest := hinv.rest
  have hext : m1.extensions = [] := by rw [hrest]; rfl
  have hany : m1.any = [] := by rw [hrest]; rfl
  have hcp : ∀ f ∈ childParts o pk root', ChildPath m1 f.name := by
    intro f hf
    refine ⟨(hp.childNames f hf).1, ?_, ?_, lookup_isSome ((hinv.same _).mpr (List.mem_map_of_mem hf))⟩
    · rw [a2]; exact (hp.childNames f hf).2
    · rw [a2]; exact fun e => hp.rootName e.1
  have hz : ∀ f ∈ childParts o pk root', m1.findResources f.name = some ⟨[], [], []⟩ := by
    intro f hf
    obtain ⟨y, hy⟩ := Option.isSome_iff_exists.mp (hcp f hf).2.2.2
    unfold Model.findResources
    rw [if_neg (childPath_root (hcp f hf)), hy]
    exact congrArg some (hinv.zero _ (lookup_mem hy)).1
  have hal := fun f hf => child_alone (fun h => hk h f.name) (hc f hf) (hcp f hf) hext (hz f hf)
  have hroot' : ∀ m2, ChildrenOutcome c m1 (childParts o pk root') m2 none → ∃ m', processRoot c (fun _ => false) m2 root' =
      some (m', .root (reportIn c.strict (partFaults c.env .model ((doc root').attrs, (doc root').content)))) ∧
      (c.strict = false ∨ partFaults c.env .model ((doc root').attrs, (doc root').content) = [] →
        MeansPackage c.env o pk root' doc m') := by
    intro m2 ho
    have hdec := (C48_success c m1 _ _ _ ho).mp rfl
    obtain ⟨k1, -, k2, k3, k4⟩ := C48_resources_partial c m1 _ m2 ho hp.distinct hcp
    have hany2 : m2.any = [] := by
      obtain ⟨st, s1, s2, s3, rfl⟩ := ho
      have := anyElems_nil (ChildrenInv.reach s1) s2 s3 (fun f hf s le hs => by
        obtain ⟨mf, hmf⟩ := hdec f hf
        obtain ⟨s', le', e1, e2, e3⟩ := decodesAlone_iff.mp hmf
        rw [hs] at e1
        simp only [Option.some.injEq, Prod.mk.injEq] at e1
        obtain ⟨rfl, rfl⟩ := e1
        have := ((hal f hf).2 mf hmf).1
        rw [← e3, hany] at this
        rw [← this]
        unfold DState.result
        cases s.regs.res with
        | none => rfl
        | some rs => simp only [Model.setResources]; split <;> rfl)
      show m1.any ++ st.anyElems = []
      rw [this, hany]; rfl
    have e2 : m2 = { m1 with childs := m2.childs, any := [] } := by
      have := congrArg (fun y : Model => { y with childs := m2.childs, any := m2.any }) k2
      simp only at this
      rw [← hany2]
      exact this
    have e3 : m2 = { Model.zero with
        path := root'.name, attachments := m2.attachments, childs := m2.childs
        rootRelationships := present o pk b!"/" pk.rels, relationships := present o pk root'.name root'.rels } := by
      have r1 : m2.rootRelationships = present o pk b!"/" pk.rels := by rw [e2]; simpa [Model.zero] using a4
      have r2 : m2.relationships = present o pk root'.name root'.rels := by rw [e2]; simpa [Model.zero] using a5
      have r3 : m2.path = root'.name := by rw [e2]; exact a2
      have r4 : m2 = m2.over .zero := by
        rw [e2, ← hany]
        exact rest_set hrest m1.path m1.attachments m2.childs m1.rootRelationships m1.relationships
      rw [← r1, ← r2, ← r3]
      exact r4
    have hfresh : FreshModel m2 := by
      rw [e3]
      exact ⟨⟨rfl, rfl, rfl, rfl, rfl⟩, rfl, rfl, rfl, rfl⟩
    obtain ⟨data, hcn, hl⟩ := hr.doc
    have hroot := C60_root c.env (c.mem root'.name) kept (fun h => hk h _) m2 hfresh root'.name (.inl (by rw [e3])) (doc root').pre
      (doc root').post (doc root').content (doc root').attrs hr.pre hr.post hr.attrs hr.once hr.content
    obtain ⟨m', d1, d2⟩ := decode_mode c.strict hroot
    refine ⟨m', ?_, ?_⟩
    · unfold processRoot
      rw [hcn]
      simp only [partTokens, PkgCfg.root, hl]
      rw [d1]
      rfl
    · intro he
      have := d2 he
      subst this
      have ea : (modelOf c.env m2 ((doc root').attrs, (doc root').content)).attachments = m1.attachments := by
        show m2.attachments = _
        rw [e2]
      refine ⟨?_, ?_, ?_, ?_, ?_⟩
      · exact congrArg (fun x => modelOf c.env x ((doc root').attrs, (doc root').content)) e3
      · show m2.childs.Perm _
        have n1 : (m2.childs.map (·.1)).Nodup := by rw [k3]; exact hinv.nodup
        have n2 : ((((childParts o pk root').map fun f => ((f.name,
            ⟨resourcesOf c.env [] (child? (core b!"resources") (doc f).content), present o pk f.name f.rels, []⟩) :
            Str × ChildModel))).map (·.1)).Nodup := by
          rw [List.map_map]
          exact hp.distinct
        have key : ∀ f ∈ childParts o pk root', lookupChild m2.childs f.name =
            some ⟨resourcesOf c.env [] (child? (core b!"resources") (doc f).content), present o pk f.name f.rels, []⟩ := by
          intro f hf
          obtain ⟨mf, hmf⟩ := hdec f hf
          have hd := k1 f hf mf hmf
          rw [((hal f hf).2 mf hmf).2] at hd
          obtain ⟨c1, hc1⟩ := Option.isSome_iff_exists.mp (hcp f hf).2.2.2
          have hra : (lookupChild m2.childs f.name).map (fun c => (c.relationships, c.any)) = some (c1.relationships, c1.any) := by
            rw [lookup_congr (fun c => (c.relationships, c.any)) k3 k4, hc1]; rfl
          cases hc2 : lookupChild m2.childs f.name with
          | none => rw [hc2] at hra; simp at hra
          | some c2 =>
            rw [hc2] at hra
            simp only [Option.map_some, Option.some.injEq, Prod.mk.injEq] at hra
            have hp2 : ChildPath m2 f.name := by
              have hq := hcp f hf
              have hpe : m2.path = m1.path := by rw [e2]
              exact ⟨hq.1, by rw [hpe]; exact hq.2.1, by rw [hpe]; exact hq.2.2.1, by rw [hc2]; rfl⟩
            unfold Model.findResources at hd
            rw [if_neg (childPath_root hp2), hc2] at hd
            simp only [Option.some.injEq] at hd
            have h6 := a6 f hf
            rw [hc1] at h6
            simp only [Option.map_some, Option.some.injEq] at h6
            obtain ⟨q1, q2, q3⟩ := c2
            simp only at hd hra
            rw [hd, hra.1, h6, hra.2, (hinv.zero _ (lookup_mem hc1)).2]
        rw [List.perm_ext_iff_of_nodup (List.Nodup.of_map _ n1) (List.Nodup.of_map _ n2)]
        rintro ⟨k, ch⟩
        constructor
        · intro hk'
          have hkk : k ∈ m1.childs.map (·.1) := by rw [← k3]; exact List.mem_map_of_mem (f := (·.1)) hk'
          obtain ⟨f, hf, rfl⟩ := List.mem_map.mp ((hinv.same k).mp hkk)
          have := nodup_fst n1 _ hk' _ (lookup_mem (key f hf)) rfl
          rw [this]
          exact List.mem_map.mpr ⟨f, hf, rfl⟩
        · intro hk'
          obtain ⟨f, hf, e⟩ := List.mem_map.mp hk'
          rw [← e]
          exact lookup_mem (key f hf)
      · rw [ea]; exact b1
      · rw [ea]
        intro a ha
        rcases b3 a ha with h | h
        · simp [Model.zero] at h
        · exact h
      · rw [ea]; exact b4
  constructor
  · intro hf
    have hdec : ∀ f ∈ childParts o pk root', ∃ mf, DecodesAlone c m1 f mf := fun f h => (hal f h).1.2 (hf f h)
    constructor
    · intro m' r hd
      cases hd with
      | opc h' => rw [hopc] at h'; cases h'
      | child h' ho =>
        rw [hopc] at h'
        simp only [Option.some.injEq, Prod.mk.injEq] at h'
        obtain ⟨rfl, rfl, rfl⟩ := h'
        have := (C48_success c m1 _ _ _ ho).mpr hdec
        cases this
      | root h' ho hrt =>
        rw [hopc] at h'
        simp only [Option.some.injEq, Prod.mk.injEq] at h'
        obtain ⟨rfl, rfl, rfl⟩ := h'
        obtain ⟨m'', e, hn⟩ := hroot' _ ho
        rw [e] at hrt
        simp only [Option.some.injEq, Prod.mk.injEq] at hrt
        obtain ⟨rfl, rfl⟩ := hrt
        exact ⟨rfl, hn⟩
    · obtain ⟨m2, e, ho⟩ := outcome_exists hdec
      have := (C48_success c m1 _ _ _ ho).mpr hdec
      subst this
      obtain ⟨m', e, -⟩ := hroot' _ ho
      exact ⟨m', _, .root hopc ho e⟩
  · rintro ⟨f, hf, hne⟩ m' r hd
    cases hd with
    | opc h' => rw [hopc] at h'; cases h'
    | child h' ho => exact ⟨_, rfl⟩
    | root h' ho hrt =>
      rw [hopc] at h'
      simp only [Option.some.injEq, Prod.mk.injEq] at h'
      obtain ⟨rfl, rfl, rfl⟩ := h'
      exact absurd ((hal f hf).1.1 ((C48_success c m1 _ _ _ ho).mp rfl f hf)) hne

/-! ## Non-vacuity -/

/-- A root part with a malformed transform. -/
def c62Root : InFile :=
  ⟨b!"/3D/3dmodel.model", contentTypeModel, [⟨b!"/c.model", relModel, b!"r1"⟩, ⟨b!"/t.png", relTexture, b!"r2"⟩],
    some (b!"<?xml version=\"1.0\"?><model xmlns=\"http://schemas.microsoft.com/3dmanufacturing/core/2015/02\" unit=\"inch\"><build><item objectid=\"1\" transform=\"1\"/></build></model>", .eof)⟩

/-- A child part. -/
def c62Child : InFile :=
  ⟨b!"/c.model", contentTypeModel, [],
    some (b!"<model xmlns=\"http://schemas.microsoft.com/3dmanufacturing/core/2015/02\"><resources><object id=\"1\" name=\"a\"/></resources></model>", .eof)⟩

/-- The package. -/
def c62Pkg : InPkg := ⟨[⟨b!"/3D/3dmodel.model", relModel, b!"r0"⟩], [c62Root, c62Child, ⟨b!"/t.png", b!"image/png", [], some (b!"t", .eof)⟩]⟩

/-- The documents. -/
def c62Doc (f : InFile) : Doc :=
  if f = c62Root then
    ⟨[.other], [pl b!"xmlns" nsCore, pl b!"unit" b!"inch"],
      [.elem (core b!"build") [] [.elem (core b!"item") [pl b!"objectid" b!"1", pl b!"transform" b!"1"] []]], []⟩
  else ⟨[], [pl b!"xmlns" nsCore], [.elem (core b!"resources") [] [.elem (core b!"object") [pl b!"id" b!"1", pl b!"name" b!"a"] []]], []⟩

theorem c62_plain : PlainPackage c50Opc c62Pkg c62Root :=
  ⟨⟨⟨b!"/3D/3dmodel.model", relModel, b!"r0"⟩, by decide +kernel, by decide +kernel⟩, by decide +kernel, by decide +kernel,
    by decide +kernel⟩

theorem noElements_of {c : List Node} (h : (c.all fun x => match x with | .elem _ _ _ => false | _ => true) = true) : NoElements c := by
  intro x hx
  have := List.all_eq_true.mp h x hx
  cases x <;> simp_all

set_option maxRecDepth 8000 in
theorem c62_root : RootDoc allExt True c62Root (c62Doc c62Root) :=
  ⟨⟨_, rfl, by decide +kernel⟩, noElements_of (by decide +kernel), noElements_of (by decide +kernel), attrsFit_of (by decide +kernel),
    once_of (by decide +kernel), contentOk_of _ (by decide +kernel)⟩

theorem c62_child : ChildDoc allExt True c62Child (c62Doc c62Child) :=
  ⟨⟨_, rfl, by decide +kernel⟩, noElements_of (by decide +kernel), noElements_of (by decide +kernel), once_of (by decide +kernel),
    contentOk_of _ (by decide +kernel), by decide +kernel⟩

/-- The package is read, with one fault. -/
example : ∃ m', DecodesBg ⟨allExt, false, fun _ _ t => t⟩ c50Opc c62Pkg .zero m'
      (.root (.first (.wrapped [⟨b!"item", 0⟩, ⟨b!"build", -1⟩, ⟨b!"model", -1⟩] (.leaf (.parseAttr b!"transform" false)) []))) ∧
    MeansPackage allExt c50Opc c62Pkg c62Root c62Doc m' := by
  have hch : childParts c50Opc c62Pkg c62Root = [c62Child] := by decide +kernel
  have h := (C62_package ⟨allExt, false, fun _ _ t => t⟩ c50Opc c62Pkg c62Root c62Doc True (fun _ _ _ _ => rfl) c62_plain c62_root
    (by rw [hch]; intro f hf; rw [List.mem_singleton.mp hf]; exact c62_child)).1
    (by rw [hch]; intro f hf; rw [List.mem_singleton.mp hf]; decide +kernel)
  obtain ⟨m', r, hm⟩ := h.2
  obtain ⟨rfl, h1⟩ := h.1 m' r hm
  refine ⟨m', ?_, h1 (.inl rfl)⟩
  have e : reportIn false (partFaults allExt .model ((c62Doc c62Root).attrs, (c62Doc c62Root).content)) =
      .first (.wrapped [⟨b!"item", 0⟩, ⟨b!"build", -1⟩, ⟨b!"model", -1⟩] (.leaf (.parseAttr b!"transform" false)) []) := by
    have : partFaults allExt .model ((c62Doc c62Root).attrs, (c62Doc c62Root).content) =
        [([⟨b!"item", 0⟩, ⟨b!"build", -1⟩, ⟨b!"model", -1⟩], .parseAttr b!"transform" false)] := by decide +kernel
    rw [this]; rfl
  rw [← e]
  exact hm

end Go3mf
