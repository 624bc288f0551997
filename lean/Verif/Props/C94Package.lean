import Verif.Props.C75
import Verif.Props.C94

/-!
# C94 for packages

The parts of a package in another presentation: the same model for every interleaving of the goroutines.
-/

namespace Go3mf
open Spec

namespace Spec

/-- The package with its parts rewritten. -/
def rewriteParts (g : InFile → InFile) (pk : InPkg) : InPkg := ⟨pk.rels, pk.files.map g⟩

/-- A file that some relationship has as its target, other than the relationships to models. -/
def Attached (o : Opc) (pk : InPkg) (f : InFile) : Prop :=
  ∃ source r, r.type ≠ relModel ∧ (r ∈ pk.rels ∨ ∃ p ∈ pk.files, r ∈ p.rels) ∧ relTarget o pk source r = some f

/-- Only the content of parts is rewritten, and not that of attachments. -/
structure ContentOnly (o : Opc) (pk : InPkg) (g : InFile → InFile) : Prop where
  name : ∀ f, (g f).name = f.name
  type : ∀ f, (g f).contentType = f.contentType
  rels : ∀ f, (g f).rels = f.rels
  attached : ∀ f, Attached o pk f → (g f).content = f.content

/-- Two documents that differ in their presentation only. -/
def SameDoc (env : Env) (k : Kind) (d d' : Doc) : Prop := SameAttrs k d.attrs d'.attrs ∧ SameContent env k d.content d'.content

end Spec

section
variable {env : Env} {o : Opc} {pk : InPkg} {g : InFile → InFile}

theorem rewrite_find (hg : ContentOnly o pk g) (source path : Str) :
    (rewriteParts g pk).find o source path = (pk.find o source path).map g := by
  unfold InPkg.find rewriteParts
  simp only [List.find?_map]
  congr 2
  funext f
  simp [hg.name]

theorem find_file {source path : Str} {f : InFile} (h : pk.find o source path = some f) : f ∈ pk.files := List.mem_of_find?_eq_some h

theorem rewrite_attachment (hg : ContentOnly o pk g) (as : List Attachment) {f : InFile} (hf : Attached o pk f) :
    addAttachment env as (g f) = addAttachment env as f := by
  unfold addAttachment InFile.copy
  rw [hg.name, hg.type, hg.attached f hf]

theorem rewrite_root (hg : ContentOnly o pk g) (root : InFile) (hr : root ∈ pk.files) : ∀ (rels : List Relationship),
    (∀ r ∈ rels, r ∈ root.rels) → ∀ (m : Model) (x y : Option InFile) (cs : List InFile),
    rels.foldl (extractRoot env o (rewriteParts g pk) (g root)) ⟨m, y, cs.map g⟩ =
      (let s := rels.foldl (extractRoot env o pk root) ⟨m, x, cs⟩
       ⟨s.model, y, s.childs.map g⟩) := by
  intro rels
  induction rels with
  | nil => intro _ m x y cs; rfl
  | cons r rels ih =>
    intro h m x y cs
    have ih := ih fun r hr => h r (List.mem_cons_of_mem _ hr)
    simp only [List.foldl_cons]
    conv_lhs => rw [extractRoot.eq_def, hg.name, rewrite_find hg]
    conv_rhs => rw [extractRoot.eq_def]
    cases hf : pk.find o root.name r.path with
    | none => simpa using ih m x y cs
    | some f =>
      simp only [Option.map_some]
      by_cases ht : r.type = relModel
      · simp only [ht, if_true, hg.name]
        have := ih { m with childs := resetChild f.name m.childs } x y (cs ++ [f])
        simpa using this
      · simp only [ht, if_false]
        rw [rewrite_attachment hg _ ⟨root.name, r, ht, .inr ⟨root, hr, h r List.mem_cons_self⟩, hf⟩]
        exact ih _ x y cs

theorem rewrite_child (hg : ContentOnly o pk g) (file : InFile) (hr : file ∈ pk.files) : ∀ (rels : List Relationship),
    (∀ r ∈ rels, r ∈ file.rels) → ∀ (m : Model),
    rels.foldl (extractChild env o (rewriteParts g pk) (g file)) m = rels.foldl (extractChild env o pk file) m := by
  intro rels
  induction rels with
  | nil => intro _ m; rfl
  | cons r rels ih =>
    intro h m
    have ih := ih fun r hr => h r (List.mem_cons_of_mem _ hr)
    simp only [List.foldl_cons]
    have e : extractChild env o (rewriteParts g pk) (g file) m r = extractChild env o pk file m r := by
      rw [extractChild.eq_def, extractChild.eq_def, hg.name, rewrite_find hg]
      cases hf : pk.find o file.name r.path with
      | none => rfl
      | some f =>
        simp only [Option.map_some]
        by_cases ht : r.type = relModel
        · simp [ht]
        · simp only [ht, if_false]
          rw [rewrite_attachment hg _ ⟨file.name, r, ht, .inr ⟨file, hr, h r List.mem_cons_self⟩, hf⟩]
    rw [e]
    exact ih _

theorem extractRoot_inFiles (root : InFile) : ∀ (rels : List Relationship) (s : OpcState), (∀ f ∈ s.childs, f ∈ pk.files) →
    ∀ f ∈ (rels.foldl (extractRoot env o pk root) s).childs, f ∈ pk.files := by
  intro rels
  induction rels with
  | nil => intro s h; exact h
  | cons r rels ih =>
    intro s h
    refine ih _ ?_
    rw [extractRoot.eq_def]
    cases hf : pk.find o root.name r.path with
    | none => exact h
    | some f =>
      simp only
      split
      · intro f' hf'
        rcases List.mem_append.mp hf' with h' | h'
        · exact h f' h'
        · rw [List.mem_singleton.mp h']; exact find_file hf
      · exact h

theorem rewrite_childs (hg : ContentOnly o pk g) : ∀ (cs : List InFile), (∀ f ∈ cs, f ∈ pk.files) → ∀ (m : Model),
    (cs.map g).foldl (fun m c => c.rels.foldl (extractChild env o (rewriteParts g pk) c) m) m =
      cs.foldl (fun m c => c.rels.foldl (extractChild env o pk c) m) m := by
  intro cs
  induction cs with
  | nil => intro _ m; rfl
  | cons c cs ih =>
    intro h m
    simp only [List.map_cons, List.foldl_cons]
    rw [hg.rels, rewrite_child hg c (h c List.mem_cons_self) _ (fun _ h => h)]
    exact ih (fun f hf => h f (List.mem_cons_of_mem _ hf)) _

theorem rewrite_rels (hg : ContentOnly o pk g) : ∀ (rels : List Relationship), (∀ r ∈ rels, r ∈ pk.rels) → ∀ (m : Model) (x : Option InFile)
    (cs : List InFile), (∀ f ∈ cs, f ∈ pk.files) →
    processRels env o (rewriteParts g pk) ⟨m, x.map g, cs.map g⟩ rels =
      (processRels env o pk ⟨m, x, cs⟩ rels).map fun s => ⟨s.model, s.root.map g, s.childs.map g⟩ := by
  intro rels
  induction rels with
  | nil => intro _ m x cs _; rfl
  | cons r rels ih =>
    intro h m x cs hcs
    have ih := ih fun r hr => h r (List.mem_cons_of_mem _ hr)
    rw [processRels.eq_def, processRels.eq_def]
    simp only
    rw [processRel.eq_def, processRel.eq_def, rewrite_find hg]
    cases hf : pk.find o b!"/" r.path with
    | none =>
      simp only [Option.map_none]
      by_cases ht : r.type = relModel
      · simp [ht]
      · simp only [ht, if_false, Option.bind_some]
        exact ih m x cs hcs
    | some f =>
      simp only [Option.map_some]
      by_cases ht : r.type = relModel
      · simp only [ht, if_true, Option.bind_some]
        rw [hg.rels, hg.name, rewrite_root hg f (find_file hf) _ (fun _ h => h) _ (some f) (some (g f)) cs]
        have hfs := extractRoot_inFiles (env := env) (o := o) (pk := pk) f f.rels ⟨{ m with path := f.name }, some f, cs⟩ hcs
        simp only
        rw [rewrite_childs hg _ hfs]
        have hroot : (f.rels.foldl (extractRoot env o pk f) ⟨{ m with path := f.name }, some f, cs⟩).root = some f := by
          have : ∀ (l : List Relationship) (s : OpcState), (l.foldl (extractRoot env o pk f) s).root = s.root := by
            intro l
            induction l with
            | nil => intro s; rfl
            | cons a l ih =>
              intro s
              rw [List.foldl_cons, ih, extractRoot.eq_def]
              split
              · rfl
              · split <;> rfl
          rw [this]
        have := ih (List.foldl (fun m c => List.foldl (extractChild env o pk c) m c.rels)
          (f.rels.foldl (extractRoot env o pk f) ⟨{ m with path := f.name }, some f, cs⟩).model
          (f.rels.foldl (extractRoot env o pk f) ⟨{ m with path := f.name }, some f, cs⟩).childs) (some f) _ hfs
        simp only [Option.map_some] at this
        rw [this, hroot]
      · simp only [ht, if_false, Option.bind_some]
        rw [rewrite_attachment hg _ ⟨b!"/", r, ht, .inl (h r List.mem_cons_self), hf⟩]
        exact ih _ x cs hcs

/-- What is found in the package before the parts are read. -/
theorem rewrite_opc (hg : ContentOnly o pk g) (m : Model) :
    processOPC env o (rewriteParts g pk) m = (processOPC env o pk m).map fun p => (p.1, g p.2.1, p.2.2.map g) := by
  have := rewrite_rels (env := env) hg pk.rels (fun _ h => h) m none [] (by simp)
  unfold processOPC
  rw [show (rewriteParts g pk).rels = pk.rels from rfl]
  simp only [Option.map_none, List.map_nil] at this
  rw [this]
  cases processRels env o pk ⟨m, none, []⟩ pk.rels with
  | none => rfl
  | some s => cases h : s.root <;> simp [h]

theorem rewrite_childParts (hg : ContentOnly o pk g) (root : InFile) :
    childParts o (rewriteParts g pk) (g root) = (childParts o pk root).map g := by
  unfold childParts
  rw [hg.rels, hg.name, List.map_filterMap]
  congr 1
  funext r
  exact rewrite_find hg _ _

theorem rewrite_present (hg : ContentOnly o pk g) (source : Str) (rels : List Relationship) :
    present o (rewriteParts g pk) source rels = present o pk source rels := by
  unfold present
  congr 1
  funext r
  rw [target_eq, target_eq, rewrite_find hg, Option.isSome_map]

end

theorem setChilds_attachments : ∀ (l : List (InFile × Phase)) (m : Model), (setChilds m l).attachments = m.attachments
  | [], _ => rfl
  | (f, p) :: l, m => by
    unfold setChilds
    split
    · rw [setChilds_attachments]
      unfold Model.setResources
      split <;> rfl
    · exact setChilds_attachments l m

/-- The attachments are those that were found before the parts are read. -/
theorem decodes_attachments {c : PkgCfg} {o : Opc} {pk : InPkg} {m m1 m' : Model} {root : InFile} {fs : List InFile} {r : PkgResult}
    (h : DecodesBg c o pk m m' r) (hp : processOPC c.env o pk m = some (m1, root, fs)) : m'.attachments = m1.attachments := by
  have hch : ∀ {m2 : Model} {e : Option ChildErr}, ChildrenOutcome c m1 fs m2 e → m2.attachments = m1.attachments := by
    rintro m2 e ⟨st, -, -, -, rfl⟩
    simp only [ChildrenState.model]
    exact setChilds_attachments _ _
  cases h with
  | opc h => rw [h] at hp; cases hp
  | child h ho =>
    rw [h] at hp
    simp only [Option.some.injEq, Prod.mk.injEq] at hp
    obtain ⟨rfl, rfl, rfl⟩ := hp
    exact hch ho
  | root h ho hr =>
    rw [h] at hp
    simp only [Option.some.injEq, Prod.mk.injEq] at hp
    obtain ⟨rfl, rfl, rfl⟩ := hp
    rw [← hch ho]
    unfold processRoot at hr
    split at hr
    · simp only [Option.some.injEq, Prod.mk.injEq] at hr
      rw [← hr.1]
    · simp only [Option.map_eq_some_iff, Prod.mk.injEq] at hr
      obtain ⟨⟨m3, r1⟩, h1, h2, -⟩ := hr
      simp only at h2
      subst h2
      unfold decodeEvents at h1
      simp only [Option.map_eq_some_iff] at h1
      obtain ⟨⟨s, le⟩, h1, h2⟩ := h1
      rw [Prod.mk.injEq] at h2
      have hm := (run_grown h1).adds.model.attachments
      simp only [DState.init] at hm
      rw [← h2.1, ← hm]
      unfold DState.result
      split
      · unfold Model.setResources
        split <;> rfl
      · rfl

theorem plain_rewrite {o : Opc} {pk : InPkg} {g : InFile → InFile} {root : InFile} (hg : ContentOnly o pk g) (hp : PlainPackage o pk root) :
    PlainPackage o (rewriteParts g pk) (g root) := by
  obtain ⟨⟨r, h1, h2⟩, h3, h4, h5⟩ := hp
  refine ⟨⟨r, h1, ?_⟩, by rwa [hg.name], ?_, ?_⟩
  · rw [target_eq, rewrite_find hg, ← target_eq, h2]; rfl
  · rw [rewrite_childParts hg, List.map_map]
    have : ((fun x : InFile => x.name) ∘ g) = fun x => x.name := funext hg.name
    rwa [this]
  · rw [rewrite_childParts hg]
    intro f hf
    obtain ⟨f, hf', rfl⟩ := List.mem_map.mp hf
    rw [hg.name, hg.name]
    exact h5 f hf'

theorem errors_reportIn {strict : Bool} {fs : List Fault} (h : strict = false ∨ fs = []) :
    (reportIn strict fs).errors = fs.map fun f => .wrapped f.1 (.leaf f.2) [] := by
  rcases h with rfl | rfl
  · exact report_errors _
  · cases strict <;> rfl

/-- **C94** (packages): if the documents of the parts of a package are written in other presentations, then, however the goroutines are
scheduled in either case, a child part is reported as faulty in both cases or in none; and if it is in none, the root part has the same
errors but for their order, and the models are equal but for the order of the map of child models, unless the strict mode stops at
an error. -/
theorem C94_package (c c' : PkgCfg) (henv : c'.env = c.env) (hstrict : c'.strict = c.strict) (o : Opc) (pk : InPkg) (root : InFile)
    (g : InFile → InFile) (hg : ContentOnly o pk g) (doc doc' : InFile → Doc) (kept : Prop) (hk : kept → ∀ n i t, c.mem n i t = t)
    (hk' : kept → ∀ n i t, c'.mem n i t = t) (hp : PlainPackage o pk root) (hr : RootDoc c.env kept root (doc root))
    (hr' : RootDoc c.env kept (g root) (doc' (g root))) (hc : ∀ f ∈ childParts o pk root, ChildDoc c.env kept f (doc f))
    (hc' : ∀ f ∈ childParts o pk root, ChildDoc c.env kept (g f) (doc' (g f)))
    (hd : SameDoc c.env .model (doc root) (doc' (g root)))
    (hdc : ∀ f ∈ childParts o pk root, SameContent c.env .childModel (doc f).content (doc' (g f)).content)
    (m1 m2 : Model) (r1 r2 : PkgResult) (h1 : DecodesBg c o pk .zero m1 r1) (h2 : DecodesBg c' o (rewriteParts g pk) .zero m2 r2) :
    ((∃ e, r1 = .child e) ↔ ∃ e, r2 = .child e) ∧
    ∀ d1, r1 = .root d1 → (c.strict = false ∨ d1 = .ok) →
      ∃ d2, r2 = .root d2 ∧ d1.errors.Perm d2.errors ∧ m2 = { m1 with childs := m2.childs } ∧ m1.childs.Perm m2.childs := by
  have hcf : ∀ f ∈ childParts o pk root,
      (partFaults c.env .childModel ([], (doc f).content)).Perm (partFaults c.env .childModel ([], (doc' (g f)).content)) :=
    fun f hf => Spec.SameElem.partFaults (e := ([], _)) (e' := ([], _)) ⟨.inl rfl, hdc f hf⟩
  have a := C62_package c o pk root doc kept hk hp hr hc
  have b := C62_package c' o (rewriteParts g pk) (g root) doc' kept hk' (plain_rewrite hg hp) (henv ▸ hr') (by
    rw [rewrite_childParts hg, henv]
    intro f hf
    obtain ⟨f, hf', rfl⟩ := List.mem_map.mp hf
    exact hc' f hf')
  rw [rewrite_childParts hg, henv, hstrict] at b
  by_cases hcs : ∀ f ∈ childParts o pk root, partFaults c.env .childModel ([], (doc f).content) = []
  · have hcs' : ∀ f ∈ (childParts o pk root).map g, partFaults c.env .childModel ([], (doc' f).content) = [] := by
      intro f hf
      obtain ⟨f, hf', rfl⟩ := List.mem_map.mp hf
      have := hcf f hf'
      rw [hcs f hf'] at this
      exact this.nil_eq.symm
    obtain ⟨e1, a1⟩ := (a.1 hcs).1 m1 r1 h1
    obtain ⟨e2, b1⟩ := (b.1 hcs').1 m2 r2 h2
    refine ⟨by rw [e1, e2]; simp, ?_⟩
    rintro d1 rfl hst
    injection e1 with e1
    have hpf : (partFaults c.env .model ((doc root).attrs, (doc root).content)).Perm
        (partFaults c.env .model ((doc' (g root)).attrs, (doc' (g root)).content)) := Spec.SameElem.partFaults hd
    have hs1 : c.strict = false ∨ partFaults c.env .model ((doc root).attrs, (doc root).content) = [] :=
      hst.imp id fun h => reportIn_ok.1 (e1 ▸ h)
    have hs2 : c.strict = false ∨ partFaults c.env .model ((doc' (g root)).attrs, (doc' (g root)).content) = [] :=
      hs1.imp id fun h => by rw [h] at hpf; exact hpf.nil_eq.symm
    have x := a1 hs1
    have y := b1 hs2
    refine ⟨_, e2, ?_, ?_, ?_⟩
    · rw [e1, errors_reportIn hs1, errors_reportIn hs2]
      exact hpf.map _
    · have hat : m2.attachments = m1.attachments := by
        obtain ⟨r0, h0, ht0⟩ := hp.one
        have hm0 : r0 ∈ pk.rels ∧ r0.type = relModel := by
          have : r0 ∈ pk.rels.filter fun r => decide (r.type = relModel) := by rw [h0]; exact List.mem_cons_self
          simpa using List.mem_filter.mp this
        obtain ⟨⟨m0, root', fs⟩, hopc⟩ := processOPC_total (env := c.env) (o := o) (pk := pk) (by
          intro r hr ht
          have : r ∈ pk.rels.filter fun r => decide (r.type = relModel) := List.mem_filter.mpr ⟨hr, by simpa using ht⟩
          rw [h0, List.mem_singleton] at this
          rw [this, ht0]; rfl) ⟨r0, hm0⟩
        have hopc' := rewrite_opc (env := c.env) hg .zero
        rw [hopc] at hopc'
        rw [decodes_attachments h1 hopc, decodes_attachments h2 (henv ▸ hopc')]
      have hx := x.model
      have hy := y.model
      have hsd : SameElem c.env .model ((doc root).attrs, (doc root).content) ((doc' (g root)).attrs, (doc' (g root)).content) := hd
      rw [← hsd.model, hg.name, hg.rels, rewrite_present hg, rewrite_present hg,
        hat] at hy
      rw [hy, hx]
      rfl
    · refine x.childs.trans ?_
      refine List.Perm.trans (.of_eq ?_) y.childs.symm
      rw [rewrite_childParts hg, List.map_map]
      refine List.map_congr_left fun f hf => ?_
      simp only [Function.comp]
      rw [hg.name, hg.rels, rewrite_present hg, SameElem.optResources (hdc f hf) rfl]
  · have hne : ∃ f ∈ childParts o pk root, partFaults c.env .childModel ([], (doc f).content) ≠ [] := by
      simpa using hcs
    obtain ⟨f, hf, hn⟩ := hne
    obtain ⟨e, rfl⟩ := a.2 ⟨f, hf, hn⟩ m1 r1 h1
    obtain ⟨e', rfl⟩ := b.2 ⟨g f, List.mem_map_of_mem hf, fun h0 => hn (by
      have := hcf f hf
      rw [h0] at this
      exact this.eq_nil)⟩ m2 r2 h2
    exact ⟨⟨fun _ => ⟨_, rfl⟩, fun _ => ⟨_, rfl⟩⟩, fun d1 h => by cases h⟩

/-! ## Example -/

namespace Spec

/-- The root part of C62 in another presentation. -/
def rootOther : InFile :=
  { c62Root with content := some (b!"<model unit=\"inch\" xmlns=\"http://schemas.microsoft.com/3dmanufacturing/core/2015/02\">\n <build>\n  <item transform=\"1\" objectid=\"1\"></item>\n </build>\n</model>\n", .eof) }

/-- The child part of C62 in another presentation. -/
def childOther : InFile :=
  { c62Child with content := some (b!"<m:model xmlns:m=\"http://schemas.microsoft.com/3dmanufacturing/core/2015/02\"><m:build/><m:resources> <m:object name='a' id='1'/></m:resources></m:model>", .eof) }

/-- The parts of the package of C62 in another presentation. -/
def restyle (f : InFile) : InFile := if f = c62Root then rootOther else if f = c62Child then childOther else f

/-- The documents. -/
def docOf (f : InFile) : Doc :=
  if f = rootOther then
    ⟨[], [pl b!"unit" b!"inch", pl b!"xmlns" nsCore],
      [.text b!"\n ", .elem (core b!"build") [] [.text b!"\n  ", .elem (core b!"item") [pl b!"transform" b!"1", pl b!"objectid" b!"1"] [],
        .text b!"\n "], .text b!"\n"], [.text b!"\n"]⟩
  else ⟨[], [⟨⟨b!"xmlns", b!"m"⟩, nsCore⟩], [.elem (core b!"build") [] [],
    .elem (core b!"resources") [] [.text b!" ", .elem (core b!"object") [pl b!"name" b!"a", pl b!"id" b!"1"] []]], []⟩

end Spec

theorem restyle_only : ContentOnly c50Opc c62Pkg restyle where
  name f := by unfold restyle; split; · next h => rw [h]; rfl
               · split; · next h => rw [h]; rfl
                 · rfl
  type f := by unfold restyle; split; · next h => rw [h]; rfl
               · split; · next h => rw [h]; rfl
                 · rfl
  rels f := by unfold restyle; split; · next h => rw [h]; rfl
               · split; · next h => rw [h]; rfl
                 · rfl
  attached := by
    rintro f ⟨source, r, ht, hr, hf⟩
    have hr' : r = ⟨b!"/t.png", relTexture, b!"r2"⟩ := by
      have h0 : r ∈ c62Pkg.rels ++ c62Pkg.files.flatMap (·.rels) := by
        rcases hr with h | ⟨p, hp, h⟩
        · exact List.mem_append_left _ h
        · exact List.mem_append_right _ (List.mem_flatMap.mpr ⟨p, hp, h⟩)
      have h1 : ∀ r ∈ c62Pkg.rels ++ c62Pkg.files.flatMap (·.rels), r.type ≠ relModel → r = ⟨b!"/t.png", relTexture, b!"r2"⟩ := by
        decide +kernel
      exact h1 r h0 ht
    subst hr'
    have h2 : f.name = b!"/t.png" := by
      have := List.find?_some hf
      rw [decide_eq_true_eq] at this
      exact this
    unfold restyle
    rw [if_neg (by rintro rfl; exact absurd h2 (by decide +kernel)), if_neg (by rintro rfl; exact absurd h2 (by decide +kernel))]

set_option maxRecDepth 8000 in
theorem rootOther_doc : RootDoc allExt True rootOther (docOf rootOther) :=
  ⟨⟨_, rfl, by decide +kernel⟩, noElements_of (by decide +kernel), noElements_of (by decide +kernel), attrsFit_of (by decide +kernel),
    once_of (by decide +kernel), contentOk_of _ (by decide +kernel)⟩

theorem childOther_doc : ChildDoc allExt True childOther (docOf childOther) :=
  ⟨⟨_, rfl, by decide +kernel⟩, noElements_of (by decide +kernel), noElements_of (by decide +kernel), once_of (by decide +kernel),
    contentOk_of _ (by decide +kernel), by decide +kernel⟩

set_option maxRecDepth 8000 in
/-- The two packages. -/
example (m1 m2 : Model) (r1 r2 : PkgResult) (h1 : DecodesBg ⟨allExt, false, fun _ _ t => t⟩ c50Opc c62Pkg .zero m1 r1)
    (h2 : DecodesBg ⟨allExt, false, fun _ _ t => t⟩ c50Opc (rewriteParts restyle c62Pkg) .zero m2 r2) :
    ((∃ e, r1 = .child e) ↔ ∃ e, r2 = .child e) ∧ ∀ d1, r1 = .root d1 → (false = false ∨ d1 = .ok) →
      ∃ d2, r2 = .root d2 ∧ d1.errors.Perm d2.errors ∧ m2 = { m1 with childs := m2.childs } ∧ m1.childs.Perm m2.childs := by
  have hch : childParts c50Opc c62Pkg c62Root = [c62Child] := by decide +kernel
  have e1 : restyle c62Root = rootOther := by decide +kernel
  have e2 : restyle c62Child = childOther := by decide +kernel
  refine C94_package ⟨allExt, false, fun _ _ t => t⟩ ⟨allExt, false, fun _ _ t => t⟩ rfl rfl c50Opc c62Pkg c62Root restyle restyle_only c62Doc docOf True
    (fun _ _ _ _ => rfl) (fun _ _ _ _ => rfl) c62_plain c62_root (by rw [e1]; exact rootOther_doc) ?_ ?_ ?_ ?_ m1 m2 r1 r2 h1 h2
  · rw [hch]; intro f hf; rw [List.mem_singleton.mp hf]; exact c62_child
  · rw [hch]; intro f hf; rw [List.mem_singleton.mp hf, e2]; exact childOther_doc
  · rw [e1]
    refine ⟨.inr ⟨by decide +kernel, by decide +kernel, by decide +kernel⟩, ?_⟩
    refine .insert (by simp [Idle]) (.elem (k' := .build) (mu := .single) (by decide +kernel) rfl (.inl rfl) ?_ (.insert (by simp [Idle]) .nil))
    refine .insert (by simp [Idle]) (.elem (k' := .item) (mu := .many) (by decide +kernel) rfl
      (.inr ⟨by decide +kernel, by decide +kernel, by decide +kernel⟩) .nil (.insert (by simp [Idle]) .nil))
  · rw [hch]; intro f hf; rw [List.mem_singleton.mp hf, e2]
    refine .insert (show childKind allExt .childModel (core b!"build") = none by decide +kernel) ?_
    refine .elem (k' := .resources) (mu := .single) (by decide +kernel) rfl (.inl rfl) ?_ .nil
    exact .insert (by simp [Idle]) (.elem (k' := .object) (mu := .many) (by decide +kernel) rfl
      (.inr ⟨by decide +kernel, by decide +kernel, by decide +kernel⟩) .nil .nil)

end Go3mf
