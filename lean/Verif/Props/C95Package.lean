import Verif.Props.C94Package
import Verif.Props.C95

/-!
# C95 for packages

The parts of a package with other prefixes, other ones in each part: the same model but for the prefixes, for every interleaving of the
goroutines.
-/

namespace Go3mf
open Spec

namespace Spec

/-- The document of the root part with other prefixes. -/
structure RenamedRoot (ρ : Str → Str) (d d' : Doc) : Prop where
  attrs : RenamedAttrs ρ d.attrs d'.attrs
  named : PrefixesNamed d.attrs
  content : d'.content = renameContent ρ d.content

/-- The document of a child part with other prefixes; its declarations may be changed at will. -/
def RenamedChild (ρ : Str → Str) (d d' : Doc) : Prop :=
  d'.content = d.content.map (changeElem (core b!"resources") (renameResourcesElem ρ))

end Spec

theorem renamed_root_faults {ρ : Str → Str} {d d' : Doc} (env : Env) (h : RenamedRoot ρ d d') :
    partFaults env .model (d'.attrs, d'.content) = partFaults env .model (d.attrs, d.content) := by
  rw [h.content]
  simp only [Spec.partFaults, h.attrs.faults env, content_faults]

theorem renamed_child_faults {ρ : Str → Str} {d d' : Doc} (env : Env) (h : RenamedChild ρ d d') :
    partFaults env .childModel ([], d'.content) = partFaults env .childModel ([], d.content) := by
  simp only [Spec.partFaults]
  congr 1
  rw [show d'.content = _ from h]
  exact change_faults (k := .childModel) (n := core b!"resources") (f := renameResourcesElem ρ) (k' := .resources) (mu := .single)
    (by rw [childKind_core]; decide +kernel) (fun _ => rfl) (resourcesElem_faults env ρ) _ _ [] fun _ _ _ _ _ => rfl

theorem renamed_child_resources {ρ : Str → Str} (hρ : Renaming ρ) {d d' : Doc} (env : Env) (h : RenamedChild ρ d d') :
    resourcesOf env [] (child? (core b!"resources") d'.content) =
      renameResources ρ (resourcesOf env [] (child? (core b!"resources") d.content)) := by
  rw [show d'.content = _ from h, child?_change, resources_rename hρ (exts := []) env (by rfl) (by simp)]

/-- **C95** (packages): if the prefixes in the parts of a package are renamed, in each part as one likes, then, however the goroutines
are scheduled in either case, a child part is reported as faulty in both cases or in none; and if it is in none, the root part has
exactly the same errors, and the models are equal but for the prefixes and the order of the map of child models, unless the strict mode
stops at an error. -/
theorem C95_package (c c' : PkgCfg) (henv : c'.env = c.env) (hstrict : c'.strict = c.strict) (o : Opc) (pk : InPkg) (root : InFile)
    (g : InFile → InFile) (hg : ContentOnly o pk g) (doc doc' : InFile → Doc) (kept : Prop) (hk : kept → ∀ n i t, c.mem n i t = t)
    (hk' : kept → ∀ n i t, c'.mem n i t = t) (hp : PlainPackage o pk root) (hr : RootDoc c.env kept root (doc root))
    (hr' : RootDoc c.env kept (g root) (doc' (g root))) (hc : ∀ f ∈ childParts o pk root, ChildDoc c.env kept f (doc f))
    (hc' : ∀ f ∈ childParts o pk root, ChildDoc c.env kept (g f) (doc' (g f)))
    (ρ : Str → Str → Str) (hρ : ∀ p, Renaming (ρ p)) (hd : RenamedRoot (ρ root.name) (doc root) (doc' (g root)))
    (hdc : ∀ f ∈ childParts o pk root, RenamedChild (ρ f.name) (doc f) (doc' (g f)))
    (m1 m2 : Model) (r1 r2 : PkgResult) (h1 : DecodesBg c o pk .zero m1 r1) (h2 : DecodesBg c' o (rewriteParts g pk) .zero m2 r2) :
    ((∃ e, r1 = .child e) ↔ ∃ e, r2 = .child e) ∧
    ∀ d1, r1 = .root d1 → r2 = .root d1 ∧ ((c.strict = false ∨ d1 = .ok) →
      m2 = { renameModel (ρ root.name) m1 with childs := m2.childs } ∧
      m2.childs.Perm (m1.childs.map fun x => (x.1, { x.2 with resources := renameResources (ρ x.1) x.2.resources }))) := by
  have a := C62_package c o pk root doc kept hk hp hr hc
  have b := C62_package c' o (rewriteParts g pk) (g root) doc' kept hk' (plain_rewrite hg hp) (henv ▸ hr') (by
    rw [rewrite_childParts hg, henv]
    intro f hf
    obtain ⟨f, hf', rfl⟩ := List.mem_map.mp hf
    exact hc' f hf')
  rw [rewrite_childParts hg, henv, hstrict, renamed_root_faults c.env hd] at b
  by_cases hcs : ∀ f ∈ childParts o pk root, partFaults c.env .childModel ([], (doc f).content) = []
  · have hcs' : ∀ f ∈ (childParts o pk root).map g, partFaults c.env .childModel ([], (doc' f).content) = [] := by
      intro f hf
      obtain ⟨f, hf', rfl⟩ := List.mem_map.mp hf
      rw [renamed_child_faults c.env (hdc f hf')]
      exact hcs f hf'
    obtain ⟨e1, a1⟩ := (a.1 hcs).1 m1 r1 h1
    obtain ⟨e2, b1⟩ := (b.1 hcs').1 m2 r2 h2
    refine ⟨by rw [e1, e2], ?_⟩
    rintro d1 rfl
    injection e1 with e1
    refine ⟨by rw [e2, e1], fun hst => ?_⟩
    have hs1 : c.strict = false ∨ partFaults c.env .model ((doc root).attrs, (doc root).content) = [] :=
      hst.imp id fun h => reportIn_ok.1 (e1 ▸ h)
    have x := a1 hs1
    have y := b1 hs1
    constructor
    · have hat : m2.attachments = m1.attachments := by
        obtain ⟨r0, h0, ht0⟩ := hp.one
        have hm0 : r0 ∈ pk.rels ∧ r0.type = relModel := by
          have : r0 ∈ pk.rels.filter fun r => decide (r.type = relModel) := by rw [h0]; exact List.mem_cons_self
          simpa using List.mem_filter.mp this
        obtain ⟨⟨m0, root', fs⟩, hopc⟩ := processOPC_total (env := c.env) (o := o) (pk := pk) (by
          intro r hr ht
          have : r ∈ pk.rels.filter fun r => decide (r.type = relModel) := List.mem_filter.mpr ⟨hr, by simpa using ht⟩
          rw [h0, List.mem_singleton] at this
          rw [this, ht0]; rfl) ⟨r0, hm0⟩
        have hopc' := rewrite_opc (env := c.env) hg .zero
        rw [hopc] at hopc'
        rw [decodes_attachments h1 hopc, decodes_attachments h2 (henv ▸ hopc')]
      have hx := x.model
      have hy := y.model
      rw [hd.content, model_rename (hρ root.name) c.env _ hd.attrs hd.named, hg.name, hg.rels, rewrite_present hg, rewrite_present hg,
        hat] at hy
      rw [hy, hx]
      rfl
    · refine y.childs.trans ?_
      refine List.Perm.trans (.of_eq ?_) (x.childs.map _).symm
      rw [rewrite_childParts hg, List.map_map, List.map_map]
      refine List.map_congr_left fun f hf => ?_
      simp only [Function.comp]
      rw [hg.name, hg.rels, rewrite_present hg, renamed_child_resources (hρ f.name) c.env (hdc f hf)]
  · have hne : ∃ f ∈ childParts o pk root, partFaults c.env .childModel ([], (doc f).content) ≠ [] := by
      simpa using hcs
    obtain ⟨f, hf, hn⟩ := hne
    obtain ⟨e, rfl⟩ := a.2 ⟨f, hf, hn⟩ m1 r1 h1
    obtain ⟨e', rfl⟩ := b.2 ⟨g f, List.mem_map_of_mem hf, fun h0 => hn (by
      rwa [renamed_child_faults c.env (hdc f hf)] at h0)⟩ m2 r2 h2
    exact ⟨⟨fun _ => ⟨_, rfl⟩, fun _ => ⟨_, rfl⟩⟩, fun d1 h => by cases h⟩

/-! ## Example -/

namespace Spec

/-- The root part. -/
def prefixRoot (p v : Str) : InFile :=
  ⟨b!"/3D/3dmodel.model", contentTypeModel, [⟨b!"/c.model", relModel, b!"r1"⟩], some (prefixText p v, .eof)⟩

/-- A child part, with its own prefixes. -/
def prefixPart (v : Str) : InFile :=
  ⟨b!"/c.model", contentTypeModel, [],
    some (b!"<model xmlns=\"http://schemas.microsoft.com/3dmanufacturing/core/2015/02\" xmlns:" ++ v ++
      b!"=\"urn\"><resources><object id=\"1\"><metadatagroup><metadata name=\"" ++ v ++ b!":a\">z</metadata></metadatagroup></object></resources></model>", .eof)⟩

/-- The package. -/
def prefixPkg : InPkg := ⟨[⟨b!"/3D/3dmodel.model", relModel, b!"r0"⟩], [prefixRoot b!"p" b!"v", prefixPart b!"q"]⟩

/-- The parts with other prefixes. -/
def reprefix (f : InFile) : InFile :=
  if f = prefixRoot b!"p" b!"v" then prefixRoot b!"v" b!"p" else if f = prefixPart b!"q" then prefixPart b!"qq" else f

/-- The document of a child part. -/
def prefixPartDoc (v : Str) : Doc :=
  ⟨[], [⟨⟨[], b!"xmlns"⟩, nsCore⟩, ⟨⟨b!"xmlns", v⟩, b!"urn"⟩],
    [.elem (core b!"resources") [] [.elem (core b!"object") [pl b!"id" b!"1"]
      [.elem (core b!"metadatagroup") [] [.elem (core b!"metadata") [pl b!"name" (v ++ b!":a")] [.text b!"z"]]]]], []⟩

/-- The documents. -/
def prefixDocs (p v q : Str) (f : InFile) : Doc :=
  if f.name = b!"/c.model" then prefixPartDoc q else ⟨[], prefixAttrs p v, prefixContent v, []⟩

/-- The first letter of a prefix that starts with it is doubled. -/
def doubleQ : Str → Str
  | 113 :: s => 113 :: 113 :: s
  | s => s

/-- The renaming of each part. -/
def partPrefixes (n : Str) : Str → Str := if n = b!"/c.model" then doubleQ else swapPrefixes

end Spec

theorem doubleQ_ok : Renaming doubleQ where
  inj := by
    intro p q h
    unfold doubleQ at h
    split at h <;> split at h
    · simpa using h
    · next hq =>
      exact absurd h.symm (hq _)
    · next hp _ _ =>
      exact absurd h (hp _)
    · exact h
  plain := by
    intro p h
    unfold doubleQ
    split
    · simpa using h
    · exact h
  empty := rfl

theorem reprefix_only : ContentOnly c50Opc prefixPkg reprefix where
  name f := by unfold reprefix; split; · next h => rw [h]; rfl
               · split; · next h => rw [h]; rfl
                 · rfl
  type f := by unfold reprefix; split; · next h => rw [h]; rfl
               · split; · next h => rw [h]; rfl
                 · rfl
  rels f := by unfold reprefix; split; · next h => rw [h]; rfl
               · split; · next h => rw [h]; rfl
                 · rfl
  attached := by
    rintro f ⟨source, r, ht, hr, hf⟩
    have h0 : r ∈ prefixPkg.rels ++ prefixPkg.files.flatMap (·.rels) := by
      rcases hr with h | ⟨p, hp, h⟩
      · exact List.mem_append_left _ h
      · exact List.mem_append_right _ (List.mem_flatMap.mpr ⟨p, hp, h⟩)
    have h1 : ∀ r ∈ prefixPkg.rels ++ prefixPkg.files.flatMap (·.rels), r.type = relModel := by decide +kernel
    exact absurd (h1 r h0) ht

set_option maxRecDepth 8000 in
theorem prefixRoot_doc : RootDoc allExt True (prefixRoot b!"p" b!"v") ⟨[], prefixAttrs b!"p" b!"v", prefixContent b!"v", []⟩ ∧
    RootDoc allExt True (prefixRoot b!"v" b!"p") ⟨[], prefixAttrs b!"v" b!"p", prefixContent b!"p", []⟩ :=
  ⟨⟨⟨_, rfl, by decide +kernel⟩, noElements_of (by decide +kernel), noElements_of (by decide +kernel), attrsFit_of (by decide +kernel),
    once_of (by decide +kernel), contentOk_of _ (by decide +kernel)⟩,
   ⟨⟨_, rfl, by decide +kernel⟩, noElements_of (by decide +kernel), noElements_of (by decide +kernel), attrsFit_of (by decide +kernel),
    once_of (by decide +kernel), contentOk_of _ (by decide +kernel)⟩⟩

set_option maxRecDepth 8000 in
theorem prefixPart_doc : ChildDoc allExt True (prefixPart b!"q") (prefixPartDoc b!"q") ∧
    ChildDoc allExt True (prefixPart b!"qq") (prefixPartDoc b!"qq") :=
  ⟨⟨⟨_, rfl, by decide +kernel⟩, noElements_of (by decide +kernel), noElements_of (by decide +kernel), once_of (by decide +kernel),
    contentOk_of _ (by decide +kernel), by decide +kernel⟩,
   ⟨⟨_, rfl, by decide +kernel⟩, noElements_of (by decide +kernel), noElements_of (by decide +kernel), once_of (by decide +kernel),
    contentOk_of _ (by decide +kernel), by decide +kernel⟩⟩

set_option maxRecDepth 8000 in
/-- The two packages. -/
example (m1 m2 : Model) (r1 r2 : PkgResult) (h1 : DecodesBg ⟨allExt, false, fun _ _ t => t⟩ c50Opc prefixPkg .zero m1 r1)
    (h2 : DecodesBg ⟨allExt, false, fun _ _ t => t⟩ c50Opc (rewriteParts reprefix prefixPkg) .zero m2 r2) :
    ((∃ e, r1 = .child e) ↔ ∃ e, r2 = .child e) ∧ ∀ d1, r1 = .root d1 → r2 = .root d1 ∧ ((false = false ∨ d1 = .ok) →
      m2 = { renameModel swapPrefixes m1 with childs := m2.childs } ∧
      m2.childs.Perm (m1.childs.map fun x => (x.1, { x.2 with resources := renameResources (partPrefixes x.1) x.2.resources }))) := by
  have hch : childParts c50Opc prefixPkg (prefixRoot b!"p" b!"v") = [prefixPart b!"q"] := by decide +kernel
  have e1 : reprefix (prefixRoot b!"p" b!"v") = prefixRoot b!"v" b!"p" := by decide +kernel
  have e2 : reprefix (prefixPart b!"q") = prefixPart b!"qq" := by decide +kernel
  have hr : renameContent swapPrefixes (prefixContent b!"v") = prefixContent b!"p" := by
    simp [renameContent, prefixContent, changeElem, renameMetaElem, renameAttr, renameBuildElem, renameResourcesElem, renameHolderElem,
      renameGroupElem, renameValue, swapPrefixes, core, pl]
  refine C95_package ⟨allExt, false, fun _ _ t => t⟩ ⟨allExt, false, fun _ _ t => t⟩ rfl rfl c50Opc prefixPkg (prefixRoot b!"p" b!"v") reprefix
    reprefix_only (prefixDocs b!"p" b!"v" b!"q") (prefixDocs b!"v" b!"p" b!"qq") True (fun _ _ _ _ => rfl) (fun _ _ _ _ => rfl)
    ⟨⟨⟨b!"/3D/3dmodel.model", relModel, b!"r0"⟩, by decide +kernel, by decide +kernel⟩, by decide +kernel, by decide +kernel,
      by decide +kernel⟩ prefixRoot_doc.1 (by rw [e1]; exact prefixRoot_doc.2) ?_ ?_ partPrefixes ?_ ?_ ?_ m1 m2 r1 r2 h1 h2
  · rw [hch]; intro f hf; rw [List.mem_singleton.mp hf]; exact prefixPart_doc.1
  · rw [hch]; intro f hf; rw [List.mem_singleton.mp hf, e2]; exact prefixPart_doc.2
  · intro n
    unfold partPrefixes
    split
    · exact doubleQ_ok
    · exact swapPrefixes_ok
  · rw [e1]
    refine ⟨?_, by unfold PrefixesNamed; decide +kernel, hr.symm⟩
    refine .cons ?_ (.cons ?_ (.cons ?_ (.cons ?_ (.cons ?_ .nil)))) <;> unfold RenamedAttr <;> decide +kernel
  · rw [hch]; intro f hf; rw [List.mem_singleton.mp hf, e2]
    show (prefixPartDoc b!"qq").content = (prefixPartDoc b!"q").content.map (changeElem (core b!"resources") (renameResourcesElem doubleQ))
    simp [prefixPartDoc, changeElem, renameMetaElem, renameAttr, renameResourcesElem, renameHolderElem, renameGroupElem, renameValue, doubleQ,
      core, pl]

end Go3mf
