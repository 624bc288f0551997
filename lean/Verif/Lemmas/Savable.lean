import Verif.Spec.Savable
import Verif.Lemmas.DocCheck
import Verif.Lemmas.DocAny
import Verif.Lemmas.RulesModel
import Verif.Props.C17
import Verif.Props.C30

/-!
# The model of a savable document can be written
-/

namespace Go3mf
open Spec

variable {env : Env} {kept : Prop} {exts : List Extension} {k k' : Kind} {n m : Name} {mu : Mult}

/-! ## Texts -/

theorem text_empty : Text [] := ⟨[], by simp, rfl⟩

theorem text_append {s t : Str} (hs : Text s) (ht : Text t) : Text (s ++ t) := by
  obtain ⟨cs, h1, rfl⟩ := hs
  obtain ⟨ds, h2, rfl⟩ := ht
  refine ⟨cs ++ ds, fun c hc => ?_, by simp [utf8s]⟩
  rcases List.mem_append.1 hc with h | h
  · exact h1 c h
  · exact h2 c h

theorem text_flatten : ∀ {l : List Str}, (∀ t ∈ l, Text t) → Text l.flatten
  | [], _ => text_empty
  | t :: l, h => by
    rw [List.flatten_cons]
    exact text_append (h t (by simp)) (text_flatten fun x hx => h x (by simp [hx]))

theorem utf8_colon {c : Nat} (hc : XmlChar c) (h : c ≠ 58) : (58 : Byte) ∉ utf8 c := by
  intro hm
  obtain ⟨x, hx, e⟩ := List.mem_map.1 hm
  have e' : x % 256 = 58 := by simpa using congrArg UInt8.toNat e
  unfold XmlChar at hc
  unfold utf8Nat at hx
  split at hx
  · obtain rfl := List.mem_singleton.1 hx
    omega
  · split at hx
    · simp only [List.mem_cons, List.not_mem_nil, or_false] at hx
      omega
    · split at hx
      · simp only [List.mem_cons, List.not_mem_nil, or_false] at hx
        omega
      · simp only [List.mem_cons, List.not_mem_nil, or_false] at hx
        omega

theorem text_after {p l : Str} (hp : (58 : Byte) ∉ p) (h : Text (p ++ 58 :: l)) : Text l := by
  obtain ⟨cs, h1, h2⟩ := h
  induction cs generalizing p with
  | nil => simp [utf8s] at h2
  | cons c cs ih =>
    have h3 : utf8s (c :: cs) = utf8 c ++ utf8s cs := by simp [utf8s]
    rw [h3] at h2
    by_cases hc : c = 58
    · subst hc
      have h4 : utf8 58 = [58] := by decide +kernel
      rw [h4] at h2
      cases p with
      | nil => exact ⟨cs, fun c hc => h1 c (by simp [hc]), by simpa using h2⟩
      | cons b p =>
        simp only [List.cons_append, List.nil_append] at h2
        exact absurd (List.mem_cons_self) ((List.cons.inj h2).1 ▸ hp)
    · have h5 := utf8_colon (h1 c (by simp)) hc
      rcases List.append_eq_append_iff.1 h2 with ⟨a, e1, e2⟩ | ⟨a, e1, e2⟩
      · cases a with
        | nil =>
          simp only [List.nil_append] at e2
          refine ih (p := []) (by simp) (fun c hc => h1 c (by simp [hc])) ?_
          simpa using e2
        | cons b a =>
          simp only [List.cons_append] at e2
          refine absurd ?_ h5
          rw [e1, ← (List.cons.inj e2).1]
          simp
      · exact ih (p := a) (fun hb => hp (by rw [e1]; simp [hb])) (fun c hc => h1 c (by simp [hc])) e2.symm

theorem metaName_writable {exts : List Extension} (hx : ∀ x ∈ exts, ExtensionWritable x) {v : Str} (hv : Text v) :
    Text (metaName exts v).space ∧ Text (metaName exts v).loc ∧
    (((metaName exts v).space ≠ [] ∧ 58 ∉ (metaName exts v).space ∧ ∃ x ∈ exts, x.localName = (metaName exts v).space) ∨
    ((metaName exts v).space = [] ∧ ∀ p l, (metaName exts v).loc = p ++ b!":" ++ l → 58 ∉ p → ∀ x ∈ exts, x.localName ≠ p)) := by
  have hsplit := List.takeWhile_append_dropWhile (p := fun b : Byte => decide (b ≠ 58)) (l := v)
  have htake : (58 : Byte) ∉ v.takeWhile (· ≠ 58) := fun h => by simpa using List.all_eq_true.1 (List.all_takeWhile (p := fun b : Byte => decide (b ≠ 58)) (l := v)) _ h
  unfold metaName
  cases hd : v.dropWhile (· ≠ 58) with
  | nil =>
    refine ⟨text_empty, hv, Or.inr ⟨rfl, fun p l e hp => ?_⟩⟩
    rw [hd, List.append_nil] at hsplit
    refine absurd ?_ htake
    simp only at e
    rw [hsplit, e]
    simp
  | cons b l =>
    have hb : b = 58 := by
      have := List.head?_dropWhile_not (fun b : Byte => decide (b ≠ 58)) v
      rw [hd] at this
      simpa using this
    subst hb
    rw [hd] at hsplit
    simp only
    split
    next hm =>
      obtain ⟨x, h1, h2⟩ := List.mem_map.1 hm
      have hw := hx x h1
      refine ⟨h2 ▸ hw.text, text_after htake (by rw [hsplit]; exact hv), Or.inl ⟨h2 ▸ hw.name.1, htake, x, h1, h2⟩⟩
    next hm =>
      refine ⟨text_empty, hv, Or.inr ⟨rfl, fun p l' e hp x hx' hn => hm ?_⟩⟩
      refine List.mem_map.2 ⟨x, hx', ?_⟩
      rw [hn]
      simp only at e
      rw [e, List.append_assoc, List.takeWhile_append_of_pos (p := fun x : Byte => decide (x ≠ 58)) (fun b hb => decide_eq_true (fun e : b = 58 => hp (e ▸ hb)))]
      simp

/-! ## Nodes -/

theorem ok_mem : ∀ {c : List Node}, ContentOk env kept k n c → ∀ x ∈ c, NodeOk env kept k n x
  | [], _, x, hx => by simp at hx
  | y :: c, h, x, hx => by
    rw [ContentOk] at h
    rcases List.mem_cons.1 hx with rfl | hx
    · exact h.1
    · exact ok_mem h.2 x hx

theorem clean_mem : ∀ {c : List Node}, ContentClean env exts k c → ∀ x ∈ c, NodeClean env exts k x
  | [], _, x, hx => by simp at hx
  | y :: c, h, x, hx => by
    rw [ContentClean] at h
    rcases List.mem_cons.1 hx with rfl | hx
    · exact h.1
    · exact clean_mem h.2 x hx

/-- What is known of an element. -/
structure Sub (env : Env) (kept : Prop) (exts : List Extension) (k : Kind) (n : Name) (e : List Attr × List Node) : Prop where
  name : Spec.ElemName exts n
  fit : AttrsFit env k e.1
  attrs : ∀ a ∈ e.1, Spec.ElemAttr exts a
  storable : Storable env k e.1 e.2
  ok : ContentOk env kept k n e.2
  clean : ContentClean env exts k e.2

theorem sub_of {c : List Node} (h1 : ContentOk env kept k n c) (h2 : ContentClean env exts k c) {as : List Attr} {d : List Node}
    (h : Node.elem m as d ∈ c) (hk : childKind env k m = some (k', mu)) : Sub env kept exts k' m (as, d) := by
  have g1 := ok_mem h1 _ h
  have g2 := clean_mem h2 _ h
  rw [NodeOk, hk] at g1
  rw [NodeClean, hk] at g2
  exact ⟨g2.1, g1.2.1, g2.2.1, g2.2.2.1, g1.2.2.2, g2.2.2.2⟩

theorem children_mem {c : List Node} {e : List Attr × List Node} (h : e ∈ children m c) : Node.elem m e.1 e.2 ∈ c := by
  unfold children at h
  obtain ⟨x, hx, he⟩ := List.mem_filterMap.1 h
  cases x with
  | elem m' as d =>
    simp only at he
    split at he
    next hm =>
      obtain rfl := hm
      obtain rfl := Option.some.inj he
      exact hx
    · cases he
  | text t => cases he
  | other => cases he

theorem child_mem {c : List Node} {e : List Attr × List Node} (h : child? m c = some e) : e ∈ children m c :=
  List.mem_of_mem_head? h

theorem kind_core {l : Str} : childKind env k (core l) = (elements k).lookup (core l) := if_neg (by simp [core])

/-- The elements of the core specification in an element. -/
theorem Sub.children {e : List Attr × List Node} (h : Sub env kept exts k n e) {l : Str}
    (hk : (elements k).lookup (core l) = some (k', mu)) {x : List Attr × List Node} (hx : x ∈ Spec.children (core l) e.2) :
    Sub env kept exts k' (core l) x :=
  sub_of h.ok h.clean (children_mem hx) (by rw [kind_core, hk])

/-- The elements of an extension in an element that is not open. -/
theorem Sub.within {e : List Attr × List Node} (h : Sub env kept exts k n e) (ho : k.isOpen = false)
    (hk : (elements k).lookup m = some (k', mu)) {x : List Attr × List Node} (hx : x ∈ Spec.children m e.2) :
    Sub env kept exts k' m x :=
  sub_of h.ok h.clean (children_mem hx) (by rw [childKind, if_neg (by simp [ho]), hk])

/-! ## Attributes -/

theorem attr_mem {as : List Attr} {v : Str} (h : attr? as n = some v) : ∃ a ∈ as, a.name = n ∧ a.value = v := by
  unfold attr? at h
  obtain ⟨a, h1, h2⟩ := Option.map_eq_some_iff.1 h
  exact ⟨a, List.mem_of_find?_eq_some h1, by simpa using List.find?_some h1, h2⟩

theorem attr_text {as : List Attr} (h : ∀ a ∈ as, Text a.value) : Text ((attr? as n).getD []) := by
  cases e : attr? as n with
  | none => exact text_empty
  | some v =>
    obtain ⟨a, h1, _, rfl⟩ := attr_mem e
    exact h a h1

theorem textAt_text {as : List Attr} (h : ∀ a ∈ as, Text a.value) (l : Str) : Text (textAt as l) := attr_text h

theorem Sub.text {e : List Attr × List Node} (h : Sub env kept exts k n e) (l : Str) : Text (textAt e.1 l) :=
  textAt_text (fun a ha => (h.attrs a ha).value) l

theorem attr_filter {as : List Attr} (hn : n.space ≠ []) : attr? (as.filter fun a => a.name.space ≠ []) n = attr? as n := by
  unfold attr?
  rw [List.find?_filter]
  congr 2
  funext a
  by_cases e : a.name = n
  · simp [e, hn]
  · simp [e]

/-- The attributes of extensions, each with a name space, can be written. -/
theorem groups_writable {parent : Str} {as : List Attr} (hk : k.holder = some parent) (hall : ∀ a ∈ as, Allowed env k a.name.space)
    (hclean : ∀ a ∈ as, SpaceAttr exts a)
    (hu : (∃ a ∈ as, env.load a.name.space = some .production) → ∃ v, attr? as ⟨nsProduction, b!"UUID"⟩ = some v ∧ IsUUID v) :
    AttrsOk env exts parent (groupsOf env k as) := by
  have hns : ∀ ns ∈ (as.map (·.name.space)).eraseDups, Allowed env k ns ∧ ∃ a ∈ as, a.name.space = ns := by
    intro ns h
    obtain ⟨a, h1, rfl⟩ := List.mem_map.1 (List.mem_eraseDups.1 h)
    exact ⟨hall a h1, a, h1, rfl⟩
  have hgs : ∀ ns ∈ (as.map (·.name.space)).eraseDups, groupSpace (groupOf env k as ns) = ns := by
    intro ns h
    have := groupOf_ns (p := as) (hns ns h).1
    cases e : groupOf env k as ns <;> rw [e] at this <;> exact this
  refine ⟨?_, fun g hg => ?_⟩
  · unfold groupsOf
    rw [List.map_map, List.map_congr_left (f := groupSpace ∘ groupOf env k as) (g := id) (fun ns h => hgs ns h), List.map_id]
    exact eraseDups_nodup _
  · unfold groupsOf at hg
    obtain ⟨ns, h1, rfl⟩ := List.mem_map.1 hg
    obtain ⟨h2, a, h3, rfl⟩ := hns _ h1
    have htext : ∀ a ∈ as, Text a.value := fun a ha => (hclean a ha).value
    unfold groupOf
    unfold Allowed at h2
    cases hl : env.load a.name.space with
    | none =>
      refine ⟨load_none_iff.1 hl, fun h => ?_, fun b hb => ?_⟩
      · have : a ∈ as.filter fun b => b.name.space = a.name.space := List.mem_filter.2 ⟨h3, by simp⟩
        rw [h] at this
        simp at this
      · obtain ⟨h4, h5⟩ := List.mem_filter.1 hb
        exact ⟨by simpa using h5, hclean b h4⟩
    | some x =>
      have hs := load_space hl
      rw [hl] at h2
      cases x with
      | production =>
        have hr : env.production = true := by
          unfold Env.load at hl
          split at hl
          next h => exact h.2
          next => split at hl <;> (try split at hl) <;> (try split at hl) <;> simp_all
        have hd : Declared exts nsProduction := by
          rcases (hclean a h3).space with h | h
          · rw [h] at hs
            exact absurd hs (by decide +kernel)
          · rw [hs] at h
            exact h
        obtain ⟨v, hv, hvu⟩ := hu ⟨a, h3, hl⟩
        have huuid : IsUUID (uuidAt as) := by
          unfold uuidAt
          rw [hv]
          simp only [C19_accepts v hvu, if_true]
          exact hvu
        simp only [extSpace] at hs
        rw [hs]
        simp only [List.mem_cons, List.not_mem_nil, or_false] at h2
        rcases h2 with rfl | rfl | rfl | rfl <;> simp only [Kind.holder, Option.some.injEq] at hk <;> subst hk
        · exact ⟨hr, hd, rfl, huuid⟩
        · exact ⟨hr, hd, rfl, huuid, attr_text htext⟩
        · exact ⟨hr, hd, rfl, huuid⟩
        · exact ⟨hr, hd, rfl, huuid, attr_text htext⟩
      | slices =>
        have hr : env.slices = true := by
          unfold Env.load at hl
          split at hl
          · cases hl
          · split at hl
            next h => exact h.2
            next => split at hl <;> (try split at hl) <;> simp_all
        have hd : Declared exts nsSlices := by
          rcases (hclean a h3).space with h | h
          · rw [h] at hs
            exact absurd hs (by decide +kernel)
          · rw [hs] at h
            exact h
        obtain rfl := h2
        simp only [Kind.holder, Option.some.injEq] at hk
        exact ⟨hr, hd, hk.symm⟩
      | beamlattice => exact h2.elim
      | materials => exact h2.elim

theorem space_attr {a : Attr} (h : Spec.ElemAttr exts a) (hs : a.name.space ≠ []) : SpaceAttr exts a :=
  ⟨h.space.resolve_left hs, h.name, h.value⟩

theorem production_kind {ns : Str} (h : Allowed env k ns) (hl : env.load ns = some .production) :
    k ∈ ([.build, .item, .object, .component] : List Kind) := by
  unfold Allowed at h
  rw [hl] at h
  exact h

theorem Sub.ext {parent : Str} {e : List Attr × List Node} (h : Sub env kept exts k n e) (hk : k.holder = some parent) :
    AttrsOk env exts parent (extAttrs env k e.1) := by
  have hall := h.fit.allowed (by rw [hk]; rfl)
  refine groups_writable hk (fun a ha => hall a (List.mem_filter.1 ha).1)
    (fun a ha => space_attr (h.attrs a (List.mem_filter.1 ha).1) (by simpa using (List.mem_filter.1 ha).2)) ?_
  rintro ⟨a, ha, hl⟩
  rw [attr_filter (prod_ne.1)]
  have ha := (List.mem_filter.1 ha).1
  exact h.storable.production (production_kind (hall a ha) hl) ⟨a, ha, hl⟩

theorem Sub.groups {parent : Str} {e : List Attr × List Node} (h : Sub env kept exts k n e) (hk : k.holder = some parent)
    (hb : k ∈ ([.metadataGroup, .build, .resources, .mesh, .vertices, .triangles, .components] : List Kind)) :
    AttrsOk env exts parent (groupsOf env k e.1) := by
  have hall := h.fit.allowed (by rw [hk]; rfl)
  refine groups_writable hk hall (fun a ha => space_attr (h.attrs a ha) (h.storable.bare hb a ha)) ?_
  rintro ⟨a, ha, hl⟩
  exact h.storable.production (production_kind (hall a ha) hl) ⟨a, ha, hl⟩

/-! ## Unknown elements -/

theorem content_of_passed (hf : k.isForeign = true) : ∀ c : List Node, PassedAll env kept k n c → ContentClean env exts k c →
    Content exts n (tokensOf c)
  | [], _, _ => by rw [tokensOf]; exact .nil
  | .elem m as d :: xs, h, g => by
    rw [PassedAll, Passed] at h
    rw [ContentClean, NodeClean, h.1.1] at g
    have h1 := content_of_passed hf d h.1.2.2 g.1.2.2
    have h2 := content_of_passed hf xs h.2 g.2
    have := Content.elem h.1.2.1 g.1.1 g.1.2.1 h1 h2
    simpa [tokensOf, Node.tokens] using this
  | .text t :: xs, h, g => by
    rw [ContentClean, NodeClean, hf] at g
    exact absurd g.1.2 (by simp)
  | .other :: xs, h, g => by
    rw [PassedAll] at h
    rw [ContentClean] at g
    have := content_of_passed hf xs h.2 g.2
    simpa [tokensOf, Node.tokens] using this

theorem foreign_element {as : List Attr} {c : List Node} (hf : k.isForeign = true) (hs : m.space ≠ nsCore)
    (hl : env.load m.space = none) (h : Sub env kept exts k m (as, c)) : Element env exts m as (Node.elem m as c).tokens := by
  have hnone : ∀ x, childKind env k x = none := by
    intro x
    cases k <;> first | exact absurd hf (by decide) | (rw [childKind, if_neg (by simp [Kind.isOpen])]; rfl)
  refine ⟨h.name, hs, load_none_iff.1 hl, h.attrs, tokensOf c, ?_, by rw [Node.tokens]⟩
  exact content_of_passed hf c (passed_of_ok hnone c h.ok) h.clean

theorem idOf_uintAt {as : List Attr} (h : attrFaults env .foreignAsset as = []) : IdOf as (uintAt as b!"id") := by
  unfold uintAt plain? attr?
  cases e : as.find? (fun a => decide (a.name = ⟨[], b!"id"⟩)) with
  | none =>
    refine Or.inr ⟨rfl, fun x hx hn => ?_⟩
    have := List.find?_eq_none.1 e x hx
    simp [hn] at this
  | some a =>
    obtain ⟨hn, pre, post, rfl, hp⟩ := List.find?_eq_some_iff_append.1 e
    have hn : a.name = ⟨[], b!"id"⟩ := by simpa using hn
    refine Or.inl ⟨pre, a, post, rfl, hn, fun x hx => by simpa using hp x hx, ?_⟩
    have hf : attrFault env .foreignAsset a = [] := by
      unfold attrFaults at h
      exact List.flatMap_eq_nil_iff.1 h a (by simp)
    have ht : attrType env .foreignAsset a.name = some (.uint, true) := by
      rw [hn]; rfl
    unfold attrFault at hf
    rw [ht] at hf
    simp only [mistakes] at hf
    cases hv : parseUint a.value with
    | error x =>
      rw [hv] at hf
      exact absurd hf (by simp [Except.isOk, Except.toBool])
    | ok v =>
      have := (C20_uint_language _ _).1 hv
      simp only [Option.map_some, Option.getD_some]
      rw [show parseUintVal a.value = v by simp [parseUintVal, hv]]
      exact this

/-! ## Elements of extensions -/

/-- The types of resources and lattices. -/
def isExtKind (k : Kind) : Bool := k ∈ extElements.map (·.2)

theorem ext_kind (h : childKind env k m = some (k', mu)) (hk : isExtKind k' = true) :
    m.space ≠ nsCore ∧ (∃ x, env.load m.space = some x) ∧ (m, k') ∈ extElements := by
  unfold childKind at h
  split at h
  next hc =>
    simp only at h
    split at h
    next x hl =>
      obtain ⟨q, h1, h2⟩ := Option.map_eq_some_iff.1 h
      obtain ⟨rfl, _⟩ := Prod.mk.inj h2
      exact ⟨hc.2, ⟨x, hl⟩, mem_of_lookup h1⟩
    next hl =>
      obtain ⟨h1, _⟩ := Prod.mk.inj (Option.some.inj h)
      rw [← h1] at hk
      split at hk <;> exact absurd hk (by decide +kernel)
  next =>
    have h1 := mem_of_lookup h
    have key : ∀ k, ∀ p ∈ elements k, isExtKind p.2.1 = false := by
      intro k
      cases k <;> decide +kernel
    rw [key k _ h1] at hk
    cases hk

theorem foreign_kind (h : childKind env k m = some (k', mu)) (hk : k'.isForeign = true) :
    m.space ≠ nsCore ∧ env.load m.space = none := by
  unfold childKind at h
  split at h
  next hc =>
    simp only at h
    split at h
    next x hl =>
      obtain ⟨q, h1, h2⟩ := Option.map_eq_some_iff.1 h
      obtain ⟨rfl, _⟩ := Prod.mk.inj h2
      have key : ∀ p ∈ extElements, p.2.isForeign = false := by decide +kernel
      rw [key _ (mem_of_lookup h1)] at hk
      cases hk
    next hl => exact ⟨hc.2, hl⟩
  next =>
    have h1 := mem_of_lookup h
    have key : ∀ k, ∀ p ∈ elements k, p.2.1.isForeign = false := by
      intro k
      cases k <;> decide +kernel
    rw [key k _ h1] at hk
    cases hk

theorem declared_of_name (h : Spec.ElemName exts m) (hs : m.space ≠ nsCore) : Declared exts m.space := h.space.resolve_left hs

theorem registered_materials {x : Ext} (h : env.load nsMaterials = some x) : env.materials = true := by
  cases hm : env.materials with
  | true => rfl
  | false =>
    have := load_mat h
    subst this
    exact absurd ((load_iff env _ _).1 h).1 (by simp [registered, hm])

theorem registered_slices {x : Ext} (h : env.load nsSlices = some x) : env.slices = true := by
  cases hm : env.slices with
  | true => rfl
  | false =>
    have := load_slc h
    subst this
    exact absurd ((load_iff env _ _).1 h).1 (by simp [registered, hm])

theorem registered_beam {x : Ext} (h : env.load nsBeam = some x) : env.beamlattice = true := by
  cases hm : env.beamlattice with
  | true => rfl
  | false =>
    have := load_bml h
    subst this
    exact absurd ((load_iff env _ _).1 h).1 (by simp [registered, hm])

theorem extRes_writable {e : List Attr × List Node} {x : ExtRes} (hk : childKind env k m = some (k', mu))
    (h : Sub env kept exts k' m e) (hx : extResOf k' e = some x) : ResWritable env exts x := by
  have hext : isExtKind k' = true := by
    cases k' <;> first | (cases hx; done) | decide +kernel
  obtain ⟨h1, ⟨y, h2⟩, h3⟩ := ext_kind hk hext
  have hd := declared_of_name h.name h1
  simp only [extElements, List.mem_cons, List.not_mem_nil, or_false, Prod.mk.injEq] at h3
  rcases h3 with ⟨rfl, rfl⟩ | ⟨rfl, rfl⟩ | ⟨rfl, rfl⟩ | ⟨rfl, rfl⟩ | ⟨rfl, rfl⟩ | ⟨rfl, rfl⟩ | ⟨rfl, rfl⟩
  · cases hx; exact ⟨registered_materials h2, hd⟩
  · cases hx; exact ⟨registered_materials h2, hd⟩
  · cases hx; exact ⟨registered_materials h2, hd, h.text _⟩
  · cases hx; exact ⟨registered_materials h2, hd⟩
  · cases hx; exact ⟨registered_materials h2, hd⟩
  · cases hx
    refine ⟨registered_slices h2, hd, fun r hr => ?_⟩
    obtain ⟨z, hz, rfl⟩ := List.mem_map.1 hr
    exact (h.within rfl (k' := .sliceRef) (mu := .many) rfl hz).text _
  · cases hx

theorem any_writable {c : List Node} (ho : k.isOpen = true) (hr : k ≠ .resources) (h1 : ContentOk env kept k n c) (h2 : ContentClean env exts k c) :
    ∀ e ∈ c.filterMap (anyOf env k), ElemWritable env exts e := by
  intro e he
  obtain ⟨x, hx, hxe⟩ := List.mem_filterMap.1 he
  cases x with
  | text t => cases hxe
  | other => cases hxe
  | elem m as d =>
    simp only [anyOf] at hxe
    split at hxe
    next mu hk =>
      cases hxe
      have hs := sub_of h1 h2 hx hk
      obtain ⟨h3, h4⟩ := foreign_kind hk rfl
      exact ⟨m, as, foreign_element rfl h3 h4 hs⟩
    next mu hk =>
      cases hxe
      have hs := sub_of h1 h2 hx hk
      obtain ⟨h3, ⟨y, h4⟩, h5⟩ := ext_kind hk (by decide +kernel)
      simp only [extElements, List.mem_cons, List.not_mem_nil, or_false, Prod.mk.injEq, reduceCtorEq, and_false, and_true, false_or] at h5
      subst h5
      refine ⟨registered_beam h4, declared_of_name hs.name h3, fun s hs' => ?_⟩
      simp only [beamLatticeOf] at hs'
      split at hs'
      next v hv =>
        obtain ⟨z, hz, rfl⟩ := List.mem_map.1 hs'
        have g1 := hs.within rfl (k' := .beamSets) (mu := .single) rfl (child_mem hv)
        have g2 := g1.within rfl (k' := .beamSet) (mu := .many) rfl hz
        exact ⟨g2.text _, g2.text _⟩
      · simp at hs'
    next k' mu _ _ hk =>
      obtain ⟨y, hy, rfl⟩ := Option.map_eq_some_iff.1 hxe
      exact extRes_writable hk (sub_of h1 h2 hx hk) hy
    · cases hxe

/-! ## The core -/

theorem metadata_writable {known : List Extension} (hx : ∀ x ∈ known, ExtensionWritable x) {e : List Attr × List Node}
    (h : Sub env kept exts .metadata n e) : MetadataWritable known (metadataOf known e) := by
  have hv : Text (docText e.2) := by
    refine text_flatten fun t ht => ?_
    obtain ⟨x, h1, h2⟩ := List.mem_filterMap.1 ht
    cases x with
    | text u =>
      cases h2
      have := clean_mem h.clean _ h1
      rw [NodeClean] at this
      exact this.1
    | elem => cases h2
    | other => cases h2
  cases hn : plain? e.1 b!"name" with
  | none =>
    refine ⟨?_, ?_, h.text _, hv, Or.inr ⟨?_, fun p l e => ?_⟩⟩ <;> simp only [metadataOf, hn, Option.map_none, Option.getD_none] at *
    · exact text_empty
    · exact text_empty
    · simp at e
  | some v =>
    obtain ⟨a, ha, _, rfl⟩ := attr_mem hn
    obtain ⟨h1, h2, h3⟩ := metaName_writable hx (h.attrs a ha).value
    refine ⟨?_, ?_, h.text _, hv, ?_⟩ <;> simp only [metadataOf, hn, Option.map_some, Option.getD_some]
    · exact h1
    · exact h2
    · exact h3

theorem group_writable {known : List Extension} (hx : ∀ x ∈ known, ExtensionWritable x) {e : List Attr × List Node} (h : Sub env kept exts k n e)
    (hk : (elements k).lookup (core b!"metadatagroup") = some (.metadataGroup, .single)) :
    GroupWritable env exts known (metadataGroupOf env known (child? (core b!"metadatagroup") e.2)) := by
  cases hc : child? (core b!"metadatagroup") e.2 with
  | none => exact ⟨by simp [metadataGroupOf], ⟨by simp [metadataGroupOf], by simp [metadataGroupOf]⟩, by simp [metadataGroupOf]⟩
  | some g =>
    have hg := h.children hk (child_mem hc)
    refine ⟨fun md hmd => ?_, hg.groups rfl (by simp), fun he => ?_⟩
    · obtain ⟨z, hz, rfl⟩ := List.mem_map.1 hmd
      exact metadata_writable hx (hg.children (k' := .metadata) (mu := .many) rfl hz)
    · have := hg.storable.group rfl (List.map_eq_nil_iff.1 he)
      simp only [metadataGroupOf, this]
      rfl

theorem triangle_plain {pid pindex : UInt32} {e : List Attr × List Node} (h : Sub env kept exts .triangle n e) :
    (triangleOf env pid pindex e.1).anyAttr = [] := by
  simp only [triangleOf]
  unfold extAttrs
  rw [List.filter_eq_nil_iff.2 fun a ha => by simpa using h.storable.triangle rfl a ha]
  rfl

theorem triangle_writable {pid pindex : UInt32} {e : List Attr × List Node} (h : Sub env kept exts .triangle n e) :
    TriangleWritable env exts (triangleOf env pid pindex e.1) := by
  have : extAttrs env .triangle e.1 = [] := triangle_plain (pid := pid) (pindex := pindex) h
  refine ⟨?_, ?_⟩ <;> simp only [triangleOf, this]
  · exact ⟨by simp, by simp⟩
  · simp [unknownValues]

theorem mesh_writable {pid pindex : UInt32} {e : List Attr × List Node} (h : Sub env kept exts .mesh n e) :
    MeshWritable env exts (meshOf env pid pindex e) := by
  refine ⟨h.groups rfl (by simp), ?_, ?_, ?_, any_writable rfl (by simp) h.ok h.clean⟩
  · simp only [meshOf]
    split
    next v hv => exact (h.children (k' := .vertices) (mu := .single) rfl (child_mem hv)).groups rfl (by simp)
    · exact ⟨by simp, by simp⟩
  · simp only [meshOf]
    split
    next v hv => exact (h.children (k' := .triangles) (mu := .single) rfl (child_mem hv)).groups rfl (by simp)
    · exact ⟨by simp, by simp⟩
  · intro t ht
    simp only [meshOf] at ht
    split at ht
    next v hv =>
      obtain ⟨z, hz, rfl⟩ := List.mem_map.1 ht
      have h1 := h.children (k' := .triangles) (mu := .single) rfl (child_mem hv)
      exact triangle_writable (h1.children (k' := .triangle) (mu := .many) rfl hz)
    · simp at ht

theorem mesh_triangles_plain {pid pindex : UInt32} {e : List Attr × List Node} (h : Sub env kept exts .mesh n e) :
    ∀ t ∈ (meshOf env pid pindex e).triangles, t.anyAttr = [] := by
  intro t ht
  simp only [meshOf] at ht
  split at ht
  next v hv =>
    obtain ⟨z, hz, rfl⟩ := List.mem_map.1 ht
    have h1 := h.children (k' := .triangles) (mu := .single) rfl (child_mem hv)
    exact triangle_plain (h1.children (k' := .triangle) (mu := .many) rfl hz)
  · simp at ht

theorem object_writable {known : List Extension} (hx : ∀ x ∈ known, ExtensionWritable x) {e : List Attr × List Node}
    (h : Sub env kept exts .object n e) :
    ObjectWritable env exts known (objectOf env known e) := by
  refine ⟨h.text _, h.text _, h.text _, group_writable hx h rfl, fun m hm => ?_, fun c hc => ?_, h.ext rfl, fun m hm => ?_⟩
  · obtain ⟨v, hv, rfl⟩ := Option.map_eq_some_iff.1 hm
    exact mesh_writable (h.children (k' := .mesh) (mu := .single) rfl (child_mem hv))
  · obtain ⟨v, hv, rfl⟩ := Option.map_eq_some_iff.1 hc
    have h1 := h.children (k' := .components) (mu := .single) rfl (child_mem hv)
    refine ⟨h1.groups rfl (by simp), fun x hx' => ?_⟩
    obtain ⟨z, hz, rfl⟩ := List.mem_map.1 hx'
    exact (h1.children (k' := .component) (mu := .many) rfl hz).ext rfl
  · obtain ⟨v, hv, rfl⟩ := Option.map_eq_some_iff.1 hm
    exact undisturbed_plain (mesh_triangles_plain (h.children (k' := .mesh) (mu := .single) rfl (child_mem hv)))

theorem asset_writable {e : List Attr × List Node} (h : Sub env kept exts .resources n e) :
    ∀ a ∈ e.2.filterMap (assetOf env), AssetWritable env exts a := by
  intro a ha
  obtain ⟨x, hx, hxa⟩ := List.mem_filterMap.1 ha
  cases x with
  | text t => cases hxa
  | other => cases hxa
  | elem m as d =>
    simp only [assetOf] at hxa
    split at hxa
    next mu hk =>
      cases hxa
      have hs := sub_of h.ok h.clean hx hk
      refine ⟨hs.ext rfl, fun b hb => ?_⟩
      obtain ⟨z, hz, rfl⟩ := List.mem_map.1 hb
      have h1 := hs.children (k' := .base) (mu := .many) rfl hz
      exact ⟨h1.text _, h1.ext rfl⟩
    next mu hk =>
      cases hxa
      have hs := sub_of h.ok h.clean hx hk
      obtain ⟨h3, h4⟩ := foreign_kind hk rfl
      exact ⟨m, as, foreign_element rfl h3 h4 hs, idOf_uintAt (hs.storable.id rfl)⟩
    next k' mu _ _ hk =>
      obtain ⟨y, hy, rfl⟩ := Option.map_eq_some_iff.1 hxa
      exact extRes_writable hk (sub_of h.ok h.clean hx hk) hy
    · cases hxa

theorem item_writable (hx : ∀ x ∈ exts, ExtensionWritable x) {e : List Attr × List Node} (h : Sub env kept exts .item n e) :
    ItemWritable env exts (itemOf env exts e) :=
  ⟨h.text _, group_writable hx h rfl, h.ext rfl⟩

/-! ## The root element -/

theorem split_words {s : Str} {fs : List Str} (h : Spec.Split s fs) : ∀ f ∈ fs, Spec.Word f := by
  induction h with
  | nil => simp
  | blank _ _ ih => exact ih
  | last hf => simpa using hf
  | word hf _ _ ih =>
    intro f h
    rcases List.mem_cons.1 h with rfl | h
    · exact hf
    · exact ih f h

theorem extensions_writable {as : List Attr} (h : RootClean as) : ∀ x ∈ extensionsOf as, ExtensionWritable x := by
  intro x hx
  obtain ⟨a, ha, rfl⟩ := List.mem_map.1 hx
  obtain ⟨h1, h2⟩ := List.mem_filter.1 ha
  obtain ⟨g1, g2, g3, g4, g5, g6⟩ := h.decls a h1 (by simpa using h2)
  refine ⟨g1, g2, ⟨g3, g4⟩, ⟨g5, g6⟩, fun hr => ?_⟩
  exact split_words ((fields_iff _ _).1 rfl) _ (by simpa using hr)

theorem extensions_distinct {env : Env} {as : List Attr} (h : AttrsFit env .model as) : ((extensionsOf as).map (·.localName)).Nodup := by
  unfold extensionsOf
  rw [List.map_map]
  have h1 : ((as.filter fun a => a.name.space = b!"xmlns").map (·.name)).Nodup := h.distinct.sublist (List.Sublist.map _ List.filter_sublist)
  rw [List.Nodup, List.pairwise_map] at h1 ⊢
  refine h1.imp_of_mem fun {a b} ha hb hne => ?_
  intro e
  refine hne ?_
  have e1 : a.name.space = b!"xmlns" := by simpa using (List.mem_filter.1 ha).2
  have e2 : b.name.space = b!"xmlns" := by simpa using (List.mem_filter.1 hb).2
  cases ha' : a.name
  cases hb' : b.name
  rw [ha'] at e1
  rw [hb'] at e2
  simp only [Function.comp, ha', hb'] at e
  simp_all

end Go3mf
