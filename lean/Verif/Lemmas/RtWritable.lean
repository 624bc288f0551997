import Verif.Spec.Writable
import Verif.Lemmas.RtNear

/-!
# The models that can be written are in the domain of the round trip
-/

namespace Go3mf

open Spec

/-! ## Texts -/

theorem _root_.Go3mf.Spec.Text.clean {s : Str} (h : Text s) : cleanText s = s := by
  obtain ⟨cs, hc, rfl⟩ := h
  exact C23_values cs hc

theorem _root_.Go3mf.Spec.Text.nil : Text [] := ⟨[], by simp, rfl⟩

theorem _root_.Go3mf.Spec.Text.append {s t : Str} (hs : Text s) (ht : Text t) : Text (s ++ t) := by
  obtain ⟨cs, hc, rfl⟩ := hs
  obtain ⟨ds, hd, rfl⟩ := ht
  exact ⟨cs ++ ds, fun c h => (List.mem_append.1 h).elim (hc c) (hd c), by simp [utf8s]⟩

/-- Printable ASCII is text. -/
theorem text_ascii {s : Str} (h : ∀ b ∈ s, 32 ≤ b ∧ b < 127) : Text s := by
  refine ⟨s.map UInt8.toNat, ?_, ?_⟩
  · intro c hc
    obtain ⟨b, hb, rfl⟩ := List.mem_map.1 hc
    obtain ⟨h1, h2⟩ := h b hb
    rw [UInt8.le_iff_toNat_le] at h1
    rw [UInt8.lt_iff_toNat_lt] at h2
    have e1 : (32 : UInt8).toNat = 32 := rfl
    have e2 : (127 : UInt8).toNat = 127 := rfl
    unfold XmlChar
    omega
  · induction s with
    | nil => rfl
    | cons b s ih =>
      have e := ih fun x hx => h x (by simp [hx])
      have h2 := (h b (by simp)).2
      rw [UInt8.lt_iff_toNat_lt] at h2
      have e2 : (127 : UInt8).toNat = 127 := rfl
      have : utf8 b.toNat = [b] := by
        unfold utf8 utf8Nat
        rw [if_pos (by omega)]
        simp
      rw [List.map_cons]
      unfold utf8s at e ⊢
      rw [List.flatMap_cons, this, ← e]
      rfl

theorem text_join {sep : Str} (hs : Text sep) : ∀ {ss : List Str}, (∀ s ∈ ss, Text s) → Text (Str.join sep ss)
  | [], _ => Text.nil
  | [s], h => h s (by simp)
  | s :: t :: ss, h => by
    have := text_join hs (ss := t :: ss) fun x hx => h x (by simp [hx])
    exact ((h s (by simp)).append hs).append this

theorem simple_plain {s : Str} (h : Simple s) : Plain s := by
  have : ∀ b : Byte, (32 ≤ b ∧ b < 127 ∧ b ∉ [34, 38, 39, 60, 62]) → plainByte b = true := forall_byte (by decide +kernel)
  exact fun b hb => this b (h b hb)

theorem _root_.Go3mf.Spec.PlainName.nc {s : Str} (h : PlainName s) : NCName s := by
  have : ∀ b : Byte, ((48 ≤ b ∧ b ≤ 57) ∨ (65 ≤ b ∧ b ≤ 90) ∨ (97 ≤ b ∧ b ≤ 122) ∨ b = 95 ∨ b = 45 ∨ b = 46 ∨ 128 ≤ b) →
      nameByte b = true ∧ b ≠ 58 := forall_byte (by decide +kernel)
  exact ⟨h.1, fun b hb => this b (h.2 b hb)⟩

theorem hexRun_plain {n : Nat} {s : Str} (h : HexRun n s) : Plain s := by
  have : ∀ b : Byte, (xvalue b).isSome = true → plainByte b = true := forall_byte (by decide +kernel)
  exact fun b hb => this b ((xvalue_isSome b).2 (h.2 b hb))

theorem plain_append {s t : Str} (hs : Plain s) (ht : Plain t) : Plain (s ++ t) :=
  fun b hb => (List.mem_append.1 hb).elim (hs b) (ht b)

theorem canonical_plain {s : Str} (h : Canonical s) : Plain s := by
  obtain ⟨a, b, c, d, e, rfl, h1, h2, h3, h4, h5⟩ := h
  have hd : Plain b!"-" := by unfold Plain; decide +kernel
  exact plain_append (plain_append (plain_append (plain_append (plain_append (plain_append (plain_append (plain_append
    (hexRun_plain h1) hd) (hexRun_plain h2)) hd) (hexRun_plain h3)) hd) (hexRun_plain h4)) hd) (hexRun_plain h5)

theorem urn_plain {p : Str} (h : IsURN p) : Plain p := by
  have hl : ∀ b : Byte, asciiLower b ∈ b!"urn:uuid:" → plainByte b = true := forall_byte (by decide +kernel)
  intro b hb
  refine hl b ?_
  rw [← h]
  exact List.mem_map_of_mem hb

theorem uuid_plain {s : Str} (h : IsUUID s) : Plain s := by
  rcases h with h | ⟨p, t, rfl, hp, ht⟩ | ⟨t, rfl, ht⟩ | h
  · exact canonical_plain h
  · exact plain_append (urn_plain hp) (canonical_plain ht)
  · exact plain_append (plain_append (by unfold Plain; decide +kernel) (canonical_plain ht)) (by unfold Plain; decide +kernel)
  · exact hexRun_plain h

/-! ## Attributes -/

theorem load_unknown {env : Env} {ns : Str} (h : ¬ Known env ns) : env.load ns = none := by
  unfold Known at h
  simp only [not_or, not_and] at h
  obtain ⟨h1, h2, h3, h4⟩ := h
  unfold Env.load
  rw [if_neg (fun e => h1 e.2 e.1), if_neg (fun e => h2 e.2 e.1), if_neg (fun e => h3 e.2 e.1), if_neg (fun e => h4 e.2 e.1)]

section
variable {env : Env} {m : Model}

theorem declared_mem {ns : Str} (h : Declared m.extensions ns) : ns ∈ m.decls.map (·.2) := by
  obtain ⟨-, x, hx, rfl⟩ := h
  unfold Model.decls
  rw [List.map_map]
  exact List.mem_map.2 ⟨x, hx, rfl⟩

theorem groupSpace_eq : ∀ g : AttrGroup, groupSpace g = g.ns
  | .unknown _ _ => rfl
  | .prodBuild _ => rfl
  | .prodItem _ _ => rfl
  | .prodObject _ => rfl
  | .prodComponent _ _ => rfl
  | .sliceObject _ _ => rfl

theorem group_ok {parent : Str} : ∀ {g : AttrGroup}, GroupOk env m.extensions parent g → g.OK env parent
  | .unknown space attrs, ⟨h1, h2, h3⟩ => by
    refine ⟨?_, load_unknown h1, h2, fun a ha => ⟨(h3 a ha).1, (h3 a ha).2.name.1, (h3 a ha).2.value.clean⟩⟩
    obtain ⟨a, ha⟩ := List.exists_mem_of_ne_nil _ h2
    obtain ⟨e, hs⟩ := h3 a ha
    rw [← e]
    rcases hs.space with h | h
    · rw [h]; decide +kernel
    · exact h.1
  | .prodBuild u, ⟨h1, _, h3, h4⟩ => ⟨h1, h3, C19_accepts u h4, (uuid_plain h4).clean⟩
  | .prodItem u p, ⟨h1, _, h3, h4, h5⟩ => ⟨h1, h3, C19_accepts u h4, (uuid_plain h4).clean, h5.clean⟩
  | .prodObject u, ⟨h1, _, h3, h4⟩ => ⟨h1, h3, C19_accepts u h4, (uuid_plain h4).clean⟩
  | .prodComponent u p, ⟨h1, _, h3, h4, h5⟩ => ⟨h1, h3, C19_accepts u h4, (uuid_plain h4).clean, h5.clean⟩
  | .sliceObject _ _, ⟨h1, _, h3⟩ => ⟨h1, h3⟩

theorem group_names {parent : Str} {g : AttrGroup} (h : GroupOk env m.extensions parent g) :
    ∀ a ∈ g.appends.flatten, NCName a.name.loc ∧ (a.name.space = nsXML ∨ a.name.space ∈ m.decls.map (·.2)) := by
  intro a ha
  cases g with
  | unknown space attrs =>
    simp only [AttrGroup.appends, List.flatten_cons, List.flatten_nil, List.append_nil] at ha
    have := (h.2.2 a ha).2
    exact ⟨this.name.nc, this.space.imp (fun e => e) declared_mem⟩
  | prodBuild u =>
    simp only [AttrGroup.appends, List.flatten_cons, List.flatten_nil, List.append_nil, List.mem_singleton] at ha
    subst ha
    exact ⟨(by decide +kernel : NCName b!"UUID"), Or.inr (declared_mem h.2.1)⟩
  | prodObject u =>
    simp only [AttrGroup.appends, List.flatten_cons, List.flatten_nil, List.append_nil, List.mem_singleton] at ha
    subst ha
    exact ⟨(by decide +kernel : NCName b!"UUID"), Or.inr (declared_mem h.2.1)⟩
  | prodItem u p =>
    by_cases hp : p = [] <;>
      simp [AttrGroup.appends, hp] at ha
    · subst ha
      exact ⟨(by decide +kernel : NCName b!"UUID"), Or.inr (declared_mem h.2.1)⟩
    · rcases ha with rfl | rfl
      · exact ⟨(by decide +kernel : NCName b!"path"), Or.inr (declared_mem h.2.1)⟩
      · exact ⟨(by decide +kernel : NCName b!"UUID"), Or.inr (declared_mem h.2.1)⟩
  | prodComponent u p =>
    by_cases hp : p = [] <;>
      simp [AttrGroup.appends, hp] at ha
    · subst ha
      exact ⟨(by decide +kernel : NCName b!"UUID"), Or.inr (declared_mem h.2.1)⟩
    · rcases ha with rfl | rfl
      · exact ⟨(by decide +kernel : NCName b!"path"), Or.inr (declared_mem h.2.1)⟩
      · exact ⟨(by decide +kernel : NCName b!"UUID"), Or.inr (declared_mem h.2.1)⟩
  | sliceObject i r =>
    have hl : a.name.space = nsSlices ∧ (a.name.loc = b!"slicestackid" ∨ a.name.loc = b!"meshresolution") := by
      simp [AttrGroup.appends] at ha
      rcases ha with rfl | rfl
      · exact ⟨rfl, Or.inl rfl⟩
      · exact ⟨rfl, Or.inr rfl⟩
    refine ⟨?_, Or.inr (hl.1 ▸ declared_mem h.2.1)⟩
    rcases hl.2 with e | e <;> rw [e] <;> decide +kernel

theorem mem_encodeAnyAttr {any : AnyAttr} {a : Attr} (ha : a ∈ encodeAnyAttr any) : ∃ g ∈ any, a ∈ g.appends.flatten := by
  unfold encodeAnyAttr at ha
  rw [← List.flatMap_id', List.flatMap_assoc] at ha
  obtain ⟨g, hg, hag⟩ := List.mem_flatMap.1 ha
  rw [List.flatMap_id'] at hag
  exact ⟨g, hg, hag⟩

theorem attrs_dom {parent : Str} {any : AnyAttr} (h : AttrsOk env m.extensions parent any) :
    AnyDom env m.decls parent any := by
  refine ⟨⟨?_, fun g hg => group_ok (h.groups g hg)⟩, ?_⟩
  · have : any.map groupSpace = any.map AttrGroup.ns := List.map_congr_left fun g _ => groupSpace_eq g
    rw [← this]
    exact h.distinct
  · intro a ha
    obtain ⟨g, hg, hag⟩ := mem_encodeAnyAttr ha
    exact group_names (h.groups g hg) a hag

/-! ## Unknown elements -/

theorem elemAttr_dom {as : List Attr} (h : ∀ a ∈ as, ElemAttr m.extensions a) : AttrsDom m.decls false as := fun a ha =>
  ⟨⟨(h a ha).name.nc, fun e => (h a ha).plain e.1 e.2, (h a ha).space.imp id (Or.imp id declared_mem), by simp⟩, (h a ha).value.clean⟩

theorem elemName_dom {n : Name} (h : Spec.ElemName m.extensions n) : Go3mf.ElemName m.decls n := by
  refine ⟨⟨h.name.nc, h.plain, Or.inr (h.space.imp id declared_mem)⟩, ?_⟩
  rcases h.space with e | e
  · rw [e]; decide +kernel
  · exact e.1

theorem content_inner {n : Name} {ts : List Token} (h : Content m.extensions n ts) : Inner m.decls False n ts := by
  induction h with
  | nil => exact .nil
  | elem h1 h2 h3 _ _ ih1 ih2 => exact .elem h1 (elemName_dom h2) (elemAttr_dom h3) ih1 ih2

theorem element_dom {n : Name} {as : List Attr} {ts : List Token} (h : Element env m.extensions n as ts) :
    ∃ body, TokensDom env m.decls False n as body ts := by
  obtain ⟨body, hb, e⟩ := h.tokens
  exact ⟨body, e, elemName_dom h.name, h.core, load_unknown h.unknown, elemAttr_dom h.attrs, content_inner hb⟩

theorem idOf_asset {as : List Attr} {id : UInt32} (h : IdOf as id) : assetID as id := by
  have hname : ∀ a : Attr, a.name ≠ ⟨[], b!"id"⟩ → decide (a.name.space = [] ∧ a.name.loc = b!"id") = false := by
    intro a ha
    simp only [decide_eq_false_iff_not]
    rintro ⟨e1, e2⟩
    exact ha (by cases hn : a.name; rw [hn] at e1 e2; simp_all)
  unfold assetID firstID
  rcases h with ⟨pre, a, post, rfl, hn, hp, h1, h2, h3⟩ | ⟨rfl, hx⟩
  · have : (pre ++ a :: post).find? (fun a => decide (a.name.space = [] ∧ a.name.loc = b!"id")) = some a := by
      rw [List.find?_append, List.find?_eq_none.2 (fun x hx => by rw [hname x (hp x hx)]; simp), Option.none_or,
        List.find?_cons_of_pos (by rw [hn]; decide)]
    rw [this]
    exact (C20_uint_language _ _).2 ⟨h1, h2, h3⟩
  · have : as.find? (fun a => decide (a.name.space = [] ∧ a.name.loc = b!"id")) = none :=
      List.find?_eq_none.2 fun x h => by rw [hname x (hx x h)]; simp
    rw [this]

/-! ## Resources -/

theorem res_dom {x : ExtRes} (h : ResWritable env m.extensions x) : x.Dom env m.decls := by
  cases x with
  | texture2D t => exact ⟨⟨h.1, declared_mem h.2.1⟩, h.2.2.clean⟩
  | sliceStack s => exact ⟨⟨h.1, declared_mem h.2.1⟩, fun x hx => (h.2.2 x hx).clean⟩
  | colorGroup => exact ⟨h.1, declared_mem h.2⟩
  | texture2DGroup => exact ⟨h.1, declared_mem h.2⟩
  | composite => exact ⟨h.1, declared_mem h.2⟩
  | multi => exact ⟨h.1, declared_mem h.2⟩

theorem elem_dom {e : AnyElem} (h : ElemWritable env m.extensions e) : e.Dom env m.decls False := by
  cases e with
  | tokens ts =>
    obtain ⟨n, as, h⟩ := h
    obtain ⟨body, h⟩ := element_dom h
    exact ⟨n, as, body, h⟩
  | res x => exact res_dom h
  | beamLattice b => exact ⟨⟨h.1, declared_mem h.2.1⟩, fun s hs => ⟨(h.2.2 s hs).1.clean, (h.2.2 s hs).2.clean⟩⟩

theorem asset_dom {a : Asset} (h : AssetWritable env m.extensions a) : a.Dom env m.decls False := by
  cases a with
  | base r => exact ⟨fun b hb => (h.2 b hb).1.clean, fun b hb => attrs_dom (h.2 b hb).2, attrs_dom h.1⟩
  | unknown id ts =>
    obtain ⟨n, as, h, hid⟩ := h
    obtain ⟨body, h⟩ := element_dom h
    exact ⟨n, as, body, h, idOf_asset hid⟩
  | res x => exact res_dom h

/-! ## The core -/

theorem cutColon_none {s : Str} (h : 58 ∉ s) : cutColon s = none := by
  induction s with
  | nil => rfl
  | cons b s ih =>
    simp only [List.mem_cons, not_or] at h
    rw [cutColon, if_neg (fun e => h.1 e.symm), ih h.2]
    rfl

theorem cutColon_some {s p l : Str} (h : cutColon s = some (p, l)) : s = p ++ b!":" ++ l ∧ 58 ∉ p := by
  induction s generalizing p with
  | nil => simp [cutColon] at h
  | cons b s ih =>
    rw [cutColon] at h
    by_cases hb : b = 58
    · rw [if_pos hb] at h
      simp only [Option.some.injEq, Prod.mk.injEq] at h
      obtain ⟨rfl, rfl⟩ := h
      exact ⟨by simp [hb], by simp⟩
    · rw [if_neg hb] at h
      cases hc : cutColon s with
      | none => rw [hc] at h; simp at h
      | some q =>
        rw [hc] at h
        simp only [Option.map_some, Option.some.injEq, Prod.mk.injEq] at h
        obtain ⟨rfl, rfl⟩ := h
        obtain ⟨e, hn⟩ := ih (p := q.1) hc
        refine ⟨by rw [e]; simp, ?_⟩
        simp only [List.mem_cons, not_or]
        exact ⟨fun e => hb e.symm, hn⟩

theorem metadata_dom {known : List Extension} {md : Metadata} (h : MetadataWritable known md) : md.Dom known := by
  refine ⟨h.space.clean, ?_, ?_, h.type.clean, h.value.clean⟩
  · by_cases hs : md.name.space ≠ []
    · rw [if_pos hs]
      exact ((h.space.append (text_ascii (by decide +kernel))).append h.loc).clean
    · rw [if_neg hs]
      exact h.loc.clean
  · rcases h.pref with ⟨h1, h2, x, hx, e⟩ | ⟨h1, h2⟩
    · refine Or.inl ⟨h1, cutColon_none h2, ?_⟩
      unfold hasPrefix
      rw [List.any_eq_true]
      exact ⟨x, hx, by simpa using e⟩
    · refine Or.inr ⟨h1, fun p l hc => ?_⟩
      obtain ⟨e, hn⟩ := cutColon_some hc
      unfold hasPrefix
      rw [List.any_eq_false]
      intro x hx
      simpa using h2 p l e hn x hx

theorem group_dom {known : List Extension} {g : MetadataGroup} (h : GroupWritable env m.extensions known g) :
    g.Dom env m.decls known :=
  ⟨fun md hmd => metadata_dom (h.metadata md hmd), attrs_dom h.attrs, h.empty⟩

theorem triangle_dom {t : Triangle} (h : TriangleWritable env m.extensions t) : t.Dom env m.decls := by
  refine ⟨attrs_dom h.attrs, fun a ha => ?_⟩
  obtain ⟨g, hg, hag⟩ := mem_encodeAnyAttr ha
  have hk := h.attrs.groups g hg
  cases g with
  | unknown space attrs =>
    simp only [AttrGroup.appends, List.flatten_cons, List.flatten_nil, List.append_nil] at hag
    refine (simple_plain (h.simple a.value ?_)).escape
    exact List.mem_flatMap.2 ⟨_, hg, List.mem_map_of_mem hag⟩
  | prodBuild u => exact absurd hk.2.2.1 (by decide +kernel)
  | prodItem u p => exact absurd hk.2.2.1 (by decide +kernel)
  | prodObject u => exact absurd hk.2.2.1 (by decide +kernel)
  | prodComponent u p => exact absurd hk.2.2.1 (by decide +kernel)
  | sliceObject i r => exact absurd hk.2.2 (by decide +kernel)

theorem width_core (pid pindex : UInt32) (t : Triangle) : (t.core pid pindex).length = triangleWidth pid pindex t := by
  unfold Triangle.core triangleWidth
  by_cases h0 : t.pid = 0
  · simp [h0]
  · simp only [h0, ne_eq, not_false_eq_true, true_and, if_false]
    split
    · rfl
    · split <;> rfl

/-- Only unknown attributes occur at triangles, and no group is empty. -/
theorem spills_iff {exts : List Extension} {pid pindex : UInt32} {t : Triangle} (h : AttrsOk env exts b!"triangle" t.anyAttr) :
    t.Spills pid pindex ↔ Spills pid pindex t := by
  have hu : ∀ g ∈ t.anyAttr, ∃ s as, g = .unknown s as ∧ as ≠ [] := by
    intro g hg
    have hk := h.groups g hg
    cases g with
    | unknown s as => exact ⟨s, as, rfl, hk.2.1⟩
    | prodBuild u => exact absurd hk.2.2.1 (by decide +kernel)
    | prodItem u p => exact absurd hk.2.2.1 (by decide +kernel)
    | prodObject u => exact absurd hk.2.2.1 (by decide +kernel)
    | prodComponent u p => exact absurd hk.2.2.1 (by decide +kernel)
    | sliceObject i r => exact absurd hk.2.2 (by decide +kernel)
  unfold Triangle.Spills Spills
  rw [width_core]
  cases ht : t.anyAttr with
  | nil => simp
  | cons g gs =>
    obtain ⟨s, as, rfl, hn⟩ := hu g (by rw [ht]; simp)
    constructor
    · rintro ⟨x, xs, hx, hl⟩
      simp only [List.flatMap_cons, AttrGroup.appends, List.cons_append, List.nil_append] at hx
      rw [List.filter_cons_of_pos (by simpa using hn)] at hx
      obtain ⟨rfl, -⟩ := List.cons.inj hx
      exact ⟨s, as, gs, rfl, hl⟩
    · rintro ⟨s', as', gs', he, hl⟩
      simp only [List.cons.injEq, AttrGroup.unknown.injEq] at he
      obtain ⟨⟨rfl, rfl⟩, rfl⟩ := he
      refine ⟨as, (gs.flatMap AttrGroup.appends).filter (· ≠ []), ?_, hl⟩
      simp only [List.flatMap_cons, AttrGroup.appends, List.cons_append, List.nil_append]
      rw [List.filter_cons_of_pos (by simpa using hn)]

theorem undisturbed_plain {pid pindex : UInt32} {ts : List Triangle} (h : ∀ t ∈ ts, t.anyAttr = []) :
    Undisturbed pid pindex ts := by
  unfold Undisturbed
  rw [List.pairwise_iff_forall_sublist]
  rintro t u hs ⟨s, as, gs, he, -⟩
  rw [h t (hs.subset (by simp))] at he
  cases he

theorem room_iff {exts : List Extension} {pid pindex : UInt32} {ts : List Triangle}
    (h : ∀ t ∈ ts, AttrsOk env exts b!"triangle" t.anyAttr) : Room pid pindex ts ↔ Undisturbed pid pindex ts := by
  unfold Room Undisturbed
  refine List.Pairwise.iff_of_mem fun {t u} ht hu => ?_
  rw [spills_iff (h t ht), width_core, width_core]

theorem mesh_dom {x : Mesh} {pid pindex : UInt32} (h : MeshWritable env m.extensions x)
    (hr : Undisturbed pid pindex x.triangles) : x.Dom env m.decls False pid pindex :=
  ⟨attrs_dom h.attrs, attrs_dom h.vertices, attrs_dom h.triangles, fun t ht => triangle_dom (h.triangle t ht),
    (room_iff fun t ht => (h.triangle t ht).attrs).2 hr,
    fun e he => elem_dom (h.any e (List.mem_of_mem_take he))⟩

theorem object_dom {known : List Extension} {o : Object} (h : ObjectWritable env m.extensions known o) :
    o.Dom env m.decls False known :=
  ⟨h.name.clean, h.partNumber.clean, h.thumbnail.clean, group_dom h.metadata, fun x hx => mesh_dom (h.mesh x hx) (h.triangles x hx),
    fun c _ hc => ⟨fun x hx => attrs_dom ((h.components c hc).component x hx), attrs_dom (h.components c hc).attrs⟩,
    attrs_dom h.attrs⟩

theorem item_dom {i : Item} (h : ItemWritable env m.extensions i) : i.Dom env m.decls m.extensions :=
  ⟨h.partNumber.clean, group_dom h.metadata, attrs_dom h.attrs⟩

theorem writable_dom (h : Writable env m) : m.Dom env False := by
  refine ⟨⟨?_, ?_, h.distinct, fun x hx => (h.extensions x hx).word, ?_, h.language.clean, h.thumbnail.clean,
      attrs_dom h.attrs, ?_⟩, fun md hmd => metadata_dom (h.metadata md hmd),
    ⟨fun a ha => asset_dom (h.assets a ha), fun o ho => object_dom (h.objects o ho), attrs_dom h.resourcesAttrs⟩,
    ⟨fun i hi => item_dom (h.items i hi), attrs_dom h.buildAttrs⟩,
    fun e he => elem_dom (h.any e (List.mem_of_mem_take he))⟩
  · exact fun x hx => ⟨(h.extensions x hx).name.nc, (h.extensions x hx).xml⟩
  · exact fun x hx => ⟨(h.extensions x hx).space.2, (h.extensions x hx).space.1.clean⟩
  · refine (text_join (text_ascii (by decide +kernel)) ?_).clean
    intro s hs
    unfold Model.requiredNames at hs
    obtain ⟨x, hx, rfl⟩ := List.mem_map.1 (List.mem_mergeSort.1 hs)
    exact (h.extensions x (List.mem_of_mem_filter hx)).text
  · intro a ha
    obtain ⟨g, hg, hag⟩ := mem_encodeAnyAttr ha
    have hs := ((group_ok (h.attrs.groups g hg)).attrs a hag).1
    have hx := h.noXml g hg
    rw [groupSpace_eq, ← hs] at hx
    refine ⟨hx, ?_⟩
    rcases (group_names (h.attrs.groups g hg) a hag).2 with e | e
    · exact absurd e hx
    · unfold Model.decls at e
      rw [List.map_map] at e
      obtain ⟨x, hx, e⟩ := List.mem_map.1 e
      rw [← e]
      exact (h.extensions x hx).space.2

end

end Go3mf
