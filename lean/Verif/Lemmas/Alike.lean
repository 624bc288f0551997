import Verif.Spec.Alike

/-!
# Models that are alike break the same rules
-/

namespace Go3mf
open Spec

theorem forall2_getElem {α β : Type} {R : α → β → Prop} {l : List α} {l' : List β} (h : List.Forall₂ R l l') {i : Nat} {a : α}
    (ha : l[i]? = some a) : ∃ b, l'[i]? = some b ∧ R a b := by
  induction h generalizing i with
  | nil => simp at ha
  | cons h1 _ ih =>
    cases i with
    | zero => simp only [List.getElem?_cons_zero, Option.some.injEq] at ha ⊢; subst ha; exact ⟨_, rfl, h1⟩
    | succ i => simp only [List.getElem?_cons_succ] at ha ⊢; exact ih ha

theorem forall2_mem {α β : Type} {R : α → β → Prop} {l : List α} {l' : List β} (h : List.Forall₂ R l l') {a : α} (ha : a ∈ l) :
    ∃ b ∈ l', R a b := by
  obtain ⟨i, hi⟩ := List.getElem?_of_mem ha
  obtain ⟨b, hb, hr⟩ := forall2_getElem h hi
  exact ⟨b, List.mem_of_getElem? hb, hr⟩

theorem forall2_take {α β : Type} {R : α → β → Prop} {l : List α} {l' : List β} (h : List.Forall₂ R l l') (i : Nat) :
    List.Forall₂ R (l.take i) (l'.take i) := by
  induction h generalizing i with
  | nil => simp
  | cons h1 _ ih =>
    cases i with
    | zero => simp
    | succ i => exact .cons h1 (ih i)

theorem forall2_flip {α β : Type} {R : α → β → Prop} {S : β → α → Prop} (hs : ∀ a b, R a b → S b a) {l : List α} {l' : List β}
    (h : List.Forall₂ R l l') : List.Forall₂ S l' l := by
  induction h with
  | nil => exact .nil
  | cons h1 _ ih => exact .cons (hs _ _ h1) ih

theorem forall2_nil {α β : Type} {R : α → β → Prop} {l : List α} {l' : List β} (h : List.Forall₂ R l l') : l' = [] ↔ l = [] := by
  cases h <;> simp

theorem forall2_last {α β : Type} {R : α → β → Prop} {l : List α} {l' : List β} (h : List.Forall₂ R l l') {a : α}
    (ha : l.getLast? = some a) : ∃ b, l'.getLast? = some b ∧ R a b := by
  rw [List.getLast?_eq_getElem?] at ha ⊢
  rw [← h.length_eq]
  exact forall2_getElem h ha

theorem forall2_first {α β : Type} {R : α → β → Prop} {l : List α} {l' : List β} (h : List.Forall₂ R l l') {p : α → Prop}
    {q : β → Prop} (hpq : ∀ a b, R a b → (q b ↔ p a)) {a : α} (ha : IsFirst p l a) : ∃ b, IsFirst q l' b ∧ R a b := by
  induction h with
  | nil =>
    obtain ⟨pre, post, h1, -⟩ := ha
    simp at h1
  | @cons x y xs ys h1 _ ih =>
    obtain ⟨pre, post, h2, h3, h4⟩ := ha
    cases pre with
    | nil =>
      cases h2
      exact ⟨_, ⟨[], _, rfl, (hpq _ _ h1).2 h3, by simp⟩, h1⟩
    | cons z pre =>
      cases h2
      obtain ⟨b, ⟨pre', post', rfl, h6, h7⟩, h8⟩ := ih ⟨pre, post, rfl, h3, fun b hb => h4 b (List.mem_cons_of_mem _ hb)⟩
      refine ⟨b, ⟨y :: pre', post', rfl, h6, ?_⟩, h8⟩
      intro b' hb'
      rcases List.mem_cons.1 hb' with rfl | hb'
      · exact fun hq => h4 _ (List.mem_cons_self ..) ((hpq _ _ h1).1 hq)
      · exact h7 _ hb'

/-! ## Symmetry -/

namespace Spec

theorem AlikeSlice.symm {s s' : Slice} (h : AlikeSlice s s') : AlikeSlice s' s :=
  ⟨h.topZ.symm, h.vertices.symm, h.polygons.symm⟩

theorem AlikeStack.symm {s s' : SliceStack} (h : AlikeStack s s') : AlikeStack s' s :=
  ⟨h.id.symm, fun z => (h.bottomZ z).symm, forall2_flip (fun _ _ h => h.symm) h.slices, h.refs.symm⟩

theorem AlikeAsset.symm {a a' : Asset} (h : AlikeAsset a a') : AlikeAsset a' a := by
  cases h with
  | same => exact .same _
  | texture2DGroup h1 h2 h3 => exact .texture2DGroup h1.symm h2.symm h3.symm
  | composite h1 h2 h3 h4 => exact .composite h1.symm h2.symm h3.symm h4.symm
  | sliceStack h => exact .sliceStack h.symm

theorem inherits_congr {o o' : Object} (h1 : o'.pid = o.pid) (h2 : o'.pindex = o.pindex) (t : Triangle) : Inherits o' t ↔ Inherits o t := by
  unfold Inherits
  rw [h1, h2]

theorem AlikeTriangle.symm {o o' : Object} (h1 : o'.pid = o.pid) (h2 : o'.pindex = o.pindex) {t t' : Triangle} (h : AlikeTriangle o t t') :
    AlikeTriangle o' t' t := by
  refine ⟨h.v1.symm, h.v2.symm, h.v3.symm, ?_⟩
  rcases h.property with ⟨a, b, c, d⟩ | ⟨a, b⟩
  · exact .inl ⟨a.symm, b.symm, c.symm, d.symm⟩
  · exact .inr ⟨b.imp_right (inherits_congr h1 h2 _).2, a.imp_right (inherits_congr h1 h2 _).2⟩

theorem AlikeMesh.symm {o o' : Object} (h1 : o'.pid = o.pid) (h2 : o'.pindex = o.pindex) {m m' : Mesh} (h : AlikeMesh o m m') :
    AlikeMesh o' m' m :=
  ⟨h.vertices.symm, forall2_flip (fun _ _ h => h.symm h1 h2) h.triangles, h.empty.symm, h.lattice.symm⟩

theorem AlikeComponent.symm {c c' : Component} (h : AlikeComponent c c') : AlikeComponent c' c :=
  ⟨h.objectID.symm, h.tilted.symm, h.anyAttr.symm⟩

theorem rel_flip {α β : Type} {R : α → β → Prop} {S : β → α → Prop} (hs : ∀ a b, R a b → S b a) {x : Option α} {y : Option β}
    (h : Option.Rel R x y) : Option.Rel S y x := by
  cases h with
  | none => exact .none
  | some h => exact .some (hs _ _ h)

theorem AlikeObject.symm {o o' : Object} (h : AlikeObject o o') : AlikeObject o' o :=
  ⟨h.id.symm, h.pid.symm, h.pindex.symm, h.type.symm, rel_flip (fun _ _ hm => hm.symm h.pid h.pindex) h.mesh,
    rel_flip (fun _ _ hc => forall2_flip (fun _ _ h => h.symm) hc) h.components, h.anyAttr.symm⟩

theorem AlikeResources.symm {rs rs' : Resources} (h : AlikeResources rs rs') : AlikeResources rs' rs :=
  ⟨forall2_flip (fun _ _ h => h.symm) h.assets, forall2_flip (fun _ _ h => h.symm) h.objects⟩

theorem AlikeItem.symm {i i' : Item} (h : AlikeItem i i') : AlikeItem i' i :=
  ⟨h.objectID.symm, h.tilted.symm, h.metadata.symm, h.anyAttr.symm⟩

theorem AlikeResources.texture {rs rs' : Resources} (h : AlikeResources rs rs') {t : Texture2D} (ht : Asset.res (.texture2D t) ∈ rs.assets) :
    Asset.res (.texture2D t) ∈ rs'.assets := by
  obtain ⟨b, hb, hr⟩ := forall2_mem h.assets ht
  cases hr
  exact hb

theorem Alike.symm {env : Env} {m m' : Model} (h : Alike env m m') : Alike env m' m where
  path := h.path.symm
  extensions := h.extensions.symm
  metadata := h.metadata.symm
  resources := h.resources.symm
  items := forall2_flip (fun _ _ h => h.symm) h.items
  build := h.build.symm
  childs p c hc := by
    obtain ⟨c', h1, h2⟩ := h.childs' p c hc
    exact ⟨c', h1, h2.symm⟩
  childs' p c hc := by
    obtain ⟨c', h1, h2⟩ := h.childs p c hc
    exact ⟨c', h1, h2.symm⟩
  textures rs hrs t ht := by
    rcases hrs with rfl | ⟨⟨p, c⟩, hx, rfl⟩
    · exact (h.textures _ (.inl rfl) t (h.resources.symm.texture ht)).symm
    · obtain ⟨c', h1, h2⟩ := h.childs' p c hx
      exact (h.textures _ (.inr ⟨_, h1, rfl⟩) t (h2.symm.texture ht)).symm

/-! ## Lookups -/

theorem AlikeAsset.identify {a a' : Asset} (h : AlikeAsset a a') : a'.identify = a.identify := by
  cases h with
  | same => rfl
  | texture2DGroup h1 _ _ => exact h1
  | composite h1 _ _ _ => exact h1
  | sliceStack h => exact h.id

theorem AlikeAsset.name {a a' : Asset} (h : AlikeAsset a a') : assetName a' = assetName a := by
  cases h <;> rfl

theorem AlikeAsset.groupSize {a a' : Asset} (h : AlikeAsset a a') : Spec.groupSize a' = Spec.groupSize a := by
  cases h with
  | same => rfl
  | texture2DGroup _ _ h1 => exact congrArg some h1
  | composite _ _ _ h1 => exact congrArg some h1
  | sliceStack h => rfl

theorem AlikeAsset.layerSize {a a' : Asset} (h : AlikeAsset a a') : Spec.layerSize a' = Spec.layerSize a := by
  cases h with
  | same => rfl
  | texture2DGroup _ _ h1 => rfl
  | composite _ _ _ h1 => exact h1
  | sliceStack h => rfl

variable {env : Env} {m m' : Model}

theorem Alike.isRoot (h : Alike env m m') (p : Str) : IsRootPath m' p ↔ IsRootPath m p := by
  have := h.path
  unfold rootPath at this
  unfold IsRootPath
  rw [this]

theorem Alike.partAt (h : Alike env m m') {p : Str} {rs : Resources} (hp : PartAt m p rs) :
    ∃ rs', PartAt m' p rs' ∧ AlikeResources rs rs' := by
  rcases hp with ⟨h1, rfl⟩ | ⟨h1, c, hc, rfl⟩
  · exact ⟨_, .inl ⟨(h.isRoot p).2 h1, rfl⟩, h.resources⟩
  · obtain ⟨c', h2, h3⟩ := h.childs p c hc
    exact ⟨_, .inr ⟨fun hr => h1 ((h.isRoot p).1 hr), c', h2, rfl⟩, h3⟩

theorem Alike.object (h : Alike env m m') {p : Str} {id : UInt32} {o : Object} (ho : ObjectFound m p id o) :
    ∃ o', ObjectFound m' p id o' ∧ AlikeObject o o' := by
  obtain ⟨rs, h1, h2⟩ := ho
  obtain ⟨rs', h3, h4⟩ := h.partAt h1
  obtain ⟨o', h5, h6⟩ := forall2_first h4.objects (q := (·.id = id)) (fun a b hab => by rw [hab.id]) h2
  exact ⟨o', ⟨rs', h3, h5⟩, h6⟩

theorem Alike.asset (h : Alike env m m') {p : Str} {id : UInt32} {a : Asset} (ha : AssetFound m p id a) :
    ∃ a', AssetFound m' p id a' ∧ AlikeAsset a a' := by
  obtain ⟨rs, h1, h2⟩ := ha
  obtain ⟨rs', h3, h4⟩ := h.partAt h1
  obtain ⟨o', h5, h6⟩ := forall2_first h4.assets (q := (·.identify = id)) (fun a b hab => by rw [hab.identify]) h2
  exact ⟨o', ⟨rs', h3, h5⟩, h6⟩

theorem Alike.noObject (h : Alike env m m') {p : Str} {id : UInt32} (ho : ¬ ∃ o, ObjectFound m p id o) : ¬ ∃ o, ObjectFound m' p id o :=
  fun ⟨_, h1⟩ => ho (by obtain ⟨o, h2, -⟩ := h.symm.object h1; exact ⟨o, h2⟩)

theorem Alike.noAsset (h : Alike env m m') {p : Str} {id : UInt32} (ho : ¬ ∃ a, AssetFound m p id a) : ¬ ∃ a, AssetFound m' p id a :=
  fun ⟨_, h1⟩ => ho (by obtain ⟨o, h2, -⟩ := h.symm.asset h1; exact ⟨o, h2⟩)

/-! ## Core -/

theorem metaFault_congr (h : m'.extensions = m.extensions) (mds : List Metadata) (md : Metadata) (k : MetaFault) :
    k.Holds m' mds md ↔ k.Holds m mds md := by
  cases k <;> unfold MetaFault.Holds <;> simp only [h]

theorem MetaRule.alike (h : m'.extensions = m.extensions) {mds : List Metadata} {loc : List Level} {l : Leaf} (hr : MetaRule m mds loc l) :
    MetaRule m' mds loc l := by
  cases hr with
  | fault h1 h2 => exact .fault h1 ((metaFault_congr h _ _ _).2 h2)

theorem item_path {i i' : Item} (h : i'.anyAttr = i.anyAttr) : i'.objectPath = i.objectPath := by
  unfold Item.objectPath
  rw [h]

theorem component_path {c c' : Component} (h : c'.anyAttr = c.anyAttr) (p : Str) : c'.objectPath p = c.objectPath p := by
  unfold Component.objectPath
  rw [h]

theorem component_part {c c' : Component} (h : c'.anyAttr = c.anyAttr) (p : Str) : componentPart p c' = componentPart p c := by
  unfold componentPart
  rw [component_path h]

theorem ItemRule.alike (h : Alike env m m') {i i' : Item} (hi : AlikeItem i i') {loc : List Level} {l : Leaf} (hr : ItemRule m i loc l) :
    ItemRule m' i' loc l := by
  cases hr with
  | id h1 => exact .id (hi.objectID.trans h1)
  | missing h1 h2 => exact .missing (hi.objectID ▸ h1) (by rw [item_path hi.anyAttr, hi.objectID]; exact h.noObject h2)
  | other h1 h2 h3 =>
    obtain ⟨o', h4, h5⟩ := h.object h2
    exact .other (hi.objectID ▸ h1) (by rw [item_path hi.anyAttr, hi.objectID]; exact h4) (h5.type.trans h3)
  | metadata h1 => exact .metadata (by rw [hi.metadata]; exact h1.alike h.extensions)

theorem not_default {o : Object} {t : Triangle} (h1 : t.pid ≠ 0) (h2 : ¬ Inherits o t) : ¬ Default o t :=
  fun h => h.elim h1 h2

theorem MeshRule.alike (h : Alike env m m') {p : Str} {o o' : Object} (ho : AlikeObject o o') {x x' : Mesh} (hx : AlikeMesh o x x')
    {loc : List Level} {l : Leaf} (hr : MeshRule m p o x loc l) : MeshRule m' p o' x' loc l := by
  cases hr with
  | vertices h1 h2 => exact .vertices (by rw [ho.type]; exact h1) (by rw [hx.vertices]; exact h2)
  | triangles h1 h2 h3 => exact .triangles (by rw [ho.type]; exact h1) (by rw [← hx.triangles.length_eq]; exact h2) (hx.empty.2 h3)
  | repeated h1 h2 =>
    obtain ⟨t', h3, h4⟩ := forall2_getElem hx.triangles h1
    exact .repeated h3 (by rw [h4.v1, h4.v2, h4.v3]; exact h2)
  | vertex h1 h2 h3 =>
    obtain ⟨t', h4, h5⟩ := forall2_getElem hx.triangles h1
    exact .vertex h4 (by rw [h5.v1, h5.v2, h5.v3]; exact h2) (by rw [hx.vertices]; exact h3)
  | missing h1 h2 h3 h4 =>
    obtain ⟨t', h5, h6⟩ := forall2_getElem hx.triangles h1
    rcases h6.property with ⟨a, b, c, d⟩ | ⟨a, -⟩
    · refine .missing h5 (by rw [a]; exact h2) ?_ (by rw [a]; exact h.noAsset h4)
      rw [inherits_congr ho.pid ho.pindex]
      unfold Inherits
      rw [a, b, c, d]
      exact h3
    · exact absurd a (not_default h2 h3)
  | property h1 h2 h3 h4 h5 h6 h7 =>
    obtain ⟨t', h8, h9⟩ := forall2_getElem hx.triangles h1
    obtain ⟨as, h10, h11⟩ := h.asset h4
    rcases h9.property with ⟨a, b, c, d⟩ | ⟨a, -⟩
    · refine .property h8 (by rw [a]; exact h2) ?_ (by rw [a]; exact h10) (h11.groupSize.trans h5) (by rw [b, c, d]; exact h6) h7
      rw [inherits_congr ho.pid ho.pindex]
      unfold Inherits
      rw [a, b, c, d]
      exact h3
    · exact absurd a (not_default h2 h3)

theorem ComponentRule.alike (h : Alike env m m') {p : Str} {o o' : Object} (ho : AlikeObject o o') {c c' : Component}
    (hc : AlikeComponent c c') {l : Leaf} (hr : ComponentRule m p o c l) : ComponentRule m' p o' c' l := by
  cases hr with
  | id h1 => exact .id (hc.objectID.trans h1)
  | missing h1 h2 => exact .missing (by rw [hc.objectID]; exact h1) (by rw [component_part hc.anyAttr, hc.objectID]; exact h.noObject h2)
  | recursion h1 h2 h3 h4 =>
    obtain ⟨o', h5, -⟩ := h.object h2
    exact .recursion (by rw [hc.objectID]; exact h1) (by rw [component_part hc.anyAttr, hc.objectID]; exact h5)
      (by rw [hc.objectID, ho.id]; exact h3) (by rw [component_part hc.anyAttr]; exact h4)

theorem rel_some {α β : Type} {R : α → β → Prop} {x : Option α} {y : Option β} (h : Option.Rel R x y) {a : α} (ha : x = some a) :
    ∃ b, y = some b ∧ R a b := by
  cases h with
  | none => cases ha
  | some h => cases ha; exact ⟨_, rfl, h⟩

theorem rel_isSome {α β : Type} {R : α → β → Prop} {x : Option α} {y : Option β} (h : Option.Rel R x y) : y.isSome = x.isSome := by
  cases h <;> rfl

theorem ObjectRule.alike (h : Alike env m m') {p : Str} {o o' : Object} (ho : AlikeObject o o') {loc : List Level} {l : Leaf}
    (hr : ObjectRule m p o loc l) : ObjectRule m' p o' loc l := by
  cases hr with
  | id h1 => exact .id (ho.id.trans h1)
  | pid h1 h2 => exact .pid (by rw [ho.pindex]; exact h1) (ho.pid.trans h2)
  | shape h1 => exact .shape (by rw [rel_isSome ho.mesh, rel_isSome ho.components]; exact h1)
  | missing h1 h2 h3 =>
    obtain ⟨x, h4, -⟩ := rel_some ho.mesh h1
    exact .missing h4 (by rw [ho.pid]; exact h2) (by rw [ho.pid]; exact h.noAsset h3)
  | property h1 h2 h3 h4 h5 =>
    obtain ⟨x, h6, -⟩ := rel_some ho.mesh h1
    obtain ⟨a, h7, h8⟩ := h.asset h3
    exact .property h6 (by rw [ho.pid]; exact h2) (by rw [ho.pid]; exact h7) (h8.groupSize.trans h4) (by rw [ho.pindex]; exact h5)
  | mesh h1 h2 =>
    obtain ⟨x, h3, h4⟩ := rel_some ho.mesh h1
    exact .mesh h3 (h2.alike h ho h4)
  | componentsPid h1 h2 h3 =>
    obtain ⟨x, h4, h5⟩ := rel_some ho.components h1
    exact .componentsPid h4 (fun hn => h2 ((forall2_nil h5).1 hn)) (by rw [ho.pid]; exact h3)
  | component h1 h2 h3 =>
    obtain ⟨x, h4, h5⟩ := rel_some ho.components h1
    obtain ⟨c, h6, h7⟩ := forall2_getElem h5 h2
    exact .component h4 h6 (h3.alike h ho h7)

/-! ## Production -/

theorem PathRule.alike (h : Alike env m m') {p : Str} {u : Str × Str} {l : Leaf} (hr : PathRule m p u l) : PathRule m' p u l := by
  cases hr with
  | missing h1 => exact .missing h1
  | malformed h1 h2 => exact .malformed h1 h2
  | path h1 h2 => exact .path h1 (fun hp => h2 ((h.isRoot p).1 hp))

theorem ProdBuildRule.alike (h : Alike env m m') {loc : List Level} {l : Leaf} (hr : ProdBuildRule m loc l) : ProdBuildRule m' loc l := by
  cases hr with
  | missing h1 => exact .missing (by rw [h.build]; exact h1)
  | malformed h1 h2 => exact .malformed (by rw [h.build]; exact h1) h2
  | noItem h1 h2 =>
    obtain ⟨i, h3, h4⟩ := forall2_getElem h.items h1
    exact .noItem h3 (by rw [h4.anyAttr]; exact h2)
  | item h1 h2 h3 =>
    obtain ⟨i, h4, h5⟩ := forall2_getElem h.items h1
    exact .item h4 (by rw [h5.anyAttr]; exact h2) (h3.alike h)

theorem ProdObjectRule.alike (h : Alike env m m') {p : Str} {o o' : Object} (ho : AlikeObject o o') {loc : List Level} {l : Leaf}
    (hr : ProdObjectRule m p o loc l) : ProdObjectRule m' p o' loc l := by
  cases hr with
  | missing h1 => exact .missing (by rw [ho.anyAttr]; exact h1)
  | malformed h1 h2 => exact .malformed (by rw [ho.anyAttr]; exact h1) h2
  | noComponent h1 h2 h3 =>
    obtain ⟨x, h4, h5⟩ := rel_some ho.components h1
    obtain ⟨c, h6, h7⟩ := forall2_getElem h5 h2
    exact .noComponent h4 h6 (by rw [h7.anyAttr]; exact h3)
  | component h1 h2 h3 h8 =>
    obtain ⟨x, h4, h5⟩ := rel_some ho.components h1
    obtain ⟨c, h6, h7⟩ := forall2_getElem h5 h2
    exact .component h4 h6 (by rw [h7.anyAttr]; exact h3) (h8.alike h)

/-! ## Materials -/

theorem AlikeAsset.isMaterial {a a' : Asset} (h : AlikeAsset a a') (hm : IsMaterial a) : IsMaterial a' := by
  cases h with
  | same => exact hm
  | texture2DGroup => exact hm
  | composite => trivial
  | sliceStack => exact hm

theorem LayerSize.alike (h : Alike env m m') {p : Str} {pid : UInt32} {n : Nat} (hl : LayerSize m p pid n) : LayerSize m' p pid n := by
  rcases hl with ⟨a, h1, h2⟩ | ⟨h1, h2⟩
  · obtain ⟨a', h3, h4⟩ := h.asset h1
    exact .inl ⟨a', h3, h4.layerSize.trans h2⟩
  · exact .inr ⟨h.noAsset h1, h2⟩

/-- Resources that do not contain numbers. -/
theorem Alike.sameAsset (h : Alike env m m') {p : Str} {id : UInt32} {a : Asset} (hs : ∀ a', AlikeAsset a a' → a' = a)
    (ha : AssetFound m p id a) : AssetFound m' p id a := by
  obtain ⟨a', h1, h2⟩ := h.asset ha
  rw [hs _ h2] at h1
  exact h1

theorem same_base {b : BaseMaterials} {a : Asset} (h : AlikeAsset (.base b) a) : a = .base b := by cases h; rfl
theorem same_color {b : ColorGroup} {a : Asset} (h : AlikeAsset (.res (.colorGroup b)) a) : a = .res (.colorGroup b) := by cases h; rfl
theorem same_texture {b : Texture2D} {a : Asset} (h : AlikeAsset (.res (.texture2D b)) a) : a = .res (.texture2D b) := by cases h; rfl
theorem same_multi {b : MultiProperties} {a : Asset} (h : AlikeAsset (.res (.multi b)) a) : a = .res (.multi b) := by cases h; rfl

theorem MaterialRule.alike (h : Alike env m m') {p : Str} {a a' : Asset} (ha : AlikeAsset a a')
    (ht : ∀ t, a = .res (.texture2D t) → ((∃ x ∈ m'.attachments, env.fold x.path = env.fold t.path) ↔
      ∃ x ∈ m.attachments, env.fold x.path = env.fold t.path))
    {loc : List Level} {l : Leaf} (hr : MaterialRule env m p a loc l) : MaterialRule env m' p a' loc l := by
  cases hr with
  | colorId h1 => cases same_color ha; exact .colorId h1
  | colorEmpty h1 => cases same_color ha; exact .colorEmpty h1
  | color h1 h2 => cases same_color ha; exact .color h1 h2
  | @coordsId r h1 =>
    cases ha with
    | same => exact .coordsId h1
    | texture2DGroup h2 h3 h4 => exact .coordsId (h2.trans h1)
  | coordsNoTexture h1 =>
    cases ha with
    | same => exact .coordsNoTexture h1
    | texture2DGroup h2 h3 h4 => exact .coordsNoTexture (h3.trans h1)
  | @coordsTexture r h1 h2 =>
    have h5 : ¬ ∃ t, AssetFound m' p r.textureID (.res (.texture2D t)) := fun ⟨t, h6⟩ =>
      h2 ⟨t, h.symm.sameAsset (fun _ => same_texture) h6⟩
    cases ha with
    | same => exact .coordsTexture h1 h5
    | texture2DGroup h2 h3 h4 => exact .coordsTexture (by rw [h3]; exact h1) (by rw [h3]; exact h5)
  | coordsEmpty h1 =>
    cases ha with
    | same => exact .coordsEmpty h1
    | texture2DGroup h2 h3 h4 => exact .coordsEmpty (by rw [← List.length_eq_zero_iff, h4, h1]; rfl)
  | textureId h1 => cases same_texture ha; exact .textureId h1
  | textureNoPath h1 => cases same_texture ha; exact .textureNoPath h1
  | texturePart h1 h2 => cases same_texture ha; exact .texturePart h1 (fun h3 => h2 ((ht _ rfl).1 h3))
  | textureType h1 => cases same_texture ha; exact .textureType h1
  | compositeId h1 =>
    cases ha with
    | same => exact .compositeId h1
    | composite h2 h3 h4 h5 => exact .compositeId (h2.trans h1)
  | compositeNoBase h1 =>
    cases ha with
    | same => exact .compositeNoBase h1
    | composite h2 h3 h4 h5 => exact .compositeNoBase (h3.trans h1)
  | compositeMissing h1 h6 =>
    cases ha with
    | same => exact .compositeMissing h1 (h.noAsset h6)
    | composite h2 h3 h4 h5 => exact .compositeMissing (by rw [h3]; exact h1) (by rw [h3]; exact h.noAsset h6)
  | compositeBase h1 h6 h7 =>
    obtain ⟨x, h8, h9⟩ := h.asset h6
    have h10 : ∀ b, x ≠ .base b := by
      rintro b rfl
      exact h7 b (same_base h9.symm)
    cases ha with
    | same => exact .compositeBase h1 h8 h10
    | composite h2 h3 h4 h5 => exact .compositeBase (by rw [h3]; exact h1) (by rw [h3]; exact h8) h10
  | compositeIndex h1 h6 h7 h8 =>
    have h9 := h.sameAsset (fun _ => same_base) h6
    cases ha with
    | same => exact .compositeIndex h1 h9 h7 h8
    | composite h2 h3 h4 h5 => exact .compositeIndex (by rw [h3]; exact h1) (by rw [h3]; exact h9) (by rw [h4]; exact h7) h8
  | compositeNoIndex h1 =>
    cases ha with
    | same => exact .compositeNoIndex h1
    | composite h2 h3 h4 h5 => exact .compositeNoIndex (h4.trans h1)
  | compositeEmpty h1 =>
    cases ha with
    | same => exact .compositeEmpty h1
    | composite h2 h3 h4 h5 => exact .compositeEmpty (by rw [← List.length_eq_zero_iff, h5, h1]; rfl)
  | multiId h1 => cases same_multi ha; exact .multiId h1
  | multiNoLayer h1 => cases same_multi ha; exact .multiNoLayer h1
  | multiBlend h1 => cases same_multi ha; exact .multiBlend h1
  | multiEmpty h1 => cases same_multi ha; exact .multiEmpty h1
  | multiMissing h1 h2 => cases same_multi ha; exact .multiMissing h1 (h.noAsset h2)
  | multiMaterial h1 h2 h3 h4 =>
    cases same_multi ha
    obtain ⟨x, h8, h9⟩ := h.asset h3
    exact .multiMaterial h1 h2 h8 (h9.isMaterial h4)
  | multiMulti h1 h2 => cases same_multi ha; exact .multiMulti h1 (h.sameAsset (fun _ => same_multi) h2)
  | multiColors h1 h2 h3 h4 h5 =>
    cases same_multi ha
    exact .multiColors h1 h2 h3 (h.sameAsset (fun _ => same_color) h4) (h.sameAsset (fun _ => same_color) h5)
  | multiIndex h1 h2 h3 h4 h5 => cases same_multi ha; exact .multiIndex h1 h2 h3 (h4.alike h) h5

end Spec
end Go3mf
