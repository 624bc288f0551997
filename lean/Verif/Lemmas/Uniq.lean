import Verif.Model.Encode
import Verif.Spec.Uniq
import Mathlib.Data.List.Nodup

/-!
# The encoder writes no attribute twice
-/

namespace Go3mf

open Spec
open scoped List

/-- The names of the attributes are distinct. -/
def UniqAttrs (as : List Attr) : Prop := (as.map (·.name)).Nodup

/-- A token without an attribute twice. -/
def OpUniq : Op → Prop
  | .start _ as _ _ => UniqAttrs as
  | _ => True

/-- A sequence of such tokens. -/
def OpsUniq (ops : List Op) : Prop := ∀ op ∈ ops, OpUniq op

theorem opsUniq_nil : OpsUniq [] ↔ True := by simp [OpsUniq]
theorem opsUniq_cons {op : Op} {ops : List Op} : OpsUniq (op :: ops) ↔ OpUniq op ∧ OpsUniq ops := by simp [OpsUniq]
theorem opsUniq_append {a b : List Op} : OpsUniq (a ++ b) ↔ OpsUniq a ∧ OpsUniq b := by
  simp only [OpsUniq, List.mem_append]
  exact ⟨fun h => ⟨fun x hx => h x (Or.inl hx), fun x hx => h x (Or.inr hx)⟩, fun h x hx => hx.elim (h.1 x) (h.2 x)⟩
theorem opsUniq_map {α : Type} {f : α → Op} {l : List α} : OpsUniq (l.map f) ↔ ∀ x ∈ l, OpUniq (f x) := by
  simp [OpsUniq]
theorem opsUniq_flatMap {α : Type} {f : α → List Op} {l : List α} : OpsUniq (l.flatMap f) ↔ ∀ x ∈ l, OpsUniq (f x) := by
  simp only [OpsUniq, List.mem_flatMap]
  exact ⟨fun h x hx op ho => h op ⟨x, hx, ho⟩, fun h op ⟨x, hx, ho⟩ => h x hx op ho⟩
theorem opUniq_start {n : Name} {as : List Attr} : OpUniq (opStart n as) ↔ UniqAttrs as := Iff.rfl
theorem opUniq_auto {n : Name} {as : List Attr} : OpUniq (opAuto n as) ↔ UniqAttrs as := Iff.rfl
theorem opUniq_fast {n : Name} {as : List Attr} : OpUniq (opFast n as) ↔ UniqAttrs as := Iff.rfl
theorem opUniq_op {n : Name} {as : List Attr} {a b : Bool} : OpUniq (.start n as a b) ↔ UniqAttrs as := Iff.rfl
theorem opUniq_stop {n : Name} : OpUniq (.stop n) ↔ True := Iff.rfl
theorem opUniq_chars {s : Str} : OpUniq (.chars s) ↔ True := Iff.rfl

/-- Attributes with distinct names and without name space. -/
def CoreAttrs (as : List Attr) : Prop := UniqAttrs as ∧ ∀ a ∈ as, a.name.space = []

theorem CoreAttrs.left {as : List Attr} (h : CoreAttrs as) : UniqAttrs as := h.1

theorem coreAttrs_of {as : List Attr} (ls : List Str) (h : as.map (·.name) <+ ls.map (⟨[], ·⟩)) (hn : ls.Nodup) :
    CoreAttrs as := by
  refine ⟨List.Nodup.sublist h (hn.map fun a b e => by simpa using e), fun a ha => ?_⟩
  have := h.subset (List.mem_map_of_mem ha)
  obtain ⟨l, -, e⟩ := List.mem_map.1 this
  rw [← e]

theorem attrIf_names (c : Bool) (l v : Str) : (attrIf c l v).map (·.name) <+ [l].map (⟨[], ·⟩ : Str → Name) := by
  unfold attrIf
  split
  · exact List.Sublist.refl _
  · exact List.nil_sublist _

theorem sub_nil : ([] : List Attr).map (·.name) <+ ([] : List Str).map (⟨[], ·⟩ : Str → Name) := List.Sublist.refl _

theorem sub_append {as bs : List Attr} {ls ms : List Str} (h : as.map (·.name) <+ ls.map (⟨[], ·⟩ : Str → Name))
    (h' : bs.map (·.name) <+ ms.map (⟨[], ·⟩ : Str → Name)) :
    (as ++ bs).map (·.name) <+ (ls ++ ms).map (⟨[], ·⟩ : Str → Name) := by
  rw [List.map_append, List.map_append]
  exact h.append h'

theorem sub_cons {bs : List Attr} {ms : List Str} (l v : Str) (h' : bs.map (·.name) <+ ms.map (⟨[], ·⟩ : Str → Name)) :
    (attr l v :: bs).map (·.name) <+ (l :: ms).map (⟨[], ·⟩ : Str → Name) := by
  rw [List.map_cons, List.map_cons]
  exact List.Sublist.cons_cons _ h'

/-- Closes a goal about attributes whose names are literals. -/
macro "core_attrs" : tactic => `(tactic|
  (apply coreAttrs_of
   case h => (repeat' first | exact attrIf_names _ _ _ | exact sub_nil | apply sub_cons | apply sub_append)
   case hn => decide +kernel))

/-- Splits a goal about tokens into goals about attributes. -/
macro "uniq_ops" : tactic => `(tactic|
  (simp only [opsUniq_nil, opsUniq_cons, opsUniq_append, opsUniq_map, opsUniq_flatMap, opUniq_start, opUniq_auto,
    opUniq_fast, opUniq_op, opUniq_stop, opUniq_chars]
   (repeat' first | with_reducible apply And.intro | with_reducible intro _ _) <;>
     try first | exact trivial | assumption | (refine CoreAttrs.left ?_; core_attrs; done)))

theorem ColorGroup.uniq (r : ColorGroup) : OpsUniq r.ops := by unfold ColorGroup.ops; uniq_ops
theorem Texture2DGroup.uniq (prec : Int) (r : Texture2DGroup) : OpsUniq (r.ops prec) := by
  unfold Texture2DGroup.ops; uniq_ops
theorem CompositeMaterials.uniq (prec : Int) (r : CompositeMaterials) : OpsUniq (r.ops prec) := by
  unfold CompositeMaterials.ops; uniq_ops
theorem MultiProperties.uniq (r : MultiProperties) : OpsUniq r.ops := by unfold MultiProperties.ops; uniq_ops
theorem Texture2D.uniq (r : Texture2D) : OpsUniq r.ops := by unfold Texture2D.ops; uniq_ops
theorem Segment.uniq (s : Segment) : OpUniq s.op := by
  unfold Segment.op
  split <;> uniq_ops
theorem Polygon.uniq (p : Polygon) : OpsUniq p.ops := by
  unfold Polygon.ops
  uniq_ops
  exact Segment.uniq _
theorem Slice.uniq (prec : Int) (s : Slice) : OpsUniq (s.ops prec) := by
  unfold Slice.ops sliceVerticesOps
  uniq_ops
  exact Polygon.uniq _
theorem SliceStack.uniq (prec : Int) (s : SliceStack) : OpsUniq (s.ops prec) := by
  unfold SliceStack.ops
  uniq_ops
  exact Slice.uniq _ _
theorem BeamLattice.uniq (prec : Int) (m : BeamLattice) : OpsUniq (m.ops prec) := by
  unfold BeamLattice.ops BeamLattice.beamsOps BeamLattice.setsOps BeamSet.ops Beam.op
  uniq_ops
theorem ExtRes.uniq (prec : Int) (r : ExtRes) : OpsUniq (r.ops prec) := by
  cases r with
  | colorGroup r => exact r.uniq
  | texture2D r => exact r.uniq
  | texture2DGroup r => exact r.uniq prec
  | composite r => exact r.uniq prec
  | multi r => exact r.uniq
  | sliceStack r => exact r.uniq prec

theorem tokens_uniq {ts : List Token} (h : DistinctTokens ts) : OpsUniq (tokensOps ts) := by
  refine opsUniq_map.2 fun t ht => ?_
  cases t with
  | start n as => exact h n as ht
  | stop n => trivial
  | chars s => trivial

theorem any_uniq {prec : Int} : ∀ {any : List AnyElem}, DistinctAny any → OpsUniq (encodeAny prec any)
  | [], _ => opsUniq_nil.2 trivial
  | .tokens ts :: _, h => tokens_uniq (h ts (by simp))
  | .res r :: _, _ => r.uniq prec
  | .beamLattice b :: _, _ => b.uniq prec

theorem appends_names (g : AttrGroup) : g.appends.flatten.map (·.name) <+ groupNames g := by
  cases g with
  | unknown s as => simp [AttrGroup.appends, groupNames]
  | prodBuild u => simp [AttrGroup.appends, groupNames]
  | prodObject u => simp [AttrGroup.appends, groupNames]
  | prodItem u p =>
    simp only [AttrGroup.appends, groupNames]
    split <;> simp
  | prodComponent u p =>
    simp only [AttrGroup.appends, groupNames]
    split <;> simp
  | sliceObject i r => simp [AttrGroup.appends, groupNames]

theorem anyAttr_names : ∀ any : AnyAttr, (encodeAnyAttr any).map (·.name) <+ any.flatMap groupNames
  | [] => List.Sublist.refl _
  | g :: any => by
    have ih := anyAttr_names any
    unfold encodeAnyAttr at ih ⊢
    rw [List.flatMap_cons, List.flatten_append, List.map_append, List.flatMap_cons]
    exact (appends_names g).append ih

theorem anyAttr_uniq {any : AnyAttr} (h : DistinctAttrs any) : UniqAttrs (encodeAnyAttr any) :=
  h.1.sublist (anyAttr_names any)

theorem core_any_uniq {as : List Attr} (hc : CoreAttrs as) {any : AnyAttr} (h : DistinctAttrs any) :
    UniqAttrs (as ++ encodeAnyAttr any) := by
  unfold UniqAttrs
  rw [List.map_append]
  refine List.Nodup.append hc.1 (anyAttr_uniq h) ?_
  intro n hn hn'
  obtain ⟨a, ha, rfl⟩ := List.mem_map.1 hn
  exact h.2 _ ((anyAttr_names any).subset hn') (hc.2 a ha)

/-! ## Triangles -/

theorem setValue_keeps_names (v : Str) : ∀ (arr : List Attr) (i : Nat), (setValue arr i v).map (·.name) = arr.map (·.name)
  | [], i => by simp [setValue]
  | a :: as, 0 => by simp [setValue]
  | a :: as, i + 1 => by
    have := setValue_keeps_names v as i
    unfold setValue at this ⊢
    simp [this]

theorem triangle_slice_names {pid pindex : UInt32} (arr : List Attr) (t : Triangle) :
    (t.slice pid pindex arr).arr.map (·.name) = arr.map (·.name) ∧ (t.slice pid pindex arr).own = none := by
  unfold Triangle.slice
  simp only
  split
  · simp [setValue_keeps_names]
  · split <;> simp [setValue_keeps_names]

theorem triangles_uniq {pid pindex : UInt32} : ∀ {ts : List Triangle} {arr : List Attr}, UniqAttrs arr →
    (∀ t ∈ ts, t.anyAttr = []) → OpsUniq (trianglesLoop pid pindex arr ts)
  | [], _, _, _ => opsUniq_nil.2 trivial
  | t :: ts, arr, h, ht => by
    obtain ⟨h1, h2⟩ := triangle_slice_names (pid := pid) (pindex := pindex) arr t
    have hs : UniqAttrs (t.slice pid pindex arr).arr := by unfold UniqAttrs; rw [h1]; exact h
    unfold trianglesLoop
    rw [ht t (by simp)]
    refine opsUniq_cons.2 ⟨?_, triangles_uniq hs fun x hx => ht x (by simp [hx])⟩
    show UniqAttrs (t.slice pid pindex arr).attrs
    unfold AttrSlice.attrs UniqAttrs
    rw [h2, Option.getD_none, List.map_take]
    exact hs.sublist (List.take_sublist _ _)

theorem triangleArray_uniq : UniqAttrs triangleArray := by
  unfold triangleArray
  exact CoreAttrs.left (by core_attrs)

/-! ## The core elements -/

theorem Mesh.uniq {prec : Int} {pid pindex : UInt32} {m : Mesh} (h : DistinctMesh m) : OpsUniq (m.ops prec pid pindex) := by
  obtain ⟨h1, h2, h3, h4, h5⟩ := h
  have := anyAttr_uniq h1
  have := anyAttr_uniq h2
  have := anyAttr_uniq h3
  unfold Mesh.ops Mesh.verticesOps Mesh.trianglesOps
  uniq_ops
  · exact triangles_uniq triangleArray_uniq h5
  · exact any_uniq h4

theorem encodeMetadata_uniq (mds : List Metadata) : OpsUniq (encodeMetadata mds) := by
  unfold encodeMetadata Metadata.ops
  uniq_ops

theorem MetadataGroup.uniq {g : MetadataGroup} (h : DistinctAttrs g.anyAttr) : OpsUniq g.ops := by
  have := anyAttr_uniq h
  have := encodeMetadata_uniq g.metadata
  unfold MetadataGroup.ops
  uniq_ops

theorem Item.uniq {i : Item} (h : DistinctAttrs i.anyAttr) (h' : DistinctAttrs i.metadata.anyAttr) : OpsUniq i.ops := by
  have ha : UniqAttrs i.attrs := by
    unfold Item.attrs
    rw [← List.cons_append]
    exact core_any_uniq (by core_attrs) h
  have := MetadataGroup.uniq h'
  unfold Item.ops
  split <;> uniq_ops

theorem Component.uniq {c : Component} (h : DistinctAttrs c.anyAttr) : OpUniq c.op := by
  unfold Component.op
  rw [← List.cons_append]
  exact core_any_uniq (by core_attrs) h

theorem Components.uniq {cs : Components} (h : DistinctAttrs cs.anyAttr)
    (h' : ∀ c ∈ cs.component, DistinctAttrs c.anyAttr) : OpsUniq cs.ops := by
  have := anyAttr_uniq h
  unfold Components.ops
  uniq_ops
  exact Component.uniq (h' _ ‹_›)

theorem Object.uniq {prec : Int} {o : Object} (h : DistinctObject o) : OpsUniq (o.ops prec) := by
  obtain ⟨h1, h2, h3, h4⟩ := h
  have ha : UniqAttrs o.attrs := by
    unfold Object.attrs
    rw [← List.cons_append]
    refine core_any_uniq ?_ h1
    split <;> core_attrs
  have hm : OpsUniq (if o.metadata.metadata ≠ [] then o.metadata.ops else []) := by
    split
    · exact MetadataGroup.uniq h2
    · exact opsUniq_nil.2 trivial
  have hsh : OpsUniq (o.shapeOps prec) := by
    unfold Object.shapeOps
    split
    · exact Mesh.uniq (h3 _ ‹_›)
    · exact Components.uniq (h4 _ ‹_›).1 (h4 _ ‹_›).2
    · exact opsUniq_nil.2 trivial
  unfold Object.ops
  uniq_ops

theorem Base.uniq {b : Base} (h : DistinctAttrs b.anyAttr) : OpUniq b.op := by
  unfold Base.op
  exact core_any_uniq (as := [attr b!"name" b.name, attr b!"displaycolor" (formatRGBA b.color)]) (by core_attrs) h

theorem Asset.uniq {prec : Int} {a : Asset} (h : DistinctAsset a) : OpsUniq (a.ops prec) := by
  cases a with
  | base r =>
    have : UniqAttrs (attr b!"id" (formatUint r.id) :: encodeAnyAttr r.anyAttr) :=
      core_any_uniq (as := [attr b!"id" (formatUint r.id)]) (by core_attrs) h.1
    unfold Asset.ops BaseMaterials.ops
    uniq_ops
    exact Base.uniq (h.2 _ ‹_›)
  | unknown id ts => exact tokens_uniq h
  | res r => exact r.uniq prec

theorem Resources.uniq {prec : Int} {r : Resources} (h : DistinctResources r) : OpsUniq (r.ops prec) := by
  obtain ⟨h1, h2, h3⟩ := h
  have := anyAttr_uniq h1
  unfold Resources.ops
  uniq_ops
  · exact Asset.uniq (h2 _ ‹_›)
  · exact Object.uniq (h3 _ ‹_›)

end Go3mf
