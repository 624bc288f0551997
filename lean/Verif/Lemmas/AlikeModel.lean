import Verif.Lemmas.Alike

/-!
# Models that are alike break the same rules: slices, beam lattices, parts
-/

namespace Go3mf
open Spec
namespace Spec

variable {env : Env} {m m' : Model}

/-! ## Slices -/

theorem before_alike {p : Str} {o o' : Object} (ho : AlikeObject o o') {l l' : List Component} (hl : List.Forall₂ AlikeComponent l l')
    (h : ∀ d ∈ l, ¬ (d.objectID = o.id ∧ componentPart p d = p)) : ∀ d ∈ l', ¬ (d.objectID = o'.id ∧ componentPart p d = p) := by
  intro d' hd'
  obtain ⟨d, hd, hr⟩ := forall2_mem (forall2_flip (fun _ _ h => AlikeComponent.symm h) hl) hd'
  rw [← hr.objectID, ho.id, ← component_part hr.anyAttr]
  exact h d hd

theorem TiltedIn.alike (h : Alike env m m') {p : Str} {id : UInt32} {o : Object} (ht : TiltedIn m p id o) :
    ∀ {o' : Object}, AlikeObject o o' → TiltedIn m' p id o' := by
  induction ht with
  | here h1 h2 h3 h4 h5 h6 =>
    intro o' ho
    obtain ⟨x, h7, h8⟩ := rel_some ho.components h1
    obtain ⟨c, h9, h10⟩ := forall2_getElem h8 h2
    exact .here h7 h9 (before_alike ho (forall2_take h8 _) h3) (h10.objectID.trans h4) (by rw [component_part h10.anyAttr]; exact h5)
      (h10.tilted.2 h6)
  | inside h1 h2 h3 h4 _ ih =>
    intro o' ho
    obtain ⟨x, h7, h8⟩ := rel_some ho.components h1
    obtain ⟨c, h9, h10⟩ := forall2_getElem h8 h2
    obtain ⟨y, h11, h12⟩ := h.object h4
    exact .inside h7 h9 (before_alike ho (forall2_take h8 _) h3) (by rw [component_part h10.anyAttr, h10.objectID]; exact h11) (ih h12)

theorem item_part {i i' : Item} (h : i'.anyAttr = i.anyAttr) (p : Str) : itemPart p i' = itemPart p i := by
  unfold itemPart
  rw [item_path h]

theorem TiltedBuild.alike (h : Alike env m m') {p : Str} {id : UInt32} (ht : TiltedBuild m p id) : TiltedBuild m' p id := by
  cases ht with
  | here h1 h2 h3 h4 =>
    obtain ⟨i, h5, h6⟩ := forall2_mem h.items h1
    exact .here h5 (h6.objectID.trans h2) (by rw [item_part h6.anyAttr]; exact h3) (h6.tilted.2 h4)
  | inside h1 h2 h3 =>
    obtain ⟨i, h5, h6⟩ := forall2_mem h.items h1
    obtain ⟨y, h7, h8⟩ := h.object h2
    exact .inside h5 (by rw [item_part h6.anyAttr, h6.objectID]; exact h7) (h3.alike h h8)

theorem AlikeAsset.stack {s : SliceStack} {a : Asset} (h : AlikeAsset (.res (.sliceStack s)) a) :
    ∃ s', a = .res (.sliceStack s') ∧ AlikeStack s s' := by
  cases h with
  | same => exact ⟨s, rfl, rfl, fun _ => rfl, List.forall₂_same.2 fun _ _ => ⟨rfl, rfl, rfl⟩, rfl⟩
  | sliceStack h => exact ⟨_, rfl, h⟩

theorem Alike.stack (h : Alike env m m') {p : Str} {id : UInt32} {s : SliceStack} (hs : AssetFound m p id (.res (.sliceStack s))) :
    ∃ s', AssetFound m' p id (.res (.sliceStack s')) ∧ AlikeStack s s' := by
  obtain ⟨a, h1, h2⟩ := h.asset hs
  obtain ⟨s', rfl, h3⟩ := h2.stack
  exact ⟨s', h1, h3⟩

theorem OpenStack.alike {s s' : SliceStack} (hs : AlikeStack s s') (h : OpenStack s) : OpenStack s' := by
  obtain ⟨x, hx, q, hq, g, h1, h2⟩ := h
  obtain ⟨x', hx', hr⟩ := forall2_mem hs.slices hx
  exact ⟨x', hx', q, by rw [hr.polygons]; exact hq, g, h1, h2⟩

theorem OpenBelow.alike (h : Alike env m m') {s s' : SliceStack} (hs : AlikeStack s s') (ho : OpenBelow m s) : OpenBelow m' s' := by
  rcases ho with h1 | ⟨r, hr, st, h1, h2⟩
  · exact .inl (h1.alike hs)
  · obtain ⟨st', h3, h4⟩ := h.stack h1
    exact .inr ⟨r, by rw [hs.refs]; exact hr, st', h3, h2.alike h4⟩

theorem SliceObjectRule.alike (h : Alike env m m') {p : Str} {o o' : Object} (ho : AlikeObject o o') {loc : List Level} {l : Leaf}
    (hr : SliceObjectRule m p o loc l) : SliceObjectRule m' p o' loc l := by
  cases hr with
  | low h1 h2 => exact .low (by rw [ho.anyAttr]; exact h1) (by unfold SlicesRequired; rw [h.extensions]; exact h2)
  | id h1 => exact .id (by rw [ho.anyAttr]; exact h1)
  | missing h1 h2 h3 => exact .missing (by rw [ho.anyAttr]; exact h1) h2 (h.noAsset h3)
  | notStack h1 h2 h3 h4 =>
    obtain ⟨a, h5, h6⟩ := h.asset h3
    refine .notStack (by rw [ho.anyAttr]; exact h1) h2 h5 ?_
    rintro r rfl
    obtain ⟨s', h7, -⟩ := h6.symm.stack
    exact h4 _ h7
  | transform h1 h2 h3 h4 =>
    obtain ⟨s', h5, -⟩ := h.stack h3
    exact .transform (by rw [ho.anyAttr]; exact h1) h2 h5 (by rw [ho.id]; exact h4.alike h)
  | closed h1 h2 h3 h4 h5 =>
    obtain ⟨s', h6, h7⟩ := h.stack h3
    exact .closed (by rw [ho.anyAttr]; exact h1) h2 h6 (by rw [ho.type]; exact h4) (h5.alike h h7)

theorem RefersTo.alike (h : Alike env m m') {p : Str} {r : SliceRef} {st : SliceStack} (hr : RefersTo m p r st) :
    ∃ st', RefersTo m' p r st' ∧ AlikeStack st st' := by
  obtain ⟨h1, h2, h3, h4⟩ := hr
  obtain ⟨s', h5, h6⟩ := h.stack h4
  exact ⟨s', ⟨h1, h2, h3, h5⟩, h6⟩

theorem TopOfRefs.alike (h : Alike env m m') {p : Str} {rs : List SliceRef} {z : F32} (ht : TopOfRefs m p rs z) : TopOfRefs m' p rs z := by
  induction ht with
  | nil => exact .nil
  | stack h1 h2 =>
    obtain ⟨st', h3, h4⟩ := h1.alike h
    obtain ⟨s', h5, h6⟩ := forall2_last h4.slices h2
    rw [← h6.topZ]
    exact .stack h3 h5
  | skip h1 _ ih =>
    refine .skip (fun st hst => ?_) ih
    obtain ⟨st', h3, h4⟩ := hst.alike h.symm
    exact (forall2_nil h4.slices).1 (h1 _ h3)

theorem topBefore_alike {l l' : List Slice} (h : List.Forall₂ AlikeSlice l l') : topBefore l' = topBefore l := by
  unfold topBefore
  cases hl : l.getLast? with
  | none =>
    rw [List.getLast?_eq_none_iff] at hl
    rw [(forall2_nil h).2 hl]
    rfl
  | some s =>
    obtain ⟨s', h1, h2⟩ := forall2_last h hl
    rw [h1]
    exact h2.topZ

theorem StackRule.alike (h : Alike env m m') {p : Str} {s s' : SliceStack} (hs : AlikeStack s s') {loc : List Level} {l : Leaf}
    (hr : StackRule m p s loc l) : StackRule m' p s' loc l := by
  cases hr with
  | both h1 => exact .both (by rw [forall2_nil hs.slices, hs.refs]; exact h1)
  | refNoPath h1 h2 => exact .refNoPath (by rw [hs.refs]; exact h1) h2
  | refSame h1 h2 h3 => exact .refSame (by rw [hs.refs]; exact h1) h2 h3
  | refId h1 h2 => exact .refId (by rw [hs.refs]; exact h1) h2
  | refMissing h1 h2 h3 h4 h5 => exact .refMissing (by rw [hs.refs]; exact h1) h2 h3 h4 (h.noAsset h5)
  | refNotStack h1 h2 h3 h4 h5 h6 =>
    obtain ⟨a, h7, h8⟩ := h.asset h5
    refine .refNotStack (by rw [hs.refs]; exact h1) h2 h3 h4 h7 ?_
    rintro r rfl
    obtain ⟨s', h9, -⟩ := h8.symm.stack
    exact h6 _ h9
  | refRef h1 h2 h3 =>
    obtain ⟨st', h4, h5⟩ := h2.alike h
    exact .refRef (by rw [hs.refs]; exact h1) h4 (by rw [h5.refs]; exact h3)
  | refOrder h1 h2 h3 h4 h5 =>
    obtain ⟨st', h6, h7⟩ := h2.alike h
    rw [List.head?_eq_getElem?] at h3
    obtain ⟨s', h8, h9⟩ := forall2_getElem h7.slices h3
    exact .refOrder (by rw [hs.refs]; exact h1) h6 (by rw [List.head?_eq_getElem?]; exact h8)
      (by rw [hs.refs]; exact h4.alike h) (by rw [h9.topZ]; exact h5)
  | noTop h1 h2 =>
    obtain ⟨s', h3, h4⟩ := forall2_getElem hs.slices h1
    exact .noTop h3 (by rw [h4.topZ]; exact h2)
  | lowTop h1 h2 h5 =>
    obtain ⟨s', h3, h4⟩ := forall2_getElem hs.slices h1
    exact .lowTop h3 (by rw [h4.topZ]; exact h2) (by rw [h4.topZ, hs.bottomZ]; exact h5)
  | order h1 h2 =>
    obtain ⟨s', h3, h4⟩ := forall2_getElem hs.slices h1
    exact .order h3 (by rw [h4.topZ, topBefore_alike (forall2_take hs.slices _)]; exact h2)
  | vertices h1 h2 h5 =>
    obtain ⟨s', h3, h4⟩ := forall2_getElem hs.slices h1
    refine .vertices h3 ?_ (by rw [h4.vertices]; exact h5)
    rw [h4.polygons, ← List.length_eq_zero_iff (l := s'.vertices), h4.vertices, List.length_eq_zero_iff]
    exact h2
  | polygons h1 h2 h5 =>
    obtain ⟨s', h3, h4⟩ := forall2_getElem hs.slices h1
    refine .polygons h3 ?_ (by rw [h4.polygons]; exact h5)
    rw [ne_eq, ← List.length_eq_zero_iff (l := s'.vertices), h4.vertices, List.length_eq_zero_iff]
    exact h2
  | segments h1 h2 h5 =>
    obtain ⟨s', h3, h4⟩ := forall2_getElem hs.slices h1
    exact .segments h3 (by rw [h4.polygons]; exact h2) h5

/-! ## Beam lattice -/

theorem RefMeshRule.alike (h : Alike env m m') {p : Str} {self id : UInt32} {l : Leaf} (hr : RefMeshRule m p self id l) :
    RefMeshRule m' p self id l := by
  cases hr with
  | recursion h1 => exact .recursion h1
  | missing h1 h2 h3 h4 =>
    obtain ⟨rs', h5, h6⟩ := h.partAt h2
    obtain ⟨o', h7, h8⟩ := forall2_first h6.objects (q := fun o => o.id = self ∨ o.id = id) (fun a b hab => by rw [hab.id]) h3
    exact .missing h1 h5 h7 (h8.id.trans h4)
  | mesh h1 h2 h3 h4 h9 =>
    obtain ⟨rs', h5, h6⟩ := h.partAt h2
    obtain ⟨o', h7, h8⟩ := forall2_first h6.objects (q := fun o => o.id = self ∨ o.id = id) (fun a b hab => by rw [hab.id]) h3
    refine .mesh h1 h5 h7 (h8.id.trans h4) fun x' hx' => ?_
    obtain ⟨x, hx, hr⟩ := rel_some h8.symm.mesh hx'
    rw [h8.type, ← hr.lattice]
    exact h9 x hx

theorem LatticeRule.alike (h : Alike env m m') {p : Str} {o o' : Object} (ho : AlikeObject o o') {x x' : Mesh} (hx : AlikeMesh o x x')
    {b : BeamLattice} {loc : List Level} {l : Leaf} (hr : LatticeRule m p o x b loc l) : LatticeRule m' p o' x' b loc l := by
  cases hr with
  | type h1 h2 => exact .type (by rw [ho.type]; exact h1) (by rw [ho.type]; exact h2)
  | minLength h1 => exact .minLength h1
  | radius h1 => exact .radius h1
  | clip h1 h2 => exact .clip h1 h2
  | clipMesh h1 h2 => exact .clipMesh h1 (by rw [ho.id]; exact h2.alike h)
  | representation h1 h2 => exact .representation h1 (by rw [ho.id]; exact h2.alike h)
  | same h1 h2 => exact .same h1 h2
  | vertex h1 h2 h3 h4 => exact .vertex h1 h2 h3 (by rw [hx.vertices]; exact h4)
  | radii h1 h2 h3 h4 => exact .radii h1 h2 h3 h4
  | sets h1 h2 h3 => exact .sets h1 h2 h3

/-! ## Parts -/

theorem Active.alike (h : Alike env m m') {x : Ext} (ha : Active env m x) : Active env m' x := by
  unfold Active
  rw [h.extensions]
  exact ha

theorem PartRule.alike (h : Alike env m m') {p : Str} {rs rs' : Resources} (hrs : AlikeResources rs rs')
    (ht : ∀ t, Asset.res (.texture2D t) ∈ rs.assets → ((∃ x ∈ m'.attachments, env.fold x.path = env.fold t.path) ↔
      ∃ x ∈ m.attachments, env.fold x.path = env.fold t.path))
    {loc : List Level} {l : Leaf} (hr : PartRule env m p rs loc l) : PartRule env m' p rs' loc l := by
  cases hr with
  | assetId h1 h2 h3 h4 =>
    obtain ⟨a', h5, h6⟩ := forall2_getElem hrs.assets h1
    obtain ⟨b', h7, h8⟩ := forall2_mem (forall2_take hrs.assets _) h3
    rw [← h6.name]
    exact .assetId h5 (by rw [h6.identify]; exact h2) h7 (by rw [h8.identify, h6.identify]; exact h4)
  | base h1 h2 =>
    obtain ⟨a', h5, h6⟩ := forall2_getElem hrs.assets h1
    cases same_base h6
    exact .base h5 h2
  | materials h1 h2 h3 =>
    obtain ⟨a', h5, h6⟩ := forall2_getElem hrs.assets h2
    rw [← h6.name]
    exact .materials (h1.alike h) h5 (h3.alike h h6 (by rintro t rfl; exact ht t (List.mem_of_getElem? h2)))
  | stack h1 h2 h3 =>
    obtain ⟨a', h5, h6⟩ := forall2_getElem hrs.assets h2
    obtain ⟨s', rfl, h7⟩ := h6.stack
    exact .stack (h1.alike h) h5 (h3.alike h h7)
  | objectAssetId h1 h2 h3 h4 =>
    obtain ⟨o', h5, h6⟩ := forall2_getElem hrs.objects h1
    obtain ⟨b', h7, h8⟩ := forall2_mem hrs.assets h3
    exact .objectAssetId h5 (by rw [h6.id]; exact h2) h7 (by rw [h8.identify, h6.id]; exact h4)
  | objectId h1 h2 h3 h4 =>
    obtain ⟨o', h5, h6⟩ := forall2_getElem hrs.objects h1
    obtain ⟨b', h7, h8⟩ := forall2_mem (forall2_take hrs.objects _) h3
    exact .objectId h5 (by rw [h6.id]; exact h2) h7 (by rw [h8.id, h6.id]; exact h4)
  | object h1 h2 =>
    obtain ⟨o', h5, h6⟩ := forall2_getElem hrs.objects h1
    exact .object h5 (h2.alike h h6)
  | production h1 h2 h3 =>
    obtain ⟨o', h5, h6⟩ := forall2_getElem hrs.objects h2
    exact .production (h1.alike h) h5 (h3.alike h h6)
  | slices h1 h2 h3 =>
    obtain ⟨o', h5, h6⟩ := forall2_getElem hrs.objects h2
    exact .slices (h1.alike h) h5 (h3.alike h h6)
  | lattice h1 h2 h3 h4 h7 =>
    obtain ⟨o', h5, h6⟩ := forall2_getElem hrs.objects h2
    obtain ⟨x', h8, h9⟩ := rel_some h6.mesh h3
    exact .lattice (h1.alike h) h5 h8 (h9.lattice.trans h4) (h7.alike h h6 h9)

end Spec

/-! ## Numbers that survive -/

theorem rounded_stable {prec : Nat} {x y : F32} (h : Rounded prec x y) (hs : StableAt prec x) : y = x := by
  cases hx : x.isFinite with
  | false => exact h.2 hx
  | true =>
    obtain ⟨h1, h2, k, h3, h4⟩ := h.1 hx
    rcases hs with hs | ⟨j, h5, h6⟩
    · rw [hx] at hs; cases hs
    · have hjk : k = j := by
        have h7 : |(k : ℚ) / 10 ^ prec - j / 10 ^ prec| < 1 / 10 ^ prec := by
          have := abs_sub_le ((k : ℚ) / 10 ^ prec) (floatVal x) (j / 10 ^ prec)
          rw [abs_sub_comm (floatVal x)] at this
          have h8 : (1 : ℚ) / 10 ^ prec = 1 / 2 / 10 ^ prec + 1 / 2 / 10 ^ prec := by ring
          linarith
        have hp : (0 : ℚ) < 10 ^ prec := by positivity
        rw [← sub_div, abs_div, abs_of_pos hp, div_lt_div_iff_of_pos_right hp] at h7
        have h8 : |k - j| < 1 := by exact_mod_cast h7
        rw [Int.abs_lt_one_iff] at h8
        omega
      subst hjk
      exact h6 y h1 h2 h4

theorem near_stable {prec : Int} {x y : F32} (h : Near prec x y) (hs : Stable prec x) : y = x := by
  unfold Near at h
  split at h
  · exact h
  · rename_i hp
    exact rounded_stable h (hs.resolve_left hp)

end Go3mf
