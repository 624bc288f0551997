import Verif.Props.C33

/-!
# C34: slice stacks survive encode then decode
-/

namespace Go3mf

open Spec

/-- **C34**: in every document that is written, each slice stack whose segments have properties only together with a
property group is read back at the same place: the numbers are rounded, and a height of the bottom that is a zero becomes the
positive zero.  What is missing: segments with properties and without group (`C34_segment_false`). -/
theorem C34_stack_partial (env : Env) (mem : Nat → Str → Str) (prec : Int) (m : Model) (hw : Writable env m) :
    ∃ m', unmarshalModel env mem (printOps (fun _ => []) (m.ops prec)) .zero = some (m', .ok) ∧
      ∀ (i : Nat) (s : SliceStack), m.resources.assets[i]? = some (.res (.sliceStack s)) →
        (∀ l ∈ s.slices, ∀ p ∈ l.polygons, ∀ g ∈ p.segments, SegmentOk g) →
        ∃ s', m'.resources.assets[i]? = some (.res (.sliceStack s')) ∧ NearStack prec s s' := by
  refine ⟨m.back prec, decode_marshal (writable_dom hw) False.elim, fun i s hi hs => ?_⟩
  have h := near_res (prec := prec) (x := .sliceStack s) hs
  cases h with
  | sliceStack h => exact ⟨_, back_asset hi, h⟩

/-- A stack with two slices, one of them with a polygon, and a stack that refers to it. -/
def exStack : SliceStack :=
  ⟨1, .zero, [⟨.ofBits 0x3dcccccd, [], []⟩,
    ⟨.one, [⟨.zero, .zero⟩, ⟨.one, .zero⟩, ⟨.one, .one⟩], [⟨0, [⟨1, 3, 1, 2⟩, ⟨2, 0, 0, 0⟩, ⟨0, 3, 1, 1⟩]⟩]⟩], []⟩

def exSlices : Model :=
  { Model.zero with
    extensions := [⟨nsSlices, b!"s", true⟩]
    resources := { assets := [.res (.sliceStack exStack), .res (.sliceStack ⟨2, .zero, [], [⟨1, b!"/3D/a.model"⟩]⟩)], objects := [], anyAttr := [] } }

example : Writable exEnv exSlices ∧ (∀ l ∈ exStack.slices, ∀ p ∈ l.polygons, ∀ g ∈ p.segments, SegmentOk g) := by
  have hd : Declared exSlices.extensions nsSlices := ⟨by decide +kernel, ⟨nsSlices, b!"s", true⟩, by simp [exSlices], rfl⟩
  refine ⟨⟨?_, by decide +kernel, text_closed (by decide +kernel), text_closed (by decide +kernel), attrsOk_nil,
    by simp [exSlices, Model.zero], by simp [exSlices, Model.zero], ?_, by simp [exSlices], attrsOk_nil,
    by simp [exSlices, Model.zero, Build.zero], attrsOk_nil, by simp [exSlices, Model.zero]⟩, ?_⟩
  · intro x hx
    simp only [exSlices, List.mem_singleton] at hx
    subst hx
    exact letter_writable (by decide +kernel) (by decide +kernel)
  · intro a ha
    simp only [exSlices, List.mem_cons, List.not_mem_nil, or_false] at ha
    rcases ha with rfl | rfl
    · exact ⟨rfl, hd, by simp [exStack]⟩
    · refine ⟨rfl, hd, ?_⟩
      intro x hx
      simp only [List.mem_singleton] at hx
      subst hx
      exact text_closed (by decide +kernel)
  · simp [exStack, SegmentOk]

/-- The segments that are read back. -/
def segmentsBack (s : SliceStack) : Option (List Segment) :=
  match unmarshalModel exEnv (fun _ t => t)
      (marshalModel { exSlices with resources := { assets := [.res (.sliceStack s)], objects := [], anyAttr := [] } }) .zero with
  | some (m', .ok) => match m'.resources.assets with
    | [.res (.sliceStack s')] => some (s'.slices.flatMap fun l => l.polygons.flatMap (·.segments))
    | _ => none
  | _ => none

/-- The properties of a segment without group are lost; no error is reported. -/
theorem C34_segment_false :
    segmentsBack ⟨1, .zero, [⟨.one, [⟨.zero, .zero⟩], [⟨0, [⟨1, 0, 7, 8⟩]⟩]⟩], []⟩ = some [⟨1, 0, 0, 0⟩] := by
  decide +kernel

/-! ## The exact condition -/

theorem map_self {α : Type} {f : α → α} {l : List α} (h : l.map f = l) : ∀ a ∈ l, f a = a := by
  have h : l.map f = l.map id := by rw [h, List.map_id]
  exact fun a ha => List.map_inj_left.1 h a ha

theorem segment_back_eq {g : Segment} (h : g.back = g) : SegmentOk g := by
  intro h0
  unfold Segment.back at h
  rw [if_neg (by simp [h0])] at h
  rw [← h]
  exact ⟨rfl, rfl⟩

/-- **C34** (exact): what is read back for every slice stack of every document that is written: a segment without group has
no properties, everything else is as it was.  So a stack survives if and only if its segments have properties only together
with a group. -/
theorem C34_exact_partial (env : Env) (mem : Nat → Str → Str) (prec : Int) (m : Model) (hw : Writable env m) (i : Nat)
    (s : SliceStack) (hi : m.resources.assets[i]? = some (.res (.sliceStack s))) :
    ∃ m' s', unmarshalModel env mem (printOps (fun _ => []) (m.ops prec)) .zero = some (m', .ok) ∧
      m'.resources.assets[i]? = some (.res (.sliceStack s')) ∧
      s'.slices.map (·.polygons) = s.slices.map (fun l => l.polygons.map fun p =>
        ⟨p.startV, p.segments.map fun g => if g.pid = 0 then ⟨g.v2, 0, 0, 0⟩ else g⟩) ∧
      (NearStack prec s s' ↔ ∀ l ∈ s.slices, ∀ p ∈ l.polygons, ∀ g ∈ p.segments, SegmentOk g) := by
  refine ⟨m.back prec, s.back prec, decode_marshal (writable_dom hw) False.elim, back_asset hi, ?_, ?_, ?_⟩
  · simp only [SliceStack.back, List.map_map]
    refine List.map_congr_left fun l _ => ?_
    simp only [Function.comp, Slice.back]
    refine List.map_congr_left fun p _ => ?_
    simp only [Polygon.back]
    congr 1
    refine List.map_congr_left fun g _ => ?_
    unfold Segment.back
    by_cases h : g.pid = 0
    · rw [if_neg (by simp [h]), if_pos h]
    · rw [if_pos h, if_neg h]
  · intro h l hl p hp g hg
    have h1 := h.slices
    have h2 : ∀ l ∈ s.slices, NearSlice prec l (l.back prec) := by
      have h1 : List.Forall₂ (NearSlice prec) s.slices (s.slices.map (Slice.back prec)) := h1
      rw [List.forall₂_map_right_iff] at h1
      exact List.forall₂_same.1 h1
    have h3 : l.polygons.map Polygon.back = l.polygons := (h2 l hl).polygons
    have h4 : p.back = p := map_self h3 p hp
    have h5 : p.segments.map Segment.back = p.segments := congrArg Polygon.segments h4
    exact segment_back_eq (map_self h5 g hg)
  · intro h
    have h := near_res (prec := prec) (x := .sliceStack s) h
    cases h with
    | sliceStack h => exact h

end Go3mf
