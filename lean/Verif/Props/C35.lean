import Verif.Props.C33

/-!
# C35: beam lattices survive encode then decode
-/

namespace Go3mf

open Spec

/-- **C35**: in every document that is written, the beam lattice that is the first element of a mesh is read back there, if
`LatticeOk`: the radii are not rounded to zero, and a second radius that is the one of the lattice comes with such a
first one.  Numbers are rounded; cap and clip modes, beams, sets and references are the same.  What is missing: other
radii (`C35_radius_false`, `C35_zero_false`), and lattices that are not the first element (C32). -/
theorem C35_lattice_partial (env : Env) (mem : Nat → Str → Str) (prec : Int) (m : Model) (hw : Writable env m) :
    ∃ m', unmarshalModel env mem (printOps (fun _ => []) (m.ops prec)) .zero = some (m', .ok) ∧
      ∀ (i : Nat) (o : Object) (x : Mesh) (b : BeamLattice) (es : List AnyElem), m.resources.objects[i]? = some o →
        o.mesh = some x → x.any = .beamLattice b :: es → LatticeOk prec b →
        ∃ o' x' b', m'.resources.objects[i]? = some o' ∧ o'.mesh = some x' ∧ x'.any = [.beamLattice b'] ∧
          NearLattice prec b b' := by
  refine ⟨m.back prec, decode_marshal (writable_dom hw) False.elim, fun i o x b es ho hx he hb => ?_⟩
  refine ⟨o.back prec, x.back prec o.pid o.pindex, b.back prec, ?_, by simp [Object.back, hx], ?_, near_lattice hb⟩
  · simp [Model.back, Resources.back, ho]
  · simp [Mesh.back, anyBack, he, AnyElem.back]

/-- A model with a mesh that has the lattice. -/
def exLattices (b : BeamLattice) : Model :=
  { Model.zero with
    extensions := [⟨nsBeam, b!"b", true⟩]
    resources :=
      { assets := []
        objects := [
          { id := 5, name := [], partNumber := [], thumbnail := [], pid := 0, pindex := 0, type := .model
            metadata := ⟨[], []⟩, components := none, anyAttr := []
            mesh := some ⟨[⟨.zero, .zero, .zero⟩, ⟨.one, .zero, .zero⟩], [], [], [], [], [.beamLattice b]⟩ }]
        anyAttr := [] } }

/-- The numbers 1, 2 and 1/2. -/
def two : F32 := .ofBits 0x40000000
def half : F32 := .ofBits 0x3f000000

/-- A beam with the radius of the lattice, one with two other radii, one with one. -/
def exLattice : BeamLattice :=
  { clipMode := .inside, clippingMeshID := 3, representationMeshID := 0
    beams := [⟨0, 1, .one, .one, .sphere, .butt⟩, ⟨0, 1, two, half, .hemisphere, .sphere⟩, ⟨0, 1, two, two, .sphere, .sphere⟩]
    beamSets := [⟨[0, 1], b!"a<b", b!"id"⟩, ⟨[], [], []⟩]
    minLength := half, radius := .one, capMode := .sphere }

theorem radius_ok {x : F32} (h : x = .one ∨ x = two ∨ x = half) : RadiusOk 4 x := by
  have key : x.isFinite = true ∧ (scale : ℤ) ≤ 10 ^ 4 * x.key := by
    rcases h with rfl | rfl | rfl <;> decide +kernel
  refine ⟨key.1, ?_⟩
  have h2 : (scale : ℚ) ≤ 10 ^ 4 * x.key := by exact_mod_cast key.2
  rw [if_neg (by decide)]
  change (1 : ℚ) / 10 ^ 4 ≤ _
  unfold floatVal
  rw [div_le_div_iff₀ (by norm_num) (by exact_mod_cast scale_pos)]
  linarith

example : Writable exEnv (exLattices exLattice) ∧ LatticeOk 4 exLattice := by
  have hd : Declared (exLattices exLattice).extensions nsBeam :=
    ⟨by decide +kernel, ⟨nsBeam, b!"b", true⟩, by simp [exLattices], rfl⟩
  refine ⟨⟨?_, by decide +kernel, text_closed (by decide +kernel), text_closed (by decide +kernel), attrsOk_nil,
    by simp [exLattices, Model.zero], by simp [exLattices, Model.zero], by simp [exLattices], ?_, attrsOk_nil,
    by simp [exLattices, Model.zero, Build.zero], attrsOk_nil, by simp [exLattices, Model.zero]⟩, ?_⟩
  · intro x hx
    simp only [exLattices, List.mem_singleton] at hx
    subst hx
    exact letter_writable (by decide +kernel) (by decide +kernel)
  · intro o ho
    simp only [exLattices, List.mem_singleton] at ho
    subst ho
    refine ⟨text_closed (by decide), text_closed (by decide), text_closed (by decide), groupWritable_nil, ?_, by simp, attrsOk_nil,
      by rintro x ⟨⟩; exact undisturbed_plain (by simp)⟩
    intro x hx
    simp only [Option.some.injEq] at hx
    subst hx
    refine ⟨attrsOk_nil, attrsOk_nil, attrsOk_nil, by simp, ?_⟩
    intro e he
    simp only [List.mem_singleton] at he
    subst he
    refine ⟨rfl, hd, ?_⟩
    intro s hs
    simp only [exLattice, List.mem_cons, List.not_mem_nil, or_false] at hs
    rcases hs with rfl | rfl
    · exact ⟨text_closed (by decide +kernel), text_closed (by decide +kernel)⟩
    · exact ⟨text_closed (by decide +kernel), text_closed (by decide +kernel)⟩
  · refine ⟨by decide +kernel, ?_⟩
    intro b hb
    simp only [exLattice, List.mem_cons, List.not_mem_nil, or_false] at hb
    rcases hb with rfl | rfl | rfl
    · exact ⟨radius_ok (by simp), radius_ok (by simp), fun _ => rfl⟩
    · exact ⟨radius_ok (by simp), radius_ok (by simp), by decide +kernel⟩
    · exact ⟨radius_ok (by simp), radius_ok (by simp), by decide +kernel⟩

/-- The beams that are read back. -/
def beamsBack (b : BeamLattice) : Option (List Beam) :=
  match unmarshalModel exEnv (fun _ t => t) (marshalModel (exLattices b)) .zero with
  | some (m', .ok) => match m'.resources.objects.map fun o => o.mesh.map fun x => x.any with
    | [some [AnyElem.beamLattice b']] => some b'.beams
    | _ => none
  | _ => none

/-- A second radius that is the one of the lattice is not written, and read back as the first one. -/
theorem C35_radius_false :
    beamsBack { exLattice with beams := [⟨0, 1, two, .one, .sphere, .sphere⟩] } = some [⟨0, 1, two, two, .sphere, .sphere⟩] := by
  decide +kernel

/-- A radius of zero is not written, and read back as the one of the lattice. -/
theorem C35_zero_false :
    beamsBack { exLattice with beams := [⟨0, 1, .zero, .zero, .sphere, .sphere⟩] } = some [⟨0, 1, .one, .one, .sphere, .sphere⟩] := by
  decide +kernel

/-! ## The radii, exactly -/

/-- The number that is read for a number that is written. -/
def Spec.Reread (prec : Int) (x y : F32) : Prop := parseFloat (F32.format prec x) = .ok y

/-- A radius is written if it is positive and not the one of the lattice. -/
def Spec.WrittenRadius (radius r : F32) : Prop := F32.zero.lt r = true ∧ r.eq radius = false

/-- The radius that is read: the one that was written, unless it was rounded to zero, otherwise the default. -/
def Spec.ReadRadius (prec : Int) (radius r dflt r' : F32) : Prop :=
  (∃ y, Reread prec r y ∧ WrittenRadius radius r ∧ y.eq .zero = false ∧ r' = y) ∨
  ((¬ WrittenRadius radius r ∨ ∃ y, Reread prec r y ∧ y.eq .zero = true) ∧ r' = dflt)

theorem readRadius (prec : Int) (radius r dflt : F32) :
    ReadRadius prec radius r dflt (let x := if F32.zero.lt r && !r.eq radius then r.back prec else .zero
      if x.eq .zero then dflt else x) := by
  by_cases h : WrittenRadius radius r
  · have h2 : (F32.zero.lt r && !r.eq radius) = true := by simp [h.1, h.2]
    simp only [h2, if_true]
    cases h3 : (r.back prec).eq .zero with
    | true => exact Or.inr ⟨Or.inr ⟨_, parse_back prec r, h3⟩, by simp⟩
    | false => exact Or.inl ⟨_, parse_back prec r, h, h3, by simp⟩
  · have h2 : (F32.zero.lt r && !r.eq radius) = false := by
      unfold WrittenRadius at h
      cases h4 : F32.zero.lt r <;> cases h5 : r.eq radius <;> simp_all
    simp only [h2, Bool.false_eq_true, if_false]
    exact Or.inr ⟨Or.inl h, by rw [if_pos (by decide +kernel)]⟩

/-- **C35** (exact radii): what is read back for the beams of every lattice of every document that is written, whatever
their radii are.  A first radius that is not written is that of the lattice, a second radius that is not written is the first
one that is read. -/
theorem C35_exact_partial (env : Env) (mem : Nat → Str → Str) (prec : Int) (m : Model) (hw : Writable env m) (i : Nat)
    (o : Object) (x : Mesh) (b : BeamLattice) (es : List AnyElem) (ho : m.resources.objects[i]? = some o)
    (hx : o.mesh = some x) (he : x.any = .beamLattice b :: es) :
    ∃ m' o' x' b', unmarshalModel env mem (printOps (fun _ => []) (m.ops prec)) .zero = some (m', .ok) ∧
      m'.resources.objects[i]? = some o' ∧ o'.mesh = some x' ∧ x'.any = [.beamLattice b'] ∧
      Reread prec b.radius b'.radius ∧ Reread prec b.minLength b'.minLength ∧
      List.Forall₂ (fun r r' : Beam => r'.v1 = r.v1 ∧ r'.v2 = r.v2 ∧ r'.cap1 = r.cap1 ∧ r'.cap2 = r.cap2 ∧
        ReadRadius prec b.radius r.r1 b'.radius r'.r1 ∧ ReadRadius prec b.radius r.r2 r'.r1 r'.r2) b.beams b'.beams := by
  refine ⟨m.back prec, o.back prec, x.back prec o.pid o.pindex, b.back prec, decode_marshal (writable_dom hw) False.elim,
    by simp [Model.back, Resources.back, ho], by simp [Object.back, hx], by simp [Mesh.back, anyBack, he, AnyElem.back],
    parse_back prec _, parse_back prec _, ?_⟩
  have : (b.back prec).beams = b.beams.map (Beam.back prec b) := rfl
  rw [this, List.forall₂_map_right_iff, List.forall₂_same]
  intro r _
  exact ⟨rfl, rfl, rfl, rfl, readRadius prec b.radius r.r1 (b.radius.back prec), readRadius prec b.radius r.r2 _⟩

end Go3mf
