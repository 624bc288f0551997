import Verif.Lemmas.BackTwice
import Verif.Props.C64

/-!
# C65: saving again does not change a model again

What is read from a file and written again is the same the next time.  Values that become a default value by rounding need one
more round; after two rounds nothing changes any more.
-/

namespace Go3mf
open Spec

/-- The bytes of `MarshalModel`. -/
local notation "saved" => fun (prec : Int) (m : Model) => printOps (fun _ => []) (Model.ops prec m)

/-- **C65**: a model that was read for the second time does not change any more, however often it is written and read. -/
theorem C65_twice (env : Env) (mem1 mem2 mem3 : Nat → Str → Str) (prec : Int) (m : Model) (hw : Writable env m) :
    ∃ m1 m2, unmarshalModel env mem1 (saved prec m) .zero = some (m1, .ok) ∧
      unmarshalModel env mem2 (saved prec m1) .zero = some (m2, .ok) ∧
      unmarshalModel env mem3 (saved prec m2) .zero = some (m2, .ok) := by
  have h1 := model_back_writable (prec := prec) hw
  have h2 := model_back_writable (prec := prec) h1
  refine ⟨_, _, decode_marshal (writable_dom hw) False.elim, decode_marshal (writable_dom h1) False.elim, ?_⟩
  have := decode_marshal (prec := prec) (writable_dom h2) (mem := mem3) False.elim
  rw [Model.back_thrice] at this
  exact this

/-- **C65**: if no value becomes a default value by rounding, a model that was read once does not change any more. -/
theorem C65_once (env : Env) (mem1 mem2 : Nat → Str → Str) (prec : Int) (m : Model) (hw : Writable env m) (hs : SettledModel prec m) :
    ∃ m1, unmarshalModel env mem1 (saved prec m) .zero = some (m1, .ok) ∧
      unmarshalModel env mem2 (saved prec m1) .zero = some (m1, .ok) := by
  have h1 := model_back_writable (prec := prec) hw
  refine ⟨_, decode_marshal (writable_dom hw) False.elim, ?_⟩
  have := decode_marshal (prec := prec) (writable_dom h1) (mem := mem2) False.elim
  rw [Model.back_twice hs] at this
  exact this

/-- What `Encode` writes as the root part and `Decode` reads, when the path, the other parts and the relationships are those of the model. -/
def Spec.Rereads (env : Env) (prec : Int) (m m' : Model) : Prop :=
  ∀ (mem : Nat → Str → Str) (strict : Bool), decodeEvents ⟨env, true, mem⟩ strict (fun _ => false) { Model.zero with
      path := m.path
      attachments := m.attachments
      childs := m.childs
      rootRelationships := m.rootRelationships
      relationships := m.relationships } m.path (lex .eof (.new (m.partBytes prec))).1
      (lex .eof (.new (m.partBytes prec))).2 = some (m', .ok)

theorem rereads_back {env : Env} {prec : Int} {m : Model} (hw : Writable env m) : Rereads env prec m (m.over (m.back prec)) :=
  fun _ strict => decode_part (m0 := m) (writable_dom hw) False.elim strict (Or.inr (Or.inl rfl))

/-- **C65**: the same for the root part that `Encode` writes. -/
theorem C65_part (env : Env) (prec : Int) (m : Model) (hw : Writable env m) :
    ∃ m1 m2, Rereads env prec m m1 ∧ Rereads env prec m1 m2 ∧ Rereads env prec m2 m2 ∧ (SettledModel prec m → m2 = m1) := by
  have h1 : Writable env (m.over (m.back prec)) := by
    have h := model_back_writable (prec := prec) hw
    exact ⟨h.extensions, h.distinct, h.language, h.thumbnail, h.attrs, h.noXml, h.metadata, h.assets, h.objects, h.resourcesAttrs, h.items,
      h.buildAttrs, h.any⟩
  have h2 : Writable env ((m.over (m.back prec)).over ((m.over (m.back prec)).back prec)) := by
    have h := model_back_writable (prec := prec) h1
    exact ⟨h.extensions, h.distinct, h.language, h.thumbnail, h.attrs, h.noXml, h.metadata, h.assets, h.objects, h.resourcesAttrs, h.items,
      h.buildAttrs, h.any⟩
  refine ⟨_, _, rereads_back hw, rereads_back h1, ?_, fun hs => ?_⟩
  · have h3 := rereads_back (prec := prec) h2
    have e := congrArg (fun x => (m.over x)) (Model.back_thrice (prec := prec) m)
    have : ∀ x, Rereads env prec ((m.over (m.back prec)).over ((m.over (m.back prec)).back prec)) x →
        x = m.over (((m.back prec).back prec).back prec) →
        Rereads env prec ((m.over (m.back prec)).over ((m.over (m.back prec)).back prec))
          ((m.over (m.back prec)).over ((m.over (m.back prec)).back prec)) := by
      rintro x hx rfl
      have e' : m.over (((m.back prec).back prec).back prec) = (m.over (m.back prec)).over ((m.over (m.back prec)).back prec) := e
      rw [e'] at hx
      exact hx
    exact this _ h3 rfl
  · exact congrArg (fun x => (m.over x)) (Model.back_twice hs)

/-! ## Examples -/

theorem c65_settled : SettledModel 4 c64Model := by
  have ho : ∀ any, SettledObject 4 { c64Object with
      anyAttr := any } := fun any => ⟨by rintro m ⟨⟩ e he; simp [Spec.tetra, Mesh.zero] at he, by rintro cs ⟨⟩⟩
  refine ⟨?_, ?_, ?_, by simp [c64Model, c64With, Model.zero]⟩
  · intro x hx
    simp only [c64Model, c64With, List.mem_cons, List.not_mem_nil, or_false] at hx
    rcases hx with h | h
    · injection h with h; subst h; trivial
    · injection h with h; subst h
      exact fun h => absurd h (by decide)
  · intro o h
    simp only [c64Model, c64With, List.mem_singleton] at h
    subst h
    exact ho _
  · intro i hi
    simp only [c64Model, c64With, List.mem_singleton] at hi
    subst hi
    intro _ t' h
    rw [parse_matrix_back] at h
    obtain rfl := Option.some.inj h
    decide +kernel

/-- The model of C64 meets the conditions. -/
example (mem1 mem2 : Nat → Str → Str) := C65_once exEnv mem1 mem2 4 c64Model (c64_writable ..) c65_settled

/-! ## One round is not enough -/

/-- A transform that rounds to the identity is written the first time and left out the second time. -/
theorem C65_transform_false (mem1 mem2 : Nat → Str → Str) : ∃ m m1 m2, Writable exEnv m ∧
    unmarshalModel exEnv mem1 (saved 4 m) .zero = some (m1, .ok) ∧ unmarshalModel exEnv mem2 (saved 4 m1) .zero = some (m2, .ok) ∧
    m1.build.items.map (·.transform) = [.identity] ∧ m2.build.items.map (·.transform) = [.zero] := by
  have h0 := c64_writable .one .one { Matrix.identity with
    m0 := .ofBits 0x3f800347 }
  have h1 := model_back_writable (prec := 4) h0
  exact ⟨_, _, _, h0, decode_marshal (writable_dom h0) False.elim, decode_marshal (writable_dom h1) False.elim, by decide +kernel, by decide +kernel⟩

/-- A mesh with a beam lattice of radius 1 and a beam with radii 2 and 1.00001. -/
def c65Lattice : Model :=
  { Model.zero with
    extensions := [⟨nsBeam, b!"b", true⟩]
    resources := { Resources.zero with
      objects := [{ Object.zero with
        id := 1
        mesh := some { Mesh.zero with
          vertices := [⟨.zero, .zero, .zero⟩, ⟨.one, .zero, .zero⟩]
          any := [.beamLattice ⟨.none, 0, 0, [⟨0, 1, .ofBits 0x40000000, .ofBits 0x3f800054, .sphere, .sphere⟩], [], .one, .one, .sphere⟩] } }] } }

theorem c65_lattice : Writable exEnv c65Lattice := by
  refine ⟨?_, by simp [c65Lattice], c64_empty, c64_empty, attrsOk_nil, by simp [c65Lattice, Model.zero],
    by simp [c65Lattice, Model.zero], by simp [c65Lattice, Resources.zero], ?_, attrsOk_nil, by simp [c65Lattice, Model.zero, Build.zero], attrsOk_nil,
    by simp [c65Lattice, Model.zero]⟩
  · intro x hx
    simp only [c65Lattice, List.mem_singleton] at hx
    subst hx
    exact ⟨⟨by simp, by decide +kernel⟩, text_closed (by decide +kernel), by decide +kernel, ⟨text_closed (by decide +kernel), by decide +kernel⟩,
      fun _ => ⟨by simp, by decide +kernel⟩⟩
  · intro o ho
    simp only [c65Lattice, List.mem_singleton] at ho
    subst ho
    refine ⟨c64_empty, c64_empty, c64_empty, groupWritable_nil, ?_, by simp [Object.zero], attrsOk_nil,
      by rintro x ⟨⟩; exact undisturbed_plain (by simp [Mesh.zero])⟩
    rintro x ⟨⟩
    refine ⟨attrsOk_nil, attrsOk_nil, attrsOk_nil, by simp [Mesh.zero], fun e he => ?_⟩
    simp only [List.mem_singleton] at he
    subst he
    exact ⟨rfl, ⟨by decide +kernel, _, List.mem_singleton.2 rfl, rfl⟩, by simp⟩

/-- The second radii of the beams of a model. -/
def c65Radii (m : Model) : List (List F32) :=
  m.resources.objects.flatMap fun o => (o.mesh.map fun x => x.any.map fun e => match e with
    | .beamLattice l => l.beams.map (·.r2)
    | _ => []).getD []

/-- The second radius of a beam that rounds to the radius of the lattice is left out the second time, and a radius that is left
out is read as the first radius of the beam: 1.00001 becomes 1, and then 2. -/
theorem C65_radius_false (mem1 mem2 : Nat → Str → Str) : ∃ m m1 m2, Writable exEnv m ∧
    unmarshalModel exEnv mem1 (saved 4 m) .zero = some (m1, .ok) ∧ unmarshalModel exEnv mem2 (saved 4 m1) .zero = some (m2, .ok) ∧
    c65Radii m = [[.ofBits 0x3f800054]] ∧ c65Radii m1 = [[.one]] ∧ c65Radii m2 = [[.ofBits 0x40000000]] := by
  have h1 := model_back_writable (prec := 4) c65_lattice
  exact ⟨_, _, _, c65_lattice, decode_marshal (writable_dom c65_lattice) False.elim, decode_marshal (writable_dom h1) False.elim,
    by decide +kernel, by decide +kernel, by decide +kernel⟩

end Go3mf
