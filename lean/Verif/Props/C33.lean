import Verif.Props.C28

/-!
# C33: materials resources survive encode then decode
-/

namespace Go3mf

open Spec

/-- The resources of the materials extension. -/
def Spec.Material : ExtRes → Prop
  | .colorGroup _ => True
  | .texture2D _ => True
  | .texture2DGroup _ => True
  | .composite _ => True
  | .multi _ => True
  | .sliceStack _ => False

theorem back_asset {prec : Int} {m : Model} {i : Nat} {x : ExtRes} (h : m.resources.assets[i]? = some (.res x)) :
    (m.back prec).resources.assets[i]? = some (.res (x.back prec)) := by
  simp [Model.back, Resources.back, h, Asset.back]

/-- **C33**: in every document that is written, each resource of the materials extension is read back at the same place:
colour groups, textures and multi-properties unchanged, texture coordinates and the values of composites rounded.
The rest of the model may be anything that can be written and read at all (`Writable`). -/
theorem C33_materials (env : Env) (mem : Nat → Str → Str) (prec : Int) (m : Model) (hw : Writable env m) :
    ∃ m', unmarshalModel env mem (printOps (fun _ => []) (m.ops prec)) .zero = some (m', .ok) ∧
      ∀ (i : Nat) (x : ExtRes), m.resources.assets[i]? = some (.res x) → Material x →
        ∃ x', m'.resources.assets[i]? = some (.res x') ∧ NearRes prec x x' := by
  refine ⟨m.back prec, decode_marshal (writable_dom hw) False.elim, fun i x hi hx => ⟨_, back_asset hi, near_res ?_⟩⟩
  cases x <;> first | trivial | exact hx.elim

/-- **C33**: the same for the parts that `Encode` writes, in strict and in lenient mode. -/
theorem C33_part (env : Env) (mem : Nat → Str → Str) (strict : Bool) (prec : Int) (m : Model) (hw : Writable env m) :
    ∃ m', decodeEvents ⟨env, true, mem⟩ strict (fun _ => false) .zero defaultModelPath (lex .eof (.new (m.partBytes prec))).1
        (lex .eof (.new (m.partBytes prec))).2 = some (m', .ok) ∧
      ∀ (i : Nat) (x : ExtRes), m.resources.assets[i]? = some (.res x) → Material x →
        ∃ x', m'.resources.assets[i]? = some (.res x') ∧ NearRes prec x x' := by
  refine ⟨m.back prec, ?_, fun i x hi hx => ⟨_, back_asset hi, near_res ?_⟩⟩
  · exact decode_part (writable_dom hw) False.elim strict (m0 := .zero) (Or.inr (Or.inr ⟨rfl, rfl⟩))
  · cases x <;> first | trivial | exact hx.elim

/-- A prefix that is one letter. -/
theorem letter_writable {c : Byte} {ns : Str} {req : Bool} (hc : (97 ≤ c && c ≤ 122) = true)
    (hns : ((ns.all fun b => 32 ≤ b && b < 127) && ns ≠ b!"xmlns") = true) : ExtensionWritable ⟨ns, [c], req⟩ := by
  simp only [Bool.and_eq_true, decide_eq_true_eq] at hc hns
  have hlet : ∀ c : Byte, 97 ≤ c ∧ c ≤ 122 → ∀ w ∈ blanks, ¬ w <:+: [c] :=
    forall_byte (by decide +kernel)
  refine ⟨⟨by simp, ?_⟩, text_ascii ?_, ⟨?_, ?_⟩, ⟨text_closed hns.1, hns.2⟩, fun _ => ⟨by simp, hlet c hc⟩⟩
  · intro b hb
    simp only [List.mem_singleton] at hb
    subst hb
    exact Or.inr (Or.inr (Or.inl hc))
  · intro b hb
    simp only [List.mem_singleton] at hb
    subst hb
    have h1 := UInt8.le_iff_toNat_le.1 hc.1
    have h2 := UInt8.le_iff_toNat_le.1 hc.2
    simp only [UInt8.le_iff_toNat_le, UInt8.lt_iff_toNat_lt] at *
    exact ⟨by have : (32 : UInt8).toNat = 32 := rfl; have : (97 : UInt8).toNat = 97 := rfl; omega,
      by have : (127 : UInt8).toNat = 127 := rfl; have : (122 : UInt8).toNat = 122 := rfl; omega⟩
  · intro h
    have := congrArg List.length h
    simp at this
  · intro h
    have := congrArg List.length h
    simp at this

/-- One resource of each kind. -/
def exMaterials : Model :=
  { Model.zero with
    extensions := [⟨nsMaterials, b!"m", true⟩]
    resources :=
      { assets := [
          .res (.colorGroup ⟨1, [⟨255, 0, 0, 255⟩, ⟨0, 255, 0, 128⟩]⟩),
          .res (.texture2D ⟨2, b!"/3D/Texture/a.png", .png, .wrap, .mirror, .nearest⟩),
          .res (.texture2DGroup ⟨3, 2, [⟨.zero, .ofBits 0x3dcccccd⟩]⟩),
          .res (.composite ⟨4, 1, [0, 1], [[.ofBits 0x3f000000, .one]]⟩),
          .res (.multi ⟨5, [1, 3], [.mix, .multiply], [[0, 1], []]⟩)]
        objects := [], anyAttr := [] } }

example : Writable exEnv exMaterials ∧ ∀ a ∈ exMaterials.resources.assets, ∃ x, a = .res x ∧ Material x := by
  have hd : Declared exMaterials.extensions nsMaterials :=
    ⟨by decide +kernel, ⟨nsMaterials, b!"m", true⟩, by simp [exMaterials], rfl⟩
  refine ⟨⟨?_, by decide +kernel, text_closed (by decide +kernel), text_closed (by decide +kernel), attrsOk_nil,
    by simp [exMaterials, Model.zero], by simp [exMaterials, Model.zero], ?_, by simp [exMaterials], attrsOk_nil,
    by simp [exMaterials, Model.zero, Build.zero], attrsOk_nil, by simp [exMaterials, Model.zero]⟩, ?_⟩
  · intro x hx
    simp only [exMaterials, List.mem_singleton] at hx
    subst hx
    exact letter_writable (by decide +kernel) (by decide +kernel)
  · intro a ha
    simp only [exMaterials, List.mem_cons, List.not_mem_nil, or_false] at ha
    rcases ha with rfl | rfl | rfl | rfl | rfl
    · exact ⟨rfl, hd⟩
    · exact ⟨rfl, hd, text_closed (by decide +kernel)⟩
    · exact ⟨rfl, hd⟩
    · exact ⟨rfl, hd⟩
    · exact ⟨rfl, hd⟩
  · intro a ha
    simp only [exMaterials, List.mem_cons, List.not_mem_nil, or_false] at ha
    rcases ha with rfl | rfl | rfl | rfl | rfl <;> exact ⟨_, rfl, trivial⟩

end Go3mf
