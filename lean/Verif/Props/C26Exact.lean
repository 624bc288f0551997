import Verif.Lemmas.CrashStep

/-!
# C26: the exact condition

Decoding a part panics exactly if `Crashes` holds of its tokens.  `Crashes` does not mention the decoder: it looks at the
names of the elements and at the name spaces of the attributes only.
-/

namespace Go3mf.Spec
open Go3mf

/-- The model and the resources that are decoded into hold attribute groups only where they may be.  This holds of models
without attribute groups. -/
def CleanTarget (env : Env) (m : Model) (rs : Resources) : Prop :=
  (∀ g ∈ m.anyAttr, AttrAllowed env b!"model" g.ns) ∧ (∀ g ∈ m.build.anyAttr, AttrAllowed env b!"build" g.ns) ∧
  (∀ g ∈ rs.anyAttr, AttrAllowed env b!"resources" g.ns)

theorem init_tracks {env : Env} {m : Model} {path : Str} {rs : Resources} (hm : m.findResources path = some rs)
    (hc : CleanTarget env m rs) : Tracks env (DState.init m path) [] 0 :=
  ⟨rfl, rfl, rfl, Nat.le_refl _, (fun p hp => by cases hp), (fun p hp => by cases hp), List.Pairwise.nil,
    ⟨⟨rs, hm, hc.2.2⟩, hc.1, hc.2.1, cleanAttrs_nil, cleanAttrs_nil, (fun x hx => by cases hx)⟩⟩

/-- **C26**, the exact condition: reading all tokens of a part in lenient mode panics if and only if `Crashes` holds of the
tokens. -/
theorem C26_exact (cfg : DecCfg) (m : Model) (path : Str) (evs : List (Option Event)) (fin : LexErr) {rs : Resources}
    (hm : m.findResources path = some rs) (hc : CleanTarget cfg.env m rs) :
    decodeEvents cfg false (fun _ => false) m path evs fin = none ↔ Crashes cfg.env cfg.isRoot [] 0 evs := by
  unfold decodeEvents
  rw [Option.map_eq_none_iff]
  exact run_crashes (init_tracks hm hc)

/-- **C26**: in no mode and with no context does decoding panic unless `Crashes` holds of the tokens. -/
theorem C26_only (cfg : DecCfg) (strict : Bool) (done : Nat → Bool) (m : Model) (path : Str) (evs : List (Option Event))
    (fin : LexErr) {rs : Resources} (hm : m.findResources path = some rs) (hc : CleanTarget cfg.env m rs)
    (h : ¬ Crashes cfg.env cfg.isRoot [] 0 evs) : (decodeEvents cfg strict done m path evs fin).isSome := by
  unfold decodeEvents
  rw [Option.isSome_map]
  cases hr : runTokens cfg strict done fin 0 (DState.init m path) evs with
  | some p => rfl
  | none => exact absurd (run_crashes_of (init_tracks hm hc) hr) h

/-- **C26** for `UnmarshalModel`: the exact condition on the bytes. -/
theorem C26_unmarshal_exact (env : Env) (mem : Nat → Str → Str) (data : Str) (m : Model)
    (hm : m.path = [] ∨ m.path = defaultModelPath) (hc : CleanTarget env m m.resources) :
    unmarshalModel env mem data m = none ↔ Crashes env true [] 0 (lex .eof (.new data)).1 := by
  refine C26_exact ⟨env, true, mem⟩ m defaultModelPath _ _ ?_ hc
  unfold Model.findResources
  rw [if_pos (by rcases hm with h | h <;> simp [h])]

/-- A model without attribute groups can be decoded into. -/
theorem cleanTarget_empty {env : Env} {m : Model} {rs : Resources} (h1 : m.anyAttr = []) (h2 : m.build.anyAttr = [])
    (h3 : rs.anyAttr = []) : CleanTarget env m rs :=
  ⟨by simp [h1], by simp [h2], by simp [h3]⟩

/-- The documents of `C26_partial` do not crash. -/
theorem SafeDoc.not_crashes {env : Env} {evs : List (Option Event)} (h : SafeDoc env evs) (isRoot : Bool) :
    ¬ Crashes env isRoot [] 0 evs := by
  intro hx
  have h1 := (C26_exact ⟨env, isRoot, fun _ t => t⟩ .zero [] evs .eof (rs := Resources.zero) rfl
    (cleanTarget_empty rfl rfl rfl)).2 hx
  have h2 := C26_partial ⟨env, isRoot, fun _ t => t⟩ false (fun _ => false) .zero [] evs .eof rfl h
  rw [h1] at h2
  cases h2

/-! ## Examples -/

/-- An element inside of an element of the same name: the inner one ends the outer one, the rest is ignored. -/
def nestedExample : Str := b!"<model xmlns=\"http://schemas.microsoft.com/3dmanufacturing/core/2015/02\"><resources><resources/><object id=\"1\"/></resources></model>"

/-- There is no panic, although the document is not a `SafeDoc`. -/
example : (unmarshalModel allExt (fun _ t => t) nestedExample .zero).isSome := by
  have := (C26_unmarshal_exact allExt (fun _ t => t) nestedExample .zero (Or.inl rfl) (cleanTarget_empty rfl rfl rfl)).not.2
    (by decide +kernel)
  exact Option.isSome_iff_ne_none.2 this

/-- A model inside of the model: the inner end tag closes the root, the outer one finds nothing to close. -/
def modelInModel : Str := b!"<model xmlns=\"http://schemas.microsoft.com/3dmanufacturing/core/2015/02\"><model/></model>"

/-- **C26** is false: an element `model` inside of the model. -/
theorem C26_nested_false : unmarshalModel allExt (fun _ t => t) modelInModel .zero = none :=
  (C26_unmarshal_exact allExt (fun _ t => t) modelInModel .zero (Or.inl rfl) (cleanTarget_empty rfl rfl rfl)).2 (by decide +kernel)

/-- The beam lattice is fine in an element that the resources do not follow. -/
def hiddenLattice : Str := b!"<model xmlns=\"http://schemas.microsoft.com/3dmanufacturing/core/2015/02\" xmlns:b=\"http://schemas.microsoft.com/3dmanufacturing/beamlattice/2017/02\" xmlns:m=\"http://schemas.microsoft.com/3dmanufacturing/material/2015/02\"><resources><m:colorgroup><m:color b:x=\"\"/><b:beamlattice/></m:colorgroup></resources></model>"

example : ¬ Crashes allExt true [] 0 (lex .eof (.new hiddenLattice)).1 := by decide +kernel

/-- A model that is not empty. -/
example : CleanTarget allExt { Model.zero with
    anyAttr := [.unknown b!"u" []]
    build := { items := [], anyAttr := [.prodBuild b!"x"] } } Resources.zero := by
  refine ⟨?_, ?_, ?_⟩ <;> decide +kernel

end Go3mf.Spec
