import Verif.Lemmas.Forget
import Verif.Props.C65
import Verif.Props.C91

/-!
# C92: a program that does not know an extension passes its content on

A file that was saved by a program that knows some extensions is read and saved by programs that know only some of them, or none.
A program that knows all of them then reads the same model as from the first file.
-/

namespace Go3mf
open Spec

/-! ## What was read is settled -/

section
variable {prec : Int} {env' : Env}

theorem settled_written (t : Matrix) : SettledTransform t.written := by
  intro h t' ht
  rw [parse_matrix_back] at ht
  cases ht
  by_cases h1 : t.isTransform = true
  · rw [show t.written = t.back by unfold Matrix.written; rw [if_pos h1]] at h ⊢
    rw [Matrix.back_back]
    exact h
  · rw [show t.written = .zero by unfold Matrix.written; rw [if_neg h1]] at h
    exact absurd h (by decide +kernel)

theorem settled_stack (s : SliceStack) : SettledStack prec (s.back prec) := by
  intro h z hz
  rw [parse_back] at hz
  cases hz
  have hb : (s.back prec).bottomZ = if s.bottomZ.eq .zero then .zero else s.bottomZ.back prec := rfl
  rw [hb] at h ⊢
  by_cases h1 : s.bottomZ.eq .zero = true
  · rw [if_pos h1] at h
    exact absurd h (by decide +kernel)
  · rw [if_neg h1] at h ⊢
    rw [F32.back_back]
    exact h

theorem settled_lattice (l : BeamLattice) : SettledLattice prec (l.back prec) := by
  intro b hb h1 h2 h3
  obtain ⟨c, hc, rfl⟩ := List.mem_map.1 hb
  have hr : (l.back prec).radius = l.radius.back prec := rfl
  have hf : (c.back prec l).r2.back prec = (c.back prec l).r2 := by
    rw [Beam.back_eq]
    exact radius2_back (radius1_back _ _)
  have e1 := parse_back prec (c.back prec l).r2
  have e2 := parse_back prec (l.back prec).radius
  rw [h3, e2] at e1
  have e := Except.ok.inj e1
  rw [hf, hr, F32.back_back, ← hr] at e
  rw [e, F32.eq_self_pos h1] at h2
  cases h2

theorem settled_res {x : ExtRes} : SettledRes prec (x.back prec) := by
  cases x with
  | sliceStack s => exact settled_stack s
  | _ => trivial

theorem settled_part {e : AnyElem} (h : SettledElem prec e) : SettledElem prec (e.part env' prec) := by
  cases e with
  | tokens ts => trivial
  | res x =>
    rw [AnyElem.part]
    split
    · exact h
    · exact settled_res
  | beamLattice b =>
    rw [AnyElem.part]
    split
    · exact h
    · exact settled_lattice b

theorem settled_anyPart {es : List AnyElem} (h : ∀ e ∈ es, SettledElem prec e) : ∀ e ∈ anyPart env' prec es, SettledElem prec e := by
  intro e he
  obtain ⟨x, hx, rfl⟩ := List.mem_map.1 he
  exact settled_part (h x (List.mem_of_mem_take hx))

theorem settled_model_part {m : Model} (h : SettledModel prec m) : SettledModel prec (m.part env' prec) := by
  refine ⟨fun x hx => ?_, fun o ho => ?_, fun i hi => ?_, settled_anyPart h.any⟩
  · obtain ⟨a, ha, e⟩ := List.mem_map.1 hx
    cases a with
    | base => cases e
    | unknown => cases e
    | res y =>
      rw [Asset.part] at e
      split at e
      · cases e
        exact h.assets _ ha
      · cases e
        exact settled_res
  · obtain ⟨p, hp, rfl⟩ := List.mem_map.1 ho
    refine ⟨fun x hx => ?_, fun cs hcs c hc => ?_⟩
    · obtain ⟨y, hy, rfl⟩ := Option.map_eq_some_iff.1 hx
      exact settled_anyPart ((h.objects p hp).mesh y hy)
    · have hcs' : (if p.mesh.isSome then none else p.components.map Components.back) = some cs := hcs
      split at hcs'
      · cases hcs'
      · obtain ⟨y, hy, rfl⟩ := Option.map_eq_some_iff.1 hcs'
        obtain ⟨z, hz, rfl⟩ := List.mem_map.1 hc
        exact settled_written _
  · obtain ⟨j, hj, rfl⟩ := List.mem_map.1 hi
    exact settled_written _

end

/-! ## Programs -/

/-- The bytes of `MarshalModel`. -/
local notation "saved" => fun (prec : Int) (m : Model) => printOps (fun _ => []) (Model.ops prec m)

/-- A program with the extensions `env` reads the bytes as the model. -/
def Spec.ReadTo (env : Env) (b : Str) (m : Model) : Prop :=
  ∀ mem : Nat → Str → Str, unmarshalModel env mem b .zero = some (m, .ok)

/-- Programs with the given extensions read the bytes and save what they read, one after the other. -/
inductive Spec.PassedOn (prec : Int) : List Env → Str → Str → Prop
  | nil {b : Str} : PassedOn prec [] b b
  | cons {e : Env} {es : List Env} {b b' : Str} {m : Model} : ReadTo e b m →
      PassedOn prec es (printOps (fun _ => []) (m.ops prec)) b' → PassedOn prec (e :: es) b b'

/-- **C92**: a program that knows fewer extensions reads the file and saves it; reading the new file gives the same model as reading
the first one. -/
theorem C92_pass (env env' : Env) (hf : Fewer env' env) (prec : Int) (m : Model) (hw : Writable env m) (hs : SettledModel prec m) :
    ∃ m1 m2, ReadTo env' (saved prec m) m1 ∧ ReadTo env (saved prec m) m2 ∧ ReadTo env (saved prec m1) m2 := by
  have hd := writable_dom hw
  have hp := writable_dom (model_part_writable (env' := env') (prec := prec) hw)
  refine ⟨(m.forget env' prec).back prec, m.back prec, fun mem => ?_, fun mem => decode_marshal hd False.elim, fun mem => ?_⟩
  · exact decode_alike hd (hd.forget hf) m.forget_ops mem
  · rw [Model.forget_back, ← Model.part_back (env' := env') hs]
    exact decode_alike (hp.forget hf) hp (Model.forget_ops _).symm mem

theorem passed_from {env : Env} {prec : Int} : ∀ (envs : List Env), (∀ e ∈ envs, Fewer e env) → ∀ (m x : Model) (env0 : Env),
    x.Dom env0 False → plainOps (x.ops prec) = plainOps (m.ops prec) → Writable env m → SettledModel prec m →
    ∃ b, PassedOn prec envs (printOps (fun _ => []) (x.ops prec)) b ∧ ReadTo env b (m.back prec)
  | [], _, m, x, env0, hx, e, hw, _ => ⟨_, .nil, fun mem => decode_alike hx (writable_dom hw) e.symm mem⟩
  | env' :: envs, hf, m, x, env0, hx, e, hw, hs => by
    have h1 := hf env' (by simp)
    have hd := writable_dom hw
    have hp := model_part_writable (env' := env') (prec := prec) hw
    obtain ⟨b, hb, hr⟩ := passed_from envs (fun y hy => hf y (by simp [hy])) (m.part env' prec) ((m.part env' prec).forget env' prec) env'
      ((writable_dom hp).forget h1) (Model.forget_ops _) hp (settled_model_part hs)
    rw [Model.part_back hs] at hr
    refine ⟨b, .cons (m := (m.forget env' prec).back prec) (fun mem => ?_) ?_, hr⟩
    · exact decode_alike hx (hd.forget h1) ((Model.forget_ops _).trans e.symm) mem
    · rw [Model.forget_back]
      exact hb

/-- **C92**: the same for any number of programs, whatever extensions each of them knows. -/
theorem C92_chain (env : Env) (envs : List Env) (hf : ∀ e ∈ envs, Fewer e env) (prec : Int) (m : Model) (hw : Writable env m)
    (hs : SettledModel prec m) :
    ∃ b m1, PassedOn prec envs (saved prec m) b ∧ ReadTo env (saved prec m) m1 ∧ ReadTo env b m1 := by
  obtain ⟨b, h1, h2⟩ := passed_from envs hf m m env (writable_dom hw) rfl hw hs
  exact ⟨b, _, h1, fun mem => decode_marshal (writable_dom hw) False.elim, h2⟩

/-- Reading is a function: the programs have no choice. -/
theorem Spec.PassedOn.unique {prec : Int} {es : List Env} {b c d : Str} (h : PassedOn prec es b c) (h' : PassedOn prec es b d) : c = d := by
  induction h generalizing d with
  | nil => cases h'; rfl
  | cons h1 _ ih =>
    cases h' with
    | cons h2 h3 =>
      have := (h1 fun _ t => t).symm.trans (h2 fun _ t => t)
      simp only [Option.some.injEq, Prod.mk.injEq, and_true] at this
      subst this
      exact ih h3

/-! ## The root part of a package -/

theorem lex_part {env : Env} {prec : Int} {m : Model} (h : m.Dom env False) :
    lex .eof (.new (m.partBytes prec)) = (none :: some (.chars b!"\n") :: rd (m.ops prec), .eof) := by
  have hl := C23_header_partial b!"model" (m.rootAttrs true) (m.bodyOps prec) (by decide +kernel) (by decide +kernel)
    (by rw [root_shown h.root]; exact rootOK h.root true)
    (by rw [root_shown h.root, decls_root h.root, root_default h.root]; exact h.good.ok)
    (by have := h.good (prec := prec) |>.nest [] []; rw [List.append_nil] at this; rw [this]; rfl)
  have he : document b!"model" (m.rootAttrs true) (m.bodyOps prec) = m.ops prec := by
    simp [document, Model.ops, opStart, coreName]
  rw [root_shown h.root, root_default h.root, he] at hl
  exact hl

theorem rereads_alike {env env' : Env} {prec : Int} {m m' : Model} (h : m.Dom env False) (h' : m'.Dom env' False)
    (e : plainOps (m'.ops prec) = plainOps (m.ops prec)) : Rereads env' prec m (m.over (m'.back prec)) := by
  intro mem strict
  rw [lex_part h, show rd (m.ops prec) = rd (m'.ops prec) from (readOps_congr e).symm]
  exact decode_document (m0 := m) h' False.elim strict (Or.inr (Or.inl rfl)) (pre := [none, some (.chars b!"\n")]) (by
    intro ev hev
    simp only [List.mem_cons, List.not_mem_nil, or_false] at hev
    rcases hev with rfl | rfl
    · exact Or.inl rfl
    · exact Or.inr ⟨_, rfl⟩)

/-- **C92**: the same for the root part that `Encode` writes, in strict or lenient mode. -/
theorem C92_part (env env' : Env) (hf : Fewer env' env) (prec : Int) (m : Model) (hw : Writable env m) (hs : SettledModel prec m) :
    ∃ m1 m2, Rereads env' prec m m1 ∧ Rereads env prec m m2 ∧ Rereads env prec m1 m2 := by
  have hd := writable_dom hw
  have hp := writable_dom (model_part_writable (env' := env') (prec := prec) hw)
  refine ⟨m.over ((m.forget env' prec).back prec), m.over (m.back prec), rereads_alike hd (hd.forget hf) m.forget_ops,
    rereads_back hw, ?_⟩
  have hq : (m.over ((m.part env' prec).forget env' prec)).Dom env' False := by
    have h := (hp.forget hf : ((m.part env' prec).forget env' prec).Dom env' False)
    exact ⟨⟨h.root.names, h.root.spaces, h.root.distinct, h.root.words, h.root.required, h.root.language, h.root.thumbnail,
      h.root.attrs, h.root.attrSpaces⟩, h.metadata, h.resources, h.build, h.any⟩
  have := rereads_alike (prec := prec) (m' := m.part env' prec) hq hp (Model.forget_ops (env' := env') (m.part env' prec)).symm
  rw [Model.part_back hs] at this
  rw [Model.forget_back]
  exact this

/-! ## Examples -/

theorem fewer_none (env : Env) : Fewer noneEnv env := ⟨nofun, nofun, nofun, nofun⟩

/-- Only the slice extension is registered. -/
def sliceEnv : Env := ⟨id, false, true, false, false⟩

theorem fewer_slice : Fewer sliceEnv exEnv := ⟨nofun, fun _ => rfl, nofun, nofun⟩

/-- A model with a slice stack and attributes of the production extension, by way of a program that knows no extension. -/
example := C92_pass exEnv noneEnv (fewer_none _) 4 c64Model (c64_writable ..) c65_settled

/-- By way of three programs. -/
example := C92_chain exEnv [sliceEnv, noneEnv, sliceEnv] (by simp [fewer_none, fewer_slice]) 4 c64Model (c64_writable ..) c65_settled

example := C92_part exEnv sliceEnv fewer_slice 4 c64Model (c64_writable ..) c65_settled

/-- The program between does not know the resources: it has only their identifiers and tokens. -/
example : ∃ m1, ReadTo noneEnv (saved 4 c64Model) m1 ∧ m1.resources.assets.map (fun a => match a with
    | .unknown id _ => some id
    | _ => none) = [some 1, some 2] :=
  ⟨_, fun mem => decode_alike (writable_dom (c64_writable ..)) ((writable_dom (c64_writable ..)).forget (fewer_none exEnv))
    c64Model.forget_ops mem, rfl⟩

/-! ## Files of other programs -/

/-- A mesh with an element of a name space that nobody knows, and a beam lattice after it. -/
def twoElements : Str :=
  b!"<model xmlns='http://schemas.microsoft.com/3dmanufacturing/core/2015/02' xmlns:b='http://schemas.microsoft.com/3dmanufacturing/beamlattice/2017/02' xmlns:x='u'><resources><object id='1'><mesh><x:a></x:a><b:beamlattice minlength='1' radius='1'></b:beamlattice></mesh></object></resources></model>"

/-- The radii of the beam lattices that are read. -/
def latticesIn (env : Env) (b : Str) : Option Nat :=
  (unmarshalModel env (fun _ s => s) b .zero).map fun p =>
    (p.1.resources.objects.flatMap fun o => (o.mesh.map (·.any)).getD []).countP fun e => match e with
      | .beamLattice _ => true
      | _ => false

/-- Files that were not written by this library: of several elements of extensions in a mesh only the first one is passed on. -/
theorem C92_foreign_false : latticesIn exEnv twoElements = some 1 ∧
    ((unmarshalModel noneEnv (fun _ s => s) twoElements .zero).bind fun p => latticesIn exEnv (saved 4 p.1)) = some 0 := by
  decide +kernel

end Go3mf
