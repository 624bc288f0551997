import Verif.Model.Package

/-!
# C72: a decoder can be used again

`Decode` opens the package anew, but does not clear `Decoder.nonRootModels`.  If a decoder is used for a second model, every
child part is therefore decoded twice, by two goroutines at the same time, into the same child model.
-/

namespace Go3mf

/-- What is left of the state of `processOPC` if the model is left out. -/
def OpcState.files (s : OpcState) : Option InFile × List InFile := (s.root, s.childs)

/-- The effect of a relationship of the root part on `nonRootModels`. -/
theorem extractRoot_files (env : Env) (o : Opc) (pk : InPkg) (f : InFile) : ∀ (rels : List Relationship) (m m0 : Model)
    (r r0 : Option InFile) (cs : List InFile),
    (rels.foldl (extractRoot env o pk f) ⟨m, r, cs⟩).root = r ∧
    (rels.foldl (extractRoot env o pk f) ⟨m, r, cs⟩).childs = cs ++ (rels.foldl (extractRoot env o pk f) ⟨m0, r0, []⟩).childs
  | [], _, _, _, _, _ => by simp
  | rel :: rels, m, m0, r, r0, cs => by
    simp only [List.foldl_cons, extractRoot]
    cases pk.find o f.name rel.path with
    | none => exact extractRoot_files env o pk f rels m m0 r r0 cs
    | some g =>
      simp only
      by_cases h : rel.type = relModel
      · simp only [if_pos h]
        have h1 := extractRoot_files env o pk f rels
          { m with childs := resetChild g.name m.childs } { m0 with childs := resetChild g.name m0.childs } r r0 (cs ++ [g])
        have h2 := extractRoot_files env o pk f rels
          { m0 with childs := resetChild g.name m0.childs } { m0 with childs := resetChild g.name m0.childs } r0 r0 ([] ++ [g])
        refine ⟨h1.1, ?_⟩
        rw [h1.2, h2.2]
        simp
      · simp only [if_neg h]
        exact extractRoot_files env o pk f rels _ _ r r0 cs

/-- Whether `processOPC` succeeds, which root file it finds, and which child files it adds, depends neither on the model nor on
what the decoder was used for. -/
theorem processRels_files (env : Env) (o : Opc) (pk : InPkg) : ∀ (rels : List Relationship) (m m0 : Model) (r : Option InFile)
    (cs ds : List InFile),
    match processRels env o pk ⟨m, r, cs ++ ds⟩ rels, processRels env o pk ⟨m0, r, ds⟩ rels with
    | some s, some s0 => s.root = s0.root ∧ s.childs = cs ++ s0.childs
    | none, none => True
    | _, _ => False
  | [], _, _, _, _, _ => by simp [processRels]
  | rel :: rels, m, m0, r, cs, ds => by
    simp only [processRels, processRel]
    cases pk.find o b!"/" rel.path with
    | none =>
      simp only
      by_cases h : rel.type = relModel
      · simp [if_pos h]
      · simp only [if_neg h, Option.bind_some]
        exact processRels_files env o pk rels m m0 r cs ds
    | some f =>
      simp only
      by_cases h : rel.type = relModel
      · simp only [if_pos h, Option.bind_some]
        have h1 := extractRoot_files env o pk f f.rels { m with path := f.name } m0 (some f) none (cs ++ ds)
        have h2 := extractRoot_files env o pk f f.rels { m0 with path := f.name } m0 (some f) none ds
        generalize f.rels.foldl (extractRoot env o pk f) ⟨{ m with path := f.name }, some f, cs ++ ds⟩ = s1 at h1 ⊢
        generalize f.rels.foldl (extractRoot env o pk f) ⟨{ m0 with path := f.name }, some f, ds⟩ = s2 at h2 ⊢
        obtain ⟨m1, r1, c1⟩ := s1
        obtain ⟨m2, r2, c2⟩ := s2
        simp only at h1 h2
        obtain ⟨rfl, rfl⟩ := h1
        obtain ⟨rfl, rfl⟩ := h2
        simp only [List.append_assoc]
        exact processRels_files env o pk rels _ _ (some f) cs _
      · simp only [if_neg h, Option.bind_some]
        exact processRels_files env o pk rels _ _ r cs ds

/-- A decoder that was used before finds the same root part as a new one, for any model, but decodes the child parts of all the
models for which it was used once more. -/
theorem C72_again (env : Env) (o : Opc) (pk : InPkg) (m m0 : Model) (used : List InFile) :
    (processOPCAgain env o pk m used).map (fun x => (x.2.1, x.2.2)) =
      (processOPC env o pk m0).map (fun x => (x.2.1, used ++ x.2.2)) := by
  have h := processRels_files env o pk pk.rels m m0 none used []
  rw [List.append_nil] at h
  unfold processOPCAgain processOPC
  revert h
  cases processRels env o pk ⟨m, none, used⟩ pk.rels <;> cases processRels env o pk ⟨m0, none, []⟩ pk.rels <;> intro h
  · rfl
  · exact h.elim
  · exact h.elim
  · rename_i s s0
    simp only at h ⊢
    obtain ⟨h1, h2⟩ := h
    rw [h1]
    cases s0.root with
    | none => rfl
    | some f => simp [h2]

/-- A new decoder. -/
theorem C72_new (env : Env) (o : Opc) (pk : InPkg) (m : Model) : processOPCAgain env o pk m [] = processOPC env o pk m := rfl

/-- A decoder that has been used for a package without child parts does what a new decoder does, and can be used again. -/
theorem C72_reuse_partial (env : Env) (o : Opc) (pk : InPkg) (m m1 m' : Model) (root : InFile) (fs : List InFile)
    (h : processOPC env o pk m = some (m1, root, fs)) (hn : fs = []) :
    processOPCAgain env o pk m' fs = processOPC env o pk m' ∧ ∃ m2, processOPC env o pk m' = some (m2, root, []) := by
  subst hn
  refine ⟨rfl, ?_⟩
  have := C72_again env o pk m' m []
  rw [h, C72_new] at this
  simp only [Option.map_some, List.nil_append] at this
  obtain ⟨x, hx, he⟩ := Option.map_eq_some_iff.1 this
  obtain ⟨m2, r, fs⟩ := x
  simp only [Prod.mk.injEq] at he
  obtain ⟨rfl, rfl⟩ := he
  exact ⟨m2, hx⟩

/-- A package without child parts. -/
example : ∃ m1 root, processOPC ⟨id, true, true, true, true⟩ ⟨id, fun _ p => p, fun _ _ _ => true⟩
    ⟨[⟨b!"/r.model", relModel, b!"0"⟩], [⟨b!"/r.model", contentTypeModel, [], some ([], .eof)⟩]⟩ Model.zero =
      some (m1, root, []) := ⟨_, _, rfl⟩

/-! ## The witness -/

/-- A library that does nothing to names. -/
def c72Opc : Opc := ⟨id, fun _ p => p, fun _ _ _ => true⟩

/-- A package with a root part and one child part. -/
def c72Child : InFile := ⟨b!"/c.model", contentTypeModel, [], some ([], .eof)⟩

/-- Its root part. -/
def c72Root : InFile := ⟨b!"/r.model", contentTypeModel, [⟨b!"/c.model", relModel, b!"1"⟩], some ([], .eof)⟩

/-- The package. -/
def c72Pkg : InPkg := ⟨[⟨b!"/r.model", relModel, b!"0"⟩], [c72Root, c72Child]⟩

theorem c72_new (env : Env) (m : Model) :
    (processOPC env c72Opc c72Pkg m).map (fun x => (x.2.1, x.2.2)) = some (c72Root, [c72Child]) := by
  rfl

/-- FALSE: a decoder that has decoded a model decodes the next one as a new decoder would. -/
theorem C72_reuse_false : ¬ ∀ (env : Env) (o : Opc) (pk : InPkg) (m m1 m' : Model) (root : InFile) (fs : List InFile),
    processOPC env o pk m = some (m1, root, fs) →
    (processOPCAgain env o pk m' fs).map (fun x => x.2.2) = (processOPC env o pk m').map (fun x => x.2.2) := by
  intro h
  have e := c72_new ⟨id, true, true, true, true⟩ Model.zero
  obtain ⟨⟨m1, r, fs⟩, hx, he⟩ := Option.map_eq_some_iff.1 e
  simp only [Prod.mk.injEq] at he
  obtain ⟨rfl, rfl⟩ := he
  have h1 := h _ _ _ _ _ Model.zero _ _ hx
  have h2 := congrArg (Option.map Prod.snd) (C72_again ⟨id, true, true, true, true⟩ c72Opc c72Pkg Model.zero Model.zero [c72Child])
  simp only [Option.map_map, Function.comp_def] at h2
  rw [h1, hx] at h2
  simp at h2

end Go3mf
