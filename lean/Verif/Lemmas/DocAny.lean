import Verif.Lemmas.DocExt

/-!
# Elements of any extension in a document
-/

namespace Go3mf
open Spec

/-! ## Elements that nobody knows -/

section
variable {cfg : DecCfg} {kept : Prop} {d : Dec} {n : Name} {T : List Token → Regs} {k : Kind}

mutual
/-- A node is kept as it is. -/
theorem runs_kept (hc : d.hasChild = false) (hm : ∀ l, d ≠ .metadata l) (hk : kept → ∀ i t, cfg.mem i t = t)
    (hf : k.isForeign = true) (hT : ∀ ts t, (T ts).addToken d t = T (ts ++ [t])) :
    ∀ (x : Node) (ts : List Token), Passed cfg.env kept k n x → Runs cfg d n (T ts) x.events (T (ts ++ x.tokens)) []
  | .elem m as c, ts, hp => by
    rw [Passed] at hp
    rw [Node.events, Node.tokens]
    have h1 : Runs cfg d n (T ts) [some (.start m as)] (T (ts ++ [.start m as])) [] := by
      refine Runs.single fun i idx st E => ?_
      simp [DState.step, DState.onStart, hc, hT]
    have h2 := runs_keptAll hc hm hk hf hT c (ts ++ [.start m as]) hp.2.2
    have h3 : Runs cfg d n (T (ts ++ [.start m as] ++ tokensOf c)) [some (.stop m)]
        (T (ts ++ [.start m as] ++ tokensOf c ++ [.stop m])) [] := by
      refine Runs.single fun i idx st E => ?_
      simp [DState.step, DState.onEnd, Ne.symm hp.2.1, hT]
    have := h1.append (h2.append h3)
    simpa using this
  | .text t, ts, hp => by
    rw [Passed] at hp
    rw [Node.events, Node.tokens]
    refine Runs.single fun i idx st E => ?_
    have hmem := hk (hp hf) i t
    cases d <;> first | exact absurd rfl (hm _) | simp [DState.step, DState.onChar, hT, hmem]
  | .other, ts, _ => by
    rw [Node.events, Node.tokens, List.append_nil]
    exact runs_other

theorem runs_keptAll (hc : d.hasChild = false) (hm : ∀ l, d ≠ .metadata l) (hk : kept → ∀ i t, cfg.mem i t = t)
    (hf : k.isForeign = true) (hT : ∀ ts t, (T ts).addToken d t = T (ts ++ [t])) :
    ∀ (c : List Node) (ts : List Token), PassedAll cfg.env kept k n c →
      Runs cfg d n (T ts) (treeEvents c) (T (ts ++ tokensOf c)) []
  | [], ts, _ => by rw [treeEvents, tokensOf, List.append_nil]; exact Runs.nil
  | x :: xs, ts, hp => by
    rw [PassedAll] at hp
    rw [treeEvents, tokensOf]
    have := (runs_kept hc hm hk hf hT x ts hp.1).append (runs_keptAll hc hm hk hf hT xs (ts ++ x.tokens) hp.2)
    simpa using this
end

end

theorem passed_of_ok {env : Env} {kept : Prop} {k : Kind} {n : Name} (h : ∀ m, childKind env k m = none) :
    ∀ c, ContentOk env kept k n c → PassedAll env kept k n c
  | [], _ => by rw [PassedAll]; trivial
  | x :: xs, hp => by
    rw [ContentOk] at hp
    rw [PassedAll]
    refine ⟨?_, passed_of_ok h xs hp.2⟩
    have hx := hp.1
    cases x with
    | elem m as c => rw [NodeOk, h m] at hx; rw [Passed]; exact ⟨h m, hx.2⟩
    | text t => rw [NodeOk] at hx; rw [Passed]; exact hx
    | other => rw [Passed]; trivial

/-! ## Elements of the extensions -/

/-- What an element of an extension becomes. -/
def extAny (k : Kind) (e : List Attr × List Node) : Option AnyElem :=
  match k with
  | .beamLattice => some (.beamLattice (beamLatticeOf e))
  | k => (extResOf k e).map .res

theorem load_mat {env : Env} {x : Ext} (h : env.load nsMaterials = some x) : x = .materials := by
  have h1 : nsMaterials ≠ nsProduction := by decide +kernel
  have h2 : nsMaterials ≠ nsSlices := by decide +kernel
  have h3 : nsMaterials ≠ nsBeam := by decide +kernel
  simp [Env.load, h1, h2, h3] at h
  exact h.2.symm

theorem load_slc {env : Env} {x : Ext} (h : env.load nsSlices = some x) : x = .slices := by
  have h1 : nsSlices ≠ nsProduction := by decide +kernel
  have h2 : nsSlices ≠ nsMaterials := by decide +kernel
  have h3 : nsSlices ≠ nsBeam := by decide +kernel
  simp [Env.load, h1, h2, h3] at h
  exact h.2.symm

theorem load_bml {env : Env} {x : Ext} (h : env.load nsBeam = some x) : x = .beamlattice := by
  have h1 : nsBeam ≠ nsProduction := by decide +kernel
  have h2 : nsBeam ≠ nsSlices := by decide +kernel
  have h3 : nsBeam ≠ nsMaterials := by decide +kernel
  simp [Env.load, h1, h2, h3] at h
  exact h.2.symm

/-- The elements that the extensions know. -/
theorem ext_reads {cfg : DecCfg} {kept : Prop} {m : Name} {k : Kind} {x : Ext} (loc : AnyLoc) (hx : cfg.env.load m.space = some x)
    (hm : extElements.lookup m = some k) :
    ∃ kd e0 of, newExtElement x m.loc = some (kd, e0) ∧ kd.isTop = true ∧ ReadsAs cfg loc kd k m e0 of kept ∧
      (∀ e, extAny k e = some (of e)) ∧
      (k ≠ .beamLattice → (∃ y, e0 = .res y) ∧ ∃ g : List Attr × List Node → ExtRes, (∀ e, of e = .res (g e)) ∧ ∀ e, extResOf k e = some (g e)) := by
  unfold extElements at hm
  simp only [nameLookup_if, List.lookup_nil] at hm
  split at hm
  · rename_i h; subst h; obtain rfl := Option.some.inj hm; obtain rfl := load_mat hx
    exact ⟨_, _, _, rfl, rfl, colorGroup_reads, fun _ => rfl, fun _ => ⟨⟨_, rfl⟩, _, fun _ => rfl, fun _ => rfl⟩⟩
  split at hm
  · rename_i h; subst h; obtain rfl := Option.some.inj hm; obtain rfl := load_mat hx
    exact ⟨_, _, _, rfl, rfl, texture2DGroup_reads, fun _ => rfl, fun _ => ⟨⟨_, rfl⟩, _, fun _ => rfl, fun _ => rfl⟩⟩
  split at hm
  · rename_i h; subst h; obtain rfl := Option.some.inj hm; obtain rfl := load_mat hx
    exact ⟨_, _, _, rfl, rfl, texture2D_reads, fun _ => rfl, fun _ => ⟨⟨_, rfl⟩, _, fun _ => rfl, fun _ => rfl⟩⟩
  split at hm
  · rename_i h; subst h; obtain rfl := Option.some.inj hm; obtain rfl := load_mat hx
    exact ⟨_, _, _, rfl, rfl, compositeMaterials_reads, fun _ => rfl, fun _ => ⟨⟨_, rfl⟩, _, fun _ => rfl, fun _ => rfl⟩⟩
  split at hm
  · rename_i h; subst h; obtain rfl := Option.some.inj hm; obtain rfl := load_mat hx
    exact ⟨_, _, _, rfl, rfl, multiProperties_reads, fun _ => rfl, fun _ => ⟨⟨_, rfl⟩, _, fun _ => rfl, fun _ => rfl⟩⟩
  split at hm
  · rename_i h; subst h; obtain rfl := Option.some.inj hm; obtain rfl := load_slc hx
    exact ⟨_, _, _, rfl, rfl, sliceStack_reads, fun _ => rfl, fun _ => ⟨⟨_, rfl⟩, _, fun _ => rfl, fun _ => rfl⟩⟩
  split at hm
  · rename_i h; subst h; obtain rfl := Option.some.inj hm; obtain rfl := load_bml hx
    exact ⟨_, _, _, rfl, rfl, beamLattice_reads, fun _ => rfl, fun h => absurd rfl h⟩
  · exact absurd hm (by simp)

theorem load_spaces {env : Env} {ns : Str} {x : Ext} (h : env.load ns = some x) :
    (x = .production ∧ ns = nsProduction) ∨ (x = .slices ∧ ns = nsSlices) ∨ (x = .beamlattice ∧ ns = nsBeam) ∨
      (x = .materials ∧ ns = nsMaterials) := by
  unfold Env.load at h
  split at h
  · rename_i h'; simp_all
  split at h
  · rename_i h'; simp_all
  split at h
  · rename_i h'; simp_all
  split at h
  · rename_i h'; simp_all
  · simp at h

/-- The elements that the extensions do not know. -/
theorem ext_unknown {env : Env} {m : Name} {x : Ext} (hx : env.load m.space = some x) (hm : extElements.lookup m = none) :
    newExtElement x m.loc = none := by
  obtain ⟨s, l⟩ := m
  have hn : ∀ p ∈ extElements, p.1 ≠ ⟨s, l⟩ := by
    intro p hp e
    rw [List.lookup_eq_none_iff] at hm
    have := hm p hp
    rw [e] at this
    simp at this
  rcases load_spaces hx with ⟨rfl, h⟩ | ⟨rfl, h⟩ | ⟨rfl, h⟩ | ⟨rfl, h⟩ <;> simp only at h <;> subst h
  · rfl
  · rw [newExtElement, if_neg]
    rintro rfl
    exact hn (slc b!"slicestack", .sliceStack) (by simp [extElements]) rfl
  · rw [newExtElement, if_neg]
    rintro rfl
    exact hn (bml b!"beamlattice", .beamLattice) (by simp [extElements]) rfl
  · rw [newExtElement, if_neg, if_neg, if_neg, if_neg, if_neg]
    · rintro rfl
      exact hn (mat b!"multiproperties", .multiProperties) (by simp [extElements]) rfl
    · rintro rfl
      exact hn (mat b!"compositematerials", .compositeMaterials) (by simp [extElements]) rfl
    · rintro rfl
      exact hn (mat b!"texture2d", .texture2D) (by simp [extElements]) rfl
    · rintro rfl
      exact hn (mat b!"texture2dgroup", .texture2DGroup) (by simp [extElements]) rfl
    · rintro rfl
      exact hn (mat b!"colorgroup", .colorGroup) (by simp [extElements]) rfl

end Go3mf
