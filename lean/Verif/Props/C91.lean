import Verif.Lemmas.CoreOf
import Verif.Props.C24

/-!
# C91: the core content does not depend on the registered extensions

Whether an extension is registered decides what becomes of its elements and attributes.  It should not decide what becomes
of the objects, meshes, components, items, base materials and metadata of the core.

* `C91_skipped_false`: it does.  If the extension is registered, an element of its name space that it does not know is
  skipped without its content, and the content is read as if it were not enclosed; if it is not registered, the element is
  kept with its content.
* `C91_core_partial`: it does not for a document with one `model` element, its root, in which no element of the core is inside
  an element of another name space.
-/

namespace Go3mf
namespace Spec

/-- The root element. -/
def modelName : Name := ⟨nsCore, b!"model"⟩

/-- The root is the only `model` element (`b` tells that it has been seen, `st` are the open elements), and the elements of
the core are only in elements of the core. -/
def Separate : Bool → List Name → List (Option Event) → Prop
  | _, _, [] => True
  | b, st, some (.start n _) :: evs =>
    (if st = [] then b = false ∧ n = modelName else n ≠ modelName) ∧
    (n.space = nsCore → ∀ m ∈ st, m.space = nsCore) ∧ Separate true (n :: st) evs
  | b, st, some (.stop _) :: evs => Separate b st.tail evs
  | b, st, _ :: evs => Separate b st evs

instance decSeparate : ∀ (evs : List (Option Event)) (b : Bool) (st : List Name), Decidable (Separate b st evs)
  | [], _, _ => isTrue trivial
  | some (.start n as) :: evs, b, st => by
    have := decSeparate evs true (n :: st)
    unfold Separate
    infer_instance
  | some (.stop n) :: evs, b, st => by
    have := decSeparate evs b st.tail
    unfold Separate
    infer_instance
  | some (.chars n) :: evs, b, st => by
    have := decSeparate evs b st
    unfold Separate
    infer_instance
  | none :: evs, b, st => by
    have := decSeparate evs b st
    unfold Separate
    infer_instance

end Spec

open Spec

/-! ## One run -/

/-- The decoders and names on the stack. -/
def frames (s : DState) : List (Dec × Name) := s.stack.map fun f => (f.dec, f.name)

/-- The stack consists of decoders of elements that are not of the core, among the open ones `eo`, on top of `base`. -/
def Side (base : List (Dec × Name)) (eo : List Name) (s : DState) : Prop :=
  ∃ e, frames s = e ++ base ∧ (∀ f ∈ e, f.1.isExt = true ∧ f.2.space ≠ nsCore) ∧ (e.map (·.2)).Sublist eo ∧
    (e ++ base).head? = some (s.cur, s.curName) ∧ (∀ f, base.head? = some f → f.1.hasChild = false → e = [])

/-- The decoders of the core. -/
def CoreFrames (base : List (Dec × Name)) : Prop := base ≠ [] ∧ ∀ f ∈ base, f.1.isExt = false ∧ f.2.space = nsCore

theorem side_start {base : List (Dec × Name)} {eo : List Name} {s s' : DState} {cfg : DecCfg} {n : Name} {as : List Attr}
    (hs : Side base eo s) (hn : n.space ≠ nsCore) (h : s.onStart cfg n as = some s') :
    Side base (n :: eo) s' ∧ CoreEq s'.regs s.regs := by
  obtain ⟨e, h1, h2, h3, h4, h5⟩ := hs
  unfold DState.onStart at h
  split at h
  · rename_i hc
    cases hch : child cfg s.regs s.cur n with
    | none => simp [hch] at h
    | some p =>
      obtain ⟨r, o⟩ := p
      obtain ⟨k1, k2⟩ := child_ext_core hn hch
      cases o with
      | none =>
        simp only [hch, Option.some.injEq] at h
        rw [← h]
        exact ⟨⟨e, h1, h2, h3.trans (List.sublist_cons_self n eo), h4, h5⟩, k1⟩
      | some q =>
        obtain ⟨i, d⟩ := q
        simp only [hch] at h
        cases hst : start cfg r d as with
        | none => simp [hst] at h
        | some q =>
          obtain ⟨r', er⟩ := q
          simp only [hst, Option.some.injEq] at h
          have hd := k2 i d rfl
          rw [← h]
          refine ⟨⟨(d, n) :: e, ?_, ?_, ?_, ?_, ?_⟩, (start_ext_core hd hst).trans k1⟩
          · simpa [frames] using h1
          · intro f hf
            rcases List.mem_cons.1 hf with rfl | hf
            · exact ⟨hd, hn⟩
            · exact h2 f hf
          · simpa using h3
          · simp
          · intro f hf hcf
            have he := h5 f hf hcf
            subst he
            rw [List.nil_append, hf, Option.some.injEq] at h4
            rw [h4] at hcf
            simp only at hcf
            rw [hcf] at hc
            simp at hc
  · simp only [Option.some.injEq] at h
    rw [← h]
    exact ⟨⟨e, h1, h2, h3.trans (List.sublist_cons_self n eo), h4, h5⟩, addToken_core _ _ _⟩

theorem side_stop {base : List (Dec × Name)} (hb : CoreFrames base) {eo : List Name} {s s' : DState} {n : Name}
    (hs : Side base (n :: eo) s) (hn : n.space ≠ nsCore) (h : s.onEnd n = some s') :
    Side base eo s' ∧ CoreEq s'.regs s.regs := by
  obtain ⟨e, h1, h2, h3, h4, h5⟩ := hs
  obtain ⟨hb1, hb2⟩ := hb
  unfold DState.onEnd at h
  cases e with
  | nil =>
    have hne : s.curName ≠ n := by
      rintro rfl
      rw [List.nil_append] at h4
      exact hn (hb2 _ (List.mem_of_mem_head? h4)).2
    rw [if_neg hne] at h
    simp only [Option.some.injEq] at h
    rw [← h]
    exact ⟨⟨[], h1, h2, by simp, h4, h5⟩, addToken_core _ _ _⟩
  | cons f e =>
    have hf : f = (s.cur, s.curName) := by simpa using h4
    have hd : s.cur.isExt = true := by
      have := (h2 f (List.mem_cons_self)).1
      rw [hf] at this
      exact this
    split at h
    · rename_i hc
      cases hst : s.stack with
      | nil => simp [frames, hst] at h1
      | cons a st =>
        cases st with
        | nil =>
          simp only [frames, hst, List.map_cons, List.map_nil, List.cons_append, List.cons.injEq] at h1
          have := h1.2.symm
          simp only [List.append_eq_nil_iff] at this
          exact absurd this.2 hb1
        | cons g st =>
          simp only [hst, Option.some.injEq] at h
          simp only [frames, hst, List.map_cons, List.cons_append, List.cons.injEq] at h1
          rw [← h]
          refine ⟨⟨e, ?_, fun f hf => h2 f (List.mem_cons_of_mem _ hf), ?_, ?_, ?_⟩, stop_ext_core hd⟩
          · simpa [frames] using h1.2
          · rw [hf, hc] at h3
            simpa using h3
          · rw [← h1.2]
            rfl
          · intro f' hf' hcf
            exact absurd (h5 f' hf' hcf) (by simp)
    · rename_i hc
      simp only [Option.some.injEq] at h
      rw [← h]
      refine ⟨⟨f :: e, h1, h2, ?_, h4, h5⟩, addToken_core _ _ _⟩
      simp only [List.map_cons] at h3 ⊢
      rcases List.sublist_cons_iff.1 h3 with h6 | ⟨r, h6, _⟩
      · exact h6
      · simp only [List.cons.injEq] at h6
        rw [hf] at h6
        exact absurd h6.1 hc

/-! ## Two runs -/

/-- Two runs of the decoder, with different extensions, on the same document. -/
inductive TwoRuns : Bool → List Name → DState → DState → Prop where
  | before {s t : DState} (h : CoreEq s.regs t.regs) (hs : s.stack = []) (ht : t.stack = []) (cs : s.cur = .top)
      (ct : t.cur = .top) : TwoRuns false [] s t
  | inside {s t : DState} {eo co l : List Name} {base : List (Dec × Name)} (h : CoreEq s.regs t.regs)
      (he : ∀ n ∈ eo, n.space ≠ nsCore) (hb : CoreFrames base) (hl : base.getLast? = some (.model, modelName))
      (hc : (base.map (·.2)).Sublist co) (hco : co = l ++ [modelName]) (hm : modelName ∉ l)
      (hs : Side base eo s) (ht : Side base eo t) : TwoRuns true (eo ++ co) s t
  | after {s t : DState} (h : CoreEq s.regs t.regs) (cs : s.cur = .model) (ct : t.cur = .model) : TwoRuns true [] s t

theorem TwoRuns.core {b : Bool} {st : List Name} {s t : DState} (h : TwoRuns b st s t) : CoreEq s.regs t.regs := by
  cases h <;> assumption

/-- A start tag of the core. -/
theorem onStart_rel {cfg cfg' : DecCfg} (hr : cfg.isRoot = cfg'.isRoot) {s t s' t' : DState} {n : Name} {as : List Attr}
    (hn : n.space = nsCore) (hcur : s.cur = t.cur) (hd : s.cur.isExt = false) (h : CoreEq s.regs t.regs)
    (hf : s.onStart cfg n as = some s') (hg : t.onStart cfg' n as = some t') :
    CoreEq s'.regs t'.regs ∧ ((frames s' = frames s ∧ frames t' = frames t ∧ s'.cur = s.cur ∧ t'.cur = t.cur ∧
        s'.curName = s.curName ∧ t'.curName = t.curName) ∨
      ∃ d, d.isExt = false ∧ frames s' = (d, n) :: frames s ∧ frames t' = (d, n) :: frames t ∧ s'.cur = d ∧ t'.cur = d ∧
        s'.curName = n ∧ t'.curName = n ∧ ∃ i r, child cfg s.regs s.cur n = some (r, some (i, d))) := by
  unfold DState.onStart at hf hg
  rw [← hcur] at hg
  split at hf
  · rename_i hc
    rw [if_pos hc] at hg
    cases h1 : child cfg s.regs s.cur n with
    | none => simp [h1] at hf
    | some p =>
      cases h2 : child cfg' t.regs s.cur n with
      | none => simp [h2] at hg
      | some q =>
        obtain ⟨r1, o1⟩ := p
        obtain ⟨r2, o2⟩ := q
        obtain ⟨k1, k2, k3⟩ := child_rel hr hn hd h h1 h2
        cases o1 with
        | none =>
          cases o2 with
          | some y => simp at k2
          | none =>
            simp only [h1, h2, Option.some.injEq] at hf hg
            rw [← hf, ← hg]
            exact ⟨k1, .inl ⟨rfl, rfl, rfl, hcur, rfl, rfl⟩⟩
        | some x =>
          cases o2 with
          | none => simp at k2
          | some y =>
            obtain ⟨i, d⟩ := x
            obtain ⟨j, d2⟩ := y
            simp only [Option.map_some, Option.some.injEq] at k2
            subst k2
            simp only [h1, h2] at hf hg
            cases h3 : start cfg r1 d as with
            | none => simp [h3] at hf
            | some p =>
              cases h4 : start cfg' r2 d as with
              | none => simp [h4] at hg
              | some q =>
                obtain ⟨r3, e3⟩ := p
                obtain ⟨r4, e4⟩ := q
                simp only [h3, h4, Option.some.injEq] at hf hg
                rw [← hf, ← hg]
                exact ⟨start_rel hr (k3 i d rfl) k1 h3 h4, .inr ⟨d, k3 i d rfl, rfl, rfl, rfl, rfl, rfl, rfl, i, r1, rfl⟩⟩
  · rename_i hc
    rw [if_neg hc] at hg
    simp only [Option.some.injEq] at hf hg
    rw [← hf, ← hg]
    rw [addToken_not_ext hd, addToken_not_ext hd]
    exact ⟨h, .inl ⟨rfl, rfl, rfl, hcur, rfl, rfl⟩⟩

/-- With no open element but those of the core, the runs are at the same place. -/
theorem side_nil {base : List (Dec × Name)} {s : DState} (h : Side base [] s) :
    frames s = base ∧ base.head? = some (s.cur, s.curName) := by
  obtain ⟨e, h1, _, h3, h4, _⟩ := h
  have : e = [] := by simpa using h3
  subst this
  exact ⟨h1, h4⟩

theorem side_of_nil {base : List (Dec × Name)} {s : DState} (h1 : frames s = base)
    (h2 : base.head? = some (s.cur, s.curName)) : Side base [] s :=
  ⟨[], h1, by simp, by simp, h2, by simp⟩

theorem runs_start {cfg cfg' : DecCfg} (hr : cfg.isRoot = cfg'.isRoot) {b : Bool} {st : List Name} {s t s' t' : DState}
    {n : Name} {as : List Attr} (h : TwoRuns b st s t) (h1 : if st = [] then b = false ∧ n = modelName else n ≠ modelName)
    (h2 : n.space = nsCore → ∀ m ∈ st, m.space = nsCore) (hf : s.onStart cfg n as = some s')
    (hg : t.onStart cfg' n as = some t') : TwoRuns true (n :: st) s' t' := by
  cases h with
  | before h hs ht cs ct =>
    simp only [if_true, true_and] at h1
    subst h1
    obtain ⟨k1, k2⟩ := onStart_rel hr rfl (cs.trans ct.symm) (by rw [cs]; rfl) h hf hg
    have hch : child cfg s.regs .top modelName = some (s.regs, some (-1, .model)) := by
      simp [child, onlyChild, modelName]
    rcases k2 with k2 | ⟨d, hd, f1, f2, c1, c2, n1, n2, i, r, hi⟩
    · exfalso
      unfold DState.onStart at hf
      rw [cs, if_pos (by rfl), hch] at hf
      simp only at hf
      cases h3 : start cfg s.regs .model as with
      | none => simp [h3] at hf
      | some p =>
        simp only [h3, Option.some.injEq] at hf
        have := k2.1
        rw [← hf] at this
        simp [frames, hs] at this
    · rw [cs, hch] at hi
      simp only [Option.some.injEq, Prod.mk.injEq] at hi
      obtain ⟨_, _, rfl⟩ := hi
      refine TwoRuns.inside (eo := []) (co := [modelName]) (l := []) (base := [(.model, modelName)]) k1 (by simp) ⟨by simp, ?_⟩ rfl
        (by simp) rfl (by simp) (side_of_nil ?_ ?_) (side_of_nil ?_ ?_)
      · intro f hf
        simp only [List.mem_singleton] at hf
        rw [hf]
        exact ⟨rfl, rfl⟩
      · rw [f1]; simp [frames, hs]
      · simp [c1, n1]
      · rw [f2]; simp [frames, ht]
      · simp [c2, n2]
  | @inside _ _ eo co l base h he hb hl hc hco hm hs ht =>
    have hne : n ≠ modelName := by
      rw [if_neg (by simp [hco])] at h1
      exact h1
    by_cases hn : n.space = nsCore
    · have heo : eo = [] := by
        cases eo with
        | nil => rfl
        | cons a eo => exact absurd (h2 hn a (by simp)) (he a (by simp))
      subst heo
      obtain ⟨s1, s2⟩ := side_nil hs
      obtain ⟨t1, t2⟩ := side_nil ht
      have hst : (s.cur, s.curName) = (t.cur, t.curName) := by
        rw [s2] at t2
        exact Option.some.inj t2
      simp only [Prod.mk.injEq] at hst
      have hd : s.cur.isExt = false := (hb.2 _ (List.mem_of_mem_head? s2)).1
      obtain ⟨k1, k2⟩ := onStart_rel hr hn hst.1 hd h hf hg
      rw [List.nil_append]
      have hm' : modelName ∉ n :: l := by
        simp only [List.mem_cons, not_or]
        exact ⟨fun h => hne h.symm, hm⟩
      rcases k2 with ⟨f1, f2, c1, c2, n1, n2⟩ | ⟨d, hdx, f1, f2, c1, c2, n1, n2, _⟩
      · refine TwoRuns.inside (eo := []) (co := n :: co) (l := n :: l) (base := base) k1 (by simp) hb hl
          (hc.trans (List.sublist_cons_self n co)) (by simp [hco]) hm' (side_of_nil ?_ ?_) (side_of_nil ?_ ?_)
        · rw [f1, s1]
        · rw [c1, n1, s2]
        · rw [f2, t1]
        · rw [c2, n2, t2]
      · refine TwoRuns.inside (eo := []) (co := n :: co) (l := n :: l) (base := (d, n) :: base) k1 (by simp) ⟨by simp, ?_⟩ ?_
          (by simpa using hc) (by simp [hco]) hm' (side_of_nil ?_ ?_) (side_of_nil ?_ ?_)
        · intro f hf
          rcases List.mem_cons.1 hf with rfl | hf
          · exact ⟨hdx, hn⟩
          · exact hb.2 f hf
        · rw [List.getLast?_cons, hl]
          rfl
        · rw [f1, s1]
        · simp [c1, n1]
        · rw [f2, t1]
        · simp [c2, n2]
    · obtain ⟨k1, k2⟩ := side_start hs hn hf
      obtain ⟨k3, k4⟩ := side_start ht hn hg
      refine TwoRuns.inside (eo := n :: eo) (co := co) ((k2.trans h).trans k4.symm) ?_ hb hl hc hco hm k1 k3
      intro x hx
      rcases List.mem_cons.1 hx with rfl | hx
      · exact hn
      · exact he x hx
  | after h cs ct => simp at h1

theorem runs_stop {b : Bool} {n : Name} {st : List Name} {s t s' t' : DState} (h : TwoRuns b (n :: st) s t)
    (hf : s.onEnd n = some s') (hg : t.onEnd n = some t') : TwoRuns b st s' t' := by
  generalize hstk : n :: st = stk at h
  cases h with
  | before => simp at hstk
  | after => simp at hstk
  | @inside _ _ eo co l base h he hb hl hc hco hm hs ht =>
    cases eo with
    | cons a eo =>
      simp only [List.cons_append, List.cons.injEq] at hstk
      obtain ⟨rfl, rfl⟩ := hstk
      have hn := he n (by simp)
      obtain ⟨k1, k2⟩ := side_stop hb hs hn hf
      obtain ⟨k3, k4⟩ := side_stop hb ht hn hg
      exact TwoRuns.inside ((k2.trans h).trans k4.symm) (fun x hx => he x (by simp [hx])) hb hl hc hco hm k1 k3
    | nil =>
      rw [List.nil_append] at hstk
      subst hstk
      obtain ⟨s1, s2⟩ := side_nil hs
      obtain ⟨t1, t2⟩ := side_nil ht
      have hst : (s.cur, s.curName) = (t.cur, t.curName) := by
        rw [s2] at t2
        exact Option.some.inj t2
      simp only [Prod.mk.injEq] at hst
      have hd : s.cur.isExt = false := (hb.2 _ (List.mem_of_mem_head? s2)).1
      cases base with
      | nil => exact absurd rfl hb.1
      | cons f base =>
        have hfc : f = (s.cur, s.curName) := by simpa using s2
        cases hss : s.stack with
        | nil => simp [frames, hss] at s1
        | cons a ss =>
        cases htt : t.stack with
        | nil => simp [frames, htt] at t1
        | cons c tt =>
        simp only [frames, hss, htt, List.map_cons, List.cons.injEq] at s1 t1
        by_cases hc' : s.curName = n
        · unfold DState.onEnd at hf hg
          rw [if_pos hc', hss] at hf
          rw [← hst.2, if_pos hc', htt] at hg
          cases base with
          | nil =>
            have hs0 : ss = [] := by simpa using s1.2
            have ht0 : tt = [] := by simpa using t1.2
            subst hs0
            subst ht0
            simp only [Option.some.injEq] at hf hg
            have hfm : f = (.model, modelName) := by simpa using hl
            have hnm : n = modelName := by
              rw [hfm] at hfc
              simp only [Prod.mk.injEq] at hfc
              rw [← hc', hfc.2]
            have hst0 : st = [] := by
              cases l with
              | nil => simp at hco; exact hco.2
              | cons x l =>
                simp only [List.cons_append, List.cons.injEq] at hco
                exact absurd (by simp [← hco.1, hnm]) hm
            subst hst0
            have hcm : s.cur = .model := by
              rw [hfm] at hfc
              simp only [Prod.mk.injEq] at hfc
              exact hfc.1.symm
            rw [← hf, ← hg]
            exact TwoRuns.after (by rw [← hst.1]; exact stop_rel hd h) hcm (by simp [← hst.1, hcm])
          | cons g base =>
            cases ss with
            | nil => simp at s1
            | cons a' ss =>
            cases tt with
            | nil => simp at t1
            | cons c' tt =>
            simp only [Option.some.injEq] at hf hg
            simp only [List.map_cons, List.cons.injEq] at s1 t1
            have hl' : l ≠ [] := by
              rintro rfl
              simp only [List.nil_append] at hco
              rw [hco] at hc
              have := hc.length_le
              simp at this
            obtain ⟨x, l', rfl⟩ := List.exists_cons_of_ne_nil hl'
            simp only [List.cons_append, List.cons.injEq] at hco
            have hsub : ((g :: base).map (·.2)).Sublist st := by
              simp only [List.map_cons] at hc ⊢
              rw [hfc, hc'] at hc
              simpa using hc
            rw [← hf, ← hg]
            refine TwoRuns.inside (eo := []) (co := st) (l := l') (base := g :: base) (by rw [← hst.1]; exact stop_rel hd h) (by simp)
              ⟨by simp, fun y hy => hb.2 y (by simp at hy ⊢; tauto)⟩ ?_ hsub hco.2 (fun hx => hm (by simp [hx]))
              (side_of_nil ?_ ?_) (side_of_nil ?_ ?_)
            · simpa using hl
            · simp [frames, s1.2.1, s1.2.2]
            · simp [← s1.2.1]
            · simp [frames, t1.2.1, t1.2.2]
            · simp [← t1.2.1]
        · unfold DState.onEnd at hf hg
          rw [if_neg hc'] at hf
          rw [← hst.2, if_neg hc'] at hg
          simp only [Option.some.injEq] at hf hg
          rw [addToken_not_ext hd] at hf
          rw [← hst.1, addToken_not_ext hd] at hg
          have hsub : ((f :: base).map (·.2)).Sublist st := by
            simp only [List.map_cons] at hc ⊢
            rcases List.sublist_cons_iff.1 hc with h6 | ⟨r, h6, _⟩
            · exact h6
            · simp only [List.cons.injEq] at h6
              rw [hfc] at h6
              exact absurd h6.1 hc'
          cases l with
          | nil =>
            simp only [List.nil_append, List.cons.injEq] at hco
            rw [hco.2] at hsub
            simp at hsub
          | cons x l =>
            simp only [List.cons_append, List.cons.injEq] at hco
            rw [← hf, ← hg]
            exact TwoRuns.inside (eo := []) (co := st) (l := l) (base := f :: base) h (by simp) hb hl hsub hco.2
              (fun hx => hm (by simp [hx])) hs (side_of_nil (by simp [frames, htt, t1]) (by simp [hfc]))

theorem runs_char {cfg cfg' : DecCfg} {b : Bool} {st : List Name} {s t : DState} (h : TwoRuns b st s t) (i : Nat) (x : Str) :
    TwoRuns b st (s.onChar cfg i x) (t.onChar cfg' i x) := by
  have hplain : ∀ (cfg : DecCfg) (s : DState), (∀ l, s.cur ≠ .metadata l) →
      s.onChar cfg i x = { s with regs := s.regs.addToken s.cur (.chars (cfg.mem i x)) } := by
    intro cfg s hs
    unfold DState.onChar
    split
    · rename_i l hl
      exact absurd hl (hs l)
    · rfl
  cases h with
  | before h hs ht cs ct =>
    rw [hplain cfg s (by simp [cs]), hplain cfg' t (by simp [ct])]
    exact TwoRuns.before ((addToken_core _ _ _).trans (h.trans (addToken_core _ _ _).symm)) hs ht cs ct
  | after h cs ct =>
    rw [hplain cfg s (by simp [cs]), hplain cfg' t (by simp [ct])]
    exact TwoRuns.after ((addToken_core _ _ _).trans (h.trans (addToken_core _ _ _).symm)) cs ct
  | @inside _ _ eo co l base h he hb hl hc hco hm hs ht =>
    by_cases hmd : ∃ f l, base.head? = some f ∧ f.1 = .metadata l
    · obtain ⟨f, ml, hf1, hf2⟩ := hmd
      have key : ∀ (cfg : DecCfg) (s : DState), Side base eo s →
          s.onChar cfg i x = { s with regs := { s.regs with md := { s.regs.md with value := x } } } := by
        intro cfg s hs
        obtain ⟨e, _, _, _, h4, h5⟩ := hs
        have he := h5 f hf1 (by rw [hf2]; rfl)
        subst he
        rw [List.nil_append, hf1, Option.some.injEq] at h4
        have : s.cur = .metadata ml := by rw [← hf2, h4]
        unfold DState.onChar
        rw [this]
      rw [key cfg s hs, key cfg' t ht]
      exact TwoRuns.inside ⟨h.model, h.res, by simp [h.md], h.item, h.base, h.obj⟩ he hb hl hc hco hm hs ht
    · have key : ∀ (cfg : DecCfg) (s : DState), Side base eo s →
          s.onChar cfg i x = { s with regs := s.regs.addToken s.cur (.chars (cfg.mem i x)) } := by
        intro cfg s hs
        refine hplain cfg s ?_
        intro ml hml
        obtain ⟨e, _, h2, _, h4, _⟩ := hs
        cases e with
        | nil =>
          rw [List.nil_append] at h4
          exact hmd ⟨_, ml, h4, hml⟩
        | cons f e =>
          have hf : f = (s.cur, s.curName) := by simpa using h4
          have := (h2 f (by simp)).1
          rw [hf, hml] at this
          simp [Dec.isExt] at this
      rw [key cfg s hs, key cfg' t ht]
      exact TwoRuns.inside ((addToken_core _ _ _).trans (h.trans (addToken_core _ _ _).symm)) he hb hl hc hco hm hs ht

theorem runs_tokens {cfg cfg' : DecCfg} (hr : cfg.isRoot = cfg'.isRoot) (done : Nat → Bool) (fin : LexErr) :
    ∀ (evs : List (Option Event)) (i : Nat) (b : Bool) (st : List Name) (s t s' t' : DState) (e e' : LoopEnd),
    Separate b st evs → (openAfter st evs).isSome → TwoRuns b st s t →
    runTokens cfg false done fin i s evs = some (s', e) → runTokens cfg' false done fin i t evs = some (t', e') →
    CoreEq s'.regs t'.regs ∧ e = e'
  | [], i, b, st, s, t, s', t', e, e', _, _, h, hf, hg => by
    simp only [runTokens, Option.some.injEq, Prod.mk.injEq] at hf hg
    rw [← hf.1, ← hg.1, ← hf.2, ← hg.2]
    exact ⟨h.core, rfl⟩
  | ev :: evs, i, b, st, s, t, s', t', e, e', hsep, hop, h, hf, hg => by
    simp only [runTokens, Bool.false_and, Bool.false_eq_true, if_false] at hf hg
    cases h1 : s.step cfg i ev with
    | none => simp [h1] at hf
    | some s1 =>
      cases h2 : t.step cfg' i ev with
      | none => simp [h2] at hg
      | some t1 =>
        simp only [h1, h2] at hf hg
        have key : ∃ b' st', Separate b' st' evs ∧ (openAfter st' evs).isSome ∧ TwoRuns b' st' s1 t1 := by
          cases ev with
          | none =>
            simp only [DState.step, Option.some.injEq] at h1 h2
            subst h1
            subst h2
            exact ⟨b, st, hsep, hop, h⟩
          | some ev =>
            cases ev with
            | start n as =>
              simp only [Separate] at hsep
              exact ⟨true, n :: st, hsep.2.2, hop, runs_start hr h hsep.1 hsep.2.1 h1 h2⟩
            | stop n =>
              cases st with
              | nil => simp [openAfter] at hop
              | cons m st =>
                simp only [openAfter] at hop
                split at hop
                · rename_i hnm
                  subst hnm
                  exact ⟨b, st, hsep, hop, runs_stop h h1 h2⟩
                · simp at hop
            | chars x =>
              simp only [DState.step, Option.some.injEq] at h1 h2
              subst h1
              subst h2
              exact ⟨b, st, hsep, hop, runs_char h i x⟩
        obtain ⟨b', st', k1, k2, k3⟩ := key
        split at hf
        · rename_i hd
          rw [if_pos hd] at hg
          simp only [Option.some.injEq, Prod.mk.injEq] at hf hg
          rw [← hf.1, ← hg.1, ← hf.2, ← hg.2]
          exact ⟨k3.core, rfl⟩
        · rename_i hd
          rw [if_neg hd] at hg
          exact runs_tokens hr done fin evs (i + 1) b' st' s1 t1 s' t' e e' k1 k2 k3 hf hg

/-! ## The property -/

/-- Whatever extensions are registered, in a root part or another part, and whatever becomes of the text of unknown elements:
if two runs of the decoder return, they leave the same core content. -/
theorem C91_core_partial (cfg cfg' : DecCfg) (hr : cfg.isRoot = cfg'.isRoot) (done : Nat → Bool) (fin : LexErr) (doc path : Str)
    (m : Model) (hsep : Separate false [] (lex fin (.new doc)).1) {m1 m2 : Model} {r1 r2 : DecodeResult}
    (h1 : decodeEvents cfg false done m path (lex fin (.new doc)).1 (lex fin (.new doc)).2 = some (m1, r1))
    (h2 : decodeEvents cfg' false done m path (lex fin (.new doc)).1 (lex fin (.new doc)).2 = some (m2, r2)) :
    coreModel m1 = coreModel m2 := by
  obtain ⟨p, hp, hp'⟩ := map_some h1
  obtain ⟨q, hq, hq'⟩ := map_some h2
  simp only [Prod.mk.injEq] at hp' hq'
  obtain ⟨st, hst, _⟩ := C24_balanced fin doc
  have := runs_tokens hr done _ _ 0 false [] _ _ p.1 q.1 p.2 q.2 hsep (by rw [hst]; rfl)
    (TwoRuns.before (CoreEq.refl _) rfl rfl rfl rfl) hp hq
  rw [← hp'.1, ← hq'.1]
  exact result_core this.1 path

/-- No extension registered, and all. -/
def noneEnv : Env := ⟨id, false, false, false, false⟩
def allEnv : Env := ⟨id, true, true, true, true⟩

/-- A document with a slice stack, a colour group with an unknown element, and attributes of the production extension. -/
def mixedDoc : Str :=
  b!"<model xmlns='http://schemas.microsoft.com/3dmanufacturing/core/2015/02' xmlns:s='http://schemas.microsoft.com/3dmanufacturing/slice/2015/07' xmlns:p='http://schemas.microsoft.com/3dmanufacturing/production/2015/06' xmlns:m='http://schemas.microsoft.com/3dmanufacturing/material/2015/02'><resources><s:slicestack id='1'><s:slice ztop='1'/></s:slicestack><m:colorgroup id='2'><m:x><m:color color='#FFFFFF'/></m:x></m:colorgroup><object id='3' s:slicestackid='1'><mesh><vertices><vertex x='1'/></vertices></mesh></object></resources><build><item objectid='3' p:path='/a'/></build></model>"

/-- The document meets the hypothesis, both runs return, and the models differ although their core content is the same. -/
example : Separate false [] (lex .eof (.new mixedDoc)).1 ∧
    ((unmarshalModel noneEnv (fun _ s => s) mixedDoc .zero).map fun p =>
      (p.1.resources.assets.length, p.1.resources.objects.length, p.1.build.items.length)) = some (2, 1, 1) ∧
    ((unmarshalModel allEnv (fun _ s => s) mixedDoc .zero).map fun p =>
      (p.1.resources.assets.length, p.1.resources.objects.length, p.1.build.items.length)) = some (2, 1, 1) ∧
    ((unmarshalModel noneEnv (fun _ s => s) mixedDoc .zero).map (·.1)) ≠
      ((unmarshalModel allEnv (fun _ s => s) mixedDoc .zero).map (·.1)) := by decide +kernel

/-- The same for `UnmarshalModel`. -/
theorem C91_unmarshal_partial (env env' : Env) (mem mem' : Nat → Str → Str) (doc : Str) (m : Model)
    (hsep : Separate false [] (lex .eof (.new doc)).1) {m1 m2 : Model} {r1 r2 : DecodeResult}
    (h1 : unmarshalModel env mem doc m = some (m1, r1)) (h2 : unmarshalModel env' mem' doc m = some (m2, r2)) :
    coreModel m1 = coreModel m2 :=
  C91_core_partial ⟨env, true, mem⟩ ⟨env', true, mem'⟩ rfl _ _ doc _ m hsep h1 h2

/-- An object inside an element of the slice extension that this extension does not know. -/
def wrappedDoc : Str :=
  b!"<model xmlns='http://schemas.microsoft.com/3dmanufacturing/core/2015/02' xmlns:s='http://schemas.microsoft.com/3dmanufacturing/slice/2015/07'><resources><s:x><object id='1'/></s:x></resources></model>"

/-- The object is read if the extension is registered, and is not if it is not registered. -/
theorem C91_skipped_false :
    ((unmarshalModel noneEnv (fun _ s => s) wrappedDoc .zero).map fun p => p.1.resources.objects.map (·.id)) = some [] ∧
    ((unmarshalModel allEnv (fun _ s => s) wrappedDoc .zero).map fun p => p.1.resources.objects.map (·.id)) = some [1] := by
  decide +kernel

end Go3mf
