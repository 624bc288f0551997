import Verif.Model.XmlStack
import Verif.Lemmas.Xml
import Mathlib.Data.List.Forall2

/-!
# C79: the records of the XML reader are used again without being seen, and their number follows the nesting
-/

namespace Go3mf

/-! ## Linked lists of records -/

/-- The records that are reached from a pointer, in order. -/
inductive Spec.Chain (recs : List StkRec) : Option Nat → List Nat → Prop where
  | nil : Chain recs none []
  | cons {i : Nat} {r : StkRec} {l : List Nat} (h : recs[i]? = some r) (t : Chain recs r.next l) : Chain recs (some i) (i :: l)

/-- The record stands for the entry. -/
def Spec.Entry (r : StkRec) : StkEntry → Prop
  | .elem n => r.kind = .start ∧ r.name = n
  | .ns loc old => r.kind = .ns ∧ r.name.loc = loc ∧ (if r.ok then some r.name.space else none) = old

/-- The records `ls` hold the entries, the records `lf` are free, and there are no others. -/
structure Spec.StkHolds (d : StkMem) (stk : List StkEntry) (ls lf : List Nat) : Prop where
  top : Chain d.recs d.stk ls
  free : Chain d.recs d.free lf
  nodup : (ls ++ lf).Nodup
  len : d.recs.length = ls.length + lf.length
  ent : List.Forall₂ (fun i e => ∃ r, d.recs[i]? = some r ∧ Entry r e) ls stk

theorem chain_congr {recs recs' : List StkRec} {p : Option Nat} {l : List Nat} (h : Spec.Chain recs p l)
    (he : ∀ i ∈ l, (recs'[i]?).map (·.next) = (recs[i]?).map (·.next)) : Spec.Chain recs' p l := by
  induction h with
  | nil => exact .nil
  | @cons i r l h t ih =>
    have h1 := he i (by simp)
    rw [h] at h1
    obtain ⟨r', hr', hn⟩ := Option.map_eq_some_iff.1 (by simpa using h1 : (recs'[i]?).map (·.next) = some r.next)
    refine .cons hr' ?_
    rw [hn]
    exact ih fun j hj => he j (by simp [hj])

theorem chain_lt {recs : List StkRec} {p : Option Nat} {l : List Nat} (h : Spec.Chain recs p l) : ∀ i ∈ l, i < recs.length := by
  induction h with
  | nil => simp
  | @cons i r l h t ih =>
    intro j hj
    rcases List.mem_cons.1 hj with rfl | hj
    · exact (List.getElem?_eq_some_iff.1 h).1
    · exact ih j hj

theorem ent_congr {recs recs' : List StkRec} {ls : List Nat} {stk : List StkEntry}
    (h : List.Forall₂ (fun i e => ∃ r, recs[i]? = some r ∧ Spec.Entry r e) ls stk) (he : ∀ i ∈ ls, recs'[i]? = recs[i]?) :
    List.Forall₂ (fun i e => ∃ r, recs'[i]? = some r ∧ Spec.Entry r e) ls stk := by
  induction h with
  | nil => exact .nil
  | @cons i e ls stk h t ih =>
    refine .cons ?_ (ih fun j hj => he j (by simp [hj]))
    rw [he i (by simp)]
    exact h

/-- A record is pushed and filled in: it is a free one if there is one. -/
theorem holds_push {d : StkMem} {stk : List StkEntry} {ls lf : List Nat} (h : Spec.StkHolds d stk ls lf) (k : StkKind) (f : StkRec → StkRec)
    (e : StkEntry) (hn : ∀ r, (f r).next = r.next) (he : ∀ r : StkRec, r.kind = k → Spec.Entry (f r) e) :
    (∃ ls' lf', Spec.StkHolds ((d.push k).1.modify (d.push k).2 f) (e :: stk) ls' lf') ∧
      ((d.push k).1.modify (d.push k).2 f).recs.length = max d.recs.length (stk.length + 1) ∧
      ((d.push k).1.modify (d.push k).2 f).ns = d.ns := by
  obtain ⟨hs, hf, hnd, hl, hent⟩ := h
  have hlen := hent.length_eq
  generalize hfree : d.free = fr at hf
  cases hf with
  | nil =>
    have hp : d.push k = ({ d with recs := d.recs ++ [⟨d.stk, k, ⟨[], []⟩, false⟩], stk := some d.recs.length }, d.recs.length) := by
      simp only [StkMem.push, hfree, Option.bind_none]
    rw [hp]
    simp only [StkMem.modify]
    have hget : ∀ i ∈ ls, ((d.recs ++ [(⟨d.stk, k, ⟨[], []⟩, false⟩ : StkRec)]).modify d.recs.length f)[i]? = d.recs[i]? := by
      intro i hi
      have := chain_lt hs i hi
      rw [List.getElem?_modify, List.getElem?_append_left this]
      simp [Nat.ne_of_gt this]
    have htop : ((d.recs ++ [(⟨d.stk, k, ⟨[], []⟩, false⟩ : StkRec)]).modify d.recs.length f)[d.recs.length]? =
        some (f ⟨d.stk, k, ⟨[], []⟩, false⟩) := by
      rw [List.getElem?_modify]; simp
    refine ⟨⟨d.recs.length :: ls, [], ⟨.cons htop ?_, ?_, ?_, ?_, ?_⟩⟩, ?_, trivial⟩
    · rw [hn]
      exact chain_congr hs fun i hi => by rw [hget i hi]
    · simp only [hfree]; exact .nil
    · simp only [List.append_nil] at hnd ⊢
      refine List.nodup_cons.2 ⟨fun hm => ?_, hnd⟩
      exact absurd (chain_lt hs _ hm) (by omega)
    · simp only [List.length_modify, List.length_append, List.length_cons, List.length_nil] at hl ⊢; omega
    · exact .cons ⟨_, htop, he _ rfl⟩ (ent_congr hent hget)
    · simp only [List.length_modify, List.length_append, List.length_cons, List.length_nil] at hl ⊢; omega
  | @cons i r lf hi hf =>
    have hp : d.push k = ({ d with recs := d.recs.set i { r with next := d.stk, kind := k }, free := r.next, stk := some i }, i) := by
      simp only [StkMem.push, hfree, Option.bind_some, hi, Option.map_some]
    rw [hp]
    simp only [StkMem.modify]
    have hlt := (List.getElem?_eq_some_iff.1 hi).1
    have hnd' : i ∉ ls ∧ i ∉ lf ∧ (ls ++ lf).Nodup := by
      rw [List.nodup_append] at hnd ⊢
      obtain ⟨h1, h2, h3⟩ := hnd
      refine ⟨fun hm => h3 i hm i (by simp) rfl, (List.nodup_cons.1 h2).1, h1, (List.nodup_cons.1 h2).2, fun a ha b hb => h3 a ha b (by simp [hb])⟩
    have hget : ∀ j, j ≠ i → ((d.recs.set i { r with next := d.stk, kind := k }).modify i f)[j]? = d.recs[j]? := by
      intro j hj
      rw [List.getElem?_modify, List.getElem?_set_ne (Ne.symm hj)]
      simp [Ne.symm hj]
    have htop : ((d.recs.set i { r with next := d.stk, kind := k }).modify i f)[i]? = some (f { r with next := d.stk, kind := k }) := by
      rw [List.getElem?_modify, List.getElem?_set_self hlt]; simp
    refine ⟨⟨i :: ls, lf, ⟨.cons htop ?_, ?_, ?_, ?_, ?_⟩⟩, ?_, trivial⟩
    · rw [hn]
      exact chain_congr hs fun j hj => by rw [hget j (fun he => hnd'.1 (he ▸ hj))]
    · exact chain_congr hf fun j hj => by rw [hget j (fun he => hnd'.2.1 (he ▸ hj))]
    · rw [List.cons_append]
      exact List.nodup_cons.2 ⟨by simp [hnd'.1, hnd'.2.1], hnd'.2.2⟩
    · simp only [List.length_modify, List.length_set, List.length_cons] at hl ⊢; omega
    · exact .cons ⟨_, htop, he _ rfl⟩ (ent_congr hent fun j hj => hget j (fun he => hnd'.1 (he ▸ hj)))
    · simp only [List.length_modify, List.length_set, List.length_cons] at hl ⊢; omega

/-- The record on top is taken off: what it says is still readable. -/
theorem holds_pop {d : StkMem} {e : StkEntry} {stk : List StkEntry} {ls lf : List Nat} (h : Spec.StkHolds d (e :: stk) ls lf) :
    ∃ r ls' lf', d.pop.2 = some r ∧ Spec.Entry r e ∧ Spec.StkHolds d.pop.1 stk ls' lf' ∧ d.pop.1.recs.length = d.recs.length ∧ d.pop.1.ns = d.ns := by
  obtain ⟨hs, hf, hnd, hl, hent⟩ := h
  cases hent with
  | @cons i _ ls _ h0 hent =>
    obtain ⟨r, hr, hE⟩ := h0
    generalize hstk : d.stk = p at hs
    cases hs with
    | @cons _ r' _ hi hs =>
      rw [hr] at hi
      cases hi
      have hp : d.pop = ({ d with recs := d.recs.set i { r with next := d.free }, stk := r.next, free := some i }, some r) := by
        simp only [StkMem.pop, hstk, Option.bind_some, hr, Option.map_some]
      have hlt := (List.getElem?_eq_some_iff.1 hr).1
      rw [List.cons_append, List.nodup_cons] at hnd
      have hget : ∀ j, j ≠ i → (d.recs.set i { r with next := d.free })[j]? = d.recs[j]? := fun j hj => List.getElem?_set_ne (Ne.symm hj)
      have hni : i ∉ ls ∧ i ∉ lf := by simpa using hnd.1
      rw [hp]
      refine ⟨r, ls, i :: lf, rfl, hE, ⟨?_, ?_, ?_, ?_, ?_⟩, by simp, rfl⟩
      · exact chain_congr hs fun j hj => by rw [hget j (fun he => hni.1 (he ▸ hj))]
      · refine .cons (List.getElem?_set_self hlt) ?_
        exact chain_congr hf fun j hj => by rw [hget j (fun he => hni.2 (he ▸ hj))]
      · exact (List.perm_middle.nodup_iff).2 (List.nodup_cons.2 hnd)
      · simp only [List.length_set, List.length_cons] at hl ⊢; omega
      · exact ent_congr hent fun j hj => hget j (fun he => hni.1 (he ▸ hj))

theorem holds_nil {d : StkMem} {ls lf : List Nat} (h : Spec.StkHolds d [] ls lf) : d.stk = none := by
  have hs := h.top
  cases h.ent
  generalize d.stk = p at hs ⊢
  cases hs
  rfl

theorem holds_top {d : StkMem} {e : StkEntry} {stk : List StkEntry} {ls lf : List Nat} (h : Spec.StkHolds d (e :: stk) ls lf) :
    ∃ i r, d.stk = some i ∧ d.recs[i]? = some r ∧ Spec.Entry r e := by
  obtain ⟨hs, _, _, _, hent⟩ := h
  cases hent with
  | @cons i _ ls _ h0 hent =>
    obtain ⟨r, hr, hE⟩ := h0
    generalize hstk : d.stk = p at hs
    cases hs
    exact ⟨i, r, rfl, hr, hE⟩

/-- The loop of `popElement` does what `undo` does. -/
theorem holds_undo : ∀ (fuel : Nat) (d : StkMem) (stk : List StkEntry) (ls lf : List Nat), Spec.StkHolds d stk ls lf → stk.length < fuel →
    (∃ ls' lf', Spec.StkHolds (d.undo fuel) (undo stk d.ns).1 ls' lf') ∧ (d.undo fuel).ns = (undo stk d.ns).2 ∧
      (d.undo fuel).recs.length = d.recs.length := by
  intro fuel
  induction fuel with
  | zero => intro d stk ls lf _ h; omega
  | succ fuel ih =>
    intro d stk ls lf h hlt
    cases stk with
    | nil =>
      have h0 := holds_nil h
      simp only [StkMem.undo, h0, Option.bind_none, undo]
      exact ⟨⟨ls, lf, h⟩, by simp⟩
    | cons e stk =>
      obtain ⟨i, r, h1, h2, h3⟩ := holds_top h
      cases e with
      | elem n =>
        simp only [StkMem.undo, h1, Option.bind_some, h2, undo]
        rw [if_pos h3.1]
        exact ⟨⟨ls, lf, h⟩, by simp⟩
      | ns loc old =>
        obtain ⟨r', ls', lf', hp, hE, hH, hlen, hns⟩ := holds_pop h
        have hk : r.kind ≠ .start := by rw [h3.1]; decide
        obtain ⟨he1, he2, he3⟩ := hE
        have hpop : d.pop = (d.pop.1, some r') := by rw [← hp]
        simp only [StkMem.undo, h1, Option.bind_some, h2, undo]
        rw [if_neg hk, hpop]
        simp only []
        have hH' : Spec.StkHolds { d.pop.1 with ns := d.pop.1.ns.set r'.name.loc (if r'.ok then some r'.name.space else none) } stk ls' lf' :=
          ⟨hH.top, hH.free, hH.nodup, hH.len, hH.ent⟩
        have := ih _ stk ls' lf' hH' (by simpa using hlt)
        simp only [hns, he2, he3, hlen] at this ⊢
        exact this

/-! ## The reader -/

/-- The records of the reader hold the entries of the list. -/
structure Spec.Same (st : MLexer) (sp : Lexer) : Prop where
  inp : st.inp = sp.inp
  close : st.close = sp.close
  ns : st.mem.ns = sp.ns
  holds : ∃ ls lf, StkHolds st.mem sp.stk ls lf

theorem pushNs_holds {d : StkMem} {stk : List StkEntry} {ls lf : List Nat} (h : Spec.StkHolds d stk ls lf) (loc : Str) (old : Option Str) :
    (∃ ls' lf', Spec.StkHolds (d.pushNs loc old) (.ns loc old :: stk) ls' lf') ∧ (d.pushNs loc old).recs.length = max d.recs.length (stk.length + 1) := by
  have := holds_push h .ns (fun r => { r with name := ⟨old.getD [], loc⟩, ok := old.isSome }) (.ns loc old) (fun _ => rfl)
    (fun r hr => ⟨hr, rfl, by cases old <;> rfl⟩)
  exact ⟨this.1, this.2.1⟩

theorem pushElement_holds {d : StkMem} {stk : List StkEntry} {ls lf : List Nat} (h : Spec.StkHolds d stk ls lf) (n : Name) :
    (∃ ls' lf', Spec.StkHolds (d.pushElement n) (.elem n :: stk) ls' lf') ∧ (d.pushElement n).recs.length = max d.recs.length (stk.length + 1) ∧
      (d.pushElement n).ns = d.ns :=
  holds_push h .start (fun r => { r with name := n }) (.elem n) (fun _ => rfl) (fun _ hr => ⟨hr, rfl⟩)

theorem declare_holds (d : StkMem) (stk : List StkEntry) (a : Attr) (h : ∃ ls lf, Spec.StkHolds d stk ls lf) :
    (∃ ls lf, Spec.StkHolds (d.declare a) (declare (stk, d.ns) a).1 ls lf) ∧ (d.declare a).ns = (declare (stk, d.ns) a).2 ∧
      (d.declare a).recs.length = max d.recs.length (declare (stk, d.ns) a).1.length := by
  obtain ⟨ls, lf, h⟩ := h
  have hle : stk.length ≤ d.recs.length := by rw [h.len, ← h.ent.length_eq]; omega
  unfold StkMem.declare declare
  split
  · obtain ⟨⟨ls', lf', h1⟩, h2⟩ := pushNs_holds h a.name.loc (d.ns a.name.loc)
    exact ⟨⟨ls', lf', ⟨h1.top, h1.free, h1.nodup, h1.len, h1.ent⟩⟩, rfl, h2⟩
  · split
    · obtain ⟨⟨ls', lf', h1⟩, h2⟩ := pushNs_holds h [] (d.ns [])
      exact ⟨⟨ls', lf', ⟨h1.top, h1.free, h1.nodup, h1.len, h1.ent⟩⟩, rfl, h2⟩
    · exact ⟨⟨ls, lf, h⟩, rfl, by simp only []; omega⟩

theorem declare_length (p : List StkEntry × StrMap) (a : Attr) : p.1.length ≤ (declare p a).1.length := by
  unfold declare
  split
  · simp
  · split <;> simp

theorem declares_length (as : List Attr) : ∀ p : List StkEntry × StrMap, p.1.length ≤ (as.foldl declare p).1.length := by
  induction as with
  | nil => simp
  | cons a as ih => intro p; exact Nat.le_trans (declare_length p a) (ih _)

theorem declares_holds (as : List Attr) : ∀ (d : StkMem) (stk : List StkEntry), (∃ ls lf, Spec.StkHolds d stk ls lf) →
    (∃ ls lf, Spec.StkHolds (as.foldl StkMem.declare d) (as.foldl declare (stk, d.ns)).1 ls lf) ∧
      (as.foldl StkMem.declare d).ns = (as.foldl declare (stk, d.ns)).2 ∧
      (as.foldl StkMem.declare d).recs.length = max d.recs.length (as.foldl declare (stk, d.ns)).1.length := by
  induction as with
  | nil =>
    intro d stk h
    refine ⟨h, rfl, ?_⟩
    obtain ⟨ls, lf, h⟩ := h
    have hle : stk.length ≤ d.recs.length := by rw [h.len, ← h.ent.length_eq]; omega
    simp only [List.foldl_nil]; omega
  | cons a as ih =>
    intro d stk h
    obtain ⟨h1, h2, h3⟩ := declare_holds d stk a h
    obtain ⟨k1, k2, k3⟩ := ih _ _ h1
    rw [h2] at k1 k2 k3
    simp only [List.foldl_cons]
    refine ⟨k1, k2, ?_⟩
    rw [k3, h3]
    have := declares_length as ((declare (stk, d.ns) a).1, (declare (stk, d.ns) a).2)
    simp only [] at this
    show _ = max d.recs.length (as.foldl declare ((declare (stk, d.ns) a).1, (declare (stk, d.ns) a).2)).1.length
    omega

/-- A start tag: the same event, the same state, and as many records as are needed at the same time. -/
theorem handleStart_same {st : MLexer} {sp : Lexer} (h : Spec.Same st sp) (name : Name) (as : List Attr) :
    (st.handleStart name as).1 = (handleStart sp name as).1 ∧ Spec.Same (st.handleStart name as).2 (handleStart sp name as).2 ∧
      (st.handleStart name as).2.mem.recs.length = max st.mem.recs.length (handleStart sp name as).2.stk.length := by
  obtain ⟨h1, h2, h3⟩ := declares_holds as st.mem sp.stk h.holds
  rw [h.ns] at h1 h2 h3
  obtain ⟨ls, lf, h1⟩ := h1
  have k := pushElement_holds h1 (translate (as.foldl declare (sp.stk, sp.ns)).2 true name)
  simp only [MLexer.handleStart, handleStart, h2]
  refine ⟨trivial, ⟨h.inp, h.close, k.2.2.trans h2, k.1⟩, ?_⟩
  rw [k.2.1, h3]
  simp only [List.length_cons]
  omega

/-- An end tag: the same event, the same state, and no new record. -/
theorem handleEnd_same {st : MLexer} {sp : Lexer} (h : Spec.Same st sp) (name : Name) :
    (match handleEnd sp name with
      | .error e => (st.handleEnd name).1 = .error e
      | .ok (ev, sp') => (st.handleEnd name).1 = .ok (some ev) ∧ Spec.Same (st.handleEnd name).2 sp') ∧
      (st.handleEnd name).2.mem.recs.length = st.mem.recs.length := by
  obtain ⟨ls, lf, hH⟩ := h.holds
  simp only [MLexer.handleEnd, handleEnd, h.ns]
  generalize hn : translate sp.ns true name = n
  generalize hstk : sp.stk = stk at hH
  cases stk with
  | nil =>
    have h0 := holds_nil hH
    have hp : st.mem.pop = (st.mem, none) := by simp [StkMem.pop, h0]
    simp [StkMem.popElement, hp]
  | cons e stk =>
    obtain ⟨r, ls', lf', hp, hE, hH', hlen, hns⟩ := holds_pop hH
    have hpop : st.mem.pop = (st.mem.pop.1, some r) := by rw [← hp]
    cases e with
    | ns loc old =>
      have hk : r.kind ≠ .start := by rw [hE.1]; decide
      have : st.mem.popElement n = (st.mem.pop.1, false) := by unfold StkMem.popElement; rw [hpop]; simp [hk]
      rw [this]
      exact ⟨rfl, hlen⟩
    | elem m =>
      obtain ⟨hk, rfl⟩ := hE
      by_cases hl : r.name.loc = n.loc
      · by_cases hsp : r.name.space = n.space
        · have : st.mem.popElement n = (StkMem.undo (st.mem.pop.1.recs.length + 1) st.mem.pop.1, true) := by
            unfold StkMem.popElement; rw [hpop]; simp [hk, hl, hsp]
          rw [this]
          have hu := holds_undo (st.mem.pop.1.recs.length + 1) st.mem.pop.1 stk ls' lf' hH'
            (by rw [hH'.len, ← hH'.ent.length_eq]; omega)
          rw [hns, h.ns, hlen] at hu
          rw [hlen]
          simp only [hl, hsp, ne_eq, not_true_eq_false, or_self, if_false, if_true]
          exact ⟨⟨trivial, ⟨h.inp, h.close, hu.2.1, hu.1⟩⟩, hu.2.2⟩
        · have : st.mem.popElement n = (st.mem.pop.1, false) := by unfold StkMem.popElement; rw [hpop]; simp [hk, hl, hsp]
          rw [this]
          simp only [hl, hsp, ne_eq, not_true_eq_false, not_false_eq_true, or_true, if_true]
          exact ⟨rfl, hlen⟩
      · have : st.mem.popElement n = (st.mem.pop.1, false) := by unfold StkMem.popElement; rw [hpop]; simp [hk, hl]
        rw [this]
        simp only [hl, ne_eq, not_false_eq_true, true_or, if_true]
        exact ⟨rfl, hlen⟩

theorem same_le {st : MLexer} {sp : Lexer} (h : Spec.Same st sp) : sp.stk.length ≤ st.mem.recs.length := by
  obtain ⟨ls, lf, h⟩ := h.holds
  rw [h.len, ← h.ent.length_eq]; omega

theorem same_stk {st : MLexer} {sp : Lexer} (h : Spec.Same st sp) : st.mem.stk ≠ none ↔ sp.stk ≠ [] := by
  obtain ⟨ls, lf, h⟩ := h.holds
  generalize hs : sp.stk = stk at h
  cases stk with
  | nil => simp [holds_nil h]
  | cons e stk => obtain ⟨i, r, h1, _⟩ := holds_top h; simp [h1]

/-- One call of `RawToken` on the records and one on the list. -/
def Spec.Agree (recs : Nat) (res : TokenRes) (m : Except LexErr (Option Event) × MLexer) : Prop :=
  match res with
  | .error e => m.1 = .error e ∧ m.2.mem.recs.length = recs
  | .ok (ev, sp) => m.1 = .ok ev ∧ Same m.2 sp ∧ m.2.mem.recs.length = max recs sp.stk.length

theorem handleEnd_agree {st : MLexer} {sp : Lexer} (h : Spec.Same st sp) (name : Name) :
    Spec.Agree st.mem.recs.length (.of (handleEnd sp name)) (st.handleEnd name) := by
  have := handleEnd_same h name
  cases hr : handleEnd sp name with
  | error e => rw [hr] at this; exact this
  | ok p =>
    rw [hr] at this
    obtain ⟨⟨h1, h2⟩, h3⟩ := this
    refine ⟨h1, h2, ?_⟩
    have := same_le h2
    omega

theorem lexEnd_agree {st : MLexer} {sp : Lexer} (h : Spec.Same st sp) (fin : LexErr) (t : Str) :
    Spec.Agree st.mem.recs.length (lexEnd fin sp t) (st.lexEnd fin t) := by
  unfold lexEnd MLexer.lexEnd
  cases readName fin t with
  | fail e => exact ⟨rfl, rfl⟩
  | missing _ => exact ⟨rfl, rfl⟩
  | ok n r =>
    simp only []
    cases skipSpace r with
    | nil => exact ⟨rfl, rfl⟩
    | cons c t' =>
      simp only []
      by_cases hc : c = 62
      · rw [if_pos hc, if_pos hc]
        exact handleEnd_agree (st := { st with inp := t' }) (sp := { sp with inp := t' }) ⟨rfl, h.close, h.ns, h.holds⟩ _
      · rw [if_neg hc, if_neg hc]; exact ⟨rfl, rfl⟩

theorem lexPI_agree {st : MLexer} {sp : Lexer} (h : Spec.Same st sp) (fin : LexErr) (t : Str) :
    Spec.Agree st.mem.recs.length (lexPI fin sp t) (st.lexPI fin t) := by
  have hle := same_le h
  unfold lexPI MLexer.lexPI
  cases readName fin t with
  | fail e => exact ⟨rfl, rfl⟩
  | missing _ => exact ⟨rfl, rfl⟩
  | ok n r =>
    simp only []
    cases skipPI fin 0 (skipSpace r) with
    | error e => exact ⟨rfl, rfl⟩
    | ok t' => exact ⟨rfl, ⟨rfl, h.close, h.ns, h.holds⟩, by simp only []; omega⟩

theorem lexStart_agree {st : MLexer} {sp : Lexer} (h : Spec.Same st sp) (fin : LexErr) (t : Str) :
    Spec.Agree st.mem.recs.length (lexStart fin sp t) (st.lexStart fin t) := by
  unfold lexStart MLexer.lexStart
  cases readName fin t with
  | fail e => exact ⟨rfl, rfl⟩
  | missing _ => exact ⟨rfl, rfl⟩
  | ok n r =>
    simp only []
    cases lexAttrs fin (r.length + 1) r with
    | error e => exact ⟨rfl, rfl⟩
    | ok q =>
      obtain ⟨as, empty, t'⟩ := q
      have := handleStart_same (st := { st with inp := t', close := if empty then some (toName n) else none })
        (sp := { sp with inp := t', close := if empty then some (toName n) else none }) ⟨rfl, rfl, h.ns, h.holds⟩ (toName n) as
      exact ⟨by simp only [this.1], this.2.1, this.2.2⟩

/-- `RawToken` on the records and on the list. -/
theorem rawToken_agree {st : MLexer} {sp : Lexer} (h : Spec.Same st sp) (fin : LexErr) :
    Spec.Agree st.mem.recs.length (rawToken fin sp) (st.rawToken fin) := by
  have hle := same_le h
  have hstk := same_stk h
  obtain ⟨inp, mem, close⟩ := st
  obtain ⟨inp', stk, ns, close'⟩ := sp
  obtain ⟨rfl, rfl, hns, hh⟩ := id h
  unfold rawToken MLexer.rawToken
  cases close with
  | some n => exact handleEnd_agree (st := ⟨inp, mem, none⟩) (sp := ⟨inp, stk, ns, none⟩) ⟨rfl, rfl, hns, hh⟩ n
  | none =>
    cases inp with
    | nil => simp only [hstk]; exact ⟨rfl, rfl⟩
    | cons b s =>
      simp only []
      by_cases hb : b ≠ 60
      · rw [if_pos hb, if_pos hb]
        cases lexText fin none (b :: s) with
        | error e => exact ⟨rfl, rfl⟩
        | ok q => exact ⟨rfl, ⟨rfl, rfl, hns, hh⟩, by simp only [] at hle ⊢; omega⟩
      · rw [if_neg hb, if_neg hb]
        cases s with
        | nil => exact ⟨rfl, rfl⟩
        | cons c t =>
          simp only []
          by_cases h1 : c = 47
          · rw [if_pos h1, if_pos h1]; exact lexEnd_agree h fin t
          · rw [if_neg h1, if_neg h1]
            by_cases h2 : c = 63
            · rw [if_pos h2, if_pos h2]; exact lexPI_agree h fin t
            · rw [if_neg h2, if_neg h2]; exact lexStart_agree h fin (c :: t)

/-! ## How many records there are -/

/-- The attribute declares a name space, or looks like it. -/
def Spec.declares (a : Attr) : Bool := a.name.space == xmlnsStr || (a.name.space == [] && a.name.loc == xmlnsStr)

/-- What the open elements need after an event, innermost first: one for each element and one for each of its declarations. -/
def Spec.needs (w : List Nat) : Option Event → List Nat
  | some (.start _ as) => (1 + as.countP declares) :: w
  | some (.stop _) => w.tail
  | _ => w

/-- The most that is needed at a time. -/
def Spec.peak (w : List Nat) : List (Option Event) → Nat
  | [] => w.sum
  | e :: es => max w.sum (peak (needs w e) es)

/-- The entries of the list, sorted by the elements they belong to. -/
inductive Spec.Sorted : List StkEntry → List Nat → Prop where
  | nil : Sorted [] []
  | cons {n : Name} {pre stk : List StkEntry} {k : Nat} {w : List Nat} (hp : ∀ e ∈ pre, ∃ l o, e = .ns l o) (hk : pre.length + 1 ≤ k)
      (t : Sorted stk w) : Sorted (.elem n :: (pre ++ stk)) (k :: w)

theorem sorted_length {stk : List StkEntry} {w : List Nat} (h : Spec.Sorted stk w) : stk.length ≤ w.sum := by
  induction h with
  | nil => simp
  | cons hp hk t ih => simp only [List.length_cons, List.length_append, List.sum_cons]; omega

theorem undo_pre (pre : List StkEntry) : ∀ (ns : StrMap) {stk : List StkEntry} {w : List Nat}, (∀ e ∈ pre, ∃ l o, e = .ns l o) → Spec.Sorted stk w →
    (undo (pre ++ stk) ns).1 = stk := by
  induction pre with
  | nil =>
    intro ns stk w _ h
    cases h with
    | nil => rfl
    | cons => rfl
  | cons e pre ih =>
    intro ns stk w hp h
    obtain ⟨l, o, rfl⟩ := hp e (by simp)
    exact ih _ (fun e he => hp e (by simp [he])) h

theorem declare_pre (as : List Attr) : ∀ (stk : List StkEntry) (ns : StrMap),
    ∃ pre, (as.foldl declare (stk, ns)).1 = pre ++ stk ∧ (∀ e ∈ pre, ∃ l o, e = StkEntry.ns l o) ∧ pre.length = as.countP Spec.declares := by
  induction as with
  | nil => intro stk ns; exact ⟨[], rfl, by simp, rfl⟩
  | cons a as ih =>
    intro stk ns
    rw [List.foldl_cons]
    unfold declare
    split
    · rename_i h
      obtain ⟨pre, h1, h2, h3⟩ := ih (.ns a.name.loc (ns a.name.loc) :: stk) (ns.set a.name.loc (some a.value))
      refine ⟨pre ++ [.ns a.name.loc (ns a.name.loc)], by simp only [List.append_assoc, List.cons_append, List.nil_append]; exact h1, ?_, ?_⟩
      · intro e he
        rcases List.mem_append.1 he with he | he
        · exact h2 e he
        · exact ⟨_, _, by simpa using he⟩
      · rw [List.countP_cons_of_pos (by simp [Spec.declares, h])]; simp [h3]
    · split
      · rename_i h
        obtain ⟨pre, h1, h2, h3⟩ := ih (.ns [] (ns []) :: stk) (ns.set [] (some a.value))
        refine ⟨pre ++ [.ns [] (ns [])], by simp only [List.append_assoc, List.cons_append, List.nil_append]; exact h1, ?_, ?_⟩
        · intro e he
          rcases List.mem_append.1 he with he | he
          · exact h2 e he
          · exact ⟨_, _, by simpa using he⟩
        · rw [List.countP_cons_of_pos (by simp [Spec.declares, h])]; simp [h3]
      · rename_i h1 h2
        rw [List.countP_cons_of_neg (by simp only [Spec.declares]; simp [h1]; simpa using h2)]
        exact ih stk ns

theorem declares_translate (ns : StrMap) (a : Attr) (h : Spec.declares a = true) : Spec.declares { a with name := translate ns false a.name } = true := by
  have : translate ns false a.name = a.name := by
    simp only [Spec.declares, Bool.or_eq_true, Bool.and_eq_true, beq_iff_eq] at h
    unfold translate
    rcases h with h | ⟨h, _⟩
    · rw [if_pos h]
    · simp [h]
  simpa only [this] using h

theorem countP_translate (ns : StrMap) (as : List Attr) :
    as.countP Spec.declares ≤ (as.map fun a => { a with name := translate ns false a.name }).countP Spec.declares := by
  rw [List.countP_map]
  exact List.countP_mono_left fun a _ h => declares_translate ns a h

theorem handleStart_sorted {sp : Lexer} {w : List Nat} (h : Spec.Sorted sp.stk w) (name : Name) (as : List Attr) :
    Spec.Sorted (handleStart sp name as).2.stk (Spec.needs w (some (handleStart sp name as).1)) := by
  obtain ⟨pre, h1, h2, h3⟩ := declare_pre as sp.stk sp.ns
  simp only [handleStart, Spec.needs, h1]
  refine .cons h2 ?_ h
  have := countP_translate (as.foldl declare (sp.stk, sp.ns)).2 as
  omega

theorem handleEnd_sorted {sp : Lexer} {w : List Nat} (h : Spec.Sorted sp.stk w) (name : Name) {ev : Event} {sp' : Lexer}
    (hr : handleEnd sp name = .ok (ev, sp')) : Spec.Sorted sp'.stk (Spec.needs w (some ev)) := by
  unfold handleEnd at hr
  generalize hs : sp.stk = stk at h hr
  cases h with
  | nil => simp at hr
  | @cons n pre stk k w hp hk t =>
    simp only [] at hr
    split at hr
    · cases hr
    · cases hr
      simp only [Spec.needs, List.tail_cons, undo_pre pre _ hp t]
      exact t

theorem rawToken_sorted {sp sp' : Lexer} {w : List Nat} {fin : LexErr} {ev : Option Event} (h : Spec.Sorted sp.stk w)
    (hr : rawToken fin sp = .ok (ev, sp')) : Spec.Sorted sp'.stk (Spec.needs w ev) := by
  have hend : ∀ (st : Lexer) (name : Name), st.stk = sp.stk → TokenRes.of (handleEnd st name) = .ok (ev, sp') → Spec.Sorted sp'.stk (Spec.needs w ev) := by
    intro st name hst hr
    cases hq : handleEnd st name with
    | error e => rw [hq] at hr; cases hr
    | ok p =>
      rw [hq] at hr
      cases hr
      exact handleEnd_sorted (hst ▸ h) name hq
  unfold rawToken at hr
  split at hr
  · exact hend { sp with close := none } _ rfl hr
  · split at hr
    · cases hr
    · split at hr
      · split at hr
        · cases hr
        · cases hr; exact h
      · split at hr
        · cases hr
        · split at hr
          · unfold lexEnd at hr
            split at hr
            · cases hr
            · cases hr
            · split at hr
              · cases hr
              · split at hr
                · rename_i t' _ _
                  exact hend { sp with inp := t' } _ rfl hr
                · cases hr
          · split at hr
            · unfold lexPI at hr
              split at hr
              · cases hr
              · cases hr
              · split at hr
                · cases hr
                · cases hr; exact h
            · unfold lexStart at hr
              split at hr
              · cases hr
              · cases hr
              · split at hr
                · cases hr
                · cases hr
                  exact handleStart_sorted h _ _

theorem run_agree (fin : LexErr) : ∀ (fuel : Nat) (st : MLexer) (sp : Lexer) (w : List Nat) (p : Nat), Spec.Same st sp → Spec.Sorted sp.stk w →
    st.mem.recs.length ≤ p →
    (st.run fin fuel).1 = (lexFuel fin fuel sp).1 ∧ (st.run fin fuel).2.1 = (lexFuel fin fuel sp).2 ∧
      (st.run fin fuel).2.2.recs.length ≤ max p (Spec.peak w (lexFuel fin fuel sp).1) := by
  intro fuel
  induction fuel with
  | zero => intro st sp w p h hs hp; exact ⟨rfl, rfl, by simp only [MLexer.run]; omega⟩
  | succ fuel ih =>
    intro st sp w p h hs hp
    have hag := rawToken_agree h fin
    unfold MLexer.run lexFuel
    cases hr : rawToken fin sp with
    | error e =>
      rw [hr] at hag
      have : st.rawToken fin = (.error e, (st.rawToken fin).2) := by rw [← hag.1]
      rw [this]
      exact ⟨rfl, rfl, by have := hag.2; simp only []; omega⟩
    | ok q =>
      obtain ⟨ev, sp'⟩ := q
      rw [hr] at hag
      obtain ⟨h1, h2, h3⟩ := hag
      have : st.rawToken fin = (.ok ev, (st.rawToken fin).2) := by rw [← h1]
      rw [this]
      have hs' := rawToken_sorted hs hr
      have hl := sorted_length hs'
      have hpk : ∀ es, (Spec.needs w ev).sum ≤ Spec.peak (Spec.needs w ev) es := by
        intro es; cases es <;> simp only [Spec.peak] <;> omega
      obtain ⟨k1, k2, k3⟩ := ih (st.rawToken fin).2 sp' _ (max p (Spec.needs w ev).sum) h2 hs' (by omega)
      refine ⟨by simp only [k1], k2, ?_⟩
      have := hpk (lexFuel fin fuel sp').1
      simp only [Spec.peak]
      omega

/-- Reading with the records. -/
def Spec.readRecords (fin : LexErr) (data : Str) : List (Option Event) × LexErr × StkMem :=
  (MLexer.new data).run fin ((Lexer.new data).size + 1)

theorem new_same (data : Str) : Spec.Same (.new data) (.new data) :=
  ⟨rfl, rfl, rfl, [], [], ⟨.nil, .nil, by simp, rfl, .nil⟩⟩

/-- C79: with records that are linked, taken off, and used again, the reader delivers the events and the error that it delivers with a list. -/
theorem C79_transparent (fin : LexErr) (data : Str) :
    (Spec.readRecords fin data).1 = (lex fin (.new data)).1 ∧ (Spec.readRecords fin data).2.1 = (lex fin (.new data)).2 := by
  have := run_agree fin ((Lexer.new data).size + 1) (.new data) (.new data) [] 0 (new_same data) .nil (by simp [MLexer.new])
  exact ⟨this.1, this.2.1⟩

/-- C79: the records that were ever allocated are no more than are needed at the same time: one for each open element and each of its declarations. -/
theorem C79_memory (fin : LexErr) (data : Str) :
    (Spec.readRecords fin data).2.2.recs.length ≤ Spec.peak [] (lex fin (.new data)).1 := by
  have := run_agree fin ((Lexer.new data).size + 1) (.new data) (.new data) [] 0 (new_same data) .nil (by simp [MLexer.new])
  have h := this.2.2
  simp only [Nat.zero_max] at h
  exact h

/-- The open elements after an event. -/
def Spec.depthAfter (n : Nat) : Option Event → Nat
  | some (.start _ _) => n + 1
  | some (.stop _) => n - 1
  | _ => n

/-- The elements are nested at most `n` deep, `m` being open. -/
def Spec.NestedAtMost (n : Nat) : Nat → List (Option Event) → Prop
  | m, [] => m ≤ n
  | m, e :: es => m ≤ n ∧ NestedAtMost n (depthAfter m e) es

instance instDecidableNestedAtMost (n : Nat) : (m : Nat) → (es : List (Option Event)) → Decidable (Spec.NestedAtMost n m es)
  | m, [] => inferInstanceAs (Decidable (m ≤ n))
  | m, e :: es =>
    have : Decidable (Spec.NestedAtMost n (Spec.depthAfter m e) es) := instDecidableNestedAtMost n _ es
    inferInstanceAs (Decidable (_ ∧ _))

theorem peak_le (n k : Nat) (es : List (Option Event)) : ∀ w : List Nat, (∀ x ∈ w, x ≤ k + 1) → Spec.NestedAtMost n w.length es →
    (∀ m as, some (Event.start m as) ∈ es → as.length ≤ k) → Spec.peak w es ≤ n * (k + 1) := by
  have hsum : ∀ w : List Nat, (∀ x ∈ w, x ≤ k + 1) → w.length ≤ n → w.sum ≤ n * (k + 1) := by
    intro w hw hl
    have : w.sum ≤ w.length * (k + 1) := by
      clear hl
      induction w with
      | nil => simp
      | cons x w ih =>
        have h1 := hw x (by simp)
        have h2 := ih fun y hy => hw y (by simp [hy])
        simp only [List.sum_cons, List.length_cons, Nat.succ_mul]
        omega
    exact Nat.le_trans this (Nat.mul_le_mul_right _ hl)
  induction es with
  | nil => intro w hw hn _; exact hsum w hw hn
  | cons e es ih =>
    intro w hw hn ha
    obtain ⟨h1, h2⟩ := hn
    simp only [Spec.peak]
    refine Nat.max_le.2 ⟨hsum w hw h1, ih _ ?_ ?_ fun m as hm => ha m as (by simp [hm])⟩
    · intro x hx
      unfold Spec.needs at hx
      split at hx
      · rename_i m as
        rcases List.mem_cons.1 hx with rfl | hx
        · have := ha m as (by simp)
          have := List.countP_le_length (p := Spec.declares) (l := as)
          omega
        · exact hw x hx
      · exact hw x (List.mem_of_mem_tail hx)
      · exact hw x hx
    · unfold Spec.needs
      unfold Spec.depthAfter at h2
      split <;> simpa using h2

/-- C79: a document whose elements are nested at most `n` deep and have at most `k` attributes each needs at most `n * (k + 1)` records, however long it is. -/
theorem C79_bound (fin : LexErr) (data : Str) (n k : Nat) (hn : Spec.NestedAtMost n 0 (lex fin (.new data)).1)
    (hk : ∀ m as, some (Event.start m as) ∈ (lex fin (.new data)).1 → as.length ≤ k) : (Spec.readRecords fin data).2.2.recs.length ≤ n * (k + 1) :=
  Nat.le_trans (C79_memory fin data) (peak_le n k _ [] (by simp) hn hk)

/-- The document of the examples: three elements next to each other, one with a declaration, inside a fourth. -/
def c79Doc : Str := b!"<a xmlns=\"u\"><b/><c xmlns:p=\"v\"><p:d/></c><b></b><b/></a>"

/-- The conditions of `C79_bound` are met, five records are in use at once, and no other is ever made. -/
example : ((lex .eof (.new c79Doc)).1.all fun e => match e with
      | some (.start _ as) => decide (as.length ≤ 1)
      | _ => true) ∧
    Spec.NestedAtMost 3 0 (lex .eof (.new c79Doc)).1 ∧ (lex .eof (.new c79Doc)).1.length = 12 ∧ (lex .eof (.new c79Doc)).2 = .eof ∧
    Spec.peak [] (lex .eof (.new c79Doc)).1 = 5 ∧ (Spec.readRecords .eof c79Doc).2.2.recs.length = 5 := by
  decide +kernel

end Go3mf
