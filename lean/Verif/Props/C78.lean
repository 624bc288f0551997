import Verif.Model.Calls
import Verif.Props.C70
import Mathlib.Data.List.Induction

/-!
# C78: what `Encode` gives to the package writer is given in time
-/

namespace Go3mf

namespace Spec

/-- How many parts have been created? -/
def created (log : List PkgCall) : Nat := log.countP fun c => match c with | .create .. => true | _ => false

/-- The part that a call is about. -/
def PkgCall.about : PkgCall → Option Nat
  | .write i _ => some i
  | .partRel i _ => some i
  | _ => none

/-- No call comes after the package was closed, and every call about a part comes after that part was created and before the
next one is. -/
def InTime (log : List PkgCall) : Prop :=
  ∀ before c after, log = before ++ c :: after → PkgCall.close ∉ before ∧ ∀ i, PkgCall.about c = some i → created before = i + 1

/-- What is written to a part. -/
def writesTo (i : Nat) (log : List PkgCall) : List Str :=
  log.filterMap fun c => match c with | .write j p => if j = i then some p else none | _ => none

/-- The relationships that a part is given. -/
def relsTo (i : Nat) (log : List PkgCall) : List Relationship :=
  log.filterMap fun c => match c with | .partRel j r => if j = i then some r else none | _ => none

/-- The relationships that the package is given. -/
def relsOf (log : List PkgCall) : List Relationship :=
  log.filterMap fun c => match c with | .pkgRel r => some r | _ => none

/-- The names and content types of the parts. -/
def partsOf (log : List PkgCall) : List (Str × Str) :=
  log.filterMap fun c => match c with | .create n t => some (n, t) | _ => none

end Spec

open Spec

/-! ## Writers -/

/-- `w'` is `w` after some calls of `Write`. -/
def RawW.Ext (s : Sink) (w w' : RawW) : Prop := ∃ t : List Str, w' = t.foldl (RawW.call s) w

theorem RawW.Ext.refl (s : Sink) (w : RawW) : RawW.Ext s w w := ⟨[], rfl⟩

theorem RawW.Ext.trans {s : Sink} {a b c : RawW} (h1 : RawW.Ext s a b) (h2 : RawW.Ext s b c) : RawW.Ext s a c := by
  obtain ⟨t, rfl⟩ := h1
  obtain ⟨u, rfl⟩ := h2
  exact ⟨t ++ u, by rw [List.foldl_append]⟩

theorem RawW.Ext.one (s : Sink) (w : RawW) (p : Str) : RawW.Ext s w (w.call s p) := ⟨[p], rfl⟩

theorem hist_foldl (s : Sink) (t : List Str) (w : RawW) : (t.foldl (RawW.call s) w).hist = w.hist ++ t := by
  induction t generalizing w with
  | nil => simp
  | cons p t ih => rw [List.foldl_cons, ih]; simp [RawW.call]

theorem ext_copy (s : Sink) (eof : Bool) (cs : List Str) (w : RawW) : RawW.Ext s w (copyLoop s eof w cs).2.1 := by
  induction cs generalizing w with
  | nil => exact .refl s w
  | cons c cs ih =>
    simp only [copyLoop]
    split
    · exact ih w
    · split
      · exact (RawW.Ext.one s w c).trans (ih _)
      · exact .one s w c

theorem ext_flush (s : Sink) (b : BufW) : RawW.Ext s b.raw (b.flush s).raw := by
  simp only [BufW.flush]
  split
  · exact .refl _ _
  · split
    · exact .refl _ _
    · split <;> exact .one _ _ _

theorem ext_put (s : Sink) (d : Bool) (k : Nat) (b : BufW) (p : Str) : RawW.Ext s b.raw (b.put s d k p).raw := by
  induction k generalizing b p with
  | zero => exact .refl _ _
  | succ k ih =>
    simp only [BufW.put]
    split
    · exact .refl _ _
    · split
      · split
        · exact (RawW.Ext.one s b.raw p).trans (ih _ _)
        · exact (ext_flush s { b with buf := b.buf ++ p.take b.available }).trans (ih _ _)
      · exact .refl _ _

theorem ext_call (s : Sink) (b : BufW) (c : BCall) : RawW.Ext s b.raw (b.call s c).raw := by
  cases c with
  | str p => exact ext_put ..
  | bytes p => exact ext_put ..
  | byte c =>
    simp only [BufW.call, BufW.putByte]
    split
    · exact .refl _ _
    · by_cases h : b.available = 0
      · simp only [h, if_true]
        split
        · exact ext_flush s b
        · exact ext_flush s b
      · simp only [h, if_false]
        split <;> exact .refl _ _

theorem ext_calls (s : Sink) (cs : List BCall) (b : BufW) : RawW.Ext s b.raw (cs.foldl (BufW.call s) b).raw := by
  induction cs generalizing b with
  | nil => exact .refl _ _
  | cons c cs ih => exact (ext_call s b c).trans (ih _)

theorem ext_steps (s : Sink) (ts : List Step) (m : PrefixMap) (b : BufW) : RawW.Ext s b.raw (runSteps s m b ts).2.raw := by
  induction ts generalizing m b with
  | nil => exact .refl _ _
  | cons t ts ih =>
    cases t with
    | op o => exact (ext_calls s _ b).trans (ih _ _)
    | flush =>
      simp only [runSteps]
      split
      · exact ext_flush s b
      · exact (ext_flush s b).trans (ih _ _)

/-! ## The machine -/

theorem calls_append (o : Out) (r : Run) (a b : List PkgCall) : r.calls o (a ++ b) = (r.calls o a).calls o b :=
  List.foldl_append

theorem calls_log (o : Out) (cs : List PkgCall) (r : Run) : (r.calls o cs).log = r.log ++ cs := by
  induction cs generalizing r with
  | nil => simp [Run.calls]
  | cons c cs ih =>
    show ((r.call o c).calls o cs).log = _
    rw [ih]; simp [Run.call]

/-- The last part after some calls of `Write`. -/
def IOPart.with (q : IOPart) (w : RawW) : IOPart := ⟨{ q.part with data := w.out }, w.hist⟩

theorem modify_last {α : Type} (l : List α) (a : α) (f : α → α) : (l ++ [a]).modify l.length f = l ++ [f a] := by
  induction l with
  | nil => rfl
  | cons b l ih => simp only [List.cons_append, List.length_cons, List.modify_succ_cons, ih]

theorem calls_write (o : Out) (ps : List IOPart) (q : IOPart) (rels : List Relationship) (t : List Str) (w : RawW)
    (log : List PkgCall) :
    (Run.calls o ⟨⟨rels, ps ++ [q.with w], false⟩, log⟩ (t.map (.write ps.length))).w =
      ⟨rels, ps ++ [q.with (t.foldl (RawW.call (o.sink ps.length)) w)], false⟩ := by
  induction t generalizing w log with
  | nil => rfl
  | cons p t ih =>
    have : Run.call o ⟨⟨rels, ps ++ [q.with w], false⟩, log⟩ (.write ps.length p) =
        ⟨⟨rels, ps ++ [q.with (w.call (o.sink ps.length) p)], false⟩, log ++ [.write ps.length p]⟩ := by
      simp only [Run.call, OpcW.call, OpcW.isOpen, List.length_append, List.length_singleton, Bool.not_false, decide_true,
        Bool.and_self, if_true, modify_last]
      rfl
    show (Run.calls o (Run.call o _ _) _).w = _
    rw [this]
    exact ih _ _

theorem calls_partRel (o : Out) (ps : List IOPart) (q : IOPart) (rels : List Relationship) (t : List Relationship)
    (log : List PkgCall) :
    (Run.calls o ⟨⟨rels, ps ++ [q], false⟩, log⟩ (t.map (.partRel ps.length))).w =
      ⟨rels, ps ++ [⟨{ q.part with rels := t.foldl opcAddRel q.part.rels }, q.hist⟩], false⟩ := by
  induction t generalizing q log with
  | nil => rfl
  | cons p t ih =>
    have : Run.call o ⟨⟨rels, ps ++ [q], false⟩, log⟩ (.partRel ps.length p) =
        ⟨⟨rels, ps ++ [⟨{ q.part with rels := opcAddRel q.part.rels p }, q.hist⟩], false⟩, log ++ [.partRel ps.length p]⟩ := by
      simp only [Run.call, OpcW.call, OpcW.isOpen, List.length_append, List.length_singleton, Bool.not_false, decide_true,
        Bool.and_self, if_true, modify_last]
    show (Run.calls o (Run.call o _ _) _).w = _
    rw [this]
    exact ih _ _

theorem calls_pkgRel (o : Out) (ps : List IOPart) (rels : List Relationship) (t : List Relationship) (log : List PkgCall) :
    (Run.calls o ⟨⟨rels, ps, false⟩, log⟩ (t.map .pkgRel)).w = ⟨t.foldl opcAddRel rels, ps, false⟩ := by
  induction t generalizing rels log with
  | nil => rfl
  | cons p t ih => exact ih _ _

/-! ## The order -/

theorem inTime_nil : InTime [] := by
  intro a c b h
  cases a <;> simp at h

theorem inTime_snoc (l : List PkgCall) (c : PkgCall) :
    InTime (l ++ [c]) ↔ InTime l ∧ PkgCall.close ∉ l ∧ ∀ i, PkgCall.about c = some i → created l = i + 1 := by
  constructor
  · intro h
    refine ⟨fun a x b hl => ?_, h l c [] rfl⟩
    exact h a x (b ++ [c]) (by rw [hl]; simp)
  · rintro ⟨h1, h2, h3⟩ a x b hl
    rcases List.eq_nil_or_concat b with rfl | ⟨b', y, rfl⟩
    · obtain ⟨rfl, h⟩ := List.append_inj' hl rfl
      simp only [List.cons.injEq, and_true] at h
      subst h
      exact ⟨h2, h3⟩
    · rw [List.concat_eq_append, ← List.cons_append, ← List.append_assoc] at hl
      obtain ⟨rfl, -⟩ := List.append_inj' hl rfl
      exact h1 a x b' rfl

/-- A run so far: the package is not closed, and all calls were in time. -/
structure Sync (o : Out) (r : Run) (rels : List Relationship) (ps : List IOPart) : Prop where
  w : r.w = ⟨rels, ps, false⟩
  run : r.w = r.log.foldl (OpcW.call o) .new
  time : InTime r.log
  close : PkgCall.close ∉ r.log
  created : created r.log = ps.length

theorem created_snoc (l : List PkgCall) (c : PkgCall) :
    Spec.created (l ++ [c]) = Spec.created l + match c with | .create .. => 1 | _ => 0 := by
  cases c <;> simp [Spec.created]

theorem sync_new (o : Out) : Sync o ⟨.new, []⟩ [] [] := ⟨rfl, rfl, inTime_nil, by simp, rfl⟩

theorem log_calls {o : Out} {r : Run} {rels : List Relationship} {ps : List IOPart} (h : Sync o r rels ps) (cs : List PkgCall)
    (hc : ∀ c ∈ cs, c ≠ .close ∧ (∀ n t, c ≠ .create n t) ∧ ∀ i, PkgCall.about c = some i → ps.length = i + 1) :
    (r.calls o cs).w = (r.calls o cs).log.foldl (OpcW.call o) .new ∧ InTime (r.calls o cs).log ∧
      PkgCall.close ∉ (r.calls o cs).log ∧ Spec.created (r.calls o cs).log = ps.length := by
  obtain ⟨-, h1, h2, h3, h4⟩ := h
  induction cs generalizing r with
  | nil => exact ⟨h1, h2, h3, h4⟩
  | cons c cs ih =>
    obtain ⟨c1, c2, c3⟩ := hc c (by simp)
    refine ih (r := r.call o c) (fun x hx => hc x (List.mem_cons_of_mem _ hx)) ?_ ?_ ?_ ?_
    · simp only [Run.call, List.foldl_append, List.foldl_cons, List.foldl_nil, h1]
    · exact (inTime_snoc _ _).2 ⟨h2, h3, fun i hi => by rw [h4]; exact c3 i hi⟩
    · simp only [Run.call, List.mem_append, List.mem_singleton, not_or]
      exact ⟨h3, fun e => c1 e.symm⟩
    · simp only [Run.call, created_snoc, h4]
      cases c <;> first | rfl | exact absurd rfl (c2 _ _)

theorem sync_writes {o : Out} {r : Run} {rels : List Relationship} {ps : List IOPart} {q : IOPart} {w : RawW}
    (h : Sync o r rels (ps ++ [q.with w])) (t : List Str) :
    Sync o (r.calls o (t.map (.write ps.length))) rels (ps ++ [q.with (t.foldl (RawW.call (o.sink ps.length)) w)]) := by
  obtain ⟨h1, h2, h3, h4⟩ := log_calls h (t.map (.write ps.length)) (by
    intro c hc
    obtain ⟨p, -, rfl⟩ := List.mem_map.1 hc
    refine ⟨by simp, by simp, fun i hi => ?_⟩
    simp only [PkgCall.about, Option.some.injEq] at hi
    simp [hi])
  refine ⟨?_, h1, h2, h3, by rw [h4]; simp⟩
  have := calls_write o ps q rels t w r.log
  rw [← h.w] at this
  exact this

theorem sync_partRels {o : Out} {r : Run} {rels : List Relationship} {ps : List IOPart} {q : IOPart}
    (h : Sync o r rels (ps ++ [q])) (t : List Relationship) :
    Sync o (r.calls o (t.map (.partRel ps.length))) rels
      (ps ++ [⟨{ q.part with rels := t.foldl opcAddRel q.part.rels }, q.hist⟩]) := by
  obtain ⟨h1, h2, h3, h4⟩ := log_calls h (t.map (.partRel ps.length)) (by
    intro c hc
    obtain ⟨p, -, rfl⟩ := List.mem_map.1 hc
    refine ⟨by simp, by simp, fun i hi => ?_⟩
    simp only [PkgCall.about, Option.some.injEq] at hi
    simp [hi])
  refine ⟨?_, h1, h2, h3, by rw [h4]; simp⟩
  have := calls_partRel o ps q rels t r.log
  rw [← h.w] at this
  exact this

theorem sync_pkgRels {o : Out} {r : Run} {rels : List Relationship} {ps : List IOPart} (h : Sync o r rels ps)
    (t : List Relationship) : Sync o (r.calls o (t.map .pkgRel)) (t.foldl opcAddRel rels) ps := by
  obtain ⟨h1, h2, h3, h4⟩ := log_calls h (t.map .pkgRel) (by
    intro c hc
    obtain ⟨p, -, rfl⟩ := List.mem_map.1 hc
    exact ⟨by simp, by simp, fun i hi => by simp [PkgCall.about] at hi⟩)
  refine ⟨?_, h1, h2, h3, h4⟩
  have := calls_pkgRel o ps rels t r.log
  rw [← h.w] at this
  exact this

theorem sync_create {o : Out} {r : Run} {rels : List Relationship} {ps : List IOPart} (h : Sync o r rels ps) (n t : Str) :
    Sync o (r.call o (.create n t)) rels (ps ++ [(o.part n t RawW.new []).with RawW.new]) := by
  obtain ⟨h0, h1, h2, h3, h4⟩ := h
  refine ⟨?_, ?_, ?_, ?_, ?_⟩
  · simp only [Run.call, h0]; rfl
  · simp only [Run.call, List.foldl_append, List.foldl_cons, List.foldl_nil, h1]
  · exact (inTime_snoc _ _).2 ⟨h2, h3, fun i hi => by simp [PkgCall.about] at hi⟩
  · simp only [Run.call, List.mem_append, List.mem_singleton, not_or]
    exact ⟨h3, by simp⟩
  · simp only [Run.call, created_snoc, h4]; simp

theorem create_eq {o : Out} {r : Run} {rels : List Relationship} {ps : List IOPart} (h : Sync o r rels ps) (n t : Str) :
    r.create o n t = if o.creates ps n t then (some ps.length, r.call o (.create n t)) else (none, r) := by
  simp only [Run.create, h.w]

theorem part_with (o : Out) (n t : Str) (w : RawW) (rels : List Relationship) :
    (o.part n t RawW.new rels).with w = o.part n t w rels := rfl

/-! ## `Encode` -/

theorem attach_sync {o : Out} (as : List (Attachment × Stream)) {r : Run} {rels : List Relationship} {ps : List IOPart}
    (h : Sync o r rels ps) :
    (attachRun o as r).1 = (attachIO o as ps).1 ∧ Sync o (attachRun o as r).2 rels (attachIO o as ps).2.1 := by
  induction as generalizing r ps with
  | nil => exact ⟨rfl, h⟩
  | cons x as ih =>
    obtain ⟨a, s⟩ := x
    simp only [attachRun, attachIO, create_eq h]
    by_cases hc : o.creates ps a.path a.contentType = true
    · simp only [hc, if_true]
      obtain ⟨t, ht⟩ := ext_copy (o.sink ps.length) s.eof s.chunks RawW.new
      have hh : (copyLoop (o.sink ps.length) s.eof RawW.new s.chunks).2.1.hist = t := by rw [ht, hist_foldl]; rfl
      have hs := sync_writes (sync_create h a.path a.contentType) t
      rw [← ht, part_with] at hs
      rw [hh]
      by_cases hok : (copyLoop (o.sink ps.length) s.eof RawW.new s.chunks).1 = true
      · simp only [hok, if_true]
        exact ih hs
      · simp only [hok, Bool.false_eq_true, if_false]
        exact ⟨trivial, hs⟩
    · simp only [hc, Bool.false_eq_true, if_false]
      exact ⟨trivial, h⟩

theorem model_sync {o : Out} (name : Str) (pre : List Relationship) (steps : List Step) (prels : List Relationship) {r : Run}
    {rels : List Relationship} {ps : List IOPart} (h : Sync o r rels ps) :
    ((modelRun o name pre steps r).1 = none ∧ (modelIO o name steps prels ps).1 = false ∧
      ∃ rels', (rels' = rels ∨ rels' = pre.foldl opcAddRel rels) ∧
        Sync o (modelRun o name pre steps r).2 rels' (modelIO o name steps prels ps).2) ∨
    ((modelRun o name pre steps r).1 = some ps.length ∧ (modelIO o name steps prels ps).1 = true ∧
      Sync o ((modelRun o name pre steps r).2.calls o (prels.map (.partRel ps.length))) (pre.foldl opcAddRel rels)
        (modelIO o name steps prels ps).2) := by
  simp only [modelRun, modelIO, create_eq h]
  by_cases hc : o.creates ps name contentTypeModel = true
  · simp only [hc, if_true]
    have h1 := sync_writes (sync_create h name contentTypeModel) [xmlHeader]
    have h1 : Sync o ((r.call o (.create name contentTypeModel)).call o (.write ps.length xmlHeader)) rels _ := h1
    by_cases hw : ((o.sink ps.length).write [] xmlHeader).2 = true
    · simp only [hw, if_true]
      obtain ⟨t, ht⟩ := ext_steps (o.sink ps.length) steps (fun _ => []) (BufW.new (RawW.new.call (o.sink ps.length) xmlHeader))
      have hh : (runSteps (o.sink ps.length) (fun _ => []) (BufW.new (RawW.new.call (o.sink ps.length) xmlHeader))
          steps).2.raw.hist.drop 1 = t := by rw [ht, hist_foldl]; rfl
      rw [hh, calls_append]
      have h2 := sync_writes (sync_pkgRels h1 pre) t
      rw [List.foldl_cons, List.foldl_nil, part_with] at h2
      simp only [BufW.new] at ht h2
      rw [← ht] at h2
      by_cases hok : (runSteps (o.sink ps.length) (fun _ => []) (BufW.new (RawW.new.call (o.sink ps.length) xmlHeader))
          steps).1 = true
      · right
        simp only [hok, if_true]
        exact ⟨trivial, trivial, sync_partRels h2 prels⟩
      · left
        simp only [hok, Bool.false_eq_true, if_false]
        exact ⟨trivial, trivial, _, .inr rfl, h2⟩
    · left
      simp only [hw, Bool.false_eq_true, if_false]
      exact ⟨trivial, trivial, _, .inl rfl, h1⟩
  · left
    simp only [hc, Bool.false_eq_true, if_false]
    exact ⟨trivial, trivial, _, .inl rfl, h⟩

theorem childs_sync {o : Out} (prec : Int) (m : Model) (cs : List (Str × ChildModel)) {r : Run} {rels : List Relationship}
    {ps : List IOPart} (h : Sync o r rels ps) :
    (childsRun o prec m cs r).1 = (childsIO o prec m cs ps).1 ∧ Sync o (childsRun o prec m cs r).2 rels (childsIO o prec m cs ps).2 := by
  induction cs generalizing r ps with
  | nil => exact ⟨rfl, h⟩
  | cons c cs ih =>
    simp only [childsRun, childsIO]
    have hm := model_sync (o.opc.resolve m.pathOrDefault c.1) [] (c.2.steps prec m) c.2.partRels h
    rcases hx : modelRun o (o.opc.resolve m.pathOrDefault c.1) [] (c.2.steps prec m) r with ⟨x, r'⟩
    rw [hx] at hm
    rcases hm with ⟨h1, h2, rels', h3, h4⟩ | ⟨h1, h2, h3⟩
    · simp only at h1
      subst h1
      simp only [h2, Bool.false_eq_true, if_false]
      have : rels' = rels := by rcases h3 with h3 | h3 <;> exact h3
      exact ⟨trivial, this ▸ h4⟩
    · simp only at h1
      subst h1
      simp only [h2, if_true]
      exact ih h3

/-! ## Nothing is lost -/

/-- What the file has of the calls that were made. -/
structure Kept (o : Out) (w : OpcW) (log : List PkgCall) : Prop where
  closed : w.closed = true ↔ PkgCall.close ∈ log
  length : w.parts.length = created log
  names : w.parts.map (fun q => (q.part.name, q.part.contentType)) = (partsOf log).map fun x => (o.opc.norm x.1, x.2)
  parts : ∀ i q, w.parts[i]? = some q → q.hist = writesTo i log ∧ q.part.rels = (relsTo i log).foldl opcAddRel [] ∧
    q.part.data = ((writesTo i log).foldl (RawW.call (o.sink i)) .new).out
  none : ∀ i, w.parts.length ≤ i → writesTo i log = [] ∧ relsTo i log = []
  rels : w.rels = (relsOf log).foldl opcAddRel []

theorem kept {o : Out} {log : List PkgCall} (h : InTime log) : Kept o (log.foldl (OpcW.call o) .new) log := by
  induction log using List.reverseRecOn with
  | nil => exact ⟨by simp [OpcW.new], rfl, rfl, by simp [OpcW.new], fun _ _ => ⟨rfl, rfl⟩, rfl⟩
  | append_singleton l c ih =>
    obtain ⟨h1, h2, h3⟩ := (inTime_snoc l c).1 h
    obtain ⟨k1, k2, k3, k4, k5, k6⟩ := ih h1
    rw [List.foldl_append, List.foldl_cons, List.foldl_nil]
    generalize l.foldl (OpcW.call o) .new = w at *
    have hcl : w.closed = false := by
      cases hb : w.closed with
      | false => rfl
      | true => exact absurd (k1.1 hb) h2
    cases c with
    | create n t =>
      simp only [OpcW.call, hcl, Bool.false_eq_true, if_false]
      refine ⟨by simp [hcl, h2], by simp [k2, created_snoc], ?_, ?_, ?_, ?_⟩
      · simp only [List.map_append, k3, partsOf, List.filterMap_append]; simp
      · intro i q hq
        rw [List.getElem?_append] at hq
        split at hq
        · obtain ⟨a, b, c⟩ := k4 i q hq
          refine ⟨?_, ?_, ?_⟩ <;> simpa [writesTo, relsTo, List.filterMap_append] using by assumption
        · next hlt =>
          obtain ⟨a, b⟩ := k5 i (by omega)
          have hq' : q = ⟨⟨o.opc.norm n, t, [], []⟩, []⟩ := by
            have := List.mem_of_getElem? hq
            simpa using this
          subst hq'
          have e1 : writesTo i (l ++ [.create n t]) = [] := by rw [← a]; simp [writesTo, List.filterMap_append]
          have e2 : relsTo i (l ++ [.create n t]) = [] := by rw [← b]; simp [relsTo, List.filterMap_append]
          rw [e1, e2]
          exact ⟨rfl, rfl, rfl⟩
      · intro i hi
        simp only [List.length_append, List.length_singleton] at hi
        obtain ⟨a, b⟩ := k5 i (by omega)
        exact ⟨by rw [← a]; simp [writesTo, List.filterMap_append], by rw [← b]; simp [relsTo, List.filterMap_append]⟩
      · rw [k6]; simp [relsOf, List.filterMap_append]
    | write j p =>
      have hj : created l = j + 1 := h3 j rfl
      have hop : w.isOpen j = true := by simp [OpcW.isOpen, hcl, k2, hj]
      simp only [OpcW.call, hop, if_true]
      refine ⟨by simp [hcl, h2], by simp [k2, created_snoc], ?_, ?_, ?_, ?_⟩
      · rw [show partsOf (l ++ [.write j p]) = partsOf l by simp [partsOf, List.filterMap_append], ← k3]
        apply List.ext_getElem?
        intro k
        simp only [List.getElem?_map, List.getElem?_modify]
        cases w.parts[k]? with
        | none => rfl
        | some q => by_cases e : j = k <;> simp [e]
      · intro i q hq
        rw [List.getElem?_modify] at hq
        cases hw : w.parts[i]? with
        | none => rw [hw] at hq; cases hq
        | some q0 =>
          obtain ⟨a, b, c⟩ := k4 i q0 hw
          rw [hw] at hq
          by_cases e : j = i
          · subst e
            simp only [if_true, Option.map_eq_map, Option.map_some, Option.some.injEq] at hq
            subst hq
            have e1 : writesTo j (l ++ [.write j p]) = writesTo j l ++ [p] := by simp [writesTo, List.filterMap_append]
            have e2 : relsTo j (l ++ [.write j p]) = relsTo j l := by simp [relsTo, List.filterMap_append]
            rw [e1, e2]
            refine ⟨by simp [a], b, ?_⟩
            rw [List.foldl_append, List.foldl_cons, List.foldl_nil, RawW.call, hist_foldl, ← c, a]
            rfl
          · simp only [e, if_false, Option.map_eq_map, Option.map_some, id, Option.some.injEq] at hq
            subst hq
            have e1 : writesTo i (l ++ [.write j p]) = writesTo i l := by simp [writesTo, List.filterMap_append, e]
            have e2 : relsTo i (l ++ [.write j p]) = relsTo i l := by simp [relsTo, List.filterMap_append]
            rw [e1, e2]
            exact ⟨a, b, c⟩
      · intro i hi
        simp only [List.length_modify] at hi
        obtain ⟨a, b⟩ := k5 i hi
        have e : j ≠ i := by omega
        exact ⟨by rw [← a]; simp [writesTo, List.filterMap_append, e], by rw [← b]; simp [relsTo, List.filterMap_append]⟩
      · rw [k6]; simp [relsOf, List.filterMap_append]
    | partRel j x =>
      have hj : created l = j + 1 := h3 j rfl
      have hop : w.isOpen j = true := by simp [OpcW.isOpen, hcl, k2, hj]
      simp only [OpcW.call, hop, if_true]
      refine ⟨by simp [hcl, h2], by simp [k2, created_snoc], ?_, ?_, ?_, ?_⟩
      · rw [show partsOf (l ++ [.partRel j x]) = partsOf l by simp [partsOf, List.filterMap_append], ← k3]
        apply List.ext_getElem?
        intro k
        simp only [List.getElem?_map, List.getElem?_modify]
        cases w.parts[k]? with
        | none => rfl
        | some q => by_cases e : j = k <;> simp [e]
      · intro i q hq
        rw [List.getElem?_modify] at hq
        cases hw : w.parts[i]? with
        | none => rw [hw] at hq; cases hq
        | some q0 =>
          obtain ⟨a, b, c⟩ := k4 i q0 hw
          rw [hw] at hq
          have e1 : writesTo i (l ++ [.partRel j x]) = writesTo i l := by simp [writesTo, List.filterMap_append]
          rw [e1]
          by_cases e : j = i
          · subst e
            simp only [if_true, Option.map_eq_map, Option.map_some, Option.some.injEq] at hq
            subst hq
            have e2 : relsTo j (l ++ [.partRel j x]) = relsTo j l ++ [x] := by simp [relsTo, List.filterMap_append]
            rw [e2, List.foldl_append, ← b]
            exact ⟨a, rfl, c⟩
          · simp only [e, if_false, Option.map_eq_map, Option.map_some, id, Option.some.injEq] at hq
            subst hq
            have e2 : relsTo i (l ++ [.partRel j x]) = relsTo i l := by simp [relsTo, List.filterMap_append, e]
            rw [e2]
            exact ⟨a, b, c⟩
      · intro i hi
        simp only [List.length_modify] at hi
        obtain ⟨a, b⟩ := k5 i hi
        have e : j ≠ i := by omega
        exact ⟨by rw [← a]; simp [writesTo, List.filterMap_append], by rw [← b]; simp [relsTo, List.filterMap_append, e]⟩
      · rw [k6]; simp [relsOf, List.filterMap_append]
    | pkgRel x =>
      simp only [OpcW.call, hcl, Bool.false_eq_true, if_false]
      refine ⟨by simp [hcl, h2], by simp [k2, created_snoc], ?_, ?_, ?_, ?_⟩
      · rw [k3]; simp [partsOf, List.filterMap_append]
      · intro i q hq
        rw [show writesTo i (l ++ [.pkgRel x]) = writesTo i l by simp [writesTo, List.filterMap_append],
          show relsTo i (l ++ [.pkgRel x]) = relsTo i l by simp [relsTo, List.filterMap_append]]
        exact k4 i q hq
      · intro i hi
        rw [show writesTo i (l ++ [.pkgRel x]) = writesTo i l by simp [writesTo, List.filterMap_append],
          show relsTo i (l ++ [.pkgRel x]) = relsTo i l by simp [relsTo, List.filterMap_append]]
        exact k5 i hi
      · rw [k6]; simp [relsOf, List.filterMap_append]
    | close =>
      simp only [OpcW.call]
      refine ⟨by simp, by simp [k2, created_snoc], ?_, ?_, ?_, ?_⟩
      · rw [k3]; simp [partsOf, List.filterMap_append]
      · intro i q hq
        rw [show writesTo i (l ++ [.close]) = writesTo i l by simp [writesTo, List.filterMap_append],
          show relsTo i (l ++ [.close]) = relsTo i l by simp [relsTo, List.filterMap_append]]
        exact k4 i q hq
      · intro i hi
        rw [show writesTo i (l ++ [.close]) = writesTo i l by simp [writesTo, List.filterMap_append],
          show relsTo i (l ++ [.close]) = relsTo i l by simp [relsTo, List.filterMap_append]]
        exact k5 i hi
      · rw [k6]; simp [relsOf, List.filterMap_append]

/-! ## The property -/

variable (o : Out) (prec : Int) (m : Model) (ss : List Stream) (order1 : List Str) (order2 : List (Str × ChildModel))

/-- What is the case after `Encode`. -/
theorem encode_sync :
    ∃ rels, (encodeRun o prec m ss order1 order2).2.w.rels = rels ∧
      (((encodeRun o prec m ss order1 order2).1 = false ∧ (encodeIO o prec m ss order1 order2).ok = false ∧
          (encodeIO { o with close := true } prec m ss order1 order2).ok = false ∧
          Sync o (encodeRun o prec m ss order1 order2).2 rels (encodeIO o prec m ss order1 order2).parts) ∨
        ((encodeRun o prec m ss order1 order2).1 = o.close ∧ (encodeIO o prec m ss order1 order2).ok = o.close ∧
          (encodeIO { o with close := true } prec m ss order1 order2).ok = true ∧
          rels = (encodeIO o prec m ss order1 order2).rels ∧
          ∃ r, Sync o r rels (encodeIO o prec m ss order1 order2).parts ∧
            (encodeRun o prec m ss order1 order2).2 = r.call o .close)) := by
  have hcA : ∀ as ps, attachIO { o with close := true } as ps = attachIO o as ps := by
    intro as
    induction as with
    | nil => intro ps; rfl
    | cons x as ih => intro ps; obtain ⟨a, s⟩ := x; simp only [attachIO, ih]; rfl
  have hcC : ∀ cs ps, childsIO { o with close := true } prec m cs ps = childsIO o prec m cs ps := by
    intro as
    induction as with
    | nil => intro ps; rfl
    | cons x as ih => intro ps; simp only [childsIO, ih]; rfl
  have ha := attach_sync (m.attachments.zip ss) (sync_new o)
  simp only [encodeRun, encodeIO, hcA]
  rcases hx : attachRun o (m.attachments.zip ss) ⟨.new, []⟩ with ⟨x, r⟩
  rw [hx] at ha
  obtain ⟨a1, a2⟩ := ha
  simp only at a1 a2
  cases x with
  | false =>
    simp only [← a1, Bool.false_eq_true, if_false]
    exact ⟨_, rfl, .inl ⟨trivial, trivial, trivial, by rw [a2.w]; exact a2⟩⟩
  | true =>
    simp only [← a1, if_true]
    have h1 := sync_pkgRels a2 (m.rootRelationships ++ [(⟨m.pathOrDefault, relModel, []⟩ : Relationship)])
    have hm := model_sync m.pathOrDefault (if m.thumbnail ≠ [] then [⟨m.thumbnail, relThumbnail, []⟩] else [])
      (m.steps prec) (m.rootPartRels order1) h1
    rcases hy : modelRun o m.pathOrDefault (if m.thumbnail ≠ [] then [⟨m.thumbnail, relThumbnail, []⟩] else [])
      (m.steps prec) (r.calls o ((m.rootRelationships ++ [(⟨m.pathOrDefault, relModel, []⟩ : Relationship)]).map .pkgRel))
      with ⟨y, r'⟩
    rw [hy] at hm
    have hmi : modelIO { o with close := true } m.pathOrDefault (m.steps prec) (m.rootPartRels order1)
        (attachIO o (m.attachments.zip ss) []).2.1 = modelIO o m.pathOrDefault (m.steps prec) (m.rootPartRels order1)
        (attachIO o (m.attachments.zip ss) []).2.1 := rfl
    simp only [hmi, hcC]
    rcases hm with ⟨m1, m2, rels', -, m4⟩ | ⟨m1, m2, m3⟩
    · simp only at m1 m4
      subst m1
      simp only [m2, Bool.false_eq_true, if_false]
      exact ⟨_, rfl, .inl ⟨trivial, trivial, trivial, by rw [m4.w]; exact m4⟩⟩
    · simp only at m1 m3
      subst m1
      simp only [m2, if_true]
      have hc := childs_sync prec m order2 m3
      rcases hz : childsRun o prec m order2 (r'.calls o ((m.rootPartRels order1).map
        (.partRel (attachIO o (m.attachments.zip ss) []).2.1.length))) with ⟨z, r2⟩
      rw [hz] at hc
      obtain ⟨c1, c2⟩ := hc
      simp only at c1 c2
      cases z with
      | false =>
        simp only [← c1, Bool.false_and]
        exact ⟨_, rfl, .inl ⟨trivial, trivial, trivial, by rw [c2.w]; exact c2⟩⟩
      | true =>
        simp only [← c1, Bool.true_and]
        refine ⟨_, rfl, .inr ⟨trivial, trivial, trivial, ?_, r2, ?_, rfl⟩⟩
        · simp only [Run.call, OpcW.call, c2.w]
          rw [← List.foldl_append]; rfl
        · simp only [Run.call, OpcW.call, c2.w]
          exact c2

/-- **C78**: whatever fails, no call comes too late: what is written to a part and the relationships that it is given come
before the next part is created, and nothing comes after the package was closed. -/
theorem C78_inTime : InTime (encodeRun o prec m ss order1 order2).2.log := by
  obtain ⟨rels, -, ⟨-, -, -, h⟩ | ⟨-, -, -, -, r, h, e⟩⟩ := encode_sync o prec m ss order1 order2
  · exact h.time
  · rw [e]
    exact (inTime_snoc _ _).2 ⟨h.time, h.close, fun i hi => by simp [PkgCall.about] at hi⟩

theorem encode_run : (encodeRun o prec m ss order1 order2).2.w =
    (encodeRun o prec m ss order1 order2).2.log.foldl (OpcW.call o) .new := by
  obtain ⟨rels, -, ⟨-, -, -, h⟩ | ⟨-, -, -, -, r, h, e⟩⟩ := encode_sync o prec m ss order1 order2
  · exact h.run
  · rw [e]
    simp only [Run.call, List.foldl_append, List.foldl_cons, List.foldl_nil, ← h.run]

/-- **C78**: hence nothing is lost: the file has the parts that were created, in order, each with everything that was written
to it and with every relationship that it was given, and every relationship of the package. -/
theorem C78_kept : let r := (encodeRun o prec m ss order1 order2).2
    r.w.parts.map (fun q => (q.part.name, q.part.contentType)) = (partsOf r.log).map (fun x => (o.opc.norm x.1, x.2)) ∧
      (∀ i q, r.w.parts[i]? = some q → q.hist = writesTo i r.log ∧ q.part.rels = (relsTo i r.log).foldl opcAddRel [] ∧
        q.part.data = ((writesTo i r.log).foldl (RawW.call (o.sink i)) .new).out) ∧
      (∀ i, r.w.parts.length ≤ i → writesTo i r.log = [] ∧ relsTo i r.log = []) ∧
      r.w.rels = (relsOf r.log).foldl opcAddRel [] := by
  have h := kept (o := o) (C78_inTime o prec m ss order1 order2)
  rw [← encode_run] at h
  exact ⟨h.names, h.parts, h.none, h.rels⟩

/-- **C78**: the package is the one of `encodeIO`, in which a part gets its content and relationships at once. -/
theorem C78_package : (encodeRun o prec m ss order1 order2).1 = (encodeIO o prec m ss order1 order2).ok ∧
    (encodeRun o prec m ss order1 order2).2.w.parts = (encodeIO o prec m ss order1 order2).parts ∧
    ((encodeIO o prec m ss order1 order2).ok = true →
      (encodeRun o prec m ss order1 order2).2.w.rels = (encodeIO o prec m ss order1 order2).rels) := by
  obtain ⟨rels, hr, ⟨h1, h2, -, h⟩ | ⟨h1, h2, -, h3, r, h, e⟩⟩ := encode_sync o prec m ss order1 order2
  · exact ⟨by rw [h1, h2], by rw [h.w], fun hok => by rw [h2] at hok; cases hok⟩
  · refine ⟨by rw [h1, h2], ?_, fun _ => by rw [hr, h3]⟩
    rw [e]
    simp only [Run.call, OpcW.call, h.w]

/-- **C78**: the package is closed if and only if nothing has failed before, and this is then the last call. -/
theorem C78_close : (PkgCall.close ∈ (encodeRun o prec m ss order1 order2).2.log ↔
      (encodeIO { o with close := true } prec m ss order1 order2).ok = true) ∧
    (PkgCall.close ∈ (encodeRun o prec m ss order1 order2).2.log →
      ∃ l, (encodeRun o prec m ss order1 order2).2.log = l ++ [.close] ∧ PkgCall.close ∉ l) := by
  obtain ⟨rels, -, ⟨-, -, h3, h⟩ | ⟨-, -, h3, -, r, h, e⟩⟩ := encode_sync o prec m ss order1 order2
  · exact ⟨⟨fun hc => absurd hc h.close, fun hc => by rw [h3] at hc; cases hc⟩, fun hc => absurd hc h.close⟩
  · rw [e]
    exact ⟨⟨fun _ => h3, fun _ => by simp [Run.call]⟩, fun _ => ⟨r.log, rfl, h.close⟩⟩

/-! ## Examples -/

/-- What a call is, without the data. -/
def PkgCall.kind : PkgCall → Nat × Nat
  | .create .. => (0, 0)
  | .write i _ => (1, i)
  | .partRel i _ => (2, i)
  | .pkgRel _ => (3, 0)
  | .close => (4, 0)

/-- A model with an attachment, a child model and a thumbnail: the attachment in two pieces, the relationship of the package
to the root model, the root model with its relationship to the child, the child, and the end. -/
example :
    let x := encodeRun ⟨c70Opc, fun _ => c70Disk 1000, fun _ => true, true⟩ 4
      { c70Model with
        thumbnail := b!"/a.png" } c70Streams [b!"/c.model"] c70Model.childs;
    x.1 = true ∧ x.2.log.map PkgCall.kind =
      [(0, 0), (1, 0), (1, 0), (3, 0), (0, 0), (1, 1), (3, 0), (1, 1), (2, 1), (0, 0), (1, 2), (1, 2), (4, 0)] := by
  decide +kernel

/-- The disk is full: there is no call after that, the package is not closed. -/
example :
    let x := encodeRun ⟨c70Opc, fun _ => c70Disk 100, fun _ => true, true⟩ 4 c70Model c70Streams [b!"/c.model"]
      c70Model.childs;
    x.1 = false ∧ x.2.log.map PkgCall.kind = [(0, 0), (1, 0), (1, 0), (3, 0), (0, 0), (1, 1), (1, 1)] := by
  decide +kernel

/-- The order matters: a relationship that the root gets after the child was created is lost. -/
example : (([.create b!"/r" b!"", .create b!"/c" b!"", .partRel 0 ⟨b!"/c", relModel, []⟩, .close] : List PkgCall).foldl
    (OpcW.call ⟨c70Opc, fun _ => c70Disk 100, fun _ => true, true⟩) .new).parts.map (·.part.rels) = [[], []] := by
  decide +kernel

end Go3mf
