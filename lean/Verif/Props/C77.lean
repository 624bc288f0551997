import Verif.Model.Handles
import Verif.Props.C49

/-!
# C77: what is opened while a package is read is closed
-/

namespace Go3mf

namespace Spec

/-- How often the part with the given name was opened. -/
def opens (n : Str) (log : List Handle) : Nat := log.count (.opened n)

/-- How often the part with the given name was closed. -/
def closes (n : Str) (log : List Handle) : Nat := log.count (.closed n)

def isOpened : Handle → Bool
  | .opened _ => true
  | .closed _ => false

/-- At the end every part has been closed as often as it was opened; never before was it closed more often; at most `k` parts
are open at any time. -/
structure Tidy (k : Nat) (log : List Handle) : Prop where
  ended : ∀ n, closes n log = opens n log
  order : ∀ l, l <+: log → ∀ n, closes n l ≤ opens n l
  few : ∀ l, l <+: log → l.countP isOpened ≤ l.countP (fun h => !isOpened h) + k

end Spec

open Spec

/-! ## Logs -/

theorem countP_total {log : List Handle} (h : ∀ n, closes n log = opens n log) :
    log.countP (fun h => !isOpened h) = log.countP isOpened := by
  let nameOf : Handle → Str := fun h => match h with
    | .opened n => n
    | .closed n => n
  have h1 : List.Perm ((log.filter isOpened).map nameOf) ((log.filter fun h => !isOpened h).map nameOf) := by
    rw [List.perm_iff_count]
    intro n
    have := h n
    unfold closes opens at this
    simp only [List.count_eq_countP, List.countP_map, List.countP_filter] at this ⊢
    have e1 : log.countP (fun a => (((fun x => x == n) ∘ nameOf) a && isOpened a)) = log.countP (· == .opened n) := by
      refine List.countP_congr fun a _ => ?_
      cases a <;> simp [nameOf, isOpened]
    have e2 : log.countP (fun a => (((fun x => x == n) ∘ nameOf) a && !isOpened a)) = log.countP (· == .closed n) := by
      refine List.countP_congr fun a _ => ?_
      cases a <;> simp [nameOf, isOpened]
    rw [e1, e2, this]
  have := h1.length_eq
  rw [List.length_map, List.length_map, ← List.countP_eq_length_filter, ← List.countP_eq_length_filter] at this
  exact this.symm

theorem prefix_append_cases {α : Type} {l a b : List α} (h : l <+: a ++ b) : l <+: a ∨ ∃ t, l = a ++ t ∧ t <+: b := by
  obtain ⟨t, ht⟩ := h
  rcases List.append_eq_append_iff.1 ht with ⟨u, h1, h2⟩ | ⟨u, h1, h2⟩
  · exact Or.inl ⟨u, h1.symm⟩
  · exact Or.inr ⟨u, h1, t, h2.symm⟩

theorem Spec.Tidy.nil {k : Nat} : Tidy k [] := by
  refine ⟨fun _ => rfl, fun l hl n => ?_, fun l hl => ?_⟩ <;> rw [List.prefix_nil.1 hl] <;> simp [closes]

theorem Spec.Tidy.append {k : Nat} {a b : List Handle} (ha : Tidy k a) (hb : Tidy k b) : Tidy k (a ++ b) := by
  refine ⟨fun n => ?_, fun l hl n => ?_, fun l hl => ?_⟩
  · have h1 := ha.ended n
    have h2 := hb.ended n
    unfold closes opens at *
    rw [List.count_append, List.count_append, h1, h2]
  · rcases prefix_append_cases hl with h | ⟨t, rfl, ht⟩
    · exact ha.order l h n
    · have h1 := ha.ended n
      have h2 := hb.order t ht n
      unfold closes opens at *
      rw [List.count_append, List.count_append]
      omega
  · rcases prefix_append_cases hl with h | ⟨t, rfl, ht⟩
    · exact ha.few l h
    · have h1 := countP_total ha.ended
      have h2 := hb.few t ht
      rw [List.countP_append, List.countP_append]
      omega

theorem Spec.Tidy.mono {k k' : Nat} {a : List Handle} (h : Tidy k a) (hk : k ≤ k') : Tidy k' a :=
  ⟨h.ended, h.order, fun l hl => by have := h.few l hl; omega⟩

theorem Spec.Tidy.pair (n : Str) : Tidy 1 [.opened n, .closed n] := by
  have hp : ∀ l : List Handle, l <+: [.opened n, .closed n] → l = [] ∨ l = [.opened n] ∨ l = [.opened n, .closed n] := by
    intro l hl
    rcases prefix_append_cases (a := [Handle.opened n]) (b := [Handle.closed n]) hl with h | ⟨t, rfl, h⟩
    · rcases List.prefix_cons_iff.1 h with rfl | ⟨t, rfl, ht⟩
      · exact Or.inl rfl
      · obtain rfl := List.prefix_nil.1 ht
        exact Or.inr (Or.inl rfl)
    · rcases List.prefix_cons_iff.1 h with rfl | ⟨t, rfl, ht⟩
      · exact Or.inr (Or.inl rfl)
      · obtain rfl := List.prefix_nil.1 ht
        exact Or.inr (Or.inr rfl)
  refine ⟨fun m => ?_, fun l hl m => ?_, fun l hl => ?_⟩
  · simp [closes, opens, List.count_cons]
  · rcases hp l hl with rfl | rfl | rfl <;> simp [closes, opens, List.count_cons]
  · rcases hp l hl with rfl | rfl | rfl <;> simp [isOpened, List.countP_cons]

/-! ## Attachments -/

/-- Parts opened and closed one after the other. -/
def pairs (l : List Str) : List Handle := l.flatMap fun n => [.opened n, .closed n]

theorem pairs_tidy (l : List Str) : Tidy 1 (pairs l) := by
  induction l with
  | nil => exact .nil
  | cons n l ih => exact (Tidy.pair n).append ih

theorem pairs_append (l l' : List Str) : pairs (l ++ l') = pairs l ++ pairs l' := by simp [pairs]

theorem pairs_opens (l : List Str) (n : Str) : opens n (pairs l) = l.count n := by
  induction l with
  | nil => rfl
  | cons m l ih =>
    unfold opens at ih ⊢
    rw [List.count_cons, ← ih]
    simp [pairs, List.count_cons]

theorem copyLog_pairs (f : InFile) : f.copyLog = pairs (if f.content.isSome then [f.name] else []) := by
  unfold InFile.copyLog
  cases f.content <;> simp [pairs]

section

variable {env : Env} {o : Opc} {pk : InPkg}

/-- The attachments and the log: the parts of the list were opened and closed, those that can be read at most once. -/
def Once (pk : InPkg) (env : Env) (as : List Attachment) (log : List Handle) : Prop :=
  ∃ l, log = pairs l ∧ ∀ n f b, pk.files.find? (fun x => decide (x.name = n)) = some f → f.copy = some b →
    l.count n ≤ if as.any fun a => env.equalFold a.path n then 1 else 0

theorem once_nil {as : List Attachment} : Once pk env as [] := ⟨[], rfl, by simp⟩

theorem once_attach {as : List Attachment} {log : List Handle} {s p : Str} {f : InFile} (h : Once pk env as log)
    (hf : pk.find o s p = some f) :
    Once pk env (addAttachment env as f) (log ++ attachLog env as f) := by
  obtain ⟨l, rfl, hl⟩ := h
  unfold addAttachment attachLog
  by_cases ha : (as.any fun a => env.equalFold a.path f.name) = true
  · rw [if_pos ha, if_pos ha]
    exact ⟨l, by simp, hl⟩
  · rw [if_neg ha, if_neg ha, copyLog_pairs, ← pairs_append]
    refine ⟨_, rfl, fun n f' b hn hb => ?_⟩
    have h1 := hl n f' b hn hb
    rw [List.count_append]
    by_cases he : f.name = n
    · have e : f' = f := by
        unfold InPkg.find at hf
        have := List.find?_some hf
        simp only [decide_eq_true_eq] at this
        rw [← this, he] at hf
        rw [hn] at hf
        exact Option.some.inj hf
      subst he e
      rw [hb]
      have hz : l.count f'.name = 0 := by
        rw [if_neg ha] at h1
        omega
      have hc : f'.content.isSome = true := by
        unfold InFile.copy at hb
        cases hc : f'.content with
        | none => rw [hc] at hb; cases hb
        | some x => rfl
      rw [hz, hc]
      simp [Env.equalFold]
    · have hz : (if f.content.isSome then [f.name] else []).count n = 0 := by
        split <;> simp [he]
      rw [hz, Nat.add_zero]
      refine le_trans h1 ?_
      cases hc : f.copy with
      | none => exact le_refl _
      | some x =>
        simp only [List.any_append]
        by_cases hb : (as.any fun a => env.equalFold a.path n) = true
        · simp [hb]
        · simp [hb]

theorem once_rename {as as' : List Attachment} {log : List Handle} (h : Once pk env as log) (e : as' = as) : Once pk env as' log := by
  rw [e]; exact h

theorem extractRootLog_fst (root : InFile) (x : OpcState × List Handle) (rels : List Relationship) :
    (rels.foldl (extractRootLog env o pk root) x).1 = rels.foldl (extractRoot env o pk root) x.1 := by
  induction rels generalizing x with
  | nil => rfl
  | cons r rels ih => rw [List.foldl_cons, List.foldl_cons, ih]; rfl

theorem extractChildLog_fst (file : InFile) (x : Model × List Handle) (rels : List Relationship) :
    (rels.foldl (extractChildLog env o pk file) x).1 = rels.foldl (extractChild env o pk file) x.1 := by
  induction rels generalizing x with
  | nil => rfl
  | cons r rels ih => rw [List.foldl_cons, List.foldl_cons, ih]; rfl

theorem extractChildsLog_fst (fs : List InFile) (x : Model × List Handle) :
    (fs.foldl (fun m c => c.rels.foldl (extractChildLog env o pk c) m) x).1 =
      fs.foldl (fun m c => c.rels.foldl (extractChild env o pk c) m) x.1 := by
  induction fs generalizing x with
  | nil => rfl
  | cons f fs ih => rw [List.foldl_cons, List.foldl_cons, ih, extractChildLog_fst]

theorem processRelLog_fst (x : OpcState × List Handle) (r : Relationship) :
    (processRelLog env o pk x r).1 = processRel env o pk x.1 r := by
  unfold processRelLog processRel
  cases pk.find o b!"/" r.path with
  | none => simp only []; split <;> rfl
  | some f =>
    simp only []
    by_cases h : r.type = relModel
    · rw [if_pos h, if_pos h]
      simp only [extractRootLog_fst, extractChildsLog_fst]
    · rw [if_neg h, if_neg h]

theorem processRelsLog_fst (x : OpcState × List Handle) (rs : List Relationship) :
    (processRelsLog env o pk x rs).1 = processRels env o pk x.1 rs := by
  induction rs generalizing x with
  | nil => rfl
  | cons r rs ih =>
    have := processRelLog_fst (env := env) (o := o) (pk := pk) x r
    rw [processRelsLog, processRels]
    generalize processRelLog env o pk x r = y at this
    obtain ⟨_ | s, log⟩ := y
    · simp only at this
      rw [← this]; rfl
    · simp only at this
      rw [← this]
      simp only [Option.bind_some]
      exact ih _

theorem once_root (root : InFile) (rels : List Relationship) :
    ∀ x : OpcState × List Handle, Once pk env x.1.model.attachments x.2 →
    Once pk env (rels.foldl (extractRootLog env o pk root) x).1.model.attachments
      (rels.foldl (extractRootLog env o pk root) x).2 := by
  induction rels with
  | nil => exact fun x h => h
  | cons r rels ih =>
    intro x h
    rw [List.foldl_cons]
    apply ih
    simp only [extractRootLog, extractRoot]
    cases hf : pk.find o root.name r.path with
    | none => simpa using h
    | some f =>
      simp only []
      by_cases ht : r.type = relModel
      · rw [if_pos ht, if_pos ht]
        simpa using h
      · rw [if_neg ht, if_neg ht]
        exact once_attach h hf

theorem once_child (file : InFile) (rels : List Relationship) :
    ∀ x : Model × List Handle, Once pk env x.1.attachments x.2 →
    Once pk env (rels.foldl (extractChildLog env o pk file) x).1.attachments (rels.foldl (extractChildLog env o pk file) x).2 := by
  induction rels with
  | nil => exact fun x h => h
  | cons r rels ih =>
    intro x h
    rw [List.foldl_cons]
    apply ih
    simp only [extractChildLog, extractChild]
    cases hf : pk.find o file.name r.path with
    | none => simpa using h
    | some f =>
      simp only []
      by_cases ht : r.type = relModel
      · rw [if_pos ht, if_pos ht]
        simpa using h
      · rw [if_neg ht, if_neg ht]
        cases lookupChild x.1.childs file.name with
        | none => simpa using h
        | some c => exact once_attach h hf

theorem once_childs (fs : List InFile) :
    ∀ x : Model × List Handle, Once pk env x.1.attachments x.2 →
    Once pk env (fs.foldl (fun m c => c.rels.foldl (extractChildLog env o pk c) m) x).1.attachments
      (fs.foldl (fun m c => c.rels.foldl (extractChildLog env o pk c) m) x).2 := by
  induction fs with
  | nil => exact fun x h => h
  | cons f fs ih =>
    intro x h
    rw [List.foldl_cons]
    exact ih _ (once_child f _ x h)

theorem once_rels (rs : List Relationship) :
    ∀ x : OpcState × List Handle, Once pk env x.1.model.attachments x.2 →
    ∃ as, Once pk env as (processRelsLog env o pk x rs).2 := by
  induction rs with
  | nil => exact fun x h => ⟨_, h⟩
  | cons r rs ih =>
    intro x h
    have key : ∃ as, Once pk env as (processRelLog env o pk x r).2 ∧
        ∀ s, (processRelLog env o pk x r).1 = some s → s.model.attachments = as := by
      unfold processRelLog
      split
      · split
        · exact ⟨_, h, by simp⟩
        · exact ⟨_, h, by rintro s ⟨⟩; rfl⟩
      next f hf =>
        split
        · refine ⟨_, once_childs _ _ (once_root f f.rels _ ?_), by rintro s ⟨⟩; rfl⟩
          exact h
        · exact ⟨_, once_attach h hf, by rintro s ⟨⟩; rfl⟩
    rw [processRelsLog]
    obtain ⟨as, h1, h2⟩ := key
    generalize processRelLog env o pk x r = y at h1 h2
    obtain ⟨_ | s, log⟩ := y
    · exact ⟨as, h1⟩
    · refine ih (s, log) ?_
      have := h2 s rfl
      simp only at this ⊢
      rw [this]
      exact h1

/-- The attachments are opened one after the other, each of them once if it can be read. -/
theorem opcLog_once (m : Model) :
    ∃ l, processOPCLog env o pk m = pairs l ∧
      ∀ n f b, pk.files.find? (fun x => decide (x.name = n)) = some f → f.copy = some b → l.count n ≤ 1 := by
  obtain ⟨as, l, h1, h2⟩ := once_rels (pk := pk) (env := env) (o := o) pk.rels (⟨m, none, []⟩, []) once_nil
  refine ⟨l, h1, fun n f b hn hb => le_trans (h2 n f b hn hb) ?_⟩
  split <;> omega

end

/-! ## Child parts -/

/-- The part is open. -/
def Phase.holds : Phase → Bool
  | .running _ _ _ | .appending _ _ _ _ | .polling _ _ _ | .decoded _ _ => true
  | _ => false

section

variable {c : PkgCfg} {m : Model} {fs : List InFile}

theorem zip_set {α β : Type} : ∀ {l : List α} {l' : List β} {g : Nat} {a : α} {b : β}, l[g]? = some a →
    l.zip (l'.set g b) = (l.zip l').set g (a, b)
  | [], _, _, _, _, h => by simp at h
  | _ :: _, [], _, _, _, _ => by simp
  | x :: l, y :: l', 0, a, b, h => by
    simp only [List.getElem?_cons_zero, Option.some.injEq] at h
    simp [h]
  | x :: l, y :: l', g + 1, a, b, h => by
    simp only [List.getElem?_cons_succ] at h
    simp [zip_set h]

theorem countP_zip_set {q : InFile × Phase → Bool} {ps : List Phase} {g : Nat} {f : InFile} {p p' : Phase}
    (hf : fs[g]? = some f) (hp : ps[g]? = some p) :
    (fs.zip (ps.set g p')).countP q + (if q (f, p) then 1 else 0) = (fs.zip ps).countP q + (if q (f, p') then 1 else 0) := by
  have hz : (fs.zip ps)[g]? = some (f, p) := by
    rw [List.getElem?_zip_eq_some]
    exact ⟨hf, hp⟩
  obtain ⟨hg, hz⟩ := List.getElem?_eq_some_iff.1 hz
  rw [zip_set hf, List.countP_set (by exact hg)]
  rw [hz]
  have : (if q (f, p) = true then 1 else 0) ≤ (fs.zip ps).countP q := by
    split
    next h => exact List.countP_pos_iff.2 ⟨_, List.mem_of_getElem hz, h⟩
    · omega
  omega

/-- The steps open and close. -/
theorem step_holds {g : Nat} {f : InFile} {sh sh' : Shared} {p p' : Phase} (h : p.step c m g f sh = some (sh', p')) :
    (p.handles f = [] ∧ p'.holds = p.holds) ∨ p' = .panicked ∨
    (p.handles f = [.opened f.name] ∧ p.holds = false ∧ p'.holds = true) ∨
    (p.handles f = [.closed f.name] ∧ p.holds = true ∧ p'.holds = false) := by
  cases p with
  | ready =>
    simp only [Phase.step] at h
    cases hc : f.content with
    | none =>
      rw [hc] at h
      cases h
      exact Or.inl ⟨by simp [Phase.handles, hc], rfl⟩
    | some x =>
      rw [hc] at h
      cases h
      exact Or.inr (Or.inr (Or.inl ⟨by simp [Phase.handles, hc], rfl, rfl⟩))
  | running i s evs =>
    cases evs with
    | nil =>
      simp only [Phase.step] at h
      split at h
      · cases h
      · cases h
        exact Or.inl ⟨rfl, rfl⟩
    | cons ev evs =>
      simp only [Phase.step] at h
      split at h
      · cases h
        exact Or.inr (Or.inl rfl)
      · split at h <;> cases h <;> exact Or.inl ⟨rfl, rfl⟩
  | appending i s evs any =>
    cases h
    exact Or.inl ⟨rfl, rfl⟩
  | polling i s evs =>
    simp only [Phase.step] at h
    split at h
    · cases h; exact Or.inl ⟨rfl, rfl⟩
    · split at h <;> cases h <;> exact Or.inl ⟨rfl, rfl⟩
  | decoded s r =>
    refine Or.inr (Or.inr (Or.inr ⟨rfl, rfl, ?_⟩))
    simp only [Phase.step] at h
    split at h
    · cases h; rfl
    · split at h <;> cases h <;> rfl
  | failed s e => cases h; exact Or.inl ⟨rfl, rfl⟩
  | stored s => cases h; exact Or.inl ⟨rfl, rfl⟩
  | finished s => cases h
  | panicked => cases h

/-- How many parts of that name are open. -/
def heldName (n : Str) (fs : List InFile) (ps : List Phase) : Nat := (fs.zip ps).countP fun x => x.2.holds && x.1.name == n

def held (fs : List InFile) (ps : List Phase) : Nat := (fs.zip ps).countP fun x => x.2.holds

theorem isOpened_opened (n : Str) : isOpened (.opened n) = true := rfl

theorem isOpened_closed (n : Str) : isOpened (.closed n) = false := rfl

/-- The log is right so far. -/
structure SoFar (fs : List InFile) (x : ChildrenState × List Handle) : Prop where
  len : x.1.ps.length = fs.length
  name : ∀ n, opens n x.2 = closes n x.2 + heldName n fs x.1.ps
  total : x.2.countP isOpened = x.2.countP (fun h => !isOpened h) + held fs x.1.ps
  order : ∀ l, l <+: x.2 → ∀ n, closes n l ≤ opens n l
  few : ∀ l, l <+: x.2 → l.countP isOpened ≤ l.countP (fun h => !isOpened h) + fs.length

theorem held_le (ps : List Phase) : held fs ps ≤ fs.length := by
  unfold held
  refine le_trans List.countP_le_length ?_
  simp

theorem prefix_concat {α : Type} {l log : List α} {e : α} (h : l <+: log ++ [e]) : l <+: log ∨ l = log ++ [e] := by
  rcases prefix_append_cases h with h | ⟨t, rfl, ht⟩
  · exact Or.inl h
  · rcases List.prefix_cons_iff.1 ht with rfl | ⟨t', rfl, ht'⟩
    · exact Or.inl (by simp)
    · obtain rfl := List.prefix_nil.1 ht'
      exact Or.inr rfl

theorem soFar_step {x y : ChildrenState × List Handle} (h : SoFar fs x) (hs : HandleStep c m fs x y)
    (hp : ∀ p ∈ y.1.ps, p ≠ .panicked) : SoFar fs y := by
  cases hs with
  | cancel => exact ⟨h.len, h.name, h.total, h.order, h.few⟩
  | @step g f p p' sh' hf hg hs =>
    have e1 := fun n => countP_zip_set (q := fun x => x.2.holds && x.1.name == n) (p' := p') hf hg
    have e2 := countP_zip_set (q := fun x => x.2.holds) (p' := p') hf hg
    have hl : (x.1.ps.set g p').length = fs.length := by rw [List.length_set]; exact h.len
    have hle := held_le (fs := fs) (x.1.ps.set g p')
    have ht := h.total
    have hn := h.name
    unfold held at ht hle
    unfold heldName at hn
    rcases step_holds hs with ⟨h1, h2⟩ | rfl | ⟨h1, h2, h3⟩ | ⟨h1, h2, h3⟩
    · have hz : (fs.zip (x.1.ps.set g p')).countP (fun x => x.2.holds) = (fs.zip x.1.ps).countP fun x => x.2.holds := by
        simp only [h2] at e2; omega
      have hz' : ∀ n, (fs.zip (x.1.ps.set g p')).countP (fun x => x.2.holds && x.1.name == n) =
          (fs.zip x.1.ps).countP fun x => x.2.holds && x.1.name == n := by
        intro n
        have := e1 n
        simp only [h2] at this; omega
      rw [h1, List.append_nil]
      exact ⟨hl, fun n => by simp only [heldName, hz', hn], by simp only [held, hz, ht], h.order, h.few⟩
    · refine absurd rfl (hp .panicked ?_)
      have hlt : g < x.1.ps.length := (List.getElem?_eq_some_iff.1 hg).1
      exact List.mem_of_getElem? (i := g) (by simp [hlt])
    · simp only [h2, h3, Bool.false_eq_true, if_false, if_true] at e2
      have hn' : ∀ n, opens n (x.2 ++ [Handle.opened f.name]) =
          closes n (x.2 ++ [Handle.opened f.name]) + heldName n fs (x.1.ps.set g p') := by
        intro n
        have := e1 n
        simp only [h2, h3, Bool.false_and, Bool.true_and, Bool.false_eq_true, if_false] at this
        have hh := hn n
        unfold opens closes heldName at *
        rw [List.count_append, List.count_append]
        by_cases hfn : f.name = n
        · simp [hfn] at this ⊢
          omega
        · simp [hfn] at this ⊢
          omega
      have ht' : (x.2 ++ [Handle.opened f.name]).countP isOpened =
          (x.2 ++ [Handle.opened f.name]).countP (fun h => !isOpened h) + held fs (x.1.ps.set g p') := by
        unfold held
        simp [List.countP_append, isOpened_opened, isOpened_closed]
        omega
      rw [h1]
      refine ⟨hl, hn', ht', fun l hl n => ?_, fun l hl => ?_⟩
      · rcases prefix_concat hl with h' | rfl
        · exact h.order l h' n
        · have := hn' n; omega
      · rcases prefix_concat hl with h' | rfl
        · exact h.few l h'
        · unfold held at ht'; omega
    · simp only [h2, h3, Bool.false_eq_true, if_false, if_true] at e2
      have hn' : ∀ n, opens n (x.2 ++ [Handle.closed f.name]) =
          closes n (x.2 ++ [Handle.closed f.name]) + heldName n fs (x.1.ps.set g p') := by
        intro n
        have := e1 n
        simp only [h2, h3, Bool.false_and, Bool.true_and, Bool.false_eq_true, if_false] at this
        have hh := hn n
        unfold opens closes heldName at *
        rw [List.count_append, List.count_append]
        by_cases hfn : f.name = n
        · simp [hfn] at this ⊢
          omega
        · simp [hfn] at this ⊢
          omega
      have ht' : (x.2 ++ [Handle.closed f.name]).countP isOpened =
          (x.2 ++ [Handle.closed f.name]).countP (fun h => !isOpened h) + held fs (x.1.ps.set g p') := by
        unfold held
        simp [List.countP_append, isOpened_opened, isOpened_closed]
        omega
      rw [h1]
      refine ⟨hl, hn', ht', fun l hl n => ?_, fun l hl => ?_⟩
      · rcases prefix_concat hl with h' | rfl
        · exact h.order l h' n
        · have := hn' n; omega
      · rcases prefix_concat hl with h' | rfl
        · exact h.few l h'
        · unfold held at ht'; omega

theorem finished_not_panicked {st : ChildrenState} (h : st.Finished) : ∀ p ∈ st.ps, p ≠ .panicked := by
  intro p hp
  obtain ⟨g, hg⟩ := List.mem_iff_getElem?.1 hp
  obtain ⟨s, rfl⟩ := h g p hg
  simp

theorem step_not_panicked {x y : ChildrenState × List Handle} (hs : HandleStep c m fs x y) (hp : ∀ p ∈ y.1.ps, p ≠ .panicked) :
    ∀ p ∈ x.1.ps, p ≠ .panicked := by
  cases hs with
  | cancel => exact hp
  | @step g f p p' sh' hf hg hs =>
    rintro q hq rfl
    obtain ⟨i, hi⟩ := List.mem_iff_getElem?.1 hq
    by_cases hig : g = i
    · subst hig
      rw [hg] at hi
      obtain rfl := Option.some.inj hi
      cases hs
    · exact hp .panicked (List.mem_of_getElem? (i := i) (by rw [List.getElem?_set_ne hig]; exact hi)) rfl

theorem soFar_run {b : Bool} {y : ChildrenState × List Handle} (h : Relation.ReflTransGen (HandleStep c m fs) (.init fs b, []) y)
    (hp : ∀ p ∈ y.1.ps, p ≠ .panicked) : SoFar fs y := by
  induction h with
  | refl =>
    have h0 : ∀ q : InFile × Phase → Bool, (∀ f, q (f, .ready) = false) → (fs.zip (fs.map fun _ => Phase.ready)).countP q = 0 := by
      intro q hq
      rw [List.countP_eq_zero]
      rintro ⟨f, p⟩ hx
      have := List.of_mem_zip hx
      obtain ⟨_, -, rfl⟩ := List.mem_map.1 this.2
      simp [hq]
    refine ⟨by simp [ChildrenState.init], fun n => ?_, ?_, fun l hl n => ?_, fun l hl => ?_⟩
    · simp only [heldName, ChildrenState.init]
      rw [h0 _ fun f => rfl]
      rfl
    · simp only [held, ChildrenState.init]
      rw [h0 _ fun f => rfl]
      rfl
    · rw [List.prefix_nil.1 hl]; simp [closes]
    · rw [List.prefix_nil.1 hl]; simp
  | tail _ hs ih => exact soFar_step (ih (step_not_panicked hs hp)) hs hp

/-- The child parts are closed when all goroutines have ended. -/
theorem outcome_tidy {b b' : Bool} {m' : Model} {e : Option ChildErr} {log : List Handle}
    (h : HandleOutcome c m fs b m' e b' log) : Tidy fs.length log := by
  obtain ⟨st, h1, h2, -⟩ := h
  have hs := soFar_run h1 (finished_not_panicked h2)
  refine ⟨fun n => ?_, hs.order, hs.few⟩
  have := hs.name n
  have hz : heldName n fs st.ps = 0 := by
    unfold heldName
    rw [List.countP_eq_zero]
    rintro ⟨f, p⟩ hx
    obtain ⟨g, hg⟩ := List.mem_iff_getElem?.1 (List.of_mem_zip hx).2
    obtain ⟨s, rfl⟩ := h2 g p hg
    simp [Phase.holds]
  simp only [hz] at this
  omega

end

/-! ## The runs with and without log -/

theorem run_log {c : PkgCfg} {m : Model} {fs : List InFile} {x : ChildrenState} {st : ChildrenState}
    (h : Relation.ReflTransGen (ChildrenStepC c m fs) x st) :
    ∃ log, Relation.ReflTransGen (HandleStep c m fs) (x, []) (st, log) := by
  induction h with
  | refl => exact ⟨[], .refl⟩
  | tail _ hs ih =>
    obtain ⟨log, ih⟩ := ih
    cases hs with
    | step hs =>
      cases hs with
      | step hf hg hs => exact ⟨_, ih.tail (.step hf hg hs)⟩
    | cancel => exact ⟨_, ih.tail .cancel⟩

theorem log_run {c : PkgCfg} {m : Model} {fs : List InFile} {x y : ChildrenState × List Handle}
    (h : Relation.ReflTransGen (HandleStep c m fs) x y) : Relation.ReflTransGen (ChildrenStepC c m fs) x.1 y.1 := by
  induction h with
  | refl => exact .refl
  | tail _ hs ih =>
    cases hs with
    | step hf hg hs => exact ih.tail (.step (.step hf hg hs))
    | cancel => exact ih.tail .cancel

theorem handleOutcome_iff {c : PkgCfg} {m m' : Model} {fs : List InFile} {b b' : Bool} {e : Option ChildErr} :
    (∃ log, HandleOutcome c m fs b m' e b' log) ↔ ChildrenOutcomeC c m fs b m' e b' := by
  constructor
  · rintro ⟨log, st, h1, h2⟩
    exact ⟨st, log_run h1, h2⟩
  · rintro ⟨st, h1, h2⟩
    obtain ⟨log, h⟩ := run_log h1
    exact ⟨log, st, h, h2⟩

/-- The runs with a log are the runs of `DecodeContext`. -/
theorem C77_runs (c : PkgCfg) (o : Opc) (pk : InPkg) (m : Model) (b : Bool) (done : Nat → Bool) (m' : Model) (r : PkgResult) :
    (∃ log, HandleDecodes c o pk m b done m' r log) ↔ Decodes c o pk m b done m' r := by
  constructor
  · rintro ⟨log, h⟩
    cases h with
    | opc h => exact .opc h
    | child h1 h2 => exact .child h1 (handleOutcome_iff.1 ⟨_, h2⟩)
    | root h1 h2 h3 h4 => exact .root h1 (handleOutcome_iff.1 ⟨_, h2⟩) h3 h4
  · intro h
    cases h with
    | opc h => exact ⟨_, .opc h⟩
    | child h1 h2 =>
      obtain ⟨log, h2⟩ := handleOutcome_iff.2 h2
      exact ⟨_, .child h1 h2⟩
    | root h1 h2 h3 h4 =>
      obtain ⟨log, h2⟩ := handleOutcome_iff.2 h2
      exact ⟨_, .root h1 h2 h3 h4⟩

/-- **C77**: whenever `DecodeContext` returns, with or without an error, cancelled or not, everything that it opened has been
closed, once for each time it was opened and not before.  At any time at most as many parts are open as there are child
parts, or one. -/
theorem C77_closed (c : PkgCfg) (o : Opc) (pk : InPkg) (m : Model) (b : Bool) (done : Nat → Bool) (m' : Model) (r : PkgResult)
    (log : List Handle) (h : HandleDecodes c o pk m b done m' r log) :
    Tidy (max 1 ((processOPC c.env o pk m).elim 0 fun x => x.2.2.length)) log := by
  obtain ⟨l, hl, -⟩ := opcLog_once (o := o) (pk := pk) m
  have h0 := pairs_tidy l
  rw [← hl] at h0
  cases h with
  | opc h => exact h0.mono (by omega)
  | child h1 h2 =>
    rw [h1]
    exact (h0.mono (by omega)).append ((outcome_tidy h2).mono (by simp))
  | @root _ _ _ root _ _ _ _ h1 h2 h3 h4 =>
    rw [h1]
    refine ((h0.mono (by omega)).append ((outcome_tidy h2).mono (by simp))).append ?_
    rw [copyLog_pairs]
    exact (pairs_tidy _).mono (by omega)

/-- **C77** (attachments): a part that can be read is opened at most once for the attachments, however many relationships
refer to it. -/
theorem C77_attachments (env : Env) (o : Opc) (pk : InPkg) (m : Model) (n : Str) (f : InFile)
    (b : Str) (hn : pk.files.find? (fun x => decide (x.name = n)) = some f) (hb : f.copy = some b) :
    opens n (processOPCLog env o pk m) ≤ 1 := by
  obtain ⟨l, hl, h⟩ := opcLog_once (o := o) (pk := pk) m
  rw [hl, pairs_opens]
  exact h n f b hn hb

/-! ## Examples -/

/-- Run the goroutines in the given order. -/
def runLog (c : PkgCfg) (m : Model) (fs : List InFile) : List Nat → ChildrenState → List Handle → Option (List Handle)
  | [], st, log => if st.allFinished then some log else none
  | g :: gs, st, log =>
    match fs[g]?, st.ps[g]? with
    | some f, some p => match p.step c m g f st.sh with
      | some (sh, p') => runLog c m fs gs ⟨sh, st.ps.set g p'⟩ (log ++ p.handles f)
      | none => none
    | _, _ => none

theorem runLog_run {c : PkgCfg} {m : Model} {fs : List InFile} : ∀ {gs : List Nat} {st : ChildrenState} {log log' : List Handle},
    runLog c m fs gs st log = some log' →
    ∃ st', Relation.ReflTransGen (HandleStep c m fs) (st, log) (st', log') ∧ st'.Finished
  | [], st, log, log', h => by
    simp only [runLog] at h
    split at h
    next hf =>
      cases h
      exact ⟨st, .refl, allFinished_iff hf⟩
    · cases h
  | g :: gs, st, log, log', h => by
    simp only [runLog] at h
    cases hf : fs[g]? with
    | none => simp [hf] at h
    | some f =>
      cases hp : st.ps[g]? with
      | none => simp [hf, hp] at h
      | some p =>
        cases he : p.step c m g f st.sh with
        | none => simp [hf, hp, he] at h
        | some q =>
          simp only [hf, hp, he] at h
          obtain ⟨st', h1, h2⟩ := runLog_run h
          exact ⟨st', .head (.step (x := (st, log)) hf hp he) h1, h2⟩

/-- Two child parts are open at the same time. -/
theorem c77_turns : runLog c48Cfg c48Model c48Good (List.replicate 15 [0, 1]).flatten (.init c48Good false) [] =
    some [.opened b!"/a.model", .opened b!"/b.model", .closed b!"/a.model", .closed b!"/b.model"] := by decide +kernel

example : ∃ m' e b', HandleOutcome c48Cfg c48Model c48Good false m' e b'
    [.opened b!"/a.model", .opened b!"/b.model", .closed b!"/a.model", .closed b!"/b.model"] := by
  obtain ⟨st, h1, h2⟩ := runLog_run c77_turns
  exact ⟨_, _, _, st, h1, h2, rfl, rfl, fun _ => rfl⟩

/-- One part fails: the other one is cancelled and closed, too. -/
example : runLog c48Cfg c48Model c48Bad (List.replicate 10 0 ++ List.replicate 6 1) (.init c48Bad false) [] =
    some [.opened b!"/a.model", .closed b!"/a.model", .opened b!"/b.model", .closed b!"/b.model"] := by decide +kernel

/-- A package with a thumbnail, to which two relationships refer, and a part that cannot be read to its end, to which two
other relationships refer. -/
def c77Pkg : InPkg :=
  ⟨[⟨b!"/t.png", b!"thumbnail", []⟩, ⟨b!"/3D/3dmodel.model", relModel, []⟩, ⟨b!"/u.png", b!"other", []⟩],
    [⟨b!"/3D/3dmodel.model", contentTypeModel, [⟨b!"/t.png", b!"texture", []⟩, ⟨b!"/u.png", b!"texture", []⟩], some ([], .eof)⟩,
      ⟨b!"/t.png", b!"image/png", [], some (b!"x", .eof)⟩, ⟨b!"/u.png", b!"image/png", [], some (b!"x", .io)⟩]⟩

/-- The thumbnail is opened once, the broken part is opened again for each relationship. -/
example : processOPCLog allExt c49Opc c77Pkg .zero = [.opened b!"/t.png", .closed b!"/t.png", .opened b!"/u.png",
    .closed b!"/u.png", .opened b!"/u.png", .closed b!"/u.png"] := by decide +kernel

/-- A whole run. -/
example : ∃ m' log, HandleDecodes c48Cfg c49Opc (c49Pkg [] []) .zero true (fun _ => true) m' (.root .ok) log := by
  cases hr : c49Run [] fun _ => true with
  | none => have := c49_empty; rw [hr] at this; cases this
  | some r =>
    have hk := c49_empty
    rw [hr] at hk
    have e : r = .ok := by cases r <;> first | rfl | cases hk
    subst e
    obtain ⟨m', hd⟩ := decodes_of_run (b := true) hr fun _ _ => rfl
    obtain ⟨log, h⟩ := (C77_runs _ _ _ _ _ _ _ _).2 hd
    exact ⟨m', log, h⟩

end Go3mf
