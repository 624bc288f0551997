import Verif.Model.Registry

/-!
# C81: extensions can be registered and looked up from any goroutine
-/

namespace Go3mf

/-- What was registered last for a name space, given the calls in the order in which they take effect. -/
def Spec.latest (ns : Str) : List (Nat × RegOp) → Option (Option Nat)
  | [] => none
  | (_, .register n ext) :: l => match latest ns l with
    | some e => some e
    | none => if n = ns then some ext else none
  | (_, .load _) :: l => latest ns l

theorem latest_append (ns : Str) (l k : List (Nat × RegOp)) : Spec.latest ns (l ++ k) = (Spec.latest ns k).or (Spec.latest ns l) := by
  induction l with
  | nil => simp [Spec.latest]
  | cons c l ih =>
    obtain ⟨i, op⟩ := c
    cases op with
    | register n ext =>
      simp only [List.cons_append, Spec.latest, ih]
      cases Spec.latest ns k <;> rfl
    | load n => simpa [Spec.latest] using ih

/-- The call number `i` is in the log, with what it found there. -/
def Spec.InLog (s : Registry) (i : Nat) (c : RegCall) : Prop :=
  ∃ pre post, s.log = pre ++ (i, c.op) :: post ∧ (∀ ns, c.op = .load ns → c.res = latest ns pre)

/-- What holds in every reachable state. -/
structure Spec.RegInv (s : Registry) : Prop where
  writers : s.calls.countP (fun c => c.crit && c.op.writes) = if s.writer then 1 else 0
  readers : s.calls.countP (fun c => c.crit && !c.op.writes) = s.readers
  excl : s.writer = true → s.readers = 0
  map : ∀ ns, s.specs ns = latest ns s.log
  before : ∀ i c, s.calls[i]? = some c → c.phase = .idle ∨ c.phase = .held → ∀ op, (i, op) ∉ s.log
  after : ∀ i c, s.calls[i]? = some c → c.phase = .did ∨ c.phase = .out → InLog s i c

theorem start_inv (ops : List RegOp) : Spec.RegInv (.start ops) := by
  have hc : ∀ c ∈ (Registry.start ops).calls, c.phase = .idle := by
    intro c hc
    simp only [Registry.start, List.mem_map] at hc
    obtain ⟨op, _, rfl⟩ := hc
    rfl
  refine ⟨?_, ?_, by simp [Registry.start], fun ns => rfl, ?_, ?_⟩
  · simp only [Registry.start, Bool.false_eq_true, if_false]
    rw [List.countP_eq_zero]
    intro c h
    simp [RegCall.crit, hc c h]
  · show _ = 0
    rw [List.countP_eq_zero]
    intro c h
    simp [RegCall.crit, hc c h]
  · intro i c _ _ op
    simp [Registry.start]
  · intro i c h hp
    have := hc c (List.mem_of_getElem? h)
    rw [this] at hp
    simp at hp

/-- The number of calls with a property after one of them changed. -/
theorem countP_upd {l : List RegCall} {i : Nat} {c d : RegCall} (p : RegCall → Bool) (h : l[i]? = some c) :
    (l.set i d).countP p + (if p c then 1 else 0) = l.countP p + (if p d then 1 else 0) := by
  obtain ⟨hlt, hc⟩ := List.getElem?_eq_some_iff.1 h
  rw [List.countP_set hlt, hc]
  have : (if p c = true then 1 else 0) ≤ l.countP p := by
    split
    · rename_i hp
      exact List.countP_pos_iff.2 ⟨c, List.mem_of_getElem? h, hp⟩
    · omega
  omega

theorem getElem?_upd {l : List RegCall} {i j : Nat} {d e : RegCall} (h : (l.set i d)[j]? = some e) :
    (j = i ∧ e = d) ∨ (j ≠ i ∧ l[j]? = some e) := by
  rw [List.getElem?_set] at h
  split at h
  · rename_i hij
    split at h
    · cases h; exact .inl ⟨hij.symm, rfl⟩
    · cases h
  · rename_i hij
    exact .inr ⟨fun he => hij he.symm, h⟩

theorem step_inv {s t : Registry} {i : Nat} (h : Spec.RegInv s) (e : s.step i = some t) : Spec.RegInv t := by
  unfold Registry.step at e
  split at e
  · cases e
  · rename_i c hc
    have hw := fun d => countP_upd (i := i) (c := c) (d := d) (fun c => c.crit && c.op.writes) hc
    have hr := fun d => countP_upd (i := i) (c := c) (d := d) (fun c => c.crit && !c.op.writes) hc
    have hrest : ∀ (t : Registry) (d : RegCall), t.log = s.log → t.calls = s.calls.set i d → t.specs = s.specs →
        (d.phase = .idle ∨ d.phase = .held → ∀ op, (i, op) ∉ s.log) → (d.phase = .did ∨ d.phase = .out → Spec.InLog s i d) →
        (∀ ns, t.specs ns = Spec.latest ns t.log) ∧
        (∀ j c, t.calls[j]? = some c → c.phase = .idle ∨ c.phase = .held → ∀ op, (j, op) ∉ t.log) ∧
        (∀ j c, t.calls[j]? = some c → c.phase = .did ∨ c.phase = .out → Spec.InLog t j c) := by
      intro t d h1 h2 h3 h4 h5
      refine ⟨fun ns => by rw [h3, h1]; exact h.map ns, ?_, ?_⟩
      · intro j c' hj hp op
        rw [h2] at hj
        rw [h1]
        rcases getElem?_upd hj with ⟨rfl, rfl⟩ | ⟨_, hj⟩
        · exact h4 hp op
        · exact h.before j c' hj hp op
      · intro j c' hj hp
        rw [h2] at hj
        unfold Spec.InLog
        rw [h1]
        rcases getElem?_upd hj with ⟨rfl, rfl⟩ | ⟨_, hj⟩
        · exact h5 hp
        · exact h.after j c' hj hp
    have hwr := h.writers
    have hrd := h.readers
    have hex := h.excl
    split at e
    · rename_i hph
      have hb := h.before i c hc (.inl hph)
      have w := hw { c with phase := .held }
      have r := hr { c with phase := .held }
      split at e
      · rename_i hop
        split at e
        · rename_i hfree
          cases e
          obtain ⟨r1, r2, r3⟩ := hrest { s with writer := true, calls := s.calls.set i { c with phase := .held } } { c with phase := .held } rfl rfl rfl
            (fun _ => hb) (by simp)
          rw [hwr, hfree.1] at w
          rw [hrd] at r
          exact ⟨by simpa [RegCall.crit, hph, hop] using w, by simpa [RegCall.crit, hph, hop] using r, fun _ => hfree.2, r1, r2, r3⟩
        · cases e
      · rename_i hop
        split at e
        · rename_i hfree
          cases e
          obtain ⟨r1, r2, r3⟩ := hrest { s with readers := s.readers + 1, calls := s.calls.set i { c with phase := .held } } { c with phase := .held } rfl rfl rfl
            (fun _ => hb) (by simp)
          rw [hwr] at w
          rw [hrd] at r
          exact ⟨by simpa [RegCall.crit, hph, hop] using w, by simpa [RegCall.crit, hph, hop] using r, by simp [hfree], r1, r2, r3⟩
        · cases e
    · rename_i hph
      have hb := h.before i c hc (.inr hph)
      have w := hw { c with phase := .did, res := (c.op.access s.specs).2 }
      have r := hr { c with phase := .did, res := (c.op.access s.specs).2 }
      simp only [RegCall.crit, hph] at w r
      cases e
      refine ⟨?_, ?_, hex, ?_, ?_, ?_⟩
      · rw [← hwr]; simp only [RegCall.crit]; simp at w ⊢; exact w
      · rw [← hrd]; simp only [RegCall.crit]; simp at r ⊢; exact r
      · intro ns
        simp only [latest_append, ← h.map]
        cases hop : c.op with
        | register n ext =>
          simp only [RegOp.access, Spec.latest]
          by_cases hn : n = ns
          · simp [hn]
          · simp [hn, Ne.symm hn]
        | load n => simp [RegOp.access, Spec.latest]
      · intro j c' hj hp op hm
        rcases getElem?_upd hj with ⟨rfl, rfl⟩ | ⟨hne, hj⟩
        · simp at hp
        · rcases List.mem_append.1 hm with hm | hm
          · exact h.before j c' hj hp op hm
          · simp only [List.mem_singleton, Prod.mk.injEq] at hm
            exact hne hm.1
      · intro j c' hj hp
        rcases getElem?_upd hj with ⟨rfl, rfl⟩ | ⟨hne, hj⟩
        · refine ⟨s.log, [], rfl, ?_⟩
          intro ns hns
          simp only [] at hns ⊢
          rw [hns, ← h.map]
          rfl
        · obtain ⟨pre, post, h1, h2⟩ := h.after j c' hj hp
          exact ⟨pre, post ++ [(i, c.op)], by simp [h1], h2⟩
    · rename_i hph
      have hin := h.after i c hc (.inl hph)
      have w := hw { c with phase := .out }
      have r := hr { c with phase := .out }
      rw [hwr] at w
      rw [hrd] at r
      split at e
      · rename_i hop
        cases e
        obtain ⟨r1, r2, r3⟩ := hrest { s with writer := false, calls := s.calls.set i { c with phase := .out } } { c with phase := .out } rfl rfl rfl
          (by simp) (fun _ => hin)
        refine ⟨?_, by simpa [RegCall.crit, hph, hop] using r, by simp, r1, r2, r3⟩
        rw [show (c.crit && c.op.writes) = true by simp [RegCall.crit, hph, hop]] at w
        simp only [RegCall.crit] at w ⊢
        have : (if s.writer = true then 1 else 0) ≤ 1 := by split <;> omega
        simp only [reduceCtorEq, decide_false, Bool.or_self, Bool.false_and, Bool.false_eq_true, if_false, if_true] at w ⊢
        omega
      · rename_i hop
        cases e
        obtain ⟨r1, r2, r3⟩ := hrest { s with readers := s.readers - 1, calls := s.calls.set i { c with phase := .out } } { c with phase := .out } rfl rfl rfl
          (by simp) (fun _ => hin)
        refine ⟨by simpa [RegCall.crit, hph, hop] using w, ?_, fun hx => by have := hex hx; simp only []; omega, r1, r2, r3⟩
        simp [RegCall.crit, hph, hop] at r ⊢
        omega
    · cases e

theorem reach_inv {s t : Registry} (h : Spec.RegInv s) (r : Registry.Reach s t) : Spec.RegInv t := by
  induction r with
  | refl => exact h
  | step i _ e ih => exact step_inv ih e

theorem reg_two_le (p : RegCall → Bool) {c d : RegCall} (hc : p c = true) (hd : p d = true) : ∀ (l : List RegCall) (i j : Nat), l[i]? = some c →
    l[j]? = some d → i ≠ j → 2 ≤ l.countP p := by
  intro l
  induction l with
  | nil => intro i j hi; simp at hi
  | cons x l ih =>
    intro i j hi hj hne
    have pos : ∀ (k : Nat) (e : RegCall), p e = true → l[k]? = some e → 0 < l.countP p :=
      fun k e he hk => List.countP_pos_iff.2 ⟨e, List.mem_of_getElem? hk, he⟩
    cases i with
    | zero =>
      cases j with
      | zero => exact absurd rfl hne
      | succ j =>
        simp only [List.getElem?_cons_zero, Option.some.injEq, List.getElem?_cons_succ] at hi hj
        subst hi
        rw [List.countP_cons_of_pos hc]
        have := pos j d hd hj
        omega
    | succ i =>
      cases j with
      | zero =>
        simp only [List.getElem?_cons_zero, Option.some.injEq, List.getElem?_cons_succ] at hi hj
        subst hj
        rw [List.countP_cons_of_pos hd]
        have := pos i c hc hi
        omega
      | succ j =>
        simp only [List.getElem?_cons_succ] at hi hj
        have := ih i j hi hj (by omega)
        rw [List.countP_cons]
        omega

/-- C81: while a `Register` is at the map, no other call is: in no order of steps is there a race. -/
theorem C81_exclusive (ops : List RegOp) {s : Registry} (r : Registry.Reach (.start ops) s) {i j : Nat} {c d : RegCall} (hi : s.calls[i]? = some c)
    (hj : s.calls[j]? = some d) (hne : i ≠ j) (hc : c.phase = .held ∨ c.phase = .did) (hop : ∃ ns ext, c.op = .register ns ext) :
    d.phase = .idle ∨ d.phase = .out := by
  have hw : c.op.writes = true := by obtain ⟨ns, ext, h⟩ := hop; rw [h]; rfl
  replace hc : c.crit = true := by simpa [RegCall.crit] using hc
  suffices d.crit = false by
    unfold RegCall.crit at this
    cases hp : d.phase <;> simp_all
  have h := reach_inv (start_inv ops) r
  cases hd : d.crit with
  | false => rfl
  | true =>
    exfalso
    have h1 := h.writers
    have hpos : 0 < s.calls.countP (fun c => c.crit && c.op.writes) :=
      List.countP_pos_iff.2 ⟨c, List.mem_of_getElem? hi, by simp [hc, hw]⟩
    have hwr : s.writer = true := by
      cases hx : s.writer with
      | true => rfl
      | false => rw [hx] at h1; simp only [Bool.false_eq_true, if_false] at h1; omega
    cases hdw : d.op.writes with
    | true =>
      have := reg_two_le (fun c => c.crit && c.op.writes) (by simp [hc, hw]) (by simp [hd, hdw]) s.calls i j hi hj hne
      rw [h1, hwr] at this
      simp at this
    | false =>
      have h2 := h.readers
      rw [h.excl hwr] at h2
      rw [List.countP_eq_zero] at h2
      exact h2 d (List.mem_of_getElem? hj) (by simp [hd, hdw])

/-- C81: every call takes effect at one point between its beginning and its return, and a `Load` finds what was registered last before this point. -/
theorem C81_latest (ops : List RegOp) {s : Registry} (r : Registry.Reach (.start ops) s) {i : Nat} {c : RegCall} (hi : s.calls[i]? = some c)
    (ho : c.phase = .out) : ∃ pre post, s.log = pre ++ (i, c.op) :: post ∧ ∀ ns, c.op = .load ns → c.res = Spec.latest ns pre :=
  (reach_inv (start_inv ops) r).after i c hi (.inr ho)

theorem step_log {s t : Registry} {i : Nat} (e : s.step i = some t) : ∃ l, t.log = s.log ++ l := by
  unfold Registry.step at e
  split at e
  · cases e
  · split at e
    · split at e
      · split at e
        · cases e; exact ⟨[], by simp⟩
        · cases e
      · split at e
        · cases e; exact ⟨[], by simp⟩
        · cases e
    · cases e; exact ⟨_, rfl⟩
    · split at e <;> (cases e; exact ⟨[], by simp⟩)
    · cases e

theorem reach_log {s t : Registry} (r : Registry.Reach s t) : ∃ l, t.log = s.log ++ l := by
  induction r with
  | refl => exact ⟨[], by simp⟩
  | step i _ e ih =>
    obtain ⟨l, h⟩ := ih
    obtain ⟨k, h'⟩ := step_log e
    exact ⟨l ++ k, by rw [h', h, List.append_assoc]⟩

/-- C81: a call that returned before another began takes effect before it. -/
theorem C81_order (ops : List RegOp) {s t : Registry} (r : Registry.Reach (.start ops) s) (r' : Registry.Reach s t) {i j : Nat} {c d : RegCall}
    (hi : s.calls[i]? = some c) (ho : c.phase = .out) (hj : s.calls[j]? = some d) (hb : d.phase = .idle) :
    ∃ pre post, t.log = pre ++ post ∧ (i, c.op) ∈ pre ∧ ∀ op, (j, op) ∉ pre := by
  have h := reach_inv (start_inv ops) r
  obtain ⟨l, hl⟩ := reach_log r'
  obtain ⟨p, q, hp, _⟩ := h.after i c hi (.inr ho)
  exact ⟨s.log, l, hl, by simp [hp], h.before j d hj (.inl hb)⟩

/-- C81: the calls never block each other for good: unless all have returned, one of them can go on. -/
theorem C81_progress (ops : List RegOp) {s : Registry} (r : Registry.Reach (.start ops) s) (h : ∃ c ∈ s.calls, c.phase ≠ .out) :
    ∃ i t, s.step i = some t := by
  have inv := reach_inv (start_inv ops) r
  by_cases hx : ∃ c ∈ s.calls, c.crit = true
  · obtain ⟨c, hm, hc⟩ := hx
    obtain ⟨i, hlt, rfl⟩ := List.mem_iff_getElem.1 hm
    refine ⟨i, ?_⟩
    unfold Registry.step
    rw [List.getElem?_eq_getElem hlt]
    simp only [RegCall.crit, Bool.or_eq_true, decide_eq_true_eq] at hc
    rcases hc with hc | hc
    · simp only [hc]; exact ⟨_, rfl⟩
    · simp only [hc]; split <;> exact ⟨_, rfl⟩
  · have hno : ∀ c ∈ s.calls, c.crit = false := fun c hm => by
      cases hc : c.crit with
      | false => rfl
      | true => exact absurd ⟨c, hm, hc⟩ hx
    have hw : s.writer = false := by
      have := inv.writers
      rw [List.countP_eq_zero.2 fun c hm => by simp [hno c hm]] at this
      cases hx : s.writer with
      | false => rfl
      | true => rw [hx] at this; simp at this
    have hr : s.readers = 0 := by rw [← inv.readers]; exact List.countP_eq_zero.2 fun c hm => by simp [hno c hm]
    obtain ⟨c, hm, hc⟩ := h
    have hi : c.phase = .idle := by
      have := hno c hm
      unfold RegCall.crit at this
      cases hp : c.phase <;> simp_all
    obtain ⟨i, hlt, rfl⟩ := List.mem_iff_getElem.1 hm
    refine ⟨i, ?_⟩
    unfold Registry.step
    rw [List.getElem?_eq_getElem hlt]
    simp only [hi, hw, hr, and_self, if_true]
    split <;> exact ⟨_, rfl⟩

/-- C81: lookups do not wait for each other: a `Load` can go on whenever no `Register` has the lock. -/
theorem C81_parallel (ops : List RegOp) {s : Registry} (r : Registry.Reach (.start ops) s) {i : Nat} {c : RegCall} {ns : Str} (hi : s.calls[i]? = some c)
    (hop : c.op = .load ns) (ho : c.phase ≠ .out)
    (h : ∀ d ∈ s.calls, (∃ n ext, d.op = .register n ext) → d.phase = .idle ∨ d.phase = .out) : (s.step i).isSome = true := by
  have inv := reach_inv (start_inv ops) r
  have hw : s.writer = false := by
    have := inv.writers
    rw [List.countP_eq_zero.2 fun d hm => by
      cases hd : d.op with
      | register n ext => rcases h d hm ⟨n, ext, hd⟩ with h | h <;> simp [RegCall.crit, h]
      | load n => simp [RegOp.writes]] at this
    cases hx : s.writer with
    | false => rfl
    | true => rw [hx] at this; simp at this
  unfold Registry.step
  rw [hi]
  cases hp : c.phase with
  | idle => simp [hp, hop, RegOp.writes, hw]
  | held => simp [hp]
  | did => simp [hp, hop, RegOp.writes]
  | out => exact absurd hp ho

/-! ## What the documentation of `Register` says -/

/-- Steps of the given calls, one after the other. -/
def Registry.steps : Registry → List Nat → Option Registry
  | s, [] => some s
  | s, i :: is => (s.step i).bind fun t => Registry.steps t is

theorem steps_reach (is : List Nat) : ∀ {s t u : Registry}, Registry.Reach s t → t.steps is = some u → Registry.Reach s u := by
  induction is with
  | nil => intro s t u r e; cases e; exact r
  | cons i is ih =>
    intro s t u r e
    simp only [Registry.steps, Option.bind_eq_some_iff] at e
    obtain ⟨v, h1, h2⟩ := e
    exact ih (.step i r h1) h2

/-- C81: spec/spec.go:16-18 says that `Register` panics when it is called twice with the same name space.  It does not: both calls return, and `Load`
finds the second extension. -/
theorem C81_twice_false : ∃ s, Registry.Reach (.start [.register b!"ns" (some 1), .register b!"ns" (some 2), .load b!"ns"]) s ∧
    s.calls.map (fun c => (c.phase, c.res)) = [(.out, none), (.out, none), (.out, some (some 2))] :=
  ⟨_, steps_reach [0, 0, 0, 1, 1, 1, 2, 2, 2] .refl rfl, by decide +kernel⟩

/-- C81: it also says that `Register` panics if the extension is nil.  It does not, and `Load` then says that there is an extension, which is nil. -/
theorem C81_nil_false : ∃ s, Registry.Reach (.start [.register b!"ns" none, .load b!"ns"]) s ∧
    s.calls.map (fun c => (c.phase, c.res)) = [(.out, none), (.out, some none)] :=
  ⟨_, steps_reach [0, 0, 0, 1, 1, 1] .refl rfl, by decide +kernel⟩

/-- A state in which one `Load` has returned, one is at the map, and two `Register` wait; it meets the conditions of the theorems. -/
example : ∃ s, Registry.Reach (.start [.load b!"a", .register b!"a" (some 1), .load b!"a", .register b!"b" (some 2)]) s ∧
    s.calls.map (·.phase) = [.out, .idle, .held, .idle] ∧ s.step 1 = none ∧ (s.step 2).isSome ∧ s.log = [(0, .load b!"a")] :=
  ⟨_, steps_reach [0, 0, 2, 0] .refl rfl, by decide +kernel, rfl, rfl, rfl⟩

/-- A `Register` at the map, everything else waits. -/
example : ∃ s c, Registry.Reach (.start [.load b!"a", .register b!"a" (some 1), .load b!"a"]) s ∧ s.calls[1]? = some c ∧ c.phase = .did ∧
    c.op = .register b!"a" (some 1) ∧ s.step 0 = none ∧ s.step 2 = none :=
  ⟨_, _, steps_reach [1, 1] .refl rfl, rfl, rfl, rfl, rfl, rfl⟩

end Go3mf
