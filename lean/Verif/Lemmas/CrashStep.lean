import Verif.Lemmas.CrashStart

/-!
# The decoder follows the specification of panics
-/

namespace Go3mf
open Spec

/-- The state of the decoder against the elements that it follows and the number of open ones. -/
structure Tracks (env : Env) (s : DState) (vc : List (Dec × Name)) (depth : Nat) : Prop where
  cur : s.cur = (vc.head?.map Prod.fst).getD .top
  name : s.curName = (vc.head?.map Prod.snd).getD ⟨[], []⟩
  stack : s.stack.map (fun f => (f.dec, f.name)) = vc.take depth
  len : depth ≤ vc.length
  exact : ∀ p ∈ vc, p.1.Exact env p.2
  fits : ∀ p ∈ vc, s.regs.Fits p.1
  rank : vc.Pairwise fun a b => a.1.rank = 9 ∨ b.1.rank < a.1.rank
  clean : s.regs.Clean env

theorem Tracks.at {env : Env} {s : DState} {vc : List (Dec × Name)} {depth : Nat} (h : Tracks env s vc depth) :
    s.cur.At env (vc.map Prod.snd).head? := by
  rw [h.cur]
  cases vc with
  | nil => rfl
  | cons p vc => exact h.exact p (by simp)

theorem Tracks.cur_fits {env : Env} {s : DState} {vc : List (Dec × Name)} {depth : Nat} (h : Tracks env s vc depth) :
    s.regs.Fits s.cur := by
  rw [h.cur]
  cases vc with
  | nil => trivial
  | cons p vc => exact h.fits p (by simp)

/-- The registers may change in a way that keeps the shape. -/
theorem Tracks.regs {env : Env} {s : DState} {vc : List (Dec × Name)} {depth : Nat} (h : Tracks env s vc depth) {r : Regs}
    (hr : r.Clean env ∧ SameShape s.regs r) : Tracks env { s with regs := r } vc depth :=
  ⟨h.cur, h.name, h.stack, h.len, h.exact, fun p hp => hr.2.fits (h.fits p hp), h.rank, hr.1⟩

theorem fits_low {r : Regs} {d : Dec} (h : d.rank < 4) : r.Fits d := by
  cases d <;> first | trivial | (simp [Dec.rank] at h)

theorem fits_mesh {r r' : Regs} {d : Dec} (h : d.rank ≤ 4) (hr : r'.obj.mesh.isSome = r.obj.mesh.isSome) (hf : r.Fits d) :
    r'.Fits d := by
  cases d <;> first | trivial | exact hr.trans hf | (simp [Dec.rank] at h)

theorem rank_le (d : Dec) : d.rank ≤ 9 := by
  unfold Dec.rank
  split <;> omega

/-- The rank of the elements below. -/
theorem Tracks.below {env : Env} {s : DState} {vc : List (Dec × Name)} {depth : Nat} (h : Tracks env s vc depth)
    {p : Dec × Name} (hp : p ∈ vc) : s.cur.rank = 9 ∨ p.1.rank ≤ s.cur.rank := by
  rw [h.cur]
  cases vc with
  | nil => cases hp
  | cons q vc =>
    rcases List.mem_cons.1 hp with rfl | hp
    · exact Or.inr (Nat.le_refl _)
    · rcases (List.pairwise_cons.1 h.rank).1 p hp with h | h
      · exact Or.inl h
      · exact Or.inr (Nat.le_of_lt h)

theorem track_start {cfg : DecCfg} {s : DState} {vc : List (Dec × Name)} {depth i : Nat} (h : Tracks cfg.env s vc depth)
    (n : Name) (as : List Attr) :
    (s.step cfg i (some (.start n as)) = none ∧
      ∀ evs, Crashes cfg.env cfg.isRoot (vc.map Prod.snd) depth (some (.start n as) :: evs)) ∨
    ∃ s' vc' depth', s.step cfg i (some (.start n as)) = some s' ∧ Tracks cfg.env s' vc' depth' ∧
      (vc'.map Prod.snd, depth') = follow cfg.env cfg.isRoot (vc.map Prod.snd, depth) (some (.start n as)) ∧
      ∀ evs, Crashes cfg.env cfg.isRoot (vc.map Prod.snd) depth (some (.start n as) :: evs) ↔
        Crashes cfg.env cfg.isRoot (vc'.map Prod.snd) depth' evs := by
  simp only [DState.step, DState.onStart]
  by_cases hl : LatticeAsset cfg.env (vc.map Prod.snd).head? n
  · obtain ⟨h1, h2⟩ := child_lattice (r := s.regs) h.at hl
    left
    rw [if_pos h1, h2]
    exact ⟨rfl, fun evs => Or.inl hl⟩
  by_cases hF : Follows cfg.env cfg.isRoot (vc.map Prod.snd).head? n
  · obtain ⟨h1, r', j, d', h2, hf⟩ := child_follows h.at h.cur_fits h.clean hl hF
    rw [if_pos h1, h2]
    simp only []
    have hs := start_exact (as := as) hf.exact hf.ready hf.clean
    cases hst : start cfg r' d' as with
    | none =>
      left
      refine ⟨rfl, fun evs => ?_⟩
      simp only [Crashes, if_pos hF]
      refine Or.inr (Or.inl ?_)
      rw [hst] at hs
      simp only [Option.isSome_none, Bool.false_eq_true, false_iff] at hs
      by_cases hk : Looks cfg.isRoot n
      · refine ⟨hk, ?_⟩
        by_cases hx : ∃ a ∈ as, ¬ AttrAllowed cfg.env n.loc a.name.space
        · exact hx
        · exact absurd (fun _ a ha => by
            by_cases hq : AttrAllowed cfg.env n.loc a.name.space
            · exact hq
            · exact absurd ⟨a, ha, hq⟩ hx) hs
      · exact absurd (fun h => absurd h hk) hs
    | some q =>
      obtain ⟨r2, e⟩ := q
      right
      obtain ⟨a1, a2, a3⟩ := start_after hf.clean hst
      refine ⟨_, (d', n) :: vc, depth + 1, rfl, ⟨rfl, rfl, ?_, ?_, ?_, ?_, ?_, a1⟩,
        (by simp only [follow, if_pos hF, List.map_cons]), fun evs => ?_⟩
      · simp [h.stack]
      · simpa using h.len
      · intro p hp
        rcases List.mem_cons.1 hp with rfl | hp
        · exact hf.exact
        · exact h.exact p hp
      · have hold : d' ≠ .mesh → d' ≠ .object → ∀ p ∈ vc, r2.Fits p.1 := by
          intro hm ho p hp
          refine (a3 hm ho).fits ?_
          rcases h.below hp with hb | hb
          · exact SameShape.fits ⟨hf.mesh (by omega), fun l => by rw [hf.kinds (by omega) l]⟩ (h.fits p hp)
          · by_cases h3 : s.cur.rank < 4
            · exact fits_low (by omega)
            · by_cases h4 : s.cur.rank = 4
              · exact fits_mesh (by omega) (hf.mesh (by omega)) (h.fits p hp)
              · exact SameShape.fits ⟨hf.mesh (by omega), fun l => by rw [hf.kinds (by omega) l]⟩ (h.fits p hp)
        have hlow : d' = .mesh ∨ d' = .object → ∀ p ∈ vc, r2.Fits p.1 := by
          intro hd p hp
          have hr : d'.rank ≤ 4 := by rcases hd with rfl | rfl <;> simp [Dec.rank]
          have := hf.rank
          rcases h.below hp with hb | hb
          · omega
          · exact fits_low (by omega)
        intro p hp
        rcases List.mem_cons.1 hp with rfl | hp
        · show r2.Fits d'
          by_cases hm : d' = .mesh
          · rw [hm]; exact a2 hm
          · by_cases ho : d' = .object
            · rw [ho]; trivial
            · rcases hf.fits with h | h
              · exact absurd h hm
              · exact (a3 hm ho).fits h
        · by_cases hd : d' = .mesh ∨ d' = .object
          · exact hlow hd p hp
          · simp only [not_or] at hd
            exact hold hd.1 hd.2 p hp
      · refine List.pairwise_cons.2 ⟨fun p hp => ?_, h.rank⟩
        show d'.rank = 9 ∨ p.1.rank < d'.rank
        have := hf.rank
        have := rank_le d'
        rcases h.below hp with hb | hb <;> omega
      · simp only [Crashes, if_pos hF, List.map_cons]
        rw [hst] at hs
        simp only [Option.isSome_some, true_iff] at hs
        constructor
        · rintro (h | ⟨hk, a, ha, hx⟩ | h)
          · exact absurd h hl
          · exact absurd (hs hk a ha) hx
          · exact h
        · intro h; exact Or.inr (Or.inr h)
  · right
    have hcr : ∀ evs, Crashes cfg.env cfg.isRoot (vc.map Prod.snd) depth (some (.start n as) :: evs) ↔
        Crashes cfg.env cfg.isRoot (vc.map Prod.snd) depth evs := by
      intro evs
      simp only [Crashes, if_neg hF]
      exact ⟨fun h => h.resolve_left hl, Or.inr⟩
    by_cases hh : s.cur.hasChild = true
    · rcases child_ignores h.at h.clean hF with h1 | h1
      · rw [hh] at h1; cases h1
      · rw [if_pos hh, h1]
        exact ⟨s, vc, depth, rfl, h, (by simp only [follow, if_neg hF]), hcr⟩
    · rw [if_neg hh]
      exact ⟨_, vc, depth, rfl, h.regs (addToken_after h.clean), (by simp only [follow, if_neg hF]), hcr⟩

theorem track_stop {cfg : DecCfg} {s : DState} {vc : List (Dec × Name)} {depth i : Nat} (h : Tracks cfg.env s vc depth)
    (n : Name) :
    (s.step cfg i (some (.stop n)) = none ∧
      ∀ evs, Crashes cfg.env cfg.isRoot (vc.map Prod.snd) depth (some (.stop n) :: evs)) ∨
    ∃ s' vc' depth', s.step cfg i (some (.stop n)) = some s' ∧ Tracks cfg.env s' vc' depth' ∧
      (vc'.map Prod.snd, depth') = follow cfg.env cfg.isRoot (vc.map Prod.snd, depth) (some (.stop n)) ∧
      ∀ evs, Crashes cfg.env cfg.isRoot (vc.map Prod.snd) depth (some (.stop n) :: evs) ↔
        Crashes cfg.env cfg.isRoot (vc'.map Prod.snd) depth' evs := by
  simp only [DState.step, DState.onEnd]
  have hname : (vc.map Prod.snd).head?.getD ⟨[], []⟩ = s.curName := by rw [h.name]; cases vc <;> rfl
  by_cases hn : s.curName = n
  · rw [if_pos hn]
    have hn' : (vc.map Prod.snd).head?.getD ⟨[], []⟩ = n := hname.trans hn
    have hstop := stop_after (d := s.cur) h.clean
    match depth, h with
    | 0, h =>
      left
      have : s.stack = [] := by have := h.stack; simpa using this
      rw [this]
      exact ⟨rfl, fun evs => by simp only [Crashes, if_pos hn']⟩
    | 1, h =>
      right
      obtain ⟨⟨d, m⟩, vc', rfl⟩ : ∃ p t, vc = p :: t := by
        cases vc with
        | nil => exact absurd h.len (by simp)
        | cons p t => exact ⟨p, t, rfl⟩
      obtain ⟨f, hf⟩ : ∃ f, s.stack = [f] := by
        have := congrArg List.length h.stack
        simp only [List.length_map, List.length_take, List.length_cons] at this
        exact List.length_eq_one_iff.1 (by omega)
      rw [hf]
      refine ⟨_, (d, m) :: vc', 0, rfl, ⟨h.cur, h.name, by simp, by simp, h.exact, ?_, h.rank, hstop.1⟩,
        (by simp only [follow, if_pos hn']), fun evs => by simp only [Crashes, if_pos hn']⟩
      intro p hp
      by_cases h3 : s.cur.rank = 3
      · rcases h.below hp with hb | hb
        · omega
        · exact fits_low (by omega)
      · exact (hstop.2 h3).fits (h.fits p hp)
    | k + 2, h =>
      right
      obtain ⟨⟨d, m⟩, ⟨d2, m2⟩, vc', rfl⟩ : ∃ p q t, vc = p :: q :: t := by
        match vc, h.len with
        | [], hl => simp at hl
        | [_], hl => simp at hl
        | p :: q :: t, _ => exact ⟨p, q, t, rfl⟩
      have hstk := h.stack
      match hst : s.stack, hstk with
      | [], hk => simp at hk
      | [_], hk => simp at hk
      | f1 :: f2 :: st, hk =>
        simp only [List.map_cons, List.take_succ_cons, List.cons.injEq, Prod.mk.injEq] at hk
        obtain ⟨-, ⟨hd2, hm2⟩, hrest⟩ := hk
        refine ⟨_, (d2, m2) :: vc', k + 1, rfl, ⟨by simp [hd2], by simp [hm2], ?_, ?_, ?_, ?_, ?_, hstop.1⟩,
          (by simp only [follow, if_pos hn']; rfl), fun evs => by simp only [Crashes, if_pos hn']; rfl⟩
        · simp [hd2, hm2, hrest]
        · have := h.len; simp at this ⊢; omega
        · intro p hp; exact h.exact p (List.mem_cons_of_mem _ hp)
        · intro p hp
          by_cases h3 : s.cur.rank = 3
          · rcases h.below (List.mem_cons_of_mem _ hp) with hb | hb
            · omega
            · exact fits_low (by omega)
          · exact (hstop.2 h3).fits (h.fits p (List.mem_cons_of_mem _ hp))
        · exact (List.pairwise_cons.1 h.rank).2
  · rw [if_neg hn]
    have hn' : ¬ (vc.map Prod.snd).head?.getD ⟨[], []⟩ = n := by rw [hname]; exact hn
    right
    refine ⟨_, vc, depth, rfl, h.regs (addToken_after h.clean), (by simp only [follow, if_neg hn']), fun evs => ?_⟩
    simp only [Crashes, if_neg hn']

theorem track_text {cfg : DecCfg} {s : DState} {vc : List (Dec × Name)} {depth i : Nat} (h : Tracks cfg.env s vc depth)
    {t : Str} : Tracks cfg.env (s.onChar cfg i t) vc depth := by
  simp only [DState.onChar]
  split
  · exact h.regs ⟨⟨h.clean.1, h.clean.2, h.clean.3, h.clean.4, h.clean.5, h.clean.6⟩, rfl, fun l => by cases l <;> rfl⟩
  · exact h.regs (addToken_after h.clean)

theorem track_step {cfg : DecCfg} {s : DState} {vc : List (Dec × Name)} {depth i : Nat} (h : Tracks cfg.env s vc depth)
    (ev : Option Event) :
    (s.step cfg i ev = none ∧ ∀ evs, Crashes cfg.env cfg.isRoot (vc.map Prod.snd) depth (ev :: evs)) ∨
    ∃ s' vc' depth', s.step cfg i ev = some s' ∧ Tracks cfg.env s' vc' depth' ∧
      (vc'.map Prod.snd, depth') = follow cfg.env cfg.isRoot (vc.map Prod.snd, depth) ev ∧
      ∀ evs, Crashes cfg.env cfg.isRoot (vc.map Prod.snd) depth (ev :: evs) ↔
        Crashes cfg.env cfg.isRoot (vc'.map Prod.snd) depth' evs := by
  match ev with
  | none => exact Or.inr ⟨s, vc, depth, rfl, h, rfl, fun evs => Iff.rfl⟩
  | some (.chars t) => exact Or.inr ⟨_, vc, depth, rfl, track_text h, rfl, fun evs => Iff.rfl⟩
  | some (.start n as) => exact track_start h n as
  | some (.stop n) => exact track_stop h n

/-- The loop panics exactly if the specification says so, if it reads all tokens. -/
theorem run_crashes {cfg : DecCfg} {fin : LexErr} :
    ∀ {evs : List (Option Event)} {i : Nat} {s : DState} {vc : List (Dec × Name)} {depth : Nat}, Tracks cfg.env s vc depth →
    (runTokens cfg false (fun _ => false) fin i s evs = none ↔ Crashes cfg.env cfg.isRoot (vc.map Prod.snd) depth evs)
  | [], i, s, vc, depth, h => by simp [runTokens, Crashes]
  | ev :: evs, i, s, vc, depth, h => by
    unfold runTokens
    rcases track_step (i := i) h ev with ⟨h1, h2⟩ | ⟨s', vc', depth', h1, h2, -, h3⟩
    · rw [h1]; exact iff_of_true rfl (h2 evs)
    · rw [h1, h3]
      simp only [Bool.false_and, Bool.and_false, Bool.false_eq_true, ↓reduceIte]
      exact run_crashes h2

/-- The loop panics only if the specification says so. -/
theorem run_crashes_of {cfg : DecCfg} {strict : Bool} {done : Nat → Bool} {fin : LexErr} :
    ∀ {evs : List (Option Event)} {i : Nat} {s : DState} {vc : List (Dec × Name)} {depth : Nat}, Tracks cfg.env s vc depth →
    runTokens cfg strict done fin i s evs = none → Crashes cfg.env cfg.isRoot (vc.map Prod.snd) depth evs
  | [], i, s, vc, depth, h => by simp [runTokens]
  | ev :: evs, i, s, vc, depth, h => by
    unfold runTokens
    rcases track_step (i := i) h ev with ⟨h1, h2⟩ | ⟨s', vc', depth', h1, h2, -, h3⟩
    · intro _; exact h2 evs
    · rw [h1, h3]
      simp only []
      intro hr
      split at hr
      · cases hr
      · split at hr
        · cases hr
        · exact run_crashes_of h2 hr

end Go3mf
