import Verif.Model.Decode

/-!
# What a child part can change

`decodeModelFile` with `isRoot = false` changes nothing of the model but the resources of the part and `Model.Any`.
-/

namespace Go3mf

/-- The decoders that never run in a child part. -/
def Dec.rootOnly : Dec → Bool
  | .build | .item | .metadata none => true
  | _ => false

/-- The registers agree on the model but for `Any`. -/
def SameModel (m : Model) (r : Regs) : Prop := ∃ a, r.model = { m with any := a }

theorem SameModel.of_eq {m : Model} {r r' : Regs} (h : SameModel m r) (e : r'.model = r.model) : SameModel m r' := by
  obtain ⟨a, h⟩ := h
  exact ⟨a, by rw [e, h]⟩

theorem SameModel.any {m : Model} {r r' : Regs} {a : List AnyElem} (h : SameModel m r)
    (e : r'.model = { r.model with any := a }) : SameModel m r' := by
  obtain ⟨b, h⟩ := h
  exact ⟨a, by rw [e, h]⟩

theorem SameModel.modAny {m : Model} {r : Regs} (f : AnyElem → AnyElem) (l : AnyLoc) (h : SameModel m r) :
    SameModel m (r.modAny f l) := by
  cases l
  · exact h.of_eq rfl
  · exact h.any rfl
  · exact h.of_eq rfl

theorem onlyChild_private {m : Model} {r r' : Regs} {n : Name} {loc : Str} {i : Int} {d : Dec} {p : ChildRes}
    (h : SameModel m r) (h' : r'.model = r.model) (hd : d.rootOnly = false) (e : onlyChild r r' n loc i d = p) :
    SameModel m p.1 ∧ ∀ i' d', p.2 = some (i', d') → d'.rootOnly = false := by
  subst e
  unfold onlyChild
  by_cases c : n = ⟨nsCore, loc⟩
  · rw [if_pos c]; exact ⟨h.of_eq h', by rintro _ _ ⟨⟩; exact hd⟩
  · rw [if_neg c]; exact ⟨h, by rintro _ _ ⟨⟩⟩

theorem newAnyElement_private {env : Env} {loc : AnyLoc} {n : Name} {d : Dec} {e : AnyElem}
    (h : newAnyElement env loc n = some (d, e)) : d.rootOnly = false := by
  unfold newAnyElement at h
  cases hl : env.load n.space with
  | none => rw [hl] at h; injection h with h; injection h with h1 h2; subst h1; rfl
  | some x =>
    rw [hl] at h
    cases hx : newExtElement x n.loc with
    | none => simp [hx] at h
    | some q => simp only [hx, Option.map_some, Option.some.injEq, Prod.mk.injEq] at h; rw [← h.1]; rfl

theorem child_private {cfg : DecCfg} (hc : cfg.isRoot = false) {m : Model} {r : Regs} {d : Dec} {n : Name} {p : ChildRes}
    (h : SameModel m r) (hd : d.rootOnly = false) (e : child cfg r d n = some p) :
    SameModel m p.1 ∧ ∀ i' d', p.2 = some (i', d') → d'.rootOnly = false := by
  cases d with
  | top => exact onlyChild_private h rfl rfl (Option.some.inj e)
  | model =>
    injection e with e; subst e
    simp only [modelChild, hc]
    by_cases c1 : n.space = nsCore
    · rw [if_pos c1]
      by_cases c2 : n.loc = b!"resources"
      · rw [if_pos c2]; exact ⟨h, by rintro _ _ ⟨⟩; rfl⟩
      · rw [if_neg c2, if_neg (by simp), if_neg (by simp)]; exact ⟨h, by rintro _ _ ⟨⟩⟩
    · rw [if_neg c1]
      cases hn : newAnyElement cfg.env .modelAny n with
      | none => exact ⟨h, by rintro _ _ ⟨⟩⟩
      | some q => exact ⟨h.any rfl, by rintro _ _ ⟨⟩; exact newAnyElement_private (e := q.2) hn⟩
  | metadataGroup loc => exact onlyChild_private (r' := { r with md := .zero }) (d := .metadata (some loc)) h rfl rfl (Option.some.inj e)
  | metadata loc => injection e with e; subst e; exact ⟨h, by rintro _ _ ⟨⟩⟩
  | build => exact absurd hd (by decide)
  | item => exact absurd hd (by decide)
  | resources =>
    simp only [child, resourcesChild] at e
    by_cases c1 : n.space = nsCore ∧ n.loc ≠ b!"object" ∧ n.loc ≠ b!"basematerials"
    · rw [if_pos c1] at e; injection e with e; subst e; exact ⟨h, by rintro _ _ ⟨⟩⟩
    · rw [if_neg c1] at e
      cases hr : r.res with
      | none => rw [hr] at e; cases e
      | some rs =>
        rw [hr] at e
        by_cases c2 : n.space = nsCore
        · simp only [if_pos c2] at e
          by_cases c3 : n.loc = b!"object"
          · rw [if_pos c3] at e; injection e with e; subst e; exact ⟨h.of_eq rfl, by rintro _ _ ⟨⟩; rfl⟩
          · rw [if_neg c3] at e; injection e with e; subst e; exact ⟨h.of_eq rfl, by rintro _ _ ⟨⟩; rfl⟩
        · simp only [if_neg c2] at e
          cases hn : newAnyElement cfg.env .asset n with
          | none => rw [hn] at e; injection e with e; subst e; exact ⟨h, by rintro _ _ ⟨⟩⟩
          | some q =>
            obtain ⟨d, x⟩ := q
            have := newAnyElement_private hn
            rw [hn] at e
            cases d <;> cases x <;> simp only [Option.some.injEq, reduceCtorEq] at e <;> subst e <;>
              first
                | exact ⟨h.of_eq rfl, by rintro _ _ ⟨⟩; first | rfl | exact this⟩
                | exact ⟨h, by rintro _ _ ⟨⟩⟩
  | baseMaterials => exact onlyChild_private h rfl rfl (Option.some.inj e)
  | base => injection e with e; subst e; exact ⟨h, by rintro _ _ ⟨⟩⟩
  | mesh =>
    injection e with e; subst e
    simp only [meshChild]
    by_cases c1 : n.space = nsCore
    · rw [if_pos c1]
      by_cases c2 : n.loc = b!"vertices"
      · rw [if_pos c2]; exact ⟨h, by rintro _ _ ⟨⟩; rfl⟩
      · rw [if_neg c2]
        by_cases c3 : n.loc = b!"triangles"
        · rw [if_pos c3]; exact ⟨h, by rintro _ _ ⟨⟩; rfl⟩
        · rw [if_neg c3]; exact ⟨h, by rintro _ _ ⟨⟩⟩
    · rw [if_neg c1]
      cases hn : newAnyElement cfg.env .meshAny n with
      | none => exact ⟨h, by rintro _ _ ⟨⟩⟩
      | some q => exact ⟨h.of_eq rfl, by rintro _ _ ⟨⟩; exact newAnyElement_private (e := q.2) hn⟩
  | vertices => exact onlyChild_private h rfl rfl (Option.some.inj e)
  | vertex => injection e with e; subst e; exact ⟨h, by rintro _ _ ⟨⟩⟩
  | triangles => exact onlyChild_private h rfl rfl (Option.some.inj e)
  | triangle => injection e with e; subst e; exact ⟨h, by rintro _ _ ⟨⟩⟩
  | object =>
    injection e with e; subst e
    by_cases c1 : n = ⟨nsCore, b!"mesh"⟩
    · rw [if_pos c1]; exact ⟨h, by rintro _ _ ⟨⟩; rfl⟩
    · rw [if_neg c1]
      by_cases c2 : n = ⟨nsCore, b!"components"⟩
      · rw [if_pos c2]; exact ⟨h, by rintro _ _ ⟨⟩; rfl⟩
      · rw [if_neg c2]
        by_cases c3 : n = ⟨nsCore, b!"metadatagroup"⟩
        · rw [if_pos c3]; exact ⟨h, by rintro _ _ ⟨⟩; rfl⟩
        · rw [if_neg c3]; exact ⟨h, by rintro _ _ ⟨⟩⟩
  | components => exact onlyChild_private h rfl rfl (Option.some.inj e)
  | component => injection e with e; subst e; exact ⟨h, by rintro _ _ ⟨⟩⟩
  | unknownAsset nm => injection e with e; subst e; exact ⟨h, by rintro _ _ ⟨⟩⟩
  | unknown loc nm => injection e with e; subst e; exact ⟨h, by rintro _ _ ⟨⟩⟩
  | ext loc k =>
    injection e with e; subst e
    cases hk : extChild r loc k n with
    | none => exact ⟨h, by rintro _ _ ⟨⟩⟩
    | some q =>
      obtain ⟨i, k'⟩ := q
      cases k' <;> exact ⟨h.of_eq rfl, by rintro _ _ ⟨⟩; rfl⟩

theorem extStart_private {m : Model} {r : Regs} {loc : AnyLoc} {k : ExtDec} {as : List Attr} (h : SameModel m r) :
    SameModel m (extStart r loc k as).1 := by
  unfold extStart
  cases k <;> simp only <;> first
    | exact h
    | exact h.of_eq rfl
    | exact h.modAny _ _

theorem modMeta_private {m : Model} {r : Regs} {f : MetadataGroup → MetadataGroup} {l : MetaLoc} (h : SameModel m r) :
    SameModel m (r.modMeta f l) := by
  cases l <;> exact h.of_eq rfl

theorem start_private {cfg : DecCfg} (hc : cfg.isRoot = false) {m : Model} {r : Regs} {d : Dec} {as : List Attr}
    {p : Regs × List Leaf} (h : SameModel m r) (hd : d.rootOnly = false) (e : start cfg r d as = some p) : SameModel m p.1 := by
  cases d <;> simp only [start, hc] at e
  case build => exact absurd hd (by decide)
  case item => exact absurd hd (by decide)
  case resources =>
    cases hr : r.res with
    | none =>
      rw [hr] at e
      by_cases ha : as = []
      · simp only [if_pos ha, Option.some.injEq] at e; subst e; exact h
      · simp only [if_neg ha, reduceCtorEq] at e
    | some rs =>
      rw [hr] at e
      simp only [Option.map_eq_some_iff] at e
      obtain ⟨q, -, e⟩ := e; subst e; exact h.of_eq rfl
  case metadataGroup loc =>
    simp only [Option.map_eq_some_iff] at e
    obtain ⟨q, -, e⟩ := e; subst e; exact modMeta_private h
  case unknownAsset nm =>
    cases ha : firstID as with
    | none => rw [ha] at e; injection e with e; subst e; exact h.of_eq rfl
    | some a => rw [ha] at e; injection e with e; subst e; exact h.of_eq rfl
  case ext loc k => injection e with e; subst e; exact extStart_private h
  case unknown loc nm => injection e with e; subst e; exact h.modAny _ _
  all_goals
    first
      | (injection e with e; subst e; first | exact h | exact h.of_eq rfl)
      | (simp only [Option.map_eq_some_iff] at e
         obtain ⟨q, -, e⟩ := e; subst e; exact h.of_eq rfl)

theorem stop_private {m : Model} {r : Regs} {d : Dec} (h : SameModel m r) (hd : d.rootOnly = false) :
    SameModel m (stop r d) := by
  cases d <;> try exact h
  case item => exact absurd hd (by decide)
  case metadata loc =>
    cases loc with
    | none => exact absurd hd (by decide)
    | some l => exact modMeta_private h
  case unknown loc nm => exact h.modAny _ _
  case ext loc k => cases k <;> first | exact h | exact h.modAny _ _

theorem addToken_private {m : Model} {r : Regs} {d : Dec} {t : Token} (h : SameModel m r) : SameModel m (r.addToken d t) := by
  cases d <;> first | exact h | exact h.of_eq rfl | exact h.modAny _ _

/-- A state of the decoder of a child part. -/
structure Private (m : Model) (s : DState) : Prop where
  model : SameModel m s.regs
  cur : s.cur.rootOnly = false
  stack : ∀ f ∈ s.stack, f.dec.rootOnly = false

theorem Private.step {cfg : DecCfg} (hc : cfg.isRoot = false) {m : Model} {s s' : DState} {i : Nat} {ev : Option Event}
    (h : Private m s) (e : s.step cfg i ev = some s') : Private m s' := by
  cases ev with
  | none => injection e with e; subst e; exact h
  | some ev =>
    cases ev with
    | start n as =>
      simp only [DState.step, DState.onStart] at e
      by_cases hh : s.cur.hasChild = true
      · rw [if_pos hh] at e
        cases hcc : child cfg s.regs s.cur n with
        | none => simp only [hcc, reduceCtorEq] at e
        | some p =>
          have hp := child_private hc h.model h.cur hcc
          obtain ⟨r, o⟩ := p
          cases o with
          | none =>
            simp only [hcc, Option.some.injEq] at e; subst e
            exact ⟨hp.1, h.cur, h.stack⟩
          | some q =>
            obtain ⟨k, d⟩ := q
            have hd := hp.2 k d rfl
            cases hs : Go3mf.start cfg r d as with
            | none => simp only [hcc, hs, reduceCtorEq] at e
            | some w =>
              simp only [hcc, hs, Option.some.injEq] at e; subst e
              refine ⟨start_private hc hp.1 hd hs, hd, ?_⟩
              intro f hf
              rcases List.mem_cons.mp hf with rfl | hf
              · exact hd
              · exact h.stack f hf
      · rw [if_neg hh] at e
        injection e with e; subst e
        exact ⟨addToken_private h.model, h.cur, h.stack⟩
    | stop n =>
      simp only [DState.step, DState.onEnd] at e
      by_cases hn : s.curName = n
      · rw [if_pos hn] at e
        match hst : s.stack with
        | [] => simp only [hst, reduceCtorEq] at e
        | [f] =>
          simp only [hst, Option.some.injEq] at e; subst e
          exact ⟨stop_private h.model h.cur, h.cur, by simp⟩
        | f :: f' :: st =>
          simp only [hst, Option.some.injEq] at e; subst e
          have h1 := h.stack
          rw [hst] at h1
          exact ⟨stop_private h.model h.cur, h1 f' (by simp), fun x hx => h1 x (by simp_all)⟩
      · rw [if_neg hn] at e
        injection e with e; subst e
        exact ⟨addToken_private h.model, h.cur, h.stack⟩
    | chars t =>
      injection e with e; subst e
      simp only [DState.onChar]
      cases hcur : s.cur <;> simp only <;>
        first
          | exact ⟨h.model.of_eq rfl, by rw [← hcur]; exact h.cur, h.stack⟩
          | exact ⟨addToken_private h.model, by first | rfl | (rw [← hcur]; exact h.cur), h.stack⟩

theorem Private.init (m : Model) (path : Str) : Private m (DState.init m path) :=
  ⟨⟨m.any, rfl⟩, rfl, by simp [DState.init]⟩

theorem Private.run {cfg : DecCfg} (hc : cfg.isRoot = false) {m : Model} {strict : Bool} {done : Nat → Bool} {fin : LexErr} :
    ∀ {evs : List (Option Event)} {i : Nat} {s s' : DState} {le : LoopEnd}, Private m s →
    runTokens cfg strict done fin i s evs = some (s', le) → Private m s'
  | [], i, s, s', le, h, e => by
    simp only [runTokens, Option.some.injEq, Prod.mk.injEq] at e
    rw [← e.1]; exact h
  | ev :: evs, i, s, s', le, h, e => by
    simp only [runTokens] at e
    cases hs : s.step cfg i ev with
    | none => simp only [hs, reduceCtorEq] at e
    | some s1 =>
      simp only [hs] at e
      have h1 := h.step hc hs
      by_cases c1 : (strict && !s1.errs.isEmpty) = true
      · rw [if_pos c1] at e; simp only [Option.some.injEq, Prod.mk.injEq] at e; rw [← e.1]; exact h1
      · rw [if_neg c1] at e
        by_cases c2 : (i % 1000 == 0 && done i) = true
        · rw [if_pos c2] at e; simp only [Option.some.injEq, Prod.mk.injEq] at e; rw [← e.1]; exact h1
        · rw [if_neg c2] at e; exact Private.run hc h1 e

end Go3mf
