import Verif.Model.Decode

/-!
# Decoding adds to a model

The first `na` elements of `Model.Any` and the first `nb` assets, which were there before the part was read, are not
changed, and all the other lists grow at their ends.
-/

namespace Go3mf

/-- The name space and prefix of an extension, without the mark of required ones. -/
def Extension.decl (x : Extension) : Str × Str := (x.ns, x.localName)

/-- The part of the registers that is in the model. -/
structure ModelAdds (na : Nat) (m m' : Model) : Prop where
  path : m'.path = m.path
  attachments : m'.attachments = m.attachments
  childs : m'.childs = m.childs
  rootRelationships : m'.rootRelationships = m.rootRelationships
  relationships : m'.relationships = m.relationships
  resources : m'.resources = m.resources
  metadata : m.metadata <+: m'.metadata
  items : m.build.items <+: m'.build.items
  extensions : m.extensions.map Extension.decl <+: m'.extensions.map Extension.decl
  anyLength : m.any.length ≤ m'.any.length
  any : m'.any.take na = m.any.take na

/-- The resources. -/
structure ResAdds (nb : Nat) (rs rs' : Resources) : Prop where
  objects : rs.objects <+: rs'.objects
  assetsLength : rs.assets.length ≤ rs'.assets.length
  assets : rs'.assets.take nb = rs.assets.take nb

/-- The same for resources that may be missing. -/
def OptAdds (nb : Nat) : Option Resources → Option Resources → Prop
  | none, none => True
  | some rs, some rs' => ResAdds nb rs rs'
  | _, _ => False

/-- The registers grow. -/
structure Adds (na nb : Nat) (r r' : Regs) : Prop where
  model : ModelAdds na r.model r'.model
  res : OptAdds nb r.res r'.res

variable {na nb : Nat}

theorem ModelAdds.refl (m : Model) : ModelAdds na m m :=
  ⟨rfl, rfl, rfl, rfl, rfl, rfl, List.prefix_rfl, List.prefix_rfl, List.prefix_rfl, Nat.le_refl _, rfl⟩

theorem ModelAdds.trans {m m' m'' : Model} (h : ModelAdds na m m') (h' : ModelAdds na m' m'') : ModelAdds na m m'' :=
  ⟨h'.1.trans h.1, h'.2.trans h.2, h'.3.trans h.3, h'.4.trans h.4, h'.5.trans h.5, h'.6.trans h.6, h.7.trans h'.7,
   h.8.trans h'.8, h.9.trans h'.9, Nat.le_trans h.10 h'.10, h'.11.trans h.11⟩

theorem ResAdds.refl (rs : Resources) : ResAdds nb rs rs := ⟨List.prefix_rfl, Nat.le_refl _, rfl⟩

theorem OptAdds.refl : ∀ o : Option Resources, OptAdds nb o o
  | none => trivial
  | some rs => ResAdds.refl rs

theorem OptAdds.trans : ∀ {a b c : Option Resources}, OptAdds nb a b → OptAdds nb b c → OptAdds nb a c
  | none, none, none, _, _ => trivial
  | some _, some _, some _, h, h' => ⟨h.1.trans h'.1, Nat.le_trans h.2 h'.2, h'.3.trans h.3⟩
  | none, none, some _, _, h | none, some _, _, h, _ | some _, none, _, h, _ | some _, some _, none, _, h => h.elim

theorem OptAdds.map {f : Resources → Resources} (hf : ∀ rs, ResAdds nb rs (f rs)) : ∀ o : Option Resources, OptAdds nb o (o.map f)
  | none => trivial
  | some rs => hf rs

theorem Adds.refl (r : Regs) : Adds na nb r r := ⟨.refl _, .refl _⟩

theorem Adds.trans {r r' r'' : Regs} (h : Adds na nb r r') (h' : Adds na nb r' r'') : Adds na nb r r'' :=
  ⟨h.1.trans h'.1, h.2.trans h'.2⟩

theorem Adds.same {r r' : Regs} (hm : r'.model = r.model) (hr : r'.res = r.res) : Adds na nb r r' :=
  ⟨hm ▸ .refl _, hr ▸ .refl _⟩

/-- The list of elements that a decoder changes. -/
def Dec.place : Dec → Option AnyLoc
  | .unknown loc _ => some loc
  | .ext loc _ => some loc
  | _ => none

/-- The last element of the list is new. -/
structure Ready (na nb : Nat) (r : Regs) (d : Dec) : Prop where
  model : d.place = some .modelAny → na < r.model.any.length
  asset : d.place = some .asset → ∀ rs, r.res = some rs → nb < rs.assets.length

theorem Ready.mono {r r' : Regs} {d : Dec} (h : Ready na nb r d) (ha : Adds na nb r r') : Ready na nb r' d := by
  refine ⟨fun hp => Nat.lt_of_lt_of_le (h.model hp) ha.model.anyLength, fun hp rs hr => ?_⟩
  have := ha.res
  rw [hr] at this
  match hq : r.res with
  | none => rw [hq] at this; exact this.elim
  | some q => rw [hq] at this; exact Nat.lt_of_lt_of_le (h.asset hp q hq) this.assetsLength

theorem Ready.free {r : Regs} {d : Dec} (h : d.place = none) : Ready na nb r d :=
  ⟨fun hp => by simp [h] at hp, fun hp => by simp [h] at hp⟩

theorem modLast_length {α : Type} (f : α → α) : ∀ l : List α, (modLast f l).length = l.length
  | [] => rfl
  | [_] => rfl
  | _ :: b :: l => by simp [modLast, modLast_length f (b :: l)]

theorem modLast_take {α : Type} (f : α → α) : ∀ (l : List α) (n : Nat), n < l.length → (modLast f l).take n = l.take n
  | [], n, h => by simp at h
  | [a], n, h => by
    obtain rfl : n = 0 := by simp at h; exact h
    rfl
  | a :: b :: l, 0, _ => rfl
  | a :: b :: l, n + 1, h => by
    simp only [modLast, List.take_succ_cons]
    rw [modLast_take f (b :: l) n (by simpa using h)]

theorem Adds.modAny {r : Regs} {d : Dec} {loc : AnyLoc} (f : AnyElem → AnyElem) (h : Ready na nb r d) (hd : d.place = some loc) :
    Adds na nb r (r.modAny f loc) := by
  cases loc with
  | asset =>
    refine ⟨.refl _, ?_⟩
    have h2 := h.asset hd
    simp only [Regs.modAny]
    match hr : r.res with
    | none => trivial
    | some rs => exact ⟨List.prefix_rfl, by simp [modLast_length], modLast_take _ _ _ (h2 rs hr)⟩
  | modelAny =>
    refine ⟨?_, .refl _⟩
    exact ⟨rfl, rfl, rfl, rfl, rfl, rfl, List.prefix_rfl, List.prefix_rfl, List.prefix_rfl,
      Nat.le_of_eq (modLast_length f _).symm, modLast_take f _ _ (h.model hd)⟩
  | meshAny => exact .same rfl rfl

/-! ## The steps -/

theorem newAnyElement_place {env : Env} {loc : AnyLoc} {n : Name} {d : Dec} {e : AnyElem}
    (h : newAnyElement env loc n = some (d, e)) : d.place = some loc := by
  unfold newAnyElement at h
  cases hl : env.load n.space with
  | none => rw [hl] at h; injection h with h; injection h with h1 h2; subst h1; rfl
  | some x =>
    rw [hl] at h
    cases hx : newExtElement x n.loc with
    | none => simp [hx] at h
    | some q => simp only [hx, Option.map_some, Option.some.injEq, Prod.mk.injEq] at h; rw [← h.1]; rfl

/-- What is shown of a child decoder. -/
def ChildAdds (na nb : Nat) (r : Regs) (p : ChildRes) : Prop := Adds na nb r p.1 ∧ ∀ i d, p.2 = some (i, d) → Ready na nb p.1 d

theorem ChildAdds.absent (r : Regs) : ChildAdds na nb r (r, none) := ⟨.refl r, by rintro _ _ ⟨⟩⟩

theorem ChildAdds.found {r r' : Regs} {i : Int} {d : Dec} (hm : r'.model = r.model) (hr : r'.res = r.res) (hd : d.place = none) :
    ChildAdds na nb r (r', some (i, d)) := ⟨.same hm hr, by rintro _ _ ⟨⟩; exact .free hd⟩

theorem onlyChild_adds {r r' : Regs} {n : Name} {loc : Str} {i : Int} {d : Dec} (hm : r'.model = r.model) (hr : r'.res = r.res)
    (hd : d.place = none) : ChildAdds na nb r (onlyChild r r' n loc i d) := by
  unfold onlyChild
  split
  · exact .found hm hr hd
  · exact .absent r

theorem child_adds {cfg : DecCfg} {r : Regs} {d : Dec} {n : Name} {p : ChildRes}
    (ha : na ≤ r.model.any.length) (hb : ∀ rs, r.res = some rs → nb ≤ rs.assets.length)
    (h : Ready na nb r d) (e : child cfg r d n = some p) : ChildAdds na nb r p := by
  cases d with
  | model =>
    injection e with e; subst e
    simp only [modelChild]
    split
    · split
      · exact .found rfl rfl rfl
      · split
        · exact .found rfl rfl rfl
        · split
          · exact .found rfl rfl rfl
          · exact .absent r
    · cases hn : newAnyElement cfg.env .modelAny n with
      | none => exact .absent r
      | some q =>
        refine ⟨⟨⟨rfl, rfl, rfl, rfl, rfl, rfl, List.prefix_rfl, List.prefix_rfl, List.prefix_rfl, by simp, ?_⟩, .refl _⟩, ?_⟩
        · simp only [List.take_append_of_le_length ha]
        · rintro _ _ ⟨⟩
          have hp := newAnyElement_place (e := q.2) hn
          exact ⟨fun _ => (by simp; omega), fun h => (by rw [hp] at h; cases h)⟩
  | resources =>
    simp only [child, resourcesChild] at e
    split at e
    · injection e with e; subst e; exact .absent r
    · cases hr : r.res with
      | none => rw [hr] at e; cases e
      | some rs =>
        rw [hr] at e
        by_cases c2 : n.space = nsCore
        · simp only [if_pos c2] at e
          by_cases c3 : n.loc = b!"object"
          · rw [if_pos c3] at e; injection e with e; subst e; exact .found rfl hr.symm rfl
          · rw [if_neg c3] at e; injection e with e; subst e; exact .found rfl hr.symm rfl
        · simp only [if_neg c2] at e
          cases hn : newAnyElement cfg.env .asset n with
          | none => rw [hn] at e; injection e with e; subst e; exact .absent r
          | some q =>
            obtain ⟨d, x⟩ := q
            have hp := newAnyElement_place hn
            rw [hn] at e
            have key : ∀ y i, ChildAdds na nb r ({ r with res := some { rs with assets := rs.assets ++ [y] } }, some (i, d)) := by
              intro y i
              have hb' := hb rs hr
              refine ⟨⟨.refl _, ?_⟩, ?_⟩
              · rw [hr]
                exact ⟨List.prefix_rfl, by simp, List.take_append_of_le_length hb'⟩
              · rintro _ _ ⟨⟩
                exact ⟨fun h => (by rw [hp] at h; cases h), (by rintro - _ ⟨⟩; simp; omega)⟩
            cases d <;> cases x <;> simp only [Option.some.injEq, reduceCtorEq] at e <;> subst e <;>
              first
                | exact .found rfl hr.symm rfl
                | exact key _ _
                | exact .absent r
  | mesh =>
    injection e with e; subst e
    simp only [meshChild]
    split
    · split
      · exact .found rfl rfl rfl
      · split
        · exact .found rfl rfl rfl
        · exact .absent r
    · cases hn : newAnyElement cfg.env .meshAny n with
      | none => exact .absent r
      | some q =>
        refine ⟨.same rfl rfl, ?_⟩
        rintro _ _ ⟨⟩
        have hp := newAnyElement_place (e := q.2) hn
        exact ⟨fun h => (by rw [hp] at h; cases h), fun h => (by rw [hp] at h; cases h)⟩
  | object =>
    injection e with e; subst e
    split
    · exact .found rfl rfl rfl
    · split
      · exact .found rfl rfl rfl
      · split
        · exact .found rfl rfl rfl
        · exact .absent r
  | ext loc k =>
    injection e with e; subst e
    cases hk : extChild r loc k n with
    | none => exact .absent r
    | some q =>
      obtain ⟨i, k'⟩ := q
      cases k' <;> exact ⟨.same rfl rfl, by rintro _ _ ⟨⟩; exact ⟨h.model, h.asset⟩⟩
  | metadata loc => injection e with e; subst e; exact .absent r
  | base => injection e with e; subst e; exact .absent r
  | vertex => injection e with e; subst e; exact .absent r
  | triangle => injection e with e; subst e; exact .absent r
  | component => injection e with e; subst e; exact .absent r
  | unknownAsset nm => injection e with e; subst e; exact .absent r
  | unknown loc nm => injection e with e; subst e; exact .absent r
  | top => injection e with e; subst e; exact onlyChild_adds rfl rfl rfl
  | metadataGroup loc => injection e with e; subst e; exact onlyChild_adds rfl rfl rfl
  | build => injection e with e; subst e; exact onlyChild_adds rfl rfl rfl
  | item => injection e with e; subst e; exact onlyChild_adds rfl rfl rfl
  | baseMaterials => injection e with e; subst e; exact onlyChild_adds rfl rfl rfl
  | vertices => injection e with e; subst e; exact onlyChild_adds rfl rfl rfl
  | triangles => injection e with e; subst e; exact onlyChild_adds rfl rfl rfl
  | components => injection e with e; subst e; exact onlyChild_adds rfl rfl rfl

theorem markRequired_decl (l : Str) : ∀ xs : List Extension, (markRequired l xs).map Extension.decl = xs.map Extension.decl
  | [] => rfl
  | x :: xs => by
    simp only [markRequired]
    split
    · rfl
    · simp [markRequired_decl l xs]

theorem markAll_decl (ls : List Str) (xs : List Extension) :
    (ls.foldl (fun xs l => markRequired l xs) xs).map Extension.decl = xs.map Extension.decl := by
  induction ls generalizing xs with
  | nil => rfl
  | cons l ls ih => rw [List.foldl_cons, ih, markRequired_decl]

theorem modelAttr_adds {env : Env} {s s' : ModelAttrs} {a : Attr} {es : List Leaf} (h : modelAttr env s a = some (s', es)) :
    ModelAdds na s.1 s'.1 := by
  have plain : ∀ m' : Model, m'.path = s.1.path → m'.attachments = s.1.attachments → m'.childs = s.1.childs →
      m'.rootRelationships = s.1.rootRelationships → m'.relationships = s.1.relationships → m'.resources = s.1.resources →
      m'.metadata = s.1.metadata → m'.build = s.1.build → s.1.extensions <+: m'.extensions → m'.any = s.1.any →
      ModelAdds na s.1 m' := by
    intro m' h1 h2 h3 h4 h5 h6 h7 h8 h9 h10
    exact ⟨h1, h2, h3, h4, h5, h6, h7 ▸ List.prefix_rfl, h8 ▸ List.prefix_rfl, h9.map _, h10 ▸ Nat.le_refl _, by rw [h10]⟩
  unfold modelAttr at h
  repeat' split at h
  all_goals first
    | (cases h; done)
    | (simp only [Option.some.injEq, Prod.mk.injEq] at h
       obtain ⟨rfl, -⟩ := h
       refine plain _ rfl rfl rfl rfl rfl rfl rfl rfl ?_ rfl
       first
         | exact List.prefix_rfl
         | exact List.prefix_append _ _)

theorem modelAttrs_adds {env : Env} : ∀ {as : List Attr} {s s' : ModelAttrs} {es : List Leaf},
    attrFold (modelAttr env) s as = some (s', es) → ModelAdds na s.1 s'.1
  | [], s, s', es, h => by
    simp only [attrFold, Option.some.injEq, Prod.mk.injEq] at h
    rw [h.1]; exact .refl _
  | a :: as, s, s', es, h => by
    simp only [attrFold] at h
    split at h
    · cases h
    · rename_i s1 e1 h1
      split at h
      · cases h
      · rename_i s2 e2 h2
        simp only [Option.some.injEq, Prod.mk.injEq] at h
        rw [← h.1]
        exact (modelAttr_adds h1).trans (modelAttrs_adds h2)

theorem modelStart_adds {env : Env} {m m' : Model} {as : List Attr} {es : List Leaf} (h : modelStart env m as = some (m', es)) :
    ModelAdds na m m' := by
  unfold modelStart at h
  split at h
  · cases h
  · rename_i m1 req e h1
    simp only [Option.some.injEq, Prod.mk.injEq] at h
    obtain ⟨rfl, -⟩ := h
    have := modelAttrs_adds (na := na) h1
    exact ⟨this.1, this.2, this.3, this.4, this.5, this.6, this.7, this.8, by simpa only [markAll_decl] using this.9, this.10, this.11⟩

theorem extStart_adds {r : Regs} {loc : AnyLoc} {k : ExtDec} {as : List Attr} (h : Ready na nb r (.ext loc k)) :
    Adds na nb r (extStart r loc k as).1 := by
  unfold extStart
  cases k <;> simp only <;> first
    | exact .refl _
    | exact .same rfl rfl
    | exact .modAny _ h rfl

theorem start_adds {cfg : DecCfg} {r : Regs} {d : Dec} {as : List Attr} {p : Regs × List Leaf}
    (h : Ready na nb r d) (e : start cfg r d as = some p) : Adds na nb r p.1 := by
  cases d <;> simp only [start] at e
  case model =>
    split at e
    · simp only [Option.map_eq_some_iff] at e
      obtain ⟨q, hq, e⟩ := e; subst e
      exact ⟨modelStart_adds hq, .refl _⟩
    · injection e with e; subst e; exact .refl _
  case build =>
    simp only [Option.map_eq_some_iff] at e
    obtain ⟨q, hq, e⟩ := e; subst e
    exact ⟨⟨rfl, rfl, rfl, rfl, rfl, rfl, List.prefix_rfl, List.prefix_rfl, List.prefix_rfl, Nat.le_refl _, rfl⟩, .refl _⟩
  case resources =>
    cases hr : r.res with
    | none =>
      rw [hr] at e
      by_cases ha : as = []
      · simp only [if_pos ha, Option.some.injEq] at e; subst e; exact .refl _
      · simp only [if_neg ha, reduceCtorEq] at e
    | some rs =>
      rw [hr] at e
      simp only [Option.map_eq_some_iff] at e
      obtain ⟨q, -, e⟩ := e; subst e
      exact ⟨.refl _, by rw [hr]; exact ⟨List.prefix_rfl, Nat.le_refl _, rfl⟩⟩
  case metadataGroup loc =>
    simp only [Option.map_eq_some_iff] at e
    obtain ⟨q, -, e⟩ := e; subst e; cases loc <;> exact .same rfl rfl
  case unknownAsset nm =>
    cases ha : firstID as with
    | none => rw [ha] at e; injection e with e; subst e; exact .same rfl rfl
    | some a => rw [ha] at e; injection e with e; subst e; exact .same rfl rfl
  case ext loc k => injection e with e; subst e; exact extStart_adds h
  case unknown loc nm => injection e with e; subst e; exact .modAny _ h rfl
  all_goals
    first
      | (injection e with e; subst e; first | exact .refl _ | exact .same rfl rfl)
      | (simp only [Option.map_eq_some_iff] at e
         obtain ⟨q, -, e⟩ := e; subst e; exact .same rfl rfl)

theorem stop_adds {r : Regs} {d : Dec} (hb : ∀ rs, r.res = some rs → nb ≤ rs.assets.length)
    (h : Ready na nb r d) : Adds na nb r (stop r d) := by
  have grow : ∀ a : Asset, OptAdds nb r.res (r.res.map fun rs => { rs with assets := rs.assets ++ [a] }) := by
    intro a
    match hr : r.res with
    | none => trivial
    | some rs => exact ⟨List.prefix_rfl, by simp, List.take_append_of_le_length (hb rs hr)⟩
  cases d <;> try exact .refl _
  case item =>
    exact ⟨⟨rfl, rfl, rfl, rfl, rfl, rfl, List.prefix_rfl, List.prefix_append _ _, List.prefix_rfl, Nat.le_refl _, rfl⟩, .refl _⟩
  case metadata loc =>
    cases loc with
    | none =>
      exact ⟨⟨rfl, rfl, rfl, rfl, rfl, rfl, List.prefix_append _ _, List.prefix_rfl, List.prefix_rfl, Nat.le_refl _, rfl⟩, .refl _⟩
    | some l => cases l <;> exact .same rfl rfl
  case baseMaterials => exact ⟨.refl _, grow _⟩
  case object => exact ⟨.refl _, .map (f := fun rs => { rs with objects := rs.objects ++ [r.obj] }) (fun rs => ⟨List.prefix_append _ _, Nat.le_refl _, rfl⟩) _⟩
  case unknownAsset nm => exact ⟨.refl _, grow _⟩
  case unknown loc nm => exact .modAny _ h rfl
  case ext loc k => cases k <;> first | exact .refl _ | exact .modAny _ h rfl

theorem addToken_adds {r : Regs} {d : Dec} {t : Token} (h : Ready na nb r d) : Adds na nb r (r.addToken d t) := by
  cases d <;> first | exact .refl _ | exact .same rfl rfl | exact .modAny _ h rfl

/-- A state that grew out of the registers `r0`. -/
structure Grown (na nb : Nat) (r0 : Regs) (s : DState) : Prop where
  adds : Adds na nb r0 s.regs
  cur : Ready na nb s.regs s.cur
  stack : ∀ f ∈ s.stack, Ready na nb s.regs f.dec

theorem Grown.move {r0 : Regs} {s : DState} (h : Grown na nb r0 s) {r : Regs} (ha : Adds na nb s.regs r) :
    Grown na nb r0 { s with regs := r } :=
  ⟨h.adds.trans ha, h.cur.mono ha, fun f hf => (h.stack f hf).mono ha⟩

theorem Grown.step {cfg : DecCfg} {r0 : Regs} (ha0 : na ≤ r0.model.any.length) (hb0 : ∀ rs, r0.res = some rs → nb ≤ rs.assets.length)
    {s s' : DState} {i : Nat} {ev : Option Event}
    (h : Grown na nb r0 s) (e : s.step cfg i ev = some s') : Grown na nb r0 s' := by
  have ha : na ≤ s.regs.model.any.length := Nat.le_trans ha0 h.adds.model.anyLength
  have hb : ∀ rs, s.regs.res = some rs → nb ≤ rs.assets.length := by
    intro rs hr
    have h1 := h.adds.res
    rw [hr] at h1
    match hq : r0.res with
    | none => rw [hq] at h1; exact h1.elim
    | some q => rw [hq] at h1; exact Nat.le_trans (hb0 q hq) h1.assetsLength
  cases ev with
  | none => injection e with e; subst e; exact h
  | some ev =>
    cases ev with
    | start n as =>
      simp only [DState.step, DState.onStart] at e
      by_cases hh : s.cur.hasChild = true
      · rw [if_pos hh] at e
        cases hcc : child cfg s.regs s.cur n with
        | none => simp only [hcc, reduceCtorEq] at e
        | some p =>
          have hp := child_adds ha hb h.cur hcc
          obtain ⟨r, o⟩ := p
          cases o with
          | none =>
            simp only [hcc, Option.some.injEq] at e; subst e
            exact h.move hp.1
          | some q =>
            obtain ⟨k, d⟩ := q
            have hd := hp.2 k d rfl
            cases hs : Go3mf.start cfg r d as with
            | none => simp only [hcc, hs, reduceCtorEq] at e
            | some w =>
              simp only [hcc, hs, Option.some.injEq] at e; subst e
              have h2 := start_adds hd hs
              have h3 := (h.move hp.1).move h2
              refine ⟨h3.adds, hd.mono h2, ?_⟩
              intro f hf
              rcases List.mem_cons.mp hf with rfl | hf
              · exact hd.mono h2
              · exact h3.stack f hf
      · rw [if_neg hh] at e
        injection e with e; subst e
        exact h.move (addToken_adds h.cur)
    | stop n =>
      simp only [DState.step, DState.onEnd] at e
      by_cases hn : s.curName = n
      · rw [if_pos hn] at e
        have h2 := h.move (stop_adds hb h.cur)
        match hst : s.stack with
        | [] => simp only [hst, reduceCtorEq] at e
        | [f] =>
          simp only [hst, Option.some.injEq] at e; subst e
          exact ⟨h2.adds, h2.cur, by simp⟩
        | f :: f' :: st =>
          simp only [hst, Option.some.injEq] at e; subst e
          have h1 := h2.stack
          simp only [hst] at h1
          exact ⟨h2.adds, h1 f' (by simp), fun x hx => h1 x (by simp_all)⟩
      · rw [if_neg hn] at e
        injection e with e; subst e
        exact h.move (addToken_adds h.cur)
    | chars t =>
      injection e with e; subst e
      have h1 : ∀ t, Adds na nb s.regs (s.regs.addToken s.cur t) := fun t => addToken_adds h.cur
      simp only [DState.onChar]
      split
      · exact h.move (.same rfl rfl)
      · exact h.move (h1 _)

theorem Grown.init (m : Model) (path : Str) : Grown na nb (DState.init m path).regs (DState.init m path) :=
  ⟨.refl _, .free rfl, by simp [DState.init]⟩

theorem Grown.run {cfg : DecCfg} {r0 : Regs} (ha0 : na ≤ r0.model.any.length)
    (hb0 : ∀ rs, r0.res = some rs → nb ≤ rs.assets.length) {strict : Bool} {done : Nat → Bool} {fin : LexErr} :
    ∀ {evs : List (Option Event)} {i : Nat} {s s' : DState} {le : LoopEnd}, Grown na nb r0 s →
    runTokens cfg strict done fin i s evs = some (s', le) → Grown na nb r0 s'
  | [], i, s, s', le, h, e => by
    simp only [runTokens, Option.some.injEq, Prod.mk.injEq] at e
    rw [← e.1]; exact h
  | ev :: evs, i, s, s', le, h, e => by
    simp only [runTokens] at e
    cases hs : s.step cfg i ev with
    | none => simp only [hs, reduceCtorEq] at e
    | some s1 =>
      simp only [hs] at e
      have h1 := h.step ha0 hb0 hs
      by_cases c1 : (strict && !s1.errs.isEmpty) = true
      · rw [if_pos c1] at e; simp only [Option.some.injEq, Prod.mk.injEq] at e; rw [← e.1]; exact h1
      · rw [if_neg c1] at e
        by_cases c2 : (i % 1000 == 0 && done i) = true
        · rw [if_pos c2] at e; simp only [Option.some.injEq, Prod.mk.injEq] at e; rw [← e.1]; exact h1
        · rw [if_neg c2] at e; exact Grown.run ha0 hb0 h1 e

end Go3mf
