import Verif.Lemmas.Decode
import Mathlib.Data.List.Sublists

/-!
# C26: does decoding panic?

`UnmarshalModel` panics on some byte strings: `C26_roots_false`, `C26_name_false`, `C26_attr_false`,
`C26_lattice_false` and `C26_path_false`.  `C26_partial` states a condition on the document under which it does not, in any mode: one root
element, no element inside of an element of the same name, extension attributes only where the extension defines some,
and beam lattices only in meshes.
-/

namespace Go3mf

/-! ## Statement -/

/-- The element that holds the model. -/
def modelName : Name := ⟨nsCore, b!"model"⟩

/-- The element that holds a beam lattice. -/
def latticeName : Name := ⟨nsBeam, b!"beamlattice"⟩

/-- The elements around a beam lattice, the innermost first. -/
def latticeParents : List Name :=
  [⟨nsCore, b!"mesh"⟩, ⟨nsCore, b!"object"⟩, ⟨nsCore, b!"resources"⟩, modelName]

/-- The elements of the core name space that the core specification allows in each other: parent and child. -/
def coreTable : List (Str × Str) :=
  [(b!"model", b!"resources"), (b!"model", b!"build"), (b!"model", b!"metadata"), (b!"build", b!"item"),
   (b!"item", b!"metadatagroup"), (b!"metadatagroup", b!"metadata"), (b!"resources", b!"object"),
   (b!"resources", b!"basematerials"), (b!"basematerials", b!"base"), (b!"object", b!"metadatagroup"),
   (b!"object", b!"mesh"), (b!"object", b!"components"), (b!"mesh", b!"vertices"), (b!"mesh", b!"triangles"),
   (b!"vertices", b!"vertex"), (b!"triangles", b!"triangle"), (b!"components", b!"component")]

/-- A path of elements of the core name space as the specification has it, the innermost first.  Metadata and the build
are read from the root part only. -/
def CorePath (isRoot : Bool) : List Name → Prop
  | [] => True
  | [n] => n = modelName
  | n :: m :: up => n.space = nsCore ∧ m.space = nsCore ∧ (m.loc, n.loc) ∈ coreTable ∧
    (m = modelName → n.loc ≠ b!"resources" → isRoot = true) ∧ CorePath isRoot (m :: up)

theorem CorePath.tail {isRoot : Bool} : ∀ {n : Name} {up : List Name}, CorePath isRoot (n :: up) → CorePath isRoot up
  | _, [], _ => trivial
  | _, _ :: _, h => h.2.2.2.2

/-- The extension attributes of an element of the core name space are ones that it can hold. -/
def AttrsAllowed (env : Env) (n : Name) (as : List Attr) : Prop :=
  n.space = nsCore → ∀ a ∈ as, AttrAllowed env n.loc a.name.space

/-- Neither a start nor an end. -/
def TextOnly (evs : List (Option Event)) : Prop := ∀ ev ∈ evs, ev = none ∨ ∃ t, ev = some (.chars t)

/-- The rest of a document, given the elements that are open, the innermost first. -/
def SafeRest (env : Env) : List Name → List (Option Event) → Prop
  | [], evs => TextOnly evs
  | _ :: _, [] => True
  | m :: up, none :: evs => SafeRest env (m :: up) evs
  | m :: up, some (.chars _) :: evs => SafeRest env (m :: up) evs
  | m :: up, some (.start n as) :: evs =>
    n ∉ m :: up ∧ n.loc ≠ [] ∧ n ≠ modelName ∧ AttrsAllowed env n as ∧
    (env.beamlattice = true → n = latticeName → m :: up = latticeParents) ∧ SafeRest env (n :: m :: up) evs
  | m :: up, some (.stop n) :: evs => n = m ∧ SafeRest env up evs

/-- A document with one root element, in which no element is inside of an element of the same name, with extension
attributes only where the extension defines some and beam lattices only in meshes.  It need not be complete. -/
def SafeDoc (env : Env) (evs : List (Option Event)) : Prop :=
  TextOnly evs ∨ ∃ pre n as rest, evs = pre ++ some (.start n as) :: rest ∧ TextOnly pre ∧ n.loc ≠ [] ∧
    (env.beamlattice = true → n ≠ latticeName) ∧ AttrsAllowed env n as ∧ SafeRest env [n] rest

/-! ## Invariant -/

/-- The names on the stack. -/
def DState.names (s : DState) : List Name := s.stack.map (·.name)

/-- The current decoder is the one on top of the stack. -/
structure DState.Coherent (s : DState) : Prop where
  empty : s.stack = [] → s.cur = .top ∧ s.curName = ⟨[], []⟩
  top : ∀ f st, s.stack = f :: st → s.cur = f.dec ∧ s.curName = f.name
  names : ∀ f ∈ s.stack, f.dec.DecName f.name

/-- The state when the elements `up` are open. -/
structure SafeState (isRoot : Bool) (up : List Name) (s : DState) : Prop where
  coherent : s.Coherent
  sub : s.names.Sublist up
  chain : ∀ o, CorePath isRoot o → o <:+ up → o <:+ s.names
  res : s.regs.res.isSome

theorem suffix_cons_iff {α : Type} {o l : List α} {a : α} : o <:+ a :: l ↔ o = a :: l ∨ o <:+ l := List.suffix_cons_iff

theorem coherent_cur {s : DState} (h : s.Coherent) {n : Name} {st : List Name} (hn : s.names = n :: st) :
    s.curName = n ∧ s.cur.DecName n := by
  cases hs : s.stack with
  | nil => simp [DState.names, hs] at hn
  | cons f st' =>
    simp only [DState.names, hs, List.map_cons, List.cons.injEq] at hn
    obtain ⟨h1, h2⟩ := h.top f st' hs
    exact ⟨by rw [h2, hn.1], by rw [h1, ← hn.1]; exact h.names f (by simp [hs])⟩

theorem latticeParents_core (isRoot : Bool) : CorePath isRoot latticeParents := by
  exact ⟨rfl, rfl, by decide +kernel, fun h => absurd h (by decide +kernel), rfl, rfl, by decide +kernel,
    fun h => absurd h (by decide +kernel), rfl, rfl, by decide +kernel, fun _ h => absurd rfl h, rfl⟩

/-- On a path of the core specification every decoder knows the next element. -/
theorem chain_child {cfg : DecCfg} {s : DState} (h : s.Coherent) {n : Name} {st : List Name} (hn : s.names = st)
    (hc : CorePath cfg.isRoot (n :: st)) (hr : s.regs.res.isSome) :
    s.cur.hasChild = true ∧ ∃ r i d, child cfg s.regs s.cur n = some (r, some (i, d)) := by
  cases st with
  | nil =>
    have hs : s.stack = [] := by simpa [DState.names] using hn
    rw [(h.empty hs).1]
    simp only [CorePath] at hc
    subst hc
    exact ⟨rfl, _, _, _, rfl⟩
  | cons m up =>
    obtain ⟨h1, h2, h3, h4, -⟩ := hc
    obtain ⟨-, hd⟩ := coherent_cur h hn
    obtain ⟨ns, nl⟩ := n
    obtain ⟨ms, ml⟩ := m
    simp only at h1 h2 h3 h4
    subst h1 h2
    clear hn h
    revert hd
    cases hx : s.regs.res with
    | none => rw [hx] at hr; simp at hr
    | some rs =>
    simp only [coreTable, List.mem_cons, Prod.mk.injEq, List.not_mem_nil, or_false] at h3
    rcases h3 with ⟨rfl, rfl⟩ | ⟨rfl, rfl⟩ | ⟨rfl, rfl⟩ | ⟨rfl, rfl⟩ | ⟨rfl, rfl⟩ | ⟨rfl, rfl⟩ | ⟨rfl, rfl⟩ | ⟨rfl, rfl⟩ |
      ⟨rfl, rfl⟩ | ⟨rfl, rfl⟩ | ⟨rfl, rfl⟩ | ⟨rfl, rfl⟩ | ⟨rfl, rfl⟩ | ⟨rfl, rfl⟩ | ⟨rfl, rfl⟩ | ⟨rfl, rfl⟩ | ⟨rfl, rfl⟩
    all_goals
      cases s.cur <;> intro hd <;> simp only [Dec.DecName, Name.mk.injEq, ne_eq, not_true_eq_false, and_false, true_and] at hd
      all_goals first
        | exact absurd hd (by decide +kernel)
        | exact ⟨rfl, _, _, _, rfl⟩
        | (refine ⟨rfl, ?_⟩
           have hroot : cfg.isRoot = true := h4 rfl (by decide +kernel)
           simp [child, modelChild, hroot])
        | (refine ⟨rfl, ?_⟩
           simp [child, resourcesChild, modelChild, hx])

theorem suffix_sub_eq {α : Type} {o l st : List α} (h1 : o <:+ st) (h2 : st.Sublist l) (h3 : l = o) : st = o := by
  subst h3
  exact h2.eq_of_length_le h1.length_le

/-- A start element. -/
theorem safe_start {cfg : DecCfg} {s : DState} {up : List Name} (h : SafeState cfg.isRoot up s) {n : Name} {as : List Attr}
    (hn : n ∉ up) (ha : AttrsAllowed cfg.env n as)
    (hl : cfg.env.beamlattice = true → n = latticeName → up = latticeParents) :
    ∃ s', s.onStart cfg n as = some s' ∧ SafeState cfg.isRoot (n :: up) s' := by
  have hnot : n ∉ s.names := fun hm => hn (h.sub.subset hm)
  unfold DState.onStart
  by_cases hc : s.cur.hasChild = true
  · rw [if_pos hc]
    obtain ⟨r', c, hch, hres⟩ := child_isSome (cfg := cfg) (r := s.regs) (d := s.cur) (n := n) (by
      rintro hcur ⟨hb, hname⟩
      have hup := hl hb hname
      have hnm : s.names = latticeParents := by
        refine suffix_sub_eq (h.chain latticeParents (latticeParents_core _) ?_) h.sub hup
        rw [hup]; exact List.suffix_rfl
      obtain ⟨-, hd⟩ := coherent_cur h.coherent hnm
      rw [hcur] at hd
      exact absurd hd (by simp only [Dec.DecName]; decide +kernel)) h.res
    rw [hch]
    cases c with
    | none =>
      refine ⟨_, rfl, ⟨⟨h.coherent.empty, h.coherent.top, h.coherent.names⟩, h.sub.cons _, ?_, hres⟩⟩
      intro o ho hou
      rcases suffix_cons_iff.1 hou with rfl | hou
      · exfalso
        have hup : CorePath cfg.isRoot up := ho.tail
        have hnm : s.names = up := suffix_sub_eq (h.chain up hup List.suffix_rfl) h.sub rfl
        obtain ⟨-, r2, i, d, h2⟩ := chain_child (cfg := cfg) h.coherent hnm ho h.res
        rw [hch] at h2
        simp at h2
      · exact h.chain o ho hou
    | some p =>
      obtain ⟨i, d⟩ := p
      have hdn := child_name hch
      have hst := start_isSome (cfg := cfg) (r := r') (as := as) hdn ha hres
      cases hs : start cfg r' d as with
      | none => rw [hs] at hst; simp at hst
      | some q =>
        obtain ⟨r'', e⟩ := q
        simp only [hs]
        refine ⟨_, rfl, ⟨⟨by simp, ?_, ?_⟩, ?_, ?_, ?_⟩⟩
        · intro f st hf
          simp only [List.cons.injEq] at hf
          obtain ⟨rfl, -⟩ := hf
          exact ⟨rfl, rfl⟩
        · intro f hf
          rcases List.mem_cons.1 hf with rfl | hf
          · exact hdn
          · exact h.coherent.names f hf
        · exact h.sub.cons_cons n
        · intro o ho hou
          show o <:+ n :: s.names
          rcases suffix_cons_iff.1 hou with rfl | hou
          · have hup : CorePath cfg.isRoot up := ho.tail
            have hnm : s.names = up := suffix_sub_eq (h.chain up hup List.suffix_rfl) h.sub rfl
            rw [hnm]; exact List.suffix_rfl
          · exact (h.chain o ho hou).trans (List.suffix_cons _ _)
        · rw [← hres]; exact start_res hs
  · rw [if_neg hc]
    refine ⟨_, rfl, ⟨⟨h.coherent.empty, h.coherent.top, h.coherent.names⟩, h.sub.cons _, ?_, ?_⟩⟩
    · intro o ho hou
      rcases suffix_cons_iff.1 hou with rfl | hou
      · exfalso
        have hup : CorePath cfg.isRoot up := ho.tail
        have hnm : s.names = up := suffix_sub_eq (h.chain up hup List.suffix_rfl) h.sub rfl
        exact hc (chain_child (cfg := cfg) h.coherent hnm ho h.res).1
      · exact h.chain o ho hou
    · simp only [addToken_res]; exact h.res

/-- An end element that does not close the decoder of the root element. -/
theorem safe_stop {isRoot : Bool} {s : DState} {n : Name} {up : List Name} (h : SafeState isRoot (n :: up) s) (hn : n ∉ up) (hu : up ≠ [])
    (hm : ∀ f ∈ s.stack.getLast?, f.name ≠ n) (hz : n.loc ≠ []) :
    ∃ s', s.onEnd n = some s' ∧ SafeState isRoot up s' := by
  unfold DState.onEnd
  by_cases hc : s.curName = n
  · rw [if_pos hc]
    cases hs : s.stack with
    | nil =>
      exfalso
      rw [(h.coherent.empty hs).2] at hc
      subst hc
      exact hz rfl
    | cons f st =>
      have hf : f.name = n := by rw [← (h.coherent.top f st hs).2, hc]
      cases st with
      | nil =>
        exfalso
        exact hm f (by simp [hs]) hf
      | cons g st =>
        simp only []
        have hnames : s.names = n :: (g :: st).map (·.name) := by simp [DState.names, hs, hf]
        refine ⟨_, rfl, ⟨⟨by simp, ?_, ?_⟩, ?_, ?_, ?_⟩⟩
        · intro f' st' hf'
          simp only [List.cons.injEq] at hf'
          obtain ⟨rfl, -⟩ := hf'
          exact ⟨rfl, rfl⟩
        · intro f' hf'
          exact h.coherent.names f' (by rw [hs]; exact List.mem_cons_of_mem _ hf')
        · have := h.sub
          rw [hnames] at this
          exact List.cons_sublist_cons.1 this
        · intro o ho hou
          have := h.chain o ho (hou.trans (List.suffix_cons _ _))
          rw [hnames] at this
          rcases suffix_cons_iff.1 this with rfl | h2
          · exact absurd (hou.subset (by simp)) hn
          · exact h2
        · simp only [stop_res]; exact h.res
  · rw [if_neg hc]
    refine ⟨_, rfl, ⟨⟨h.coherent.empty, h.coherent.top, h.coherent.names⟩, ?_, ?_, ?_⟩⟩
    · have := h.sub
      show s.names.Sublist up
      cases hnm : s.names with
      | nil => exact List.nil_sublist _
      | cons m st =>
        rw [hnm] at this
        cases this with
        | cons _ h2 => exact h2
        | cons_cons _ h2 => exact absurd (coherent_cur h.coherent hnm).1 hc
    · intro o ho hou
      exact h.chain o ho (hou.trans (List.suffix_cons _ _))
    · simp only [addToken_res]; exact h.res

/-- Text. -/
theorem step_text {cfg : DecCfg} {s : DState} {i : Nat} {ev : Option Event} (he : ev = none ∨ ∃ t, ev = some (.chars t)) :
    ∃ s', s.step cfg i ev = some s' ∧ s'.stack = s.stack ∧ s'.cur = s.cur ∧ s'.curName = s.curName ∧
      s'.regs.res.isSome = s.regs.res.isSome := by
  rcases he with rfl | ⟨t, rfl⟩
  · exact ⟨s, rfl, rfl, rfl, rfl, rfl⟩
  · refine ⟨_, rfl, ?_⟩
    unfold DState.onChar
    split
    · exact ⟨rfl, rfl, rfl, rfl⟩
    · exact ⟨rfl, rfl, rfl, by simp only [addToken_res]⟩

theorem safe_text {cfg : DecCfg} {s : DState} {i : Nat} {ev : Option Event} {up : List Name} {isRoot : Bool}
    (h : SafeState isRoot up s)
    (he : ev = none ∨ ∃ t, ev = some (.chars t)) : ∃ s', s.step cfg i ev = some s' ∧ SafeState isRoot up s' ∧ s'.stack = s.stack := by
  obtain ⟨s', h1, h2, h3, h4, h5⟩ := step_text (cfg := cfg) (s := s) (i := i) he
  refine ⟨s', h1, ⟨⟨?_, ?_, ?_⟩, ?_, ?_, ?_⟩, h2⟩
  · rw [h2, h3, h4]; exact h.coherent.empty
  · rw [h2, h3, h4]; exact h.coherent.top
  · rw [h2]; exact h.coherent.names
  · rw [DState.names, h2]; exact h.sub
  · rw [DState.names, h2]; exact h.chain
  · rw [h5]; exact h.res

/-! ## The run -/

/-- A step that does not panic. -/
theorem run_cons {cfg : DecCfg} {strict : Bool} {done : Nat → Bool} {fin : LexErr} {i : Nat} {s s' : DState}
    {ev : Option Event} {evs : List (Option Event)} (h : s.step cfg i ev = some s')
    (hr : (runTokens cfg strict done fin (i + 1) s' evs).isSome) :
    (runTokens cfg strict done fin i s (ev :: evs)).isSome := by
  unfold runTokens
  rw [h]
  simp only []
  split
  · rfl
  · split
    · rfl
    · exact hr

theorem run_text {cfg : DecCfg} {strict : Bool} {done : Nat → Bool} {fin : LexErr} :
    ∀ {evs : List (Option Event)} {i : Nat} {s : DState}, TextOnly evs → (runTokens cfg strict done fin i s evs).isSome
  | [], _, _, _ => rfl
  | ev :: evs, i, s, h => by
    obtain ⟨s', h1, -⟩ := step_text (cfg := cfg) (s := s) (i := i) (h ev (by simp))
    exact run_cons h1 (run_text fun e he => h e (by simp [he]))

/-- The state and the open elements inside of the root element. -/
structure InRoot (isRoot : Bool) (up : List Name) (s : DState) : Prop where
  safe : SafeState isRoot up s
  open_ : up ≠ []
  nodup : up.Nodup
  named : ∀ n ∈ up, n.loc ≠ []
  noModel : ∀ n ∈ up.dropLast, n ≠ modelName
  bottom : ∀ f ∈ s.stack.getLast?, f.name = modelName

/-- The open elements after an event. -/
def openNext (up : List Name) : Option Event → List Name
  | some (.start n _) => n :: up
  | some (.stop _) => up.tail
  | _ => up

/-- One event inside of the root element. -/
theorem rest_step {cfg : DecCfg} {up : List Name} {i : Nat} {s : DState} (h : InRoot cfg.isRoot up s) {ev : Option Event}
    {evs : List (Option Event)} (hs : SafeRest cfg.env up (ev :: evs)) :
    ∃ s', s.step cfg i ev = some s' ∧
      (openNext up ev = [] ∧ TextOnly evs ∨ InRoot cfg.isRoot (openNext up ev) s' ∧ SafeRest cfg.env (openNext up ev) evs) := by
  obtain ⟨h, hne, hnd, hz, hm, hb⟩ := h
  cases up with
  | nil => exact absurd rfl hne
  | cons m up =>
    match ev, hs with
    | none, hs =>
      obtain ⟨s', h1, h2, h3⟩ := safe_text (cfg := cfg) (i := i) h (Or.inl rfl)
      exact ⟨s', h1, Or.inr ⟨⟨h2, hne, hnd, hz, hm, by rw [h3]; exact hb⟩, hs⟩⟩
    | some (.chars t), hs =>
      obtain ⟨s', h1, h2, h3⟩ := safe_text (cfg := cfg) (i := i) h (Or.inr ⟨t, rfl⟩)
      exact ⟨s', h1, Or.inr ⟨⟨h2, hne, hnd, hz, hm, by rw [h3]; exact hb⟩, hs⟩⟩
    | some (.start n as), hs =>
      obtain ⟨hn, hnz, hnm, ha, hl, hs⟩ := hs
      obtain ⟨s', h1, h2⟩ := safe_start h hn ha hl
      refine ⟨s', h1, Or.inr ⟨⟨h2, by simp [openNext], List.nodup_cons.2 ⟨hn, hnd⟩, ?_, ?_, ?_⟩, hs⟩⟩
      · intro k hk
        rcases List.mem_cons.1 hk with rfl | hk
        · exact hnz
        · exact hz k hk
      · intro k hk
        simp only [openNext] at hk
        rw [List.dropLast_cons_of_ne_nil (by simp)] at hk
        rcases List.mem_cons.1 hk with rfl | hk
        · exact hnm
        · exact hm k hk
      · -- the bottom of the stack
        unfold DState.onStart at h1
        by_cases hc : s.cur.hasChild = true
        · rw [if_pos hc] at h1
          cases hch : child cfg s.regs s.cur n with
          | none => rw [hch] at h1; simp at h1
          | some p =>
            obtain ⟨r, c⟩ := p
            rw [hch] at h1
            cases c with
            | none => simp only [Option.some.injEq] at h1; subst h1; exact hb
            | some q =>
              obtain ⟨j, d⟩ := q
              simp only [] at h1
              cases hst : start cfg r d as with
              | none => rw [hst] at h1; simp at h1
              | some q =>
                rw [hst] at h1
                simp only [Option.some.injEq] at h1
                subst h1
                cases hst : s.stack with
                | nil =>
                  have hcur := (h.coherent.empty hst).1
                  rw [hcur] at hch
                  simp only [child, Option.some.injEq] at hch
                  obtain ⟨e, -⟩ := onlyChild_some hch
                  intro f hf
                  simp only [List.getLast?_singleton, Option.mem_def, Option.some.injEq] at hf
                  subst hf
                  exact e
                | cons f st =>
                  rw [List.getLast?_cons_cons, ← hst]
                  exact hb
        · rw [if_neg hc] at h1
          simp only [Option.some.injEq] at h1; subst h1; exact hb
    | some (.stop n), hs =>
      obtain ⟨hnm0, hs'⟩ := hs
      subst hnm0
      cases up with
      | nil =>
        -- the end of the root element
        have h1 : ∃ s', s.onEnd n = some s' := by
          unfold DState.onEnd
          by_cases hc : s.curName = n
          · rw [if_pos hc]
            cases hst : s.stack with
            | nil =>
              exfalso
              rw [(h.coherent.empty hst).2] at hc
              subst hc
              exact hz ⟨[], []⟩ (by simp) rfl
            | cons f st => cases st <;> exact ⟨_, rfl⟩
          · rw [if_neg hc]; exact ⟨_, rfl⟩
        obtain ⟨s', h1⟩ := h1
        exact ⟨s', h1, Or.inl ⟨rfl, by simpa [SafeRest] using hs'⟩⟩
      | cons u up =>
        have hn := (List.nodup_cons.1 hnd).1
        rw [List.dropLast_cons_of_ne_nil (by simp)] at hm
        have hnm := hm n (by simp)
        obtain ⟨s', h1, h2⟩ := safe_stop h hn (by simp) (fun f hf e => hnm (by rw [← e]; exact hb f hf)) (hz n (by simp))
        refine ⟨s', h1, Or.inr ⟨⟨h2, by simp [openNext], (List.nodup_cons.1 hnd).2, fun k hk => hz k (List.mem_cons_of_mem _ hk),
          fun k hk => hm k (List.mem_cons_of_mem _ hk), ?_⟩, hs'⟩⟩
        unfold DState.onEnd at h1
        by_cases hc : s.curName = n
        · rw [if_pos hc] at h1
          cases hst : s.stack with
          | nil => rw [hst] at h1; simp at h1
          | cons f st =>
            rw [hst] at h1
            cases st with
            | nil => simp only [Option.some.injEq] at h1; subst h1; simp
            | cons g st =>
              simp only [Option.some.injEq] at h1
              subst h1
              rw [hst, List.getLast?_cons_cons] at hb
              exact hb
        · rw [if_neg hc] at h1
          simp only [Option.some.injEq] at h1; subst h1; exact hb

theorem run_rest {cfg : DecCfg} {strict : Bool} {done : Nat → Bool} {fin : LexErr} :
    ∀ {evs : List (Option Event)} {up : List Name} {i : Nat} {s : DState}, InRoot cfg.isRoot up s →
    SafeRest cfg.env up evs → (runTokens cfg strict done fin i s evs).isSome
  | [], _, _, _, _, _ => rfl
  | _ :: _, _, i, _, h, hs => by
    obtain ⟨s', h1, ⟨-, h2⟩ | ⟨h2, h3⟩⟩ := rest_step (i := i) h hs
    · exact run_cons h1 (run_text h2)
    · exact run_cons h1 (run_rest h2 h3)

/-- The start of the root element. -/
theorem root_step {cfg : DecCfg} {n : Name} {as : List Attr} {s : DState} (hz : n.loc ≠ [])
    (hl : cfg.env.beamlattice = true → n ≠ latticeName) (ha : AttrsAllowed cfg.env n as) (h : SafeState cfg.isRoot [] s) :
    ∃ s', s.onStart cfg n as = some s' ∧ InRoot cfg.isRoot [n] s' := by
  obtain ⟨s', h1, h2⟩ := safe_start (cfg := cfg) (n := n) (as := as) h (by simp) ha (fun hb e => absurd e (hl hb))
  have hst : s.stack = [] := by
    have := h.sub
    simpa [DState.names] using this
  refine ⟨s', h1, ⟨h2, by simp, by simp, by simpa using hz, by simp, ?_⟩⟩
  unfold DState.onStart at h1
  obtain ⟨hcur, -⟩ := h.coherent.empty hst
  rw [hcur, hst] at h1
  simp only [Dec.hasChild, if_true] at h1
  cases hch : child cfg s.regs .top n with
  | none => rw [hch] at h1; simp at h1
  | some p =>
    obtain ⟨r, c⟩ := p
    rw [hch] at h1
    cases c with
    | none => simp only [Option.some.injEq] at h1; subst h1; simp
    | some q =>
      obtain ⟨j, d⟩ := q
      simp only [] at h1
      cases hs2 : start cfg r d as with
      | none => rw [hs2] at h1; simp at h1
      | some q =>
        rw [hs2] at h1
        simp only [Option.some.injEq] at h1
        subst h1
        simp only [child, Option.some.injEq] at hch
        obtain ⟨e, -⟩ := onlyChild_some hch
        intro f hf
        simp only [List.getLast?_singleton, Option.mem_def, Option.some.injEq] at hf
        subst hf
        exact e

theorem run_safe {cfg : DecCfg} {strict : Bool} {done : Nat → Bool} {fin : LexErr} {n : Name} {as : List Attr}
    {rest : List (Option Event)} (hz : n.loc ≠ []) (hl : cfg.env.beamlattice = true → n ≠ latticeName)
    (ha : AttrsAllowed cfg.env n as) (hs : SafeRest cfg.env [n] rest) :
    ∀ {pre : List (Option Event)} {i : Nat} {s : DState}, TextOnly pre → SafeState cfg.isRoot [] s →
    (runTokens cfg strict done fin i s (pre ++ some (.start n as) :: rest)).isSome
  | [], i, s, _, h => by
    obtain ⟨s', h1, h2⟩ := root_step hz hl ha h
    exact run_cons h1 (run_rest h2 hs)
  | ev :: pre, i, s, hp, h => by
    obtain ⟨s', h1, h2, -⟩ := safe_text (cfg := cfg) (i := i) h (hp ev (by simp))
    exact run_cons h1 (run_safe hz hl ha hs (fun e he => hp e (by simp [he])) h2)

/-- Before the first token. -/
theorem safe_init (isRoot : Bool) {m : Model} {path : Str} (hm : (m.findResources path).isSome) :
    SafeState isRoot [] (DState.init m path) := by
  refine ⟨⟨fun _ => ⟨rfl, rfl⟩, by simp [DState.init], by simp [DState.init]⟩, by simp [DState.names, DState.init], ?_, hm⟩
  intro o _ ho
  rw [List.suffix_nil.1 ho]
  exact List.nil_suffix

/-! ## Theorems -/

/-- **C26**, for documents with one root element, in which no element is inside of an element of the same name, with
extension attributes only where the extension defines some and beam lattices only in meshes: decoding a part of a model
that has resources for the part does not panic, whatever the mode, the context and the way the tokens end. -/
theorem C26_partial (cfg : DecCfg) (strict : Bool) (done : Nat → Bool) (m : Model) (path : Str)
    (evs : List (Option Event)) (fin : LexErr) (hm : (m.findResources path).isSome) (h : SafeDoc cfg.env evs) :
    (decodeEvents cfg strict done m path evs fin).isSome := by
  unfold decodeEvents
  refine isSome_map ?_
  have h0 := safe_init cfg.isRoot hm
  rcases h with h | ⟨pre, n, as, rest, rfl, hp, hz, hl, ha, hs⟩
  · exact run_text h
  · exact run_safe hz hl ha hs hp h0

/-- **C26** for `UnmarshalModel`. -/
theorem C26_unmarshal_partial (env : Env) (mem : Nat → Str → Str) (data : Str) (m : Model)
    (hm : m.path = [] ∨ m.path = defaultModelPath) (h : SafeDoc env (lex .eof (.new data)).1) :
    (unmarshalModel env mem data m).isSome := by
  refine C26_partial ⟨env, true, mem⟩ false (fun _ => false) m defaultModelPath _ _ ?_ h
  unfold Model.findResources
  rw [if_pos (by rcases hm with h | h <;> simp [h])]
  rfl

/-- All extensions registered. -/
def allExt : Env := ⟨id, true, true, true, true⟩

/-- **C26** is false: a second root element `model`. -/
theorem C26_roots_false :
    (unmarshalModel allExt (fun _ t => t) b!"<model xmlns=\"http://schemas.microsoft.com/3dmanufacturing/core/2015/02\"/><model xmlns=\"http://schemas.microsoft.com/3dmanufacturing/core/2015/02\"/>"
      .zero).isNone := by decide +kernel

/-- **C26** is false: an element without name space and local name. -/
theorem C26_name_false : (unmarshalModel allExt (fun _ t => t) b!"<:/>" .zero).isNone := by decide +kernel

/-- **C26** is false: an attribute in the name space of the materials extension. -/
theorem C26_attr_false :
    (unmarshalModel allExt (fun _ t => t) b!"<model xmlns=\"http://schemas.microsoft.com/3dmanufacturing/core/2015/02\" xmlns:m=\"http://schemas.microsoft.com/3dmanufacturing/material/2015/02\" m:a=\"\"/>"
      .zero).isNone := by decide +kernel

/-- **C26** is false: a beam lattice among the resources. -/
theorem C26_lattice_false :
    (unmarshalModel allExt (fun _ t => t) b!"<model xmlns=\"http://schemas.microsoft.com/3dmanufacturing/core/2015/02\" xmlns:b=\"http://schemas.microsoft.com/3dmanufacturing/beamlattice/2017/02\"><resources><b:beamlattice/></resources></model>"
      .zero).isNone := by decide +kernel

/-- **C26** is false: a model whose path is neither empty nor the default path. -/
theorem C26_path_false :
    (unmarshalModel allExt (fun _ t => t) b!"<model xmlns=\"http://schemas.microsoft.com/3dmanufacturing/core/2015/02\"><resources><object id=\"1\"/></resources></model>"
      { Model.zero with path := b!"/a.model" }).isNone := by decide +kernel

/-! ## Non-vacuity -/

/-- A document with a beam lattice, an attribute of an extension, an unknown attribute and unknown elements. -/
def safeExample : Str := b!"<?xml version=\"1.0\"?>\n<model xmlns=\"http://schemas.microsoft.com/3dmanufacturing/core/2015/02\" xmlns:b=\"http://schemas.microsoft.com/3dmanufacturing/beamlattice/2017/02\" xmlns:p=\"http://schemas.microsoft.com/3dmanufacturing/production/2015/06\" xmlns:u=\"u\"><resources><object id=\"1\" u:a=\"1\"><mesh><vertices><vertex x=\"1\" y=\"a\" z=\"0\"/></vertices><b:beamlattice radius=\"1\"><b:beams/></b:beamlattice></mesh></object><u:thing>text<u:other/></u:thing></resources><build p:UUID=\"x\"><item objectid=\"1\"/></build></model>\n"

instance AttrAllowed.dec (env : Env) (p s : Str) : Decidable (AttrAllowed env p s) := by
  unfold AttrAllowed
  cases env.load s with
  | none => exact instDecidableTrue
  | some x =>
    cases x with
    | production => exact inferInstanceAs (Decidable (_ ∈ _))
    | slices => exact inferInstanceAs (Decidable (_ = _))
    | beamlattice => exact instDecidableFalse
    | materials => exact instDecidableFalse

/-- `SafeRest` as a program. -/
def safeRestB (env : Env) : List Name → List (Option Event) → Bool
  | [], evs => evs.all fun ev => match ev with
    | none => true
    | some (.chars _) => true
    | _ => false
  | _ :: _, [] => true
  | m :: up, none :: evs => safeRestB env (m :: up) evs
  | m :: up, some (.chars _) :: evs => safeRestB env (m :: up) evs
  | m :: up, some (.start n as) :: evs =>
    decide (n ∉ m :: up) && decide (n.loc ≠ []) && decide (n ≠ modelName) &&
    (decide (n.space ≠ nsCore) || as.all fun a => decide (AttrAllowed env n.loc a.name.space)) &&
    (!env.beamlattice || decide (n ≠ latticeName) || decide (m :: up = latticeParents)) && safeRestB env (n :: m :: up) evs
  | m :: up, some (.stop n) :: evs => decide (n = m) && safeRestB env up evs

theorem safeRest_of {env : Env} : ∀ {evs : List (Option Event)} {up : List Name}, safeRestB env up evs = true →
    SafeRest env up evs
  | [], [], _ => by intro e he; simp at he
  | [], _ :: _, _ => trivial
  | ev :: evs, [], h => by
    intro e he
    simp only [safeRestB, List.all_eq_true] at h
    have := h e he
    match e, this with
    | none, _ => exact Or.inl rfl
    | some (.chars t), _ => exact Or.inr ⟨t, rfl⟩
  | none :: evs, m :: up, h => by
    simp only [safeRestB] at h
    show SafeRest env (m :: up) evs
    exact safeRest_of h
  | some (.chars t) :: evs, m :: up, h => by
    simp only [safeRestB] at h
    show SafeRest env (m :: up) evs
    exact safeRest_of h
  | some (.start n as) :: evs, m :: up, h => by
    simp only [safeRestB, Bool.and_eq_true, Bool.or_eq_true, decide_eq_true_eq, List.all_eq_true, Bool.not_eq_true'] at h
    obtain ⟨⟨⟨⟨⟨h1, h2⟩, h3⟩, h4⟩, h5⟩, h6⟩ := h
    refine ⟨h1, h2, h3, fun hs => ?_, fun hb hn => ?_, safeRest_of h6⟩
    · rcases h4 with h4 | h4
      · exact absurd hs h4
      · exact h4
    · rcases h5 with (h5 | h5) | h5
      · rw [hb] at h5; simp at h5
      · exact absurd hn h5
      · exact h5
  | some (.stop n) :: evs, m :: up, h => by
    simp only [safeRestB, Bool.and_eq_true, decide_eq_true_eq] at h
    exact ⟨h.1, safeRest_of h.2⟩

/-- The tokens before the root element of the example. -/
def safePre : List (Option Event) := [none, some (.chars b!"\n")]

/-- The attributes of the root element of the example. -/
def safeRoot : List Attr :=
  [⟨⟨[], b!"xmlns"⟩, nsCore⟩, ⟨⟨b!"xmlns", b!"b"⟩, nsBeam⟩, ⟨⟨b!"xmlns", b!"p"⟩, nsProduction⟩, ⟨⟨b!"xmlns", b!"u"⟩, b!"u"⟩]

theorem safeExample_eq : (lex .eof (.new safeExample)).1 =
    safePre ++ some (.start modelName safeRoot) :: (lex .eof (.new safeExample)).1.drop 3 := by decide +kernel

theorem safeExample_restB : safeRestB allExt [modelName] ((lex .eof (.new safeExample)).1.drop 3) = true := by decide +kernel

theorem safeExample_ex : ∃ rest, (lex .eof (.new safeExample)).1 = safePre ++ some (.start modelName safeRoot) :: rest ∧
    safeRestB allExt [modelName] rest = true := ⟨_, safeExample_eq, safeExample_restB⟩

theorem safeExample_doc (rest : List (Option Event)) (h : SafeRest allExt [modelName] rest) :
    SafeDoc allExt (safePre ++ some (.start modelName safeRoot) :: rest) := by
  refine Or.inr ⟨safePre, modelName, safeRoot, rest, rfl, ?_, by decide +kernel, by decide +kernel, ?_, h⟩
  · intro e he
    simp only [safePre, List.mem_cons, List.not_mem_nil, or_false] at he
    rcases he with rfl | rfl
    · exact Or.inl rfl
    · exact Or.inr ⟨_, rfl⟩
  · intro _
    decide +kernel

example : SafeDoc allExt (lex .eof (.new safeExample)).1 := by
  obtain ⟨rest, h1, h2⟩ := safeExample_ex
  rw [h1]
  exact safeExample_doc rest (safeRest_of h2)

end Go3mf
