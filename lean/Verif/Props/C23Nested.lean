import Verif.Props.C23

/-!
# C23: declarations in any element

The writer does not forget a prefix at the end of the element that declares it: it uses the prefix that was last declared for
a name space, anywhere in the document before.  This does no harm as long as that prefix stands for the name space where it
is used.  Prefixes may be declared in any element, several times, for several name spaces, and a name space may have several
prefixes.
-/

namespace Go3mf

/-! ## Statement -/

/-- A declaration `xmlns:prefix="space"` that XML allows. -/
def GoodDecl (d : Str × Str) : Prop := NCName d.1 ∧ d.1 ≠ b!"xml" ∧ d.1 ≠ b!"xmlns" ∧ d.2 ≠ b!"xmlns" ∧ d.2 ≠ nsXML

instance (d : Str × Str) : Decidable (GoodDecl d) := inferInstanceAs (Decidable (_ ∧ _))

/-- The prefix that was last declared for a name space. -/
def lastPrefix (T : List (Str × Str)) (s : Str) : Option Str := (T.reverse.find? fun d => d.2 = s).map (·.1)

/-- The name space that a prefix stands for: the last declaration of the innermost element that declares it. -/
def boundIn : Scopes → Str → Option Str
  | [], _ => none
  | x :: S, p => (((decls x.2).reverse.find? fun d => d.1 = p).map (·.2)).or (boundIn S p)

/-- The innermost default name space. -/
def defaultIn : Scopes → Str
  | [] => []
  | x :: S => ((x.2.reverse.find? fun a => a.name.space = [] ∧ a.name.loc = b!"xmlns").map (·.value)).getD (defaultIn S)

/-- The prefix last declared for a name space stands for it here. -/
def StillBound (T : List (Str × Str)) (S : Scopes) (s : Str) : Prop :=
  (lastPrefix T s).any fun p => boundIn S p = some s

instance (T : List (Str × Str)) (S : Scopes) (s : Str) : Decidable (StillBound T S s) :=
  inferInstanceAs (Decidable (_ = true))

/-- The attributes of a tag, after the declarations `T`; `S` are the open elements with the one of this tag. -/
def AttrsIn (S : Scopes) (skip : Bool) : List (Str × Str) → List Attr → Prop
  | _, [] => True
  | T, a :: as => NCName a.name.loc ∧
      (a.name.space = [] ∨ (a.name.space = b!"xmlns" ∧ GoodDecl (a.name.loc, a.value)) ∨ a.name.space = nsXML ∨
        StillBound T S a.name.space) ∧
      (skip = true → escape a.value = a.value) ∧
      ((declOf a).isSome → cleanText a.value = a.value) ∧ AttrsIn S skip (T ++ decls [a]) as

instance AttrsIn.decidable (S : Scopes) (skip : Bool) : (T : List (Str × Str)) → (as : List Attr) →
    Decidable (AttrsIn S skip T as)
  | _, [] => isTrue trivial
  | T, a :: as =>
    have := AttrsIn.decidable S skip (T ++ decls [a]) as
    inferInstanceAs (Decidable (_ ∧ _ ∧ _ ∧ _ ∧ _))

/-- The name of an element, after the declarations `T`, where `S` are the open elements with this one: it has no name space,
or the default one if no prefix was ever declared for it, or one whose last prefix stands for it. -/
def ElemIn (T : List (Str × Str)) (S : Scopes) (n : Name) : Prop :=
  (NCName n.loc ∧ n.loc ≠ b!"xmlns") ∧
  (n.space = [] ∨ (n.space = defaultIn S ∧ lastPrefix T n.space = none) ∨ StillBound T S n.space)

instance (T : List (Str × Str)) (S : Scopes) (n : Name) : Decidable (ElemIn T S n) := inferInstanceAs (Decidable (_ ∧ _))

/-- The tokens of a document, after the declarations `T` and inside the open elements `S`: the tags balance. -/
def TokensIn : List (Str × Str) → Scopes → List Op → Prop
  | _, S, [] => S = []
  | T, S, .chars _ :: ops => TokensIn T S ops
  | T, S, .start n as auto skip :: ops =>
    (ElemIn T ((n, shown as) :: S) n ∧ AttrsIn ((n, shown as) :: S) skip T (shown as)) ∧
      TokensIn (T ++ decls (shown as)) (if auto then S else (n, shown as) :: S) ops
  | _, [], .stop _ :: _ => False
  | T, (k, as) :: S, .stop n :: ops => n = k ∧ ElemIn T ((k, as) :: S) n ∧ TokensIn T S ops

instance TokensIn.decidable : (T : List (Str × Str)) → (S : Scopes) → (ops : List Op) → Decidable (TokensIn T S ops)
  | _, S, [] => inferInstanceAs (Decidable (S = []))
  | T, S, .chars _ :: ops => TokensIn.decidable T S ops
  | T, S, .start n as auto skip :: ops =>
    have := TokensIn.decidable (T ++ decls (shown as)) (if auto then S else (n, shown as) :: S) ops
    inferInstanceAs (Decidable ((_ ∧ _) ∧ _))
  | _, [], .stop _ :: _ => isFalse id
  | T, (k, as) :: S, .stop n :: ops =>
    have := TokensIn.decidable T S ops
    inferInstanceAs (Decidable (_ ∧ _ ∧ _))

/-- The tokens read, inside the open elements and after the text `t`. -/
def readIn : Scopes → Str → List Op → List (Option Event)
  | _, t, [] => flushText t
  | S, t, .chars s :: ops => readIn S (t ++ cleanText s) ops
  | S, t, .start n as auto _ :: ops =>
    flushText t ++ some (.start (fullName (defaultIn ((n, shown as) :: S)) n) (readAttrs as)) ::
      if auto then some (.stop (fullName (defaultIn ((n, shown as) :: S)) n)) :: readIn S [] ops
      else readIn ((n, shown as) :: S) [] ops
  | S, t, .stop n :: ops => flushText t ++ some (.stop (fullName (defaultIn S) n)) :: readIn S.tail [] ops

/-! ## The table of prefixes -/

/-- The table after the declarations `T`. -/
structure TableIn (T : List (Str × Str)) (m : PrefixMap) : Prop where
  eq : ∀ s, m s = (lastPrefix T s).getD []
  good : ∀ d ∈ T, GoodDecl d

variable {T : List (Str × Str)} {m : PrefixMap} {bind : Str → Option Str}

theorem lastPrefix_mem {s p : Str} (h : lastPrefix T s = some p) : (p, s) ∈ T := by
  unfold lastPrefix at h
  rw [Option.map_eq_some_iff] at h
  obtain ⟨d, hd, rfl⟩ := h
  have h1 := List.find?_some hd
  simp only [decide_eq_true_eq] at h1
  have h2 := List.mem_of_find?_eq_some hd
  rw [← h1]
  simpa using h2

theorem TableIn.some (h : TableIn T m) {s p : Str} (hp : lastPrefix T s = some p) : m s = p ∧ GoodDecl (p, s) := by
  refine ⟨by rw [h.eq, hp]; rfl, h.good _ (lastPrefix_mem hp)⟩

theorem TableIn.none (h : TableIn T m) {s : Str} (hp : lastPrefix T s = none) : m s = [] := by rw [h.eq, hp]; rfl

theorem TableIn.entries (h : TableIn T m) : Entries T m := by
  intro s hs
  cases hp : lastPrefix T s with
  | none => exact absurd (h.none hp) hs
  | some p => rw [(h.some hp).1]; exact lastPrefix_mem hp

theorem TableIn.xmlns (h : TableIn T m) : m b!"xmlns" = [] := by
  cases hp : lastPrefix T b!"xmlns" with
  | none => exact h.none hp
  | some p => exact absurd rfl (h.some hp).2.2.2.2.1

theorem StillBound.elim {S : Scopes} {s : Str} (h : StillBound T S s) : ∃ p, lastPrefix T s = some p ∧ boundIn S p = some s := by
  unfold StillBound at h
  rw [Option.any_eq_true] at h
  obtain ⟨p, h1, h2⟩ := h
  exact ⟨p, h1, by simpa using h2⟩

theorem StillBound.weak {S : Scopes} {a : Attr} (h : a.name.space = [] ∨
    (a.name.space = b!"xmlns" ∧ GoodDecl (a.name.loc, a.value)) ∨ a.name.space = nsXML ∨ StillBound T S a.name.space) :
    a.name.space = [] ∨ (a.name.space = b!"xmlns" ∧ GoodDecl (a.name.loc, a.value)) ∨ a.name.space = nsXML ∨
      (lastPrefix T a.name.space).isSome := by
  rcases h with h | h | h | h
  · exact Or.inl h
  · exact Or.inr (Or.inl h)
  · exact Or.inr (Or.inr (Or.inl h))
  · obtain ⟨p, hp, -⟩ := h.elim
    exact Or.inr (Or.inr (Or.inr (by rw [hp]; rfl)))

theorem attrIn_space (h : TableIn T m) {a : Attr} (ha : a.name.space = [] ∨
    (a.name.space = b!"xmlns" ∧ GoodDecl (a.name.loc, a.value)) ∨ a.name.space = nsXML ∨ (lastPrefix T a.name.space).isSome) :
    a.name.space = [] ∨ a.name.space = b!"xmlns" ∨ a.name.space = nsXML ∨ m a.name.space ≠ [] := by
  rcases ha with h1 | h1 | h1 | h1
  · exact Or.inl h1
  · exact Or.inr (Or.inl h1.1)
  · exact Or.inr (Or.inr (Or.inl h1))
  · obtain ⟨p, hp⟩ := Option.isSome_iff_exists.1 h1
    obtain ⟨e, g⟩ := h.some hp
    exact Or.inr (Or.inr (Or.inr (by rw [e]; exact g.1.1)))

theorem lastPrefix_snoc (d : Str × Str) (s : Str) : lastPrefix (T ++ [d]) s = if s = d.2 then some d.1 else lastPrefix T s := by
  unfold lastPrefix
  rw [List.reverse_append, List.reverse_singleton, List.singleton_append, List.find?_cons]
  by_cases h : s = d.2
  · rw [if_pos h, decide_eq_true h.symm]; rfl
  · rw [if_neg h, decide_eq_false (fun e => h e.symm)]

theorem tableIn_step (h : TableIn T m) {a : Attr} (ha : a.name.space = [] ∨
    (a.name.space = b!"xmlns" ∧ GoodDecl (a.name.loc, a.value)) ∨ a.name.space = nsXML ∨ (lastPrefix T a.name.space).isSome) :
    TableIn (T ++ decls [a]) (attrMap m a) := by
  by_cases hx : a.name.space = b!"xmlns"
  · have hd : GoodDecl (a.name.loc, a.value) := by
      rcases ha with h1 | h1 | h1 | h1
      · rw [h1] at hx; exact absurd hx (by decide)
      · exact h1.2
      · rw [h1] at hx; exact absurd hx nsXML_ne
      · obtain ⟨p, hp⟩ := Option.isSome_iff_exists.1 h1
        exact absurd hx (h.some hp).2.2.2.2.1
    have hda : decls [a] = [(a.name.loc, a.value)] := by rw [decls_cons, if_pos hx]; rfl
    rw [attrMap_decl hx h.xmlns, hda]
    constructor
    · intro s
      rw [lastPrefix_snoc]
      unfold PrefixMap.set
      by_cases hsv : s = a.value
      · rw [if_pos hsv, if_pos hsv]; rfl
      · rw [if_neg hsv, if_neg hsv]; exact h.eq s
    · intro d hd'
      rcases List.mem_append.1 hd' with h1 | h1
      · exact h.good d h1
      · rw [List.mem_singleton.1 h1]; exact hd
  · have hda : decls [a] = [] := by rw [decls_cons, if_neg hx]; rfl
    have hmm : attrMap m a = m := by
      apply attrMap_other
      rcases attrIn_space h ha with h1 | h1 | h1 | h1
      · exact Or.inl h1
      · exact absurd h1 hx
      · exact Or.inr (Or.inl h1)
      · exact Or.inr (Or.inr h1)
    rw [hmm, hda, List.append_nil]
    exact h

/-! ## Tags -/

/-- The attributes can be written, and they are read as themselves. -/
theorem attrs_in {S : Scopes} (hb : ∀ p, p ≠ [] → bind p = boundIn S p) (skip : Bool) : ∀ (as : List Attr) {T : List (Str × Str)}
    {m : PrefixMap}, TableIn T m → AttrsIn S skip T as →
    AttrsOK skip m as ∧ (rawAttrs m as).filterMap declOf = rootDecls as ∧
    (rawAttrs m as).map (fun a => (⟨resolveAttr bind a.name, a.value⟩ : Attr)) = as.map (fun a => (⟨a.name, cleanText a.value⟩ : Attr)) ∧
    TableIn (T ++ decls as) (printAttrs skip m as).2
  | [], T, m, hm, _ => ⟨trivial, rfl, rfl, by simpa [decls, printAttrs] using hm⟩
  | a :: as, T, m, hm, h => by
    obtain ⟨hloc, hs, hv, hc, hrest⟩ := h
    have hsp := attrIn_space hm (StillBound.weak hs)
    have hda : decls (a :: as) = decls [a] ++ decls as := by rw [← decls_append]; rfl
    obtain ⟨i1, i2, i3, i4⟩ := attrs_in hb skip as (tableIn_step hm (StillBound.weak hs)) hrest
    have hnc : ∀ d ∈ T, NCName d.1 ∧ d.1 ≠ b!"xml" ∧ d.1 ≠ b!"xmlns" := fun d hd =>
      ⟨(hm.good d hd).1, (hm.good d hd).2.1, (hm.good d hd).2.2.1⟩
    refine ⟨?_, ?_, ?_, ?_⟩
    · rw [attrsOK_cons hloc.1]
      refine ⟨hloc, ?_, hv, i1⟩
      rcases attrPrefix_cases hsp hm.xmlns with ⟨h1, h2⟩ | ⟨h1, h2⟩ | ⟨h1, h2⟩ | ⟨h0, h1, h2⟩
      · exact Or.inl h1
      · rw [h2]; exact Or.inr ncname_xmlns
      · rw [h2]; exact Or.inr ncname_xml
      · rw [h2]; exact Or.inr (hnc _ (hm.entries _ h1)).1
    · rw [rawAttrs_cons hloc.1, List.filterMap_cons, declOf_raw hnc hm.entries hm.xmlns hsp, i2]
      unfold rootDecls
      rw [List.filterMap_cons]
      unfold declOf at hc
      by_cases h1 : a.name.space = b!"xmlns"
      · rw [if_pos h1] at hc
        simp only [if_pos h1, hc rfl]
      · simp only [if_neg h1] at hc ⊢
        by_cases h2 : a.name.space = [] ∧ a.name.loc = b!"xmlns"
        · rw [if_pos h2] at hc
          simp only [if_pos h2, hc rfl]
        · simp only [if_neg h2]
    · rw [rawAttrs_cons hloc.1, List.map_cons, List.map_cons, i3]
      congr 1
      have : resolveAttr bind ⟨attrPrefix m a, a.name.loc⟩ = a.name := by
        unfold resolveAttr
        rcases attrPrefix_cases hsp hm.xmlns with ⟨h1, h2⟩ | ⟨h1, h2⟩ | ⟨h1, h2⟩ | ⟨h0, h1, h2⟩
        · simp only [h2]
          rw [if_pos (Or.inr trivial), ← h1]
        · simp only [h2]
          rw [if_pos (Or.inl trivial), ← h1]
        · simp only [h2]
          rw [if_neg (by decide), if_pos trivial]
          have e : b!"http://www.w3.org/XML/1998/namespace" = a.name.space := by rw [h1]; decide +kernel
          rw [e]
        · have hE : StillBound T S a.name.space := by
            rcases hs with h | h | h | h
            · exact absurd h h0
            · rw [h.1] at h1; exact absurd hm.xmlns h1
            · exact absurd h (hm.good _ (hm.entries _ h1)).2.2.2.2
            · exact h
          obtain ⟨p, hp, hbd⟩ := hE.elim
          obtain ⟨e, g⟩ := hm.some hp
          simp only [h2, e]
          rw [if_neg (by simp [g.2.2.1, g.1.1]), if_neg g.2.1, hb p g.1.1, hbd]
          rfl
      rw [this]
    · rw [printAttrs_map, List.foldl_cons, if_neg hloc.1, ← printAttrs_map, hda, ← List.append_assoc]
      exact i4

theorem attrsIn_loc {S : Scopes} {skip : Bool} : ∀ {as : List Attr} {T : List (Str × Str)}, AttrsIn S skip T as →
    ∀ a ∈ as, a.name.loc ≠ []
  | [], _, _, _, ha => by simp at ha
  | b :: as, T, h, a, ha => by
    rcases List.mem_cons.1 ha with rfl | ha
    · exact h.1.1
    · exact attrsIn_loc h.2.2.2.2 a ha

/-! ## Scopes -/

/-- The open elements as read and as written. -/
inductive Aligned : Scopes → Scopes → Prop
  | nil : Aligned [] []
  | cons {sc S : Scopes} {n : Name} {as ras : List Attr} : Aligned sc S → ras.filterMap declOf = rootDecls as →
    (∀ a ∈ as, a.name.loc ≠ []) → Aligned ((fullName (defaultIn ((n, as) :: S)) n, ras) :: sc) ((n, as) :: S)

theorem rootBind_decls {as : List Attr} {p : Str} (hp : p ≠ []) :
    rootBind as p = ((decls as).reverse.find? fun d => d.1 = p).map (·.2) := by
  unfold rootBind rootDecls decls
  rw [← List.filterMap_reverse, ← List.filterMap_reverse]
  generalize as.reverse = l
  congr 1
  induction l with
  | nil => rfl
  | cons a l ih =>
    rw [List.filterMap_cons, List.filterMap_cons]
    by_cases h1 : a.name.space = b!"xmlns"
    · simp only [if_pos h1, List.find?_cons]
      rw [ih]
    · simp only [if_neg h1]
      by_cases h2 : a.name.space = [] ∧ a.name.loc = b!"xmlns"
      · simp only [if_pos h2, List.find?_cons]
        rw [decide_eq_false (fun e => hp e.symm)]
        exact ih
      · simp only [if_neg h2]
        exact ih

/-- A prefix stands for the same name space as read and as written. -/
theorem Aligned.binds {sc S : Scopes} (h : Aligned sc S) {p : Str} (hp : p ≠ []) : binding sc p = boundIn S p := by
  induction h with
  | nil => rfl
  | @cons sc S n as ras hal hdec _ ih =>
    have hr : declared ras p = rootBind as p := by simp only [declared, hdec, rootBind]
    rw [binding, hr, rootBind_decls hp, ih]
    rfl

theorem rootBind_nil {as : List Attr} (hn : ∀ a ∈ as, a.name.loc ≠ []) :
    rootBind as [] = (as.reverse.find? fun a => a.name.space = [] ∧ a.name.loc = b!"xmlns").map (·.value) := by
  unfold rootBind rootDecls
  rw [← List.filterMap_reverse]
  have hn : ∀ a ∈ as.reverse, a.name.loc ≠ [] := fun a ha => hn a (by simpa using ha)
  generalize as.reverse = l at hn
  induction l with
  | nil => rfl
  | cons a l ih =>
    have ih := ih (fun b hb => hn b (by simp [hb]))
    have ha := hn a (by simp)
    rw [List.filterMap_cons, List.find?_cons]
    by_cases h1 : a.name.space = b!"xmlns"
    · have h2 : ¬ (a.name.space = [] ∧ a.name.loc = b!"xmlns") := by
        rw [h1]
        rintro ⟨h, -⟩
        exact absurd h (by decide)
      simp only [if_pos h1, List.find?_cons]
      rw [decide_eq_false ha, decide_eq_false h2]
      exact ih
    · simp only [if_neg h1]
      by_cases h2 : a.name.space = [] ∧ a.name.loc = b!"xmlns"
      · simp only [if_pos h2, List.find?_cons]
        rw [decide_eq_true h2]
        rfl
      · simp only [if_neg h2]
        rw [decide_eq_false h2]
        exact ih

/-- The default name space is the one of the innermost declaration. -/
theorem Aligned.default {sc S : Scopes} (h : Aligned sc S) : (binding sc []).getD [] = defaultIn S := by
  induction h with
  | nil => rfl
  | @cons sc S n as ras hal hdec hn ih =>
    have hr : declared ras [] = rootBind as [] := by simp only [declared, hdec, rootBind]
    rw [binding, hr, rootBind_nil hn, defaultIn, ← ih]
    cases (as.reverse.find? fun a => a.name.space = [] ∧ a.name.loc = b!"xmlns") <;> rfl

/-- The name of an element can be written, and it is read as itself. -/
theorem elem_in {sc S : Scopes} (h : Aligned sc S) (hm : TableIn T m) {n : Name} (hs : ElemIn T S n) :
    ElemOK m n ∧ resolveElem (binding sc) (rawName m n) = fullName (defaultIn S) n := by
  obtain ⟨hn, hs⟩ := hs
  have plain : elemPrefix m n = [] → (n.space = [] ∨ n.space = defaultIn S) →
      ElemOK m n ∧ resolveElem (binding sc) (rawName m n) = fullName (defaultIn S) n := by
    intro he hs
    unfold ElemOK rawName resolveElem fullName
    rw [he]
    refine ⟨⟨hn.1, Or.inl rfl⟩, ?_⟩
    rw [if_neg (by simp [hn.2]), if_neg (by simp)]
    simp only [h.default]
    by_cases h0 : n.space = []
    · rw [if_pos h0]
    · rw [if_neg h0]
      rcases hs with hs | hs
      · exact absurd hs h0
      · rw [← hs]
  rcases hs with h0 | h0 | h0
  · exact plain (by simp [elemPrefix, h0]) (Or.inl h0)
  · refine plain ?_ (Or.inr h0.1)
    unfold elemPrefix
    rw [if_neg]
    rintro ⟨-, h2⟩
    exact h2 (hm.none h0.2)
  · obtain ⟨p, hp, hb⟩ := h0.elim
    obtain ⟨e, g⟩ := hm.some hp
    have hne : m n.space ≠ [] := by rw [e]; exact g.1.1
    by_cases hz : n.space = []
    · exact plain (by simp [elemPrefix, hz]) (Or.inl hz)
    · unfold ElemOK rawName elemPrefix fullName resolveElem
      simp only [if_pos (show n.space ≠ [] ∧ m n.space ≠ [] from ⟨hz, hne⟩), if_neg hz]
      simp only [e]
      refine ⟨⟨hn.1, Or.inr g.1⟩, ?_⟩
      rw [if_neg (by simp [g.2.2.1, g.1.1]), if_neg g.2.1, h.binds g.1.1, hb]
      rfl

/-! ## Documents -/

/-- A start tag can be written, and it is read as itself; the scopes inside of it stay aligned. -/
theorem tag_in {sc S : Scopes} (h : Aligned sc S) (hm : TableIn T m) {n : Name} {as : List Attr} {skip : Bool}
    (ht : ElemIn T ((n, shown as) :: S) n ∧ AttrsIn ((n, shown as) :: S) skip T (shown as)) :
    (ElemOK m n ∧ AttrsOK skip m as) ∧
    resolveElem (fun p => (declared (rawAttrs m as) p).or (binding sc p)) (rawName m n) =
      fullName (defaultIn ((n, shown as) :: S)) n ∧
    (rawAttrs m as).map (fun a => (⟨resolveAttr (fun p => (declared (rawAttrs m as) p).or (binding sc p)) a.name, a.value⟩ : Attr)) =
      readAttrs as ∧
    Aligned ((fullName (defaultIn ((n, shown as) :: S)) n, rawAttrs m as) :: sc) ((n, shown as) :: S) ∧
    TableIn (T ++ decls (shown as)) (printAttrs skip m as).2 := by
  have hdec : (rawAttrs m as).filterMap declOf = rootDecls (shown as) := by
    -- the declarations as written do not depend on how they are read
    have := (attrs_in (bind := boundIn ((n, shown as) :: S)) (fun _ _ => rfl) skip (shown as) hm ht.2).2.1
    rwa [rawAttrs_shown] at this
  have hal : Aligned ((fullName (defaultIn ((n, shown as) :: S)) n, rawAttrs m as) :: sc) ((n, shown as) :: S) :=
    .cons h hdec (attrsIn_loc ht.2)
  obtain ⟨a1, a2, a3, a4⟩ := attrs_in (bind := fun p => (declared (rawAttrs m as) p).or (binding sc p))
    (fun p hp => hal.binds hp) skip (shown as) hm ht.2
  obtain ⟨e1, e2⟩ := elem_in hal hm ht.1
  rw [attrsOK_shown] at a1
  rw [rawAttrs_shown] at a3
  rw [printAttrs_shown] at a4
  exact ⟨⟨e1, a1⟩, e2, a3, hal, a4⟩

/-- The tokens can be written, and they are read as themselves. -/
theorem ops_in : ∀ (ops : List Op) (t : Str) {T : List (Str × Str)} {sc S : Scopes} {m : PrefixMap}, Aligned sc S →
    TableIn T m → TokensIn T S ops →
    OpsOK m ops ∧ resolveAll sc (rawOps m t ops) .eof = (readIn S t ops, .eof)
  | [], t, T, sc, S, m, hal, hm, h => by
    simp only [TokensIn] at h
    subst h
    cases hal
    refine ⟨trivial, ?_⟩
    have := resolveAll_flush [] t [] .eof
    simpa [rawOps, readIn, resolveAll] using this
  | .chars s :: ops, t, T, sc, S, m, hal, hm, h => by
    exact ops_in ops (t ++ cleanText s) hal hm (by simpa only [TokensIn] using h)
  | .start n as auto skip :: ops, t, T, sc, S, m, hal, hm, h => by
    simp only [TokensIn] at h
    obtain ⟨ht, hrest⟩ := h
    obtain ⟨⟨o1, o2⟩, hn, ha, hal', hm'⟩ := tag_in hal hm ht
    have hend := (elem_in hal' hm ht.1).2
    cases auto with
    | true =>
      simp only [if_true] at hrest
      obtain ⟨i1, i2⟩ := ops_in ops [] hal hm' hrest
      refine ⟨⟨o1, o2, i1⟩, ?_⟩
      simp only [rawOps, readIn, if_true]
      rw [resolveAll_flush]
      simp only [resolveAll, List.cons_append, List.nil_append]
      rw [hn, ha, hend, if_pos rfl, i2]
    | false =>
      simp only [Bool.false_eq_true, if_false] at hrest
      obtain ⟨i1, i2⟩ := ops_in ops [] hal' hm' hrest
      refine ⟨⟨o1, o2, i1⟩, ?_⟩
      simp only [rawOps, readIn, Bool.false_eq_true, if_false]
      rw [resolveAll_flush]
      simp only [resolveAll, List.nil_append]
      rw [hn, ha, i2]
  | .stop n :: ops, t, T, sc, S, m, hal, hm, h => by
    cases hal with
    | nil => simp only [TokensIn] at h
    | @cons sc S k as ras hal hdec hl =>
      simp only [TokensIn] at h
      obtain ⟨rfl, he, h⟩ := h
      obtain ⟨e1, e2⟩ := elem_in (Aligned.cons hal hdec hl) hm he
      obtain ⟨i1, i2⟩ := ops_in ops [] hal hm h
      refine ⟨⟨e1, i1⟩, ?_⟩
      simp only [rawOps, readIn, List.tail_cons]
      rw [resolveAll_flush]
      simp only [resolveAll]
      rw [e2, if_pos rfl, i2]

theorem tableIn_nil : TableIn [] (fun _ => []) := ⟨fun _ => rfl, by simp⟩

/-- **C23** (declarations anywhere): if every name is used where the prefix last declared for its name space stands for it,
reading what is written for a sequence of balanced tags gives its tokens, with the texts joined, the default name space
filled in, and the characters that XML forbids replaced. -/
theorem C23_nested_partial (ops : List Op) (h : TokensIn [] [] ops) :
    lex .eof (.new (printOps (fun _ => []) ops)) = (readIn [] [] ops, .eof) := by
  obtain ⟨h1, h2⟩ := ops_in ops [] .nil tableIn_nil h
  have h3 := raws_print .eof ops (fun _ => []) [] h1
  simp only [List.flatMap_nil, List.nil_append] at h3
  rw [C24_resolve, rawTags_eq, h3, h2]

/-- **C23** (declarations anywhere): the same after the XML header that the encoder writes first. -/
theorem C23_nestedHeader_partial (n : Name) (as : List Attr) (auto skip : Bool) (ops : List Op)
    (h : TokensIn [] [] (.start n as auto skip :: ops)) :
    lex .eof (.new (xmlHeader ++ printOps (fun _ => []) (.start n as auto skip :: ops))) =
      (none :: some (.chars b!"\n") :: readIn [] [] (.start n as auto skip :: ops), .eof) := by
  obtain ⟨h1, h2⟩ := ops_in _ [] .nil tableIn_nil h
  have h3 := raws_print .eof _ (fun _ => []) [] h1
  simp only [List.flatMap_nil, List.nil_append] at h3
  have hlt : ∃ t, printOps (fun _ => []) (.start n as auto skip :: ops) = 60 :: t :=
    ⟨_, by simp [printOps, printOp, printStart]; rfl⟩
  rw [C24_resolve, rawTags_eq]
  generalize printOps (fun _ => []) (.start n as auto skip :: ops) = r at h3 hlt
  have t1 : rawTok .eof (xmlHeader ++ r) none = .ok (none, b!"\n" ++ r, none) := by
    rfl
  have t2 : raws .eof (b!"\n" ++ r) none = (some (.chars b!"\n") :: (raws .eof r none).1, (raws .eof r none).2) := by
    obtain ⟨t, rfl⟩ := hlt
    exact raws_ok rfl
  rw [raws_ok t1, t2, h3]
  simp only [resolveAll, h2]

/-! ## Non-vacuity -/

/-- Two elements side by side that declare the same prefix for different name spaces, a second prefix for a name space, a
default name space inside, and a prefix that is used on the tag that declares it. -/
def nestedDoc : List Op :=
  [.start ⟨[], b!"r"⟩ [⟨⟨[], b!"xmlns"⟩, b!"http://core"⟩] false false, .chars b!"a<b",
   .start ⟨[], b!"x"⟩ [⟨⟨b!"xmlns", b!"p"⟩, b!"http://prod"⟩, ⟨⟨b!"http://prod", b!"k"⟩, b!"1"⟩] false false,
   .start ⟨b!"http://prod", b!"y"⟩ [] true true, .stop ⟨[], b!"x"⟩,
   .start ⟨[], b!"z"⟩ [⟨⟨b!"xmlns", b!"p"⟩, b!"http://mat"⟩, ⟨⟨b!"xmlns", b!"q"⟩, b!"http://prod"⟩,
     ⟨⟨[], b!"xmlns"⟩, b!"http://other"⟩] false false,
   .start ⟨b!"http://prod", b!"y"⟩ [⟨⟨b!"http://mat", b!"k"⟩, b!"2"⟩] false false, .stop ⟨b!"http://prod", b!"y"⟩,
   .start ⟨b!"http://other", b!"w"⟩ [] true false, .stop ⟨[], b!"z"⟩, .stop ⟨[], b!"r"⟩]

theorem nestedDoc_ok : TokensIn [] [] nestedDoc := by decide +kernel

example : readIn [] [] nestedDoc =
    [some (.start ⟨b!"http://core", b!"r"⟩ [⟨⟨[], b!"xmlns"⟩, b!"http://core"⟩]), some (.chars b!"a<b"),
     some (.start ⟨b!"http://core", b!"x"⟩ [⟨⟨b!"xmlns", b!"p"⟩, b!"http://prod"⟩, ⟨⟨b!"http://prod", b!"k"⟩, b!"1"⟩]),
     some (.start ⟨b!"http://prod", b!"y"⟩ []), some (.stop ⟨b!"http://prod", b!"y"⟩), some (.stop ⟨b!"http://core", b!"x"⟩),
     some (.start ⟨b!"http://other", b!"z"⟩ [⟨⟨b!"xmlns", b!"p"⟩, b!"http://mat"⟩, ⟨⟨b!"xmlns", b!"q"⟩, b!"http://prod"⟩,
       ⟨⟨[], b!"xmlns"⟩, b!"http://other"⟩]),
     some (.start ⟨b!"http://prod", b!"y"⟩ [⟨⟨b!"http://mat", b!"k"⟩, b!"2"⟩]), some (.stop ⟨b!"http://prod", b!"y"⟩),
     some (.start ⟨b!"http://other", b!"w"⟩ []), some (.stop ⟨b!"http://other", b!"w"⟩), some (.stop ⟨b!"http://other", b!"z"⟩),
     some (.stop ⟨b!"http://core", b!"r"⟩)] := by decide +kernel

/-- The document whose prefix has gone out of scope is not one of these. -/
example : ¬ TokensIn [] [] scopeDoc := by decide +kernel

end Go3mf
