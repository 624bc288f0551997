import Verif.Props.C23Nested

/-!
# C23: the exact condition

`C23_nested_partial` gives a condition under which a document survives writing and reading.  Here it is shown that it is also
necessary: if the tags balance, the names and the declarations are well formed, and every attribute with a name space comes
after a declaration of that name space, the document survives if and only if every name is used where the prefix last
declared for its name space stands for it.

The only exception is a prefix that is spelled like the name space itself, `xmlns:a="a"`, since the reader leaves a prefix
that is not declared as it is.
-/

namespace Go3mf

/-! ## Statement -/

/-- A prefix other than the name space itself has been declared for it, somewhere before. -/
def OncePrefixed (T : List (Str × Str)) (s : Str) : Prop := (lastPrefix T s).any fun p => p ≠ s

instance (T : List (Str × Str)) (s : Str) : Decidable (OncePrefixed T s) := inferInstanceAs (Decidable (_ = true))

/-- The attributes of a tag are well formed; their name spaces may have gone out of scope. -/
def AttrsFormed (skip : Bool) : List (Str × Str) → List Attr → Prop
  | _, [] => True
  | T, a :: as => NCName a.name.loc ∧
      (a.name.space = [] ∨ (a.name.space = b!"xmlns" ∧ GoodDecl (a.name.loc, a.value)) ∨ a.name.space = nsXML ∨
        OncePrefixed T a.name.space) ∧
      (skip = true → escape a.value = a.value) ∧
      ((declOf a).isSome → cleanText a.value = a.value) ∧ AttrsFormed skip (T ++ decls [a]) as

instance AttrsFormed.decidable (skip : Bool) : (T : List (Str × Str)) → (as : List Attr) → Decidable (AttrsFormed skip T as)
  | _, [] => isTrue trivial
  | T, a :: as =>
    have := AttrsFormed.decidable skip (T ++ decls [a]) as
    inferInstanceAs (Decidable (_ ∧ _ ∧ _ ∧ _ ∧ _))

/-- The name of an element is well formed. -/
def ElemFormed (T : List (Str × Str)) (n : Name) : Prop :=
  (NCName n.loc ∧ n.loc ≠ b!"xmlns") ∧ (lastPrefix T n.space ≠ none → OncePrefixed T n.space)

instance (T : List (Str × Str)) (n : Name) : Decidable (ElemFormed T n) := inferInstanceAs (Decidable (_ ∧ _))

/-- The tags balance, and they are well formed. -/
def TokensFormed : List (Str × Str) → Scopes → List Op → Prop
  | _, S, [] => S = []
  | T, S, .chars _ :: ops => TokensFormed T S ops
  | T, S, .start n as auto skip :: ops =>
    (ElemFormed T n ∧ AttrsFormed skip T (shown as)) ∧
      TokensFormed (T ++ decls (shown as)) (if auto then S else (n, shown as) :: S) ops
  | _, [], .stop _ :: _ => False
  | T, (k, _) :: S, .stop n :: ops => n = k ∧ ElemFormed T n ∧ TokensFormed T S ops

instance TokensFormed.decidable : (T : List (Str × Str)) → (S : Scopes) → (ops : List Op) →
    Decidable (TokensFormed T S ops)
  | _, S, [] => inferInstanceAs (Decidable (S = []))
  | T, S, .chars _ :: ops => TokensFormed.decidable T S ops
  | T, S, .start n as auto skip :: ops =>
    have := TokensFormed.decidable (T ++ decls (shown as)) (if auto then S else (n, shown as) :: S) ops
    inferInstanceAs (Decidable ((_ ∧ _) ∧ _))
  | _, [], .stop _ :: _ => isFalse id
  | T, (k, as) :: S, .stop n :: ops =>
    have := TokensFormed.decidable T S ops
    inferInstanceAs (Decidable (_ ∧ _ ∧ _))

/-! ## Attributes -/

variable {T : List (Str × Str)} {m : PrefixMap} {bind : Str → Option Str}

theorem OncePrefixed.elim {s : Str} (h : OncePrefixed T s) : ∃ p, lastPrefix T s = some p ∧ p ≠ s := by
  unfold OncePrefixed at h
  rw [Option.any_eq_true] at h
  obtain ⟨p, h1, h2⟩ := h
  exact ⟨p, h1, by simpa using h2⟩

theorem StillBound.mk {S : Scopes} {s p : Str} (h : lastPrefix T s = some p) (hb : boundIn S p = some s) :
    StillBound T S s := by
  unfold StillBound
  rw [h]
  simpa using hb

theorem OncePrefixed.weak {a : Attr} (h : a.name.space = [] ∨
    (a.name.space = b!"xmlns" ∧ GoodDecl (a.name.loc, a.value)) ∨ a.name.space = nsXML ∨ OncePrefixed T a.name.space) :
    a.name.space = [] ∨ (a.name.space = b!"xmlns" ∧ GoodDecl (a.name.loc, a.value)) ∨ a.name.space = nsXML ∨
      (lastPrefix T a.name.space).isSome := by
  rcases h with h | h | h | h
  · exact Or.inl h
  · exact Or.inr (Or.inl h)
  · exact Or.inr (Or.inr (Or.inl h))
  · obtain ⟨p, hp, -⟩ := h.elim
    exact Or.inr (Or.inr (Or.inr (by rw [hp]; rfl)))

/-- Well formed attributes can be written, and their declarations are read. -/
theorem attrs_formed (skip : Bool) : ∀ (as : List Attr) {T : List (Str × Str)} {m : PrefixMap}, TableIn T m →
    AttrsFormed skip T as →
    AttrsOK skip m as ∧ (rawAttrs m as).filterMap declOf = rootDecls as ∧ TableIn (T ++ decls as) (printAttrs skip m as).2
  | [], T, m, hm, _ => ⟨trivial, rfl, by simpa [decls, printAttrs] using hm⟩
  | a :: as, T, m, hm, h => by
    obtain ⟨hloc, hs, hv, hc, hrest⟩ := h
    have hsp := attrIn_space hm (OncePrefixed.weak hs)
    have hda : decls (a :: as) = decls [a] ++ decls as := by rw [← decls_append]; rfl
    obtain ⟨i1, i2, i4⟩ := attrs_formed skip as (tableIn_step hm (OncePrefixed.weak hs)) hrest
    have hnc : ∀ d ∈ T, NCName d.1 ∧ d.1 ≠ b!"xml" ∧ d.1 ≠ b!"xmlns" := fun d hd =>
      ⟨(hm.good d hd).1, (hm.good d hd).2.1, (hm.good d hd).2.2.1⟩
    refine ⟨?_, ?_, ?_⟩
    · rw [attrsOK_cons hloc.1]
      refine ⟨hloc, ?_, hv, i1⟩
      rcases attrPrefix_cases hsp hm.xmlns with ⟨h1, h2⟩ | ⟨h1, h2⟩ | ⟨h1, h2⟩ | ⟨h0, h1, h2⟩
      · exact Or.inl h1
      · rw [h2]; exact Or.inr ncname_xmlns
      · rw [h2]; exact Or.inr ncname_xml
      · rw [h2]; exact Or.inr (hnc _ (hm.entries _ h1)).1
    · rw [rawAttrs_cons hloc.1, List.filterMap_cons, declOf_raw hnc hm.entries hm.xmlns hsp, i2]
      unfold rootDecls
      rw [List.filterMap_cons]
      unfold declOf at hc
      by_cases h1 : a.name.space = b!"xmlns"
      · rw [if_pos h1] at hc
        simp only [if_pos h1, hc rfl]
      · simp only [if_neg h1] at hc ⊢
        by_cases h2 : a.name.space = [] ∧ a.name.loc = b!"xmlns"
        · rw [if_pos h2] at hc
          simp only [if_pos h2, hc rfl]
        · simp only [if_neg h2]
    · rw [printAttrs_map, List.foldl_cons, if_neg hloc.1, ← printAttrs_map, hda, ← List.append_assoc]
      exact i4

theorem attrsFormed_loc {skip : Bool} : ∀ {as : List Attr} {T : List (Str × Str)}, AttrsFormed skip T as →
    ∀ a ∈ as, a.name.loc ≠ []
  | [], _, _, _, ha => by simp at ha
  | b :: as, T, h, a, ha => by
    rcases List.mem_cons.1 ha with rfl | ha
    · exact h.1.1
    · exact attrsFormed_loc h.2.2.2.2 a ha

/-- A prefix that is read as the name space it was written for stands for it. -/
theorem bound_of_read {b : Option Str} {p s : Str} (hne : p ≠ s) (h : b.getD p = s) : b = some s := by
  cases b with
  | none => exact absurd h hne
  | some x => exact congrArg some h

/-- Attributes that are read as they are meant are in scope. -/
theorem attrs_exact {S : Scopes} (hb : ∀ p, p ≠ [] → bind p = boundIn S p) (skip : Bool) : ∀ (as : List Attr)
    {T : List (Str × Str)} {m : PrefixMap}, TableIn T m → AttrsFormed skip T as →
    (rawAttrs m as).map (fun a => (⟨resolveAttr bind a.name, a.value⟩ : Attr)) =
      as.map (fun a => (⟨a.name, cleanText a.value⟩ : Attr)) → AttrsIn S skip T as
  | [], T, m, hm, _, _ => trivial
  | a :: as, T, m, hm, h, he => by
    obtain ⟨hloc, hs, hv, hc, hrest⟩ := h
    have hsp := attrIn_space hm (OncePrefixed.weak hs)
    rw [rawAttrs_cons hloc.1, List.map_cons, List.map_cons] at he
    injection he with he1 he2
    refine ⟨hloc, ?_, hv, hc, attrs_exact hb skip as (tableIn_step hm (OncePrefixed.weak hs)) hrest he2⟩
    rcases hs with h | h | h | h
    · exact Or.inl h
    · exact Or.inr (Or.inl h)
    · exact Or.inr (Or.inr (Or.inl h))
    · obtain ⟨p, hp, hne⟩ := h.elim
      obtain ⟨e, g⟩ := hm.some hp
      have hn : resolveAttr bind ⟨attrPrefix m a, a.name.loc⟩ = a.name := congrArg Attr.name he1
      rcases attrPrefix_cases hsp hm.xmlns with ⟨h1, h2⟩ | ⟨h1, h2⟩ | ⟨h1, h2⟩ | ⟨h0, h1, h2⟩
      · exact Or.inl h1
      · exact absurd h1 g.2.2.2.1
      · exact absurd h1 g.2.2.2.2
      · rw [h2, e] at hn
        unfold resolveAttr at hn
        rw [if_neg (by simp [g.2.2.1, g.1.1]), if_neg g.2.1] at hn
        simp only [hb p g.1.1] at hn
        exact Or.inr (Or.inr (Or.inr (StillBound.mk hp (bound_of_read hne (congrArg Name.space hn)))))

/-! ## Elements -/

theorem elem_formed (hm : TableIn T m) {n : Name} (hs : ElemFormed T n) : ElemOK m n := by
  refine ⟨hs.1.1, ?_⟩
  unfold elemPrefix
  by_cases h : n.space ≠ [] ∧ m n.space ≠ []
  · rw [if_pos h]
    exact Or.inr (hm.good _ (hm.entries _ h.2)).1
  · exact Or.inl (if_neg h)

/-- The name of an element that is read as it is meant is in scope. -/
theorem elem_exact {sc S : Scopes} (h : Aligned sc S) (hm : TableIn T m) {n : Name} (hs : ElemFormed T n)
    (he : resolveElem (binding sc) (rawName m n) = fullName (defaultIn S) n) : ElemIn T S n := by
  refine ⟨hs.1, ?_⟩
  by_cases h0 : n.space = []
  · exact Or.inl h0
  · refine Or.inr ?_
    unfold fullName at he
    rw [if_neg h0] at he
    cases hp : lastPrefix T n.space with
    | none =>
      refine Or.inl ⟨?_, rfl⟩
      have e : elemPrefix m n = [] := if_neg fun hh => hh.2 (hm.none hp)
      unfold rawName resolveElem at he
      rw [e, if_neg (by simp [hs.1.2]), if_neg (by simp)] at he
      simp only [h.default] at he
      exact (congrArg Name.space he).symm
    | some p =>
      refine Or.inr ?_
      obtain ⟨q, hq, hne⟩ := (hs.2 (by simp [hp])).elim
      obtain rfl : p = q := by rw [hp] at hq; exact Option.some.inj hq
      obtain ⟨e, g⟩ := hm.some hp
      have hne' : m n.space ≠ [] := by rw [e]; exact g.1.1
      have e2 : elemPrefix m n = p := by
        unfold elemPrefix
        rw [if_pos ⟨h0, hne'⟩, e]
      unfold rawName resolveElem at he
      rw [e2, if_neg (by simp [g.2.2.1, g.1.1]), if_neg g.2.1] at he
      simp only [h.binds g.1.1] at he
      exact StillBound.mk hp (bound_of_read hne (congrArg Name.space he))

/-! ## Documents -/

theorem ops_formed : ∀ (ops : List Op) {T : List (Str × Str)} {S : Scopes} {m : PrefixMap}, TableIn T m →
    TokensFormed T S ops → OpsOK m ops
  | [], _, _, _, _, _ => trivial
  | .chars _ :: ops, T, S, m, hm, h => ops_formed ops (S := S) hm (by simpa only [TokensFormed] using h)
  | .start n as auto skip :: ops, T, S, m, hm, h => by
    simp only [TokensFormed] at h
    obtain ⟨⟨h1, h2⟩, h3⟩ := h
    obtain ⟨a1, -, a3⟩ := attrs_formed skip (shown as) hm h2
    rw [attrsOK_shown] at a1
    rw [printAttrs_shown] at a3
    exact ⟨elem_formed hm h1, a1, ops_formed ops a3 h3⟩
  | .stop n :: ops, T, [], m, hm, h => by simp only [TokensFormed] at h
  | .stop n :: ops, T, (k, as) :: S, m, hm, h => by
    simp only [TokensFormed] at h
    exact ⟨elem_formed hm h.2.1, ops_formed ops hm h.2.2⟩

/-- A well formed start tag that is read as it is meant is in scope. -/
theorem tag_exact {sc S : Scopes} (h : Aligned sc S) (hm : TableIn T m) {n : Name} {as : List Attr} {skip : Bool}
    (h1 : ElemFormed T n) (h2 : AttrsFormed skip T (shown as))
    (hn : resolveElem (fun p => (declared (rawAttrs m as) p).or (binding sc p)) (rawName m n) =
      fullName (defaultIn ((n, shown as) :: S)) n)
    (ha : (rawAttrs m as).map (fun a => (⟨resolveAttr (fun p => (declared (rawAttrs m as) p).or (binding sc p)) a.name, a.value⟩ : Attr)) =
      readAttrs as) :
    (ElemIn T ((n, shown as) :: S) n ∧ AttrsIn ((n, shown as) :: S) skip T (shown as)) := by
  obtain ⟨-, hdec, -⟩ := attrs_formed skip (shown as) hm h2
  rw [rawAttrs_shown] at hdec
  have hal : Aligned ((fullName (defaultIn ((n, shown as) :: S)) n, rawAttrs m as) :: sc) ((n, shown as) :: S) :=
    .cons h hdec (attrsFormed_loc h2)
  refine ⟨elem_exact hal hm h1 hn, attrs_exact (bind := fun p => (declared (rawAttrs m as) p).or (binding sc p))
    (fun p hp => hal.binds hp) skip (shown as) hm h2 ?_⟩
  rw [rawAttrs_shown]
  exact ha

theorem ops_exact : ∀ (ops : List Op) (t : Str) {T : List (Str × Str)} {sc S : Scopes} {m : PrefixMap}, Aligned sc S →
    TableIn T m → TokensFormed T S ops → resolveAll sc (rawOps m t ops) .eof = (readIn S t ops, .eof) → TokensIn T S ops
  | [], t, T, sc, S, m, hal, hm, h, _ => by simpa only [TokensFormed, TokensIn] using h
  | .chars s :: ops, t, T, sc, S, m, hal, hm, h, he => by
    simp only [TokensFormed] at h
    simp only [TokensIn]
    exact ops_exact ops (t ++ cleanText s) hal hm h he
  | .start n as auto skip :: ops, t, T, sc, S, m, hal, hm, h, he => by
    simp only [TokensFormed] at h
    obtain ⟨⟨h1, h2⟩, hrest⟩ := h
    simp only [rawOps, readIn] at he
    rw [resolveAll_flush] at he
    obtain ⟨e1, e2⟩ := Prod.mk.inj he
    have e1 := List.append_cancel_left e1
    simp only [resolveAll] at e1 e2
    injection e1 with e1 e3
    injection e1 with e1
    injection e1 with hn ha
    have ht := tag_exact hal hm h1 h2 hn ha
    obtain ⟨-, -, -, hal', hm'⟩ := tag_in hal hm ht
    simp only [TokensIn]
    refine ⟨ht, ?_⟩
    rw [hn] at e2 e3
    cases auto with
    | false =>
      simp only [Bool.false_eq_true, if_false, List.nil_append] at hrest e2 e3 ⊢
      exact ops_exact ops [] hal' hm' hrest (Prod.ext e3 e2)
    | true =>
      simp only [if_true, List.cons_append, List.nil_append] at hrest e2 e3 ⊢
      simp only [resolveAll] at e2 e3
      have hend := (elem_in hal' hm ht.1).2
      rw [hend, if_pos rfl] at e2 e3
      injection e3 with _ e3
      exact ops_exact ops [] hal hm' hrest (Prod.ext e3 e2)
  | .stop n :: ops, t, T, sc, [], m, hal, hm, h, he => by simp only [TokensFormed] at h
  | .stop n :: ops, t, T, sc, (k, as) :: S, m, hal, hm, h, he => by
    simp only [TokensFormed] at h
    obtain ⟨rfl, h1, h⟩ := h
    simp only [rawOps, readIn, List.tail_cons] at he
    rw [resolveAll_flush] at he
    obtain ⟨e1, e2⟩ := Prod.mk.inj he
    have e1 := List.append_cancel_left e1
    have hal0 := hal
    cases hal with
    | @cons sc S k as ras hal hdec hl =>
      simp only [resolveAll] at e1 e2
      by_cases hr : resolveElem (binding ((fullName (defaultIn ((n, as) :: S)) n, ras) :: sc)) (rawName m n) =
          fullName (defaultIn ((n, as) :: S)) n
      · rw [if_pos hr] at e1 e2
        injection e1 with _ e1
        simp only [TokensIn]
        exact ⟨trivial, elem_exact hal0 hm h1 hr, ops_exact ops [] hal hm h (Prod.ext e1 e2)⟩
      · rw [if_neg hr] at e1
        exact absurd e1 (by simp)

/-- **C23** (exact condition): a well formed document survives writing and reading if and only if every name is used where
the prefix last declared for its name space stands for it. -/
theorem C23_exact_partial (ops : List Op) (h : TokensFormed [] [] ops) :
    lex .eof (.new (printOps (fun _ => []) ops)) = (readIn [] [] ops, .eof) ↔ TokensIn [] [] ops := by
  refine ⟨fun he => ?_, C23_nested_partial ops⟩
  have h3 := raws_print .eof ops (fun _ => []) [] (ops_formed ops tableIn_nil h)
  simp only [List.flatMap_nil, List.nil_append] at h3
  rw [C24_resolve, rawTags_eq, h3] at he
  exact ops_exact ops [] .nil tableIn_nil h he

/-! ## Non-vacuity -/

example : TokensFormed [] [] nestedDoc := by decide +kernel

/-- A well formed document that does not survive: its prefix has gone out of scope. -/
example : TokensFormed [] [] scopeDoc ∧ lex .eof (.new (printOps (fun _ => []) scopeDoc)) ≠ (readIn [] [] scopeDoc, .eof) :=
  have h : TokensFormed [] [] scopeDoc := by decide +kernel
  ⟨h, fun e => absurd ((C23_exact_partial scopeDoc h).1 e) (by decide +kernel)⟩

/-- A prefix that has been taken by another name space in the meantime. -/
example : TokensFormed [] []
    [.start ⟨[], b!"r"⟩ [⟨⟨b!"xmlns", b!"p"⟩, b!"http://a"⟩] false false,
     .start ⟨[], b!"x"⟩ [⟨⟨b!"xmlns", b!"p"⟩, b!"http://b"⟩] false false,
     .start ⟨b!"http://a", b!"y"⟩ [] true true, .stop ⟨[], b!"x"⟩, .stop ⟨[], b!"r"⟩] ∧
    ¬ TokensIn [] []
    [.start ⟨[], b!"r"⟩ [⟨⟨b!"xmlns", b!"p"⟩, b!"http://a"⟩] false false,
     .start ⟨[], b!"x"⟩ [⟨⟨b!"xmlns", b!"p"⟩, b!"http://b"⟩] false false,
     .start ⟨b!"http://a", b!"y"⟩ [] true true, .stop ⟨[], b!"x"⟩, .stop ⟨[], b!"r"⟩] := by decide +kernel

end Go3mf
