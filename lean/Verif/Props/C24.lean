import Verif.Lemmas.Xml

/-!
# C24: namespaces are lexically scoped and tags balance

The tags as they are written (`rawTok`: names with their prefixes, no stack, no name spaces) are compared with what the
reader reports.  The specification of name spaces (`resolveAll`) keeps the open elements with the attributes of their
tags and looks a prefix up in the innermost element that declares it.
-/

namespace Go3mf

/-! ## Tags as written -/

/-- The next tag or text as written; `close` is the name of an element just opened with `/>`. -/
def rawTok (fin : LexErr) (inp : Str) (close : Option Name) : Except LexErr (Option Event × Str × Option Name) :=
  match close with
  | some n => .ok (some (.stop n), inp, none)
  | none =>
    match inp with
    | [] => .error fin
    | b :: s =>
      if b ≠ 60 then
        match lexText fin none (b :: s) with
        | .error e => .error e
        | .ok (t, r) => .ok (some (.chars t), r, none)
      else
        match s with
        | [] => .error fin.must
        | c :: t =>
          if c = 47 then
            match readName fin t with
            | .fail e => .error e
            | .missing _ => .error .syntax
            | .ok n r =>
              match skipSpace r with
              | [] => .error fin.must
              | d :: u => if d = 62 then .ok (some (.stop (toName n)), u, none) else .error .syntax
          else if c = 63 then
            match readName fin t with
            | .fail e => .error e
            | .missing _ => .error .syntax
            | .ok _ r =>
              match skipPI fin 0 (skipSpace r) with
              | .error e => .error e
              | .ok u => .ok (none, u, none)
          else
            match readName fin (c :: t) with
            | .fail e => .error e
            | .missing _ => .error .syntax
            | .ok n r =>
              match lexAttrs fin (r.length + 1) r with
              | .error e => .error e
              | .ok (as, empty, u) =>
                .ok (some (.start (toName n) as), u, if empty then some (toName n) else none)

/-- The tags and texts as written, up to the first error. -/
def rawFuel (fin : LexErr) : Nat → Str → Option Name → List (Option Event) × LexErr
  | 0, _, _ => ([], .syntax)
  | fuel + 1, inp, close =>
    match rawTok fin inp close with
    | .error e => ([], e)
    | .ok (ev, inp', close') => (ev :: (rawFuel fin fuel inp' close').1, (rawFuel fin fuel inp' close').2)

/-- The tags and texts of a document as written. -/
def rawTags (fin : LexErr) (inp : Str) : List (Option Event) × LexErr := rawFuel fin (2 * inp.length + 1) inp none

/-! ## Name spaces -/

/-- The open elements, innermost first: resolved name and attributes. -/
abbrev Scopes := List (Name × List Attr)

/-- The prefix and the name space that an attribute declares. -/
def declOf (a : Attr) : Option (Str × Str) :=
  if a.name.space = b!"xmlns" then some (a.name.loc, a.value)
  else if a.name.space = [] ∧ a.name.loc = b!"xmlns" then some ([], a.value)
  else none

/-- The name space that the attributes of a tag declare for a prefix; the last declaration counts. -/
def declared (as : List Attr) (p : Str) : Option Str :=
  (((as.filterMap declOf).reverse.find? fun d => d.1 = p)).map (·.2)

/-- The name space of a prefix: the innermost declaration. -/
def binding : Scopes → Str → Option Str
  | [], _ => none
  | (_, as) :: sc, p => (declared as p).or (binding sc p)

/-- The resolved name of a tag, given the declarations in scope. -/
def resolveElem (bind : Str → Option Str) (n : Name) : Name :=
  if n.space = b!"xmlns" ∨ (n.space = [] ∧ n.loc = b!"xmlns") then n
  else if n.space = b!"xml" then ⟨b!"http://www.w3.org/XML/1998/namespace", n.loc⟩
  else ⟨(bind n.space).getD n.space, n.loc⟩

/-- The resolved name of an attribute: the default name space does not apply. -/
def resolveAttr (bind : Str → Option Str) (n : Name) : Name :=
  if n.space = b!"xmlns" ∨ n.space = [] then n
  else if n.space = b!"xml" then ⟨b!"http://www.w3.org/XML/1998/namespace", n.loc⟩
  else ⟨(bind n.space).getD n.space, n.loc⟩

/-- The events of a document, from the tags as written.  An end tag that does not match the innermost open element and
the end of the input inside an element are syntax errors. -/
def resolveAll : Scopes → List (Option Event) → LexErr → List (Option Event) × LexErr
  | sc, [], e => ([], if e = .eof ∧ sc ≠ [] then .syntax else e)
  | sc, none :: evs, e => (none :: (resolveAll sc evs e).1, (resolveAll sc evs e).2)
  | sc, some (.chars t) :: evs, e => (some (.chars t) :: (resolveAll sc evs e).1, (resolveAll sc evs e).2)
  | sc, some (.start n as) :: evs, e =>
    let bind := fun p => (declared as p).or (binding sc p)
    let r := resolveElem bind n
    let rest := resolveAll ((r, as) :: sc) evs e
    (some (.start r (as.map fun a => ⟨resolveAttr bind a.name, a.value⟩)) :: rest.1, rest.2)
  | [], some (.stop _) :: _, _ => ([], .syntax)
  | (m, as) :: sc, some (.stop n) :: evs, e =>
    let r := resolveElem (binding ((m, as) :: sc)) n
    if r = m then (some (.stop r) :: (resolveAll sc evs e).1, (resolveAll sc evs e).2)
    else ([], .syntax)

/-! ## The stack of the reader represents the scopes -/

/-- The stack and the map of the reader, inside the given elements. -/
def stkOf : Scopes → List StkEntry × StrMap
  | [] => ([], fun _ => none)
  | (n, as) :: sc => (.elem n :: (as.foldl declare (stkOf sc)).1, (as.foldl declare (stkOf sc)).2)

theorem declare_eq (p : List StkEntry × StrMap) (a : Attr) : declare p a =
    match declOf a with
    | some (l, v) => (.ns l (p.2 l) :: p.1, p.2.set l (some v))
    | none => p := by
  unfold declare declOf xmlnsStr
  split
  · rfl
  · split <;> rfl

theorem undo_declare {s : List StkEntry} (hs : ∀ l o t, s ≠ .ns l o :: t) : ∀ (as : List Attr) (m : StrMap),
    undo (as.reverse.foldl declare (s, m)).1 (as.reverse.foldl declare (s, m)).2 = (s, m)
  | [], m => by
    simp only [List.reverse_nil, List.foldl_nil]
    cases s with
    | nil => rfl
    | cons x t =>
      cases x with
      | elem n => rfl
      | ns l o => exact absurd rfl (hs l o t)
  | a :: as, m => by
    have ih := undo_declare hs as m
    rw [List.reverse_cons, List.foldl_append]
    generalize as.reverse.foldl declare (s, m) = p at ih
    simp only [List.foldl_cons, List.foldl_nil]
    rw [declare_eq]
    cases declOf a with
    | none => exact ih
    | some d =>
      obtain ⟨l, v⟩ := d
      simp only [undo]
      have : (StrMap.set (StrMap.set p.2 l (some v)) l (p.2 l)) = p.2 := by
        funext x
        unfold StrMap.set
        split
        · rename_i h; rw [h]
        · rfl
      rw [this]
      exact ih

theorem stkOf_head (sc : Scopes) : ∀ l o t, (stkOf sc).1 ≠ .ns l o :: t := by
  intro l o t
  cases sc with
  | nil => simp [stkOf]
  | cons x sc => simp [stkOf]

theorem undo_stkOf (n : Name) (as : List Attr) (sc : Scopes) :
    undo (as.foldl declare (stkOf sc)).1 (as.foldl declare (stkOf sc)).2 = stkOf sc := by
  have := undo_declare (stkOf_head sc) as.reverse (stkOf sc).2
  rwa [List.reverse_reverse] at this

theorem foldl_declare (p : Str) : ∀ (as : List Attr) (s : List StkEntry) (m : StrMap),
    (as.reverse.foldl declare (s, m)).2 p = (declared as.reverse p).or (m p)
  | [], s, m => by simp [declared]
  | a :: as, s, m => by
    have ih := foldl_declare p as s m
    rw [List.reverse_cons, List.foldl_append]
    generalize as.reverse.foldl declare (s, m) = q at ih
    simp only [List.foldl_cons, List.foldl_nil]
    rw [declare_eq]
    unfold declared at ih ⊢
    rw [List.filterMap_append]
    cases hd : declOf a with
    | none => simpa [hd] using ih
    | some d =>
      obtain ⟨l, v⟩ := d
      simp only [List.filterMap_cons, hd, List.filterMap_nil, List.reverse_append, List.reverse_cons, List.reverse_nil,
        List.nil_append, List.cons_append, List.find?_cons]
      by_cases hl : l = p
      · simp [hl, StrMap.set]
      · simp only [hl, decide_false]
        rw [← ih]
        simp [StrMap.set, Ne.symm hl]

theorem declare_lookup (as : List Attr) (s : List StkEntry) (m : StrMap) (p : Str) :
    (as.foldl declare (s, m)).2 p = (declared as p).or (m p) := by
  have := foldl_declare p as.reverse s m
  rwa [List.reverse_reverse] at this

theorem stkOf_ns : ∀ (sc : Scopes) (p : Str), (stkOf sc).2 p = binding sc p
  | [], _ => rfl
  | (n, as) :: sc, p => by
    simp only [stkOf, binding]
    rw [← stkOf_ns sc p]
    exact declare_lookup as _ _ p

/-! ## Translation -/

/-- No prefix declared is the URI of the name space of `xml`, as the slash is not a byte of names. -/
def NoSlash (n : Name) : Prop := (47 : Byte) ∉ n.space ∧ (47 : Byte) ∉ n.loc

theorem splitColon_mem : ∀ {s p l : Str}, splitColon s = some (p, l) → ∀ b, b ∈ p ∨ b ∈ l → b ∈ s
  | [], _, _, h, _, _ => by simp [splitColon] at h
  | c :: s, p, l, h, b, hb => by
    simp only [splitColon] at h
    split at h
    · simp only [Option.some.injEq, Prod.mk.injEq] at h
      rcases hb with hb | hb
      · rw [← h.1] at hb; simp at hb
      · rw [← h.2] at hb; simp [hb]
    · cases hs : splitColon s with
      | none => simp [hs] at h
      | some q =>
        obtain ⟨p', l'⟩ := q
        simp only [hs, Option.map_some, Option.some.injEq, Prod.mk.injEq] at h
        obtain ⟨rfl, rfl⟩ := h
        rcases hb with hb | hb
        · rcases List.mem_cons.1 hb with rfl | hb
          · simp
          · simp [splitColon_mem hs b (Or.inl hb)]
        · simp [splitColon_mem hs b (Or.inr hb)]

theorem noSlash_toName {fin : LexErr} {s n r : Str} (h : readName fin s = .ok n r) : NoSlash (toName n) := by
  have hn := (readName_ok h).2.2.1
  have h47 : (47 : Byte) ∉ n := fun hh => absurd (hn 47 hh) (by decide)
  unfold toName NoSlash
  cases hs : splitColon n with
  | none => exact ⟨by simp, h47⟩
  | some p =>
    obtain ⟨p, l⟩ := p
    exact ⟨fun hh => h47 (splitColon_mem hs _ (Or.inl hh)), fun hh => h47 (splitColon_mem hs _ (Or.inr hh))⟩

theorem declared_noSlash {as : List Attr} (h : ∀ a ∈ as, NoSlash a.name) : declared as nsXML = none := by
  unfold declared
  rw [Option.map_eq_none_iff, List.find?_eq_none]
  intro d hd
  rw [List.mem_reverse, List.mem_filterMap] at hd
  obtain ⟨a, ha, hd⟩ := hd
  have h47 : (47 : Byte) ∈ nsXML := by decide
  unfold declOf at hd
  simp only [decide_eq_true_eq]
  split at hd
  · simp only [Option.some.injEq] at hd
    intro he
    rw [← hd] at he
    simp only at he
    exact (h a ha).2 (by rw [he]; exact h47)
  · split at hd
    · simp only [Option.some.injEq] at hd
      rw [← hd]
      exact fun he => absurd (show ([] : Str) = nsXML from he) (by decide)
    · simp at hd

/-- The scopes come from tags without slashes in names. -/
def ScopesOK (sc : Scopes) : Prop := ∀ p ∈ sc, ∀ a ∈ p.2, NoSlash a.name

theorem binding_noSlash : ∀ {sc : Scopes}, ScopesOK sc → binding sc nsXML = none
  | [], _ => rfl
  | (n, as) :: sc, h => by
    simp only [binding]
    rw [declared_noSlash (h (n, as) (by simp)), binding_noSlash (sc := sc) (fun p hp => h p (by simp [hp]))]
    rfl

theorem lookupSpace_eq (m : StrMap) (n : Name) : lookupSpace m n = ⟨(m n.space).getD n.space, n.loc⟩ := by
  unfold lookupSpace
  cases h : m n.space <;> simp

theorem translate_elem {m : StrMap} (h : m nsXML = none) (n : Name) : translate m true n = resolveElem m n := by
  unfold translate resolveElem xmlnsStr
  by_cases h1 : n.space = b!"xmlns"
  · rw [if_pos h1, if_pos (Or.inl h1)]
  · rw [if_neg h1, if_neg (by simp)]
    by_cases h2 : n.space = b!"xml"
    · rw [if_pos h2, if_neg (by rw [h2]; simp), if_pos h2, lookupSpace_eq]
      simp only [h]
      rfl
    · rw [if_neg h2]
      by_cases h3 : n.space = [] ∧ n.loc = b!"xmlns"
      · rw [if_pos h3, if_pos (Or.inr h3)]
      · rw [if_neg h3, if_neg (by simp only [h1, h3, or_self]; exact not_false), if_neg h2, lookupSpace_eq]

theorem translate_attr {m : StrMap} (h : m nsXML = none) (n : Name) : translate m false n = resolveAttr m n := by
  unfold translate resolveAttr xmlnsStr
  by_cases h1 : n.space = b!"xmlns"
  · rw [if_pos h1, if_pos (Or.inl h1)]
  · rw [if_neg h1]
    by_cases h0 : n.space = []
    · rw [if_pos ⟨h0, rfl⟩, if_pos (Or.inr h0)]
    · rw [if_neg (by simp [h0])]
      by_cases h2 : n.space = b!"xml"
      · rw [if_pos h2, if_neg (by rw [h2]; decide), if_pos h2, lookupSpace_eq]
        simp only [h]
        rfl
      · rw [if_neg h2, if_neg (by simp [h0]), if_neg (by simp only [h1, h0, or_self]; exact not_false), if_neg h2,
          lookupSpace_eq]

/-! ## The reader resolves the tags as written -/

/-- The state of the reader inside the given elements. -/
def lexerOf (inp : Str) (close : Option Name) (sc : Scopes) : Lexer := ⟨inp, (stkOf sc).1, (stkOf sc).2, close⟩

theorem lexAttrs_noSlash {fin : LexErr} : ∀ {fuel : Nat} {s : Str} {as : List Attr} {e : Bool} {r : Str},
    lexAttrs fin fuel s = .ok (as, e, r) → ∀ a ∈ as, NoSlash a.name
  | 0, _, _, _, _, h, _, _ => by simp [lexAttrs] at h
  | fuel + 1, s, as, e, r, h, a, ha => by
    rw [lexAttrs_step] at h
    cases hs : attrStep fin s with
    | fail e => simp [hs] at h
    | done empty r' =>
      simp only [hs, Except.ok.injEq, Prod.mk.injEq] at h
      rw [← h.1] at ha
      simp at ha
    | attr a' w =>
      simp only [hs] at h
      cases hl : lexAttrs fin fuel w with
      | error e => simp [hl] at h
      | ok p =>
        obtain ⟨as', e', z⟩ := p
        simp only [hl, Except.ok.injEq, Prod.mk.injEq] at h
        rw [← h.1] at ha
        rcases List.mem_cons.1 ha with rfl | ha
        · unfold attrStep at hs
          cases hk : skipSpace s with
          | nil => simp [hk] at hs
          | cons b t =>
            simp only [hk] at hs
            by_cases h1 : b = 47
            · simp only [h1, if_true] at hs
              cases t with
              | nil => simp at hs
              | cons c u =>
                simp only at hs
                split at hs <;> simp at hs
            · rw [if_neg h1] at hs
              by_cases h2 : b = 62
              · simp [h2] at hs
              · rw [if_neg h2] at hs
                cases hr : readName fin (b :: t) with
                | fail e => simp [hr] at hs
                | missing r => simp [hr] at hs
                | ok n r =>
                  simp only [hr] at hs
                  cases hk2 : skipSpace r with
                  | nil => simp [hk2] at hs
                  | cons c u =>
                    simp only [hk2] at hs
                    split at hs
                    · simp at hs
                    · cases hv : attrval fin (skipSpace u) with
                      | error e => simp [hv] at hs
                      | ok q =>
                        obtain ⟨v, w'⟩ := q
                        simp only [hv, AttrStep.attr.injEq] at hs
                        rw [← hs.1]
                        exact noSlash_toName hr
        · exact lexAttrs_noSlash hl a ha

theorem handleEnd_stkOf (inp : Str) (close : Option Name) (n : Name) : ∀ {sc : Scopes}, ScopesOK sc →
    handleEnd (lexerOf inp close sc) n =
      match sc with
      | [] => .error .syntax
      | (m, as) :: sc' =>
        if resolveElem (binding ((m, as) :: sc')) n = m then
          .ok (.stop (resolveElem (binding ((m, as) :: sc')) n), lexerOf inp close sc')
        else .error .syntax
  | [], _ => by simp [handleEnd, lexerOf, stkOf]
  | (m, as) :: sc', h => by
    have hns : (stkOf ((m, as) :: sc')).2 = binding ((m, as) :: sc') := funext (stkOf_ns _)
    have ht : translate (stkOf ((m, as) :: sc')).2 true n = resolveElem (binding ((m, as) :: sc')) n := by
      rw [hns, translate_elem (binding_noSlash h)]
    unfold handleEnd lexerOf
    simp only
    rw [ht]
    generalize resolveElem (binding ((m, as) :: sc')) n = r
    have hu := undo_stkOf m as sc'
    simp only [stkOf]
    rw [hu]
    by_cases hr : r = m
    · subst hr
      simp
    · rw [if_neg hr, if_pos]
      refine Decidable.not_and_iff_not_or_not.1 fun hh => hr ?_
      cases r; cases m
      simp only at hh
      rw [hh.1, hh.2]

theorem handleStart_stkOf (inp : Str) (close : Option Name) (n : Name) (as : List Attr) {sc : Scopes} (hsc : ScopesOK sc)
    (has : ∀ a ∈ as, NoSlash a.name) :
    handleStart (lexerOf inp close sc) n as =
      let bind := fun p => (declared as p).or (binding sc p)
      (.start (resolveElem bind n) (as.map fun a => ⟨resolveAttr bind a.name, a.value⟩),
        lexerOf inp close ((resolveElem bind n, as) :: sc)) := by
  have hns : (as.foldl declare (stkOf sc)).2 = fun p => (declared as p).or (binding sc p) := by
    funext p
    rw [← stkOf_ns sc p]
    exact declare_lookup as _ _ p
  have hx : (fun p => (declared as p).or (binding sc p)) nsXML = none := by
    simp only [declared_noSlash has, binding_noSlash hsc]
    rfl
  unfold handleStart lexerOf
  simp only [stkOf]
  have e1 : (as.foldl declare ((stkOf sc).1, (stkOf sc).2)) = as.foldl declare (stkOf sc) := rfl
  rw [e1, hns, translate_elem hx]
  congr 2
  apply List.map_congr_left
  intro a _
  rw [translate_attr hx]

/-! ## Errors other than the end of the input are never `io.EOF` -/

theorem readName_fail {fin : LexErr} : ∀ {s e}, readName fin s = .fail e → e = fin.must := by
  intro s e h
  cases s with
  | nil => simpa [readName] using h.symm
  | cons b s =>
    simp only [readName] at h
    by_cases hb : nameByte b = true
    · simp only [hb, if_true] at h
      cases hl : readNameLoop fin s with
      | ok p => simp [hl] at h
      | error e' =>
        simp only [hl, NameRes.fail.injEq] at h
        subst h
        clear hb
        induction s with
        | nil => simpa [readNameLoop] using hl.symm
        | cons c s ih =>
          simp only [readNameLoop] at hl
          split at hl
          · cases hl2 : readNameLoop fin s with
            | ok p => simp [hl2] at hl
            | error e2 =>
              simp only [hl2, Except.error.injEq] at hl
              subst hl
              exact ih hl2
          · simp at hl
    · simp [hb] at h

theorem entity_error {fin : LexErr} : ∀ {s e}, entity fin s = .error e → e = fin.must ∨ e = .syntax := by
  intro s e h
  have hend : ∀ {n s}, entityEnd fin n s = .error e → e = fin.must ∨ e = .syntax := by
    intro n s h
    unfold entityEnd at h
    cases s with
    | nil => left; simpa using h.symm
    | cons c r =>
      simp only at h
      split at h
      · cases ht : entityTable n <;> simp [ht] at h
        exact Or.inr h.symm
      · simp at h; exact Or.inr h.symm
  have hdig : ∀ {x s}, refDigits fin x s = .error e → e = fin.must ∨ e = .syntax := by
    intro x s h
    unfold refDigits at h
    cases hs : (spanDigits x s).2 with
    | nil => left; simpa [hs] using h.symm
    | cons c r =>
      simp only [hs] at h
      split at h <;> simp at h
      exact Or.inr h.symm
  unfold entity at h
  cases s with
  | nil => left; simpa using h.symm
  | cons b s =>
    simp only at h
    split at h
    · cases s with
      | nil => left; simpa using h.symm
      | cons c r =>
        simp only at h
        split at h <;> exact hdig h
    · cases hr : readName fin (b :: s) with
      | fail e' =>
        simp only [hr, Except.error.injEq] at h
        subst h
        exact Or.inl (readName_fail hr)
      | missing r => simp only [hr] at h; exact hend h
      | ok n r => simp only [hr] at h; exact hend h

theorem prepend_error : ∀ {d x e}, prepend d x = .error e → x = .error e := by
  intro d x e h
  rcases x with e' | ⟨t, r⟩ <;> simpa [prepend] using h

theorem textGo_error {fin : LexErr} : ∀ {q : Option Byte} (s : Str) {k : Nat} {b1 : Byte} {e : LexErr},
    textGo fin q k b1 s = .error e → e = fin.must ∨ e = .syntax := by
  intro q s
  induction s with
  | nil => intro k b1 e h; cases k <;> simp [textGo] at h
  | cons b s ih =>
    intro k b1 e h
    cases k with
    | succ k => simp only [textGo] at h; exact ih h
    | zero =>
      simp only [textGo] at h
      split at h
      · split at h <;> simp at h
        exact Or.inr h.symm
      · split at h
        · simp at h
        · split at h
          · cases he : entity fin s with
            | error e' => simp only [he, Except.error.injEq] at h; subst h; exact entity_error he
            | ok p => simp only [he] at h; exact ih (prepend_error h)
          · split at h
            · exact ih (prepend_error h)
            · split at h
              · exact ih h
              · exact ih (prepend_error h)

theorem lexAttrs_error {fin : LexErr} : ∀ (f : Nat) {s : Str} {e : LexErr},
    lexAttrs fin f s = .error e → e = fin.must ∨ e = .syntax := by
  intro f
  induction f with
  | zero => intro s e h; simp [lexAttrs] at h; exact Or.inr h.symm
  | succ f ih =>
    intro s e h
    rw [lexAttrs_step] at h
    cases hs : attrStep fin s with
    | done em r => simp [hs] at h
    | attr a w =>
      simp only [hs] at h
      cases hl : lexAttrs fin f w with
      | error e' => simp only [hl, Except.error.injEq] at h; subst h; exact ih hl
      | ok p => simp [hl] at h
    | fail e' =>
      simp only [hs, Except.error.injEq] at h
      subst h
      unfold attrStep at hs
      cases hk : skipSpace s with
      | nil => left; simpa [hk] using hs.symm
      | cons b t =>
        simp only [hk] at hs
        by_cases h1 : b = 47
        · simp only [h1, if_true] at hs
          cases t with
          | nil => left; simpa using hs.symm
          | cons c u =>
            simp only at hs
            split at hs <;> simp at hs
            exact Or.inr hs.symm
        · rw [if_neg h1] at hs
          by_cases h2 : b = 62
          · simp [h2] at hs
          · rw [if_neg h2] at hs
            cases hr : readName fin (b :: t) with
            | fail e => simp only [hr, AttrStep.fail.injEq] at hs; subst hs; exact Or.inl (readName_fail hr)
            | missing r => simp [hr] at hs; exact Or.inr hs.symm
            | ok n r =>
              simp only [hr] at hs
              cases hk2 : skipSpace r with
              | nil => left; simpa [hk2] using hs.symm
              | cons c u =>
                simp only [hk2] at hs
                split at hs
                · simp at hs; exact Or.inr hs.symm
                · cases hv : attrval fin (skipSpace u) with
                  | ok q => simp [hv] at hs
                  | error e =>
                    simp only [hv, AttrStep.fail.injEq] at hs
                    subst hs
                    generalize skipSpace u = w at hv
                    unfold attrval at hv
                    cases w with
                    | nil => left; simpa using hv.symm
                    | cons d w =>
                      simp only at hv
                      split at hv
                      · exact textGo_error _ hv
                      · simp at hv; exact Or.inr hv.symm

theorem skipPI_error {fin : LexErr} : ∀ (s : Str) {b : Byte} {e : LexErr},
    skipPI fin b s = .error e → e = fin.must ∨ e = .syntax := by
  intro s
  induction s with
  | nil => intro b e h; left; simpa [skipPI] using h.symm
  | cons c s ih =>
    intro b e h
    simp only [skipPI] at h
    split at h
    · simp at h
    · exact ih h

/-- What the reader does with a tag as written. -/
theorem rawToken_rawTok (fin : LexErr) (inp : Str) (close : Option Name) {sc : Scopes} (hsc : ScopesOK sc) :
    rawToken fin (lexerOf inp close sc) =
      match rawTok fin inp close with
      | .error e => .error (if e = .eof ∧ sc ≠ [] then .syntax else e)
      | .ok (none, inp', close') => .ok (none, lexerOf inp' close' sc)
      | .ok (some (.chars t), inp', close') => .ok (some (.chars t), lexerOf inp' close' sc)
      | .ok (some (.stop n), inp', close') => .of (handleEnd (lexerOf inp' close' sc) n)
      | .ok (some (.start n as), inp', close') =>
        .ok (some (handleStart (lexerOf inp' close' sc) n as).1, (handleStart (lexerOf inp' close' sc) n as).2) := by
  have hstk : (stkOf sc).1 ≠ [] ↔ sc ≠ [] := by
    cases sc with
    | nil => simp [stkOf]
    | cons x sc => simp [stkOf]
  have hmust : ∀ e : LexErr, e = fin.must → (if e = .eof ∧ sc ≠ [] then LexErr.syntax else e) = e := by
    rintro e rfl
    cases fin <;> simp [LexErr.must]
  have hsyn : (if LexErr.syntax = .eof ∧ sc ≠ [] then LexErr.syntax else .syntax) = .syntax := by simp
  have hfix : ∀ e : LexErr, e = fin.must ∨ e = .syntax → (if e = .eof ∧ sc ≠ [] then LexErr.syntax else e) = e := by
    rintro e (h | rfl)
    · exact hmust e h
    · exact hsyn
  unfold rawToken rawTok
  cases close with
  | some n => rfl
  | none =>
    simp only [lexerOf]
    cases inp with
    | nil =>
      simp only [hstk]
    | cons b s =>
      simp only
      by_cases hb : b ≠ 60
      · rw [if_pos hb, if_pos hb]
        cases ht : lexText fin none (b :: s) with
        | error e => simp only; rw [hfix e (textGo_error _ ht)]
        | ok p => rfl
      · rw [if_neg hb, if_neg hb]
        cases s with
        | nil => simp only; rw [hmust _ rfl]
        | cons c t =>
          simp only
          by_cases h1 : c = 47
          · rw [if_pos h1, if_pos h1]
            unfold lexEnd
            cases hr : readName fin t with
            | fail e => simp only; rw [hmust e (readName_fail hr)]
            | missing r => simp
            | ok n r =>
              simp only
              cases hs : skipSpace r with
              | nil => simp only; rw [hmust _ rfl]
              | cons d u =>
                simp only
                split <;> simp
          · rw [if_neg h1, if_neg h1]
            by_cases h2 : c = 63
            · rw [if_pos h2, if_pos h2]
              unfold lexPI
              cases hr : readName fin t with
              | fail e => simp only; rw [hmust e (readName_fail hr)]
              | missing r => simp
              | ok n r =>
                simp only
                cases hp : skipPI fin 0 (skipSpace r) with
                | error e => simp only; rw [hfix e (skipPI_error _ hp)]
                | ok u => rfl
            · rw [if_neg h2, if_neg h2]
              unfold lexStart
              cases hr : readName fin (c :: t) with
              | fail e => simp only; rw [hmust e (readName_fail hr)]
              | missing r => simp
              | ok n r =>
                simp only
                cases hl : lexAttrs fin (r.length + 1) r with
                | error e => simp only; rw [hfix e (lexAttrs_error _ hl)]
                | ok p => rfl

theorem rawTok_start {fin : LexErr} {inp : Str} {close : Option Name} {n : Name} {as : List Attr}
    {p : Str × Option Name} (h : rawTok fin inp close = .ok (some (.start n as), p)) : ∀ a ∈ as, NoSlash a.name := by
  unfold rawTok at h
  cases close with
  | some n => simp at h
  | none =>
    simp only at h
    cases inp with
    | nil => simp at h
    | cons b s =>
      simp only at h
      by_cases hb : b ≠ 60
      · rw [if_pos hb] at h
        cases ht : lexText fin none (b :: s) <;> simp [ht] at h
      · rw [if_neg hb] at h
        cases s with
        | nil => simp at h
        | cons c t =>
          simp only at h
          by_cases h1 : c = 47
          · rw [if_pos h1] at h
            cases hr : readName fin t with
            | fail e => simp [hr] at h
            | missing r => simp [hr] at h
            | ok n r =>
              simp only [hr] at h
              cases hs : skipSpace r with
              | nil => simp [hs] at h
              | cons d u =>
                simp only [hs] at h
                split at h <;> simp at h
          · rw [if_neg h1] at h
            by_cases h2 : c = 63
            · rw [if_pos h2] at h
              cases hr : readName fin t with
              | fail e => simp [hr] at h
              | missing r => simp [hr] at h
              | ok n r =>
                simp only [hr] at h
                cases hp : skipPI fin 0 (skipSpace r) <;> simp [hp] at h
            · rw [if_neg h2] at h
              cases hr : readName fin (c :: t) with
              | fail e => simp [hr] at h
              | missing r => simp [hr] at h
              | ok n r =>
                simp only [hr] at h
                cases hl : lexAttrs fin (r.length + 1) r with
                | error e => simp [hl] at h
                | ok p =>
                  obtain ⟨as', e, u⟩ := p
                  simp only [hl, Except.ok.injEq, Prod.mk.injEq, Option.some.injEq, Event.start.injEq] at h
                  rw [← h.1.2]
                  exact lexAttrs_noSlash hl

theorem resolve_fuel (fin : LexErr) : ∀ (f : Nat) (inp : Str) (close : Option Name) {sc : Scopes}, ScopesOK sc →
    (lexerOf inp close sc).size < f →
    lexFuel fin f (lexerOf inp close sc) = resolveAll sc (rawFuel fin f inp close).1 (rawFuel fin f inp close).2
  | 0, _, _, _, _, h => by omega
  | f + 1, inp, close, sc, hsc, hf => by
    have hrt := rawToken_rawTok fin inp close hsc
    have hsize := fun ev st' => rawToken_size (fin := fin) (st := lexerOf inp close sc) (ev := ev) (st' := st')
    simp only [lexFuel, rawFuel]
    rw [hrt] at hsize ⊢
    cases hr : rawTok fin inp close with
    | error e =>
      simp only [resolveAll]
    | ok p =>
      obtain ⟨ev, inp', close'⟩ := p
      rw [hr] at hsize
      cases ev with
      | none =>
        simp only at hsize ⊢
        have := hsize _ _ rfl
        simp only [resolveAll]
        rw [resolve_fuel fin f inp' close' hsc (by omega)]
      | some ev =>
        cases ev with
        | chars t =>
          simp only at hsize ⊢
          have := hsize _ _ rfl
          simp only [resolveAll]
          rw [resolve_fuel fin f inp' close' hsc (by omega)]
        | stop n =>
          simp only at hsize ⊢
          rw [handleEnd_stkOf inp' close' n hsc] at hsize ⊢
          cases sc with
          | nil => simp [TokenRes.of, resolveAll]
          | cons x sc' =>
            obtain ⟨m, as⟩ := x
            simp only at hsize ⊢
            simp only [resolveAll]
            by_cases hm : resolveElem (binding ((m, as) :: sc')) n = m
            · rw [if_pos hm] at hsize ⊢
              rw [if_pos hm]
              simp only [TokenRes.of] at hsize ⊢
              have := hsize _ _ rfl
              rw [resolve_fuel fin f inp' close' (sc := sc') (fun p hp => hsc p (by simp [hp])) (by omega)]
            · rw [if_neg hm, if_neg hm]
              simp [TokenRes.of]
        | start n as =>
          have has := rawTok_start hr
          simp only at hsize ⊢
          rw [handleStart_stkOf inp' close' n as hsc has] at hsize ⊢
          simp only at hsize
          have := hsize _ _ rfl
          simp only [resolveAll]
          rw [resolve_fuel fin f inp' close'
            (sc := (resolveElem (fun p => (declared as p).or (binding sc p)) n, as) :: sc)
            (by
              intro p hp
              rcases List.mem_cons.1 hp with rfl | hp
              · exact has
              · exact hsc p hp) (by omega)]

/-- **C24**: the events of the reader are the tags as written with every prefix resolved to its innermost declaration,
up to the first end tag that does not match the innermost open element; the end of the input inside an element is an
error. -/
theorem C24_resolve (fin : LexErr) (inp : Str) :
    lex fin (.new inp) = resolveAll [] (rawTags fin inp).1 (rawTags fin inp).2 := by
  have := resolve_fuel fin (2 * inp.length + 1) inp none (sc := []) (by intro p hp; simp at hp) (by
    simp [Lexer.size, lexerOf])
  unfold lex rawTags
  rw [← this]
  rfl

/-! ## Balance -/

/-- The open elements after a sequence of events, if every end tag closes the innermost open element. -/
def openAfter : List Name → List (Option Event) → Option (List Name)
  | st, [] => some st
  | st, none :: evs => openAfter st evs
  | st, some (.chars _) :: evs => openAfter st evs
  | st, some (.start n _) :: evs => openAfter (n :: st) evs
  | [], some (.stop _) :: _ => none
  | m :: st, some (.stop n) :: evs => if n = m then openAfter st evs else none

theorem resolveAll_balanced : ∀ (evs : List (Option Event)) (sc : Scopes) (e : LexErr),
    ∃ st, openAfter (sc.map (·.1)) (resolveAll sc evs e).1 = some st ∧ ((resolveAll sc evs e).2 = .eof → st = [])
  | [], sc, e => by
    refine ⟨sc.map (·.1), by simp [resolveAll, openAfter], ?_⟩
    simp only [resolveAll]
    split
    · simp
    · rename_i h
      intro he
      cases sc with
      | nil => rfl
      | cons x sc => exact absurd ⟨he, by simp⟩ h
  | none :: evs, sc, e => by
    simpa [resolveAll, openAfter] using resolveAll_balanced evs sc e
  | some (.chars t) :: evs, sc, e => by
    simpa [resolveAll, openAfter] using resolveAll_balanced evs sc e
  | some (.start n as) :: evs, sc, e => by
    simpa [resolveAll, openAfter] using
      resolveAll_balanced evs ((resolveElem (fun p => (declared as p).or (binding sc p)) n, as) :: sc) e
  | some (.stop n) :: evs, [], e => by
    simp [resolveAll, openAfter]
  | some (.stop n) :: evs, (m, as) :: sc, e => by
    simp only [resolveAll]
    split
    · rename_i h
      simpa [openAfter, h] using resolveAll_balanced evs sc e
    · simp [openAfter]

/-- **C24**: every end event of any input closes the innermost open element, and if the reader ends without error (with
`io.EOF`) every element has been closed. -/
theorem C24_balanced (fin : LexErr) (inp : Str) :
    ∃ st, openAfter [] (lex fin (.new inp)).1 = some st ∧ ((lex fin (.new inp)).2 = .eof → st = []) := by
  rw [C24_resolve]
  exact resolveAll_balanced _ [] _

/-- **C24**: the previous bindings are restored at the end tag: after an element the reader is in the state in which it
was before it, except for the input. -/
theorem C24_restore (inp : Str) (close : Option Name) (sc : Scopes) (hsc : ScopesOK sc) (n : Name) (as : List Attr)
    (has : ∀ a ∈ as, NoSlash a.name) (inp' : Str) (close' : Option Name) :
    let st := (handleStart (lexerOf inp close sc) n as).2
    ∃ ev, handleEnd { st with inp := inp', close := close' } n = .ok (ev, lexerOf inp' close' sc) := by
  rw [handleStart_stkOf inp close n as hsc has]
  simp only
  generalize hb : (fun p => (declared as p).or (binding sc p)) = bind
  refine ⟨.stop (resolveElem bind n), ?_⟩
  have e1 : ({ lexerOf inp close ((resolveElem bind n, as) :: sc) with inp := inp', close := close' } : Lexer) =
      lexerOf inp' close' ((resolveElem bind n, as) :: sc) := rfl
  rw [e1, handleEnd_stkOf inp' close' n (by
    intro p hp
    rcases List.mem_cons.1 hp with rfl | hp
    · exact has
    · exact hsc p hp)]
  have e2 : binding ((resolveElem bind n, as) :: sc) = bind := by
    rw [← hb]
    rfl
  simp only [e2, if_true]

/-! ## Non-vacuity -/

/-- A prefix declared again inside: the inner declaration counts inside, the outer one after the end tag. -/
example : lex .eof (.new b!"<a xmlns:p='u' xmlns='d'><p:b xmlns:p='v' p:x='1' y='2'/><p:c/></a>") =
    ([some (.start ⟨b!"d", b!"a"⟩ [⟨⟨b!"xmlns", b!"p"⟩, b!"u"⟩, ⟨⟨[], b!"xmlns"⟩, b!"d"⟩]),
      some (.start ⟨b!"v", b!"b"⟩ [⟨⟨b!"xmlns", b!"p"⟩, b!"v"⟩, ⟨⟨b!"v", b!"x"⟩, b!"1"⟩, ⟨⟨[], b!"y"⟩, b!"2"⟩]),
      some (.stop ⟨b!"v", b!"b"⟩), some (.start ⟨b!"u", b!"c"⟩ []), some (.stop ⟨b!"u", b!"c"⟩),
      some (.stop ⟨b!"d", b!"a"⟩)], .eof) := by
  decide +kernel
example : (lex .eof (.new b!"<a></b>")).2 = .syntax := by decide +kernel
example : (lex .eof (.new b!"<a><b></b>")).2 = .syntax := by decide +kernel
example : (lex .eof (.new b!"</a>")).2 = .syntax := by decide +kernel
/-- The same prefix with another name space does not close the element. -/
example : lex .eof (.new b!"<p:a xmlns:p='u'><q:b xmlns:q='u'></q:b></p:a>") =
    ([some (.start ⟨b!"u", b!"a"⟩ [⟨⟨b!"xmlns", b!"p"⟩, b!"u"⟩]),
      some (.start ⟨b!"u", b!"b"⟩ [⟨⟨b!"xmlns", b!"q"⟩, b!"u"⟩]),
      some (.stop ⟨b!"u", b!"b"⟩), some (.stop ⟨b!"u", b!"a"⟩)], .eof) := by
  decide +kernel

end Go3mf
