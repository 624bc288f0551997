import Verif.Lemmas.Printer
import Mathlib.Data.List.Nodup

/-!
# C23: what the XML writer prints, the XML reader reads

The writer keeps one table of prefixes for the whole document, filled by the `xmlns:` attributes it has written.  The
round trip therefore holds for the documents that declare their name spaces in the root element, as all documents of this
package do; `C23_scope_false`, `C23_attr_false` and `C23_elem_false` show what happens otherwise.
-/

namespace Go3mf

/-! ## Statement -/

/-- The attributes with a name; the writer skips the others. -/
def shown (as : List Attr) : List Attr := as.filter fun a => a.name.loc ≠ []

/-- The prefixes declared by the attributes of the root element, with their name spaces. -/
def decls (as : List Attr) : List (Str × Str) :=
  as.filterMap fun a => if a.name.space = b!"xmlns" then some (a.name.loc, a.value) else none

/-- The default name space declared by the root element. -/
def defaultNs (as : List Attr) : Str :=
  ((as.reverse.find? fun a => a.name.space = [] ∧ a.name.loc = b!"xmlns").map (·.value)).getD []

/-- The attributes of the root element: every name is a name without colon, every prefix is declared before its use and
only once, and the name spaces declared consist of XML characters. -/
structure RootOK (as : List Attr) : Prop where
  names : ∀ a ∈ as, NCName a.name.loc
  spaces : ∀ l a r, as = l ++ a :: r → a.name.space = [] ∨ a.name.space = b!"xmlns" ∨ a.name.space = nsXML ∨
    a.name.space ∈ (decls l).map (·.2)
  prefixes : ∀ d ∈ decls as, d.1 ≠ b!"xml" ∧ d.1 ≠ b!"xmlns" ∧ d.2 ≠ b!"xmlns"
  distinct : ((decls as).map (·.1)).Nodup
  clean : ∀ a ∈ as, a.name.space = b!"xmlns" ∨ (a.name.space = [] ∧ a.name.loc = b!"xmlns") →
    cleanText a.value = a.value

/-- An attribute of another element: it declares nothing, and its name space is empty, the one of `xml:` or declared in
the root element.  Without escaping the value has to be one that escaping does not change. -/
def AttrOK (D : List (Str × Str)) (skip : Bool) (a : Attr) : Prop :=
  NCName a.name.loc ∧ ¬ (a.name.space = [] ∧ a.name.loc = b!"xmlns") ∧
  (a.name.space = [] ∨ a.name.space = nsXML ∨ a.name.space ∈ D.map (·.2)) ∧
  (skip = true → escape a.value = a.value)

/-- The name of an element. -/
def NameOK (D : List (Str × Str)) (d : Str) (n : Name) : Prop :=
  NCName n.loc ∧ n.loc ≠ b!"xmlns" ∧ (n.space = [] ∨ n.space = d ∨ n.space ∈ D.map (·.2))

/-- A token below the root element. -/
def OpOK (D : List (Str × Str)) (d : Str) : Op → Prop
  | .start n as _ skip => NameOK D d n ∧ ∀ a ∈ shown as, AttrOK D skip a
  | .stop n => NameOK D d n
  | .chars _ => True

/-- The open elements after a sequence of tokens, if every end closes the innermost open element.  A start in auto-close
mode opens nothing. -/
def openOps : List Name → List Op → Option (List Name)
  | st, [] => some st
  | st, .chars _ :: ops => openOps st ops
  | st, .start n _ auto _ :: ops => openOps (if auto then st else n :: st) ops
  | [], .stop _ :: _ => none
  | m :: st, .stop n :: ops => if n = m then openOps st ops else none

/-- The name read: names without name space get the default one. -/
def fullName (d : Str) (n : Name) : Name := if n.space = [] then ⟨d, n.loc⟩ else n

/-- The attributes read. -/
def readAttrs (as : List Attr) : List Attr := (shown as).map fun a => ⟨a.name, cleanText a.value⟩

/-- The tokens read for a sequence of tokens written, after the text `t`: adjacent texts are joined, empty texts vanish,
a start in auto-close mode is a start and an end. -/
def readOps (d : Str) (t : Str) : List Op → List (Option Event)
  | [] => flushText t
  | .chars s :: ops => readOps d (t ++ cleanText s) ops
  | .start n as auto _ :: ops =>
    flushText t ++ some (.start (fullName d n) (readAttrs as)) ::
      ((if auto then [some (.stop (fullName d n))] else []) ++ readOps d [] ops)
  | .stop n :: ops => flushText t ++ some (.stop (fullName d n)) :: readOps d [] ops

/-! ## The table of prefixes -/

/-- Every entry of the table is a declaration. -/
def Entries (D : List (Str × Str)) (m : PrefixMap) : Prop := ∀ s, m s ≠ [] → (m s, s) ∈ D

theorem decls_cons (a : Attr) (as : List Attr) : decls (a :: as) =
    if a.name.space = b!"xmlns" then (a.name.loc, a.value) :: decls as else decls as := by
  unfold decls
  rw [List.filterMap_cons]
  by_cases h : a.name.space = b!"xmlns"
  · simp [h]
  · simp [h]

theorem decls_append (as bs : List Attr) : decls (as ++ bs) = decls as ++ decls bs := by
  simp [decls]

theorem printAttrs_shown (skip : Bool) : ∀ (m : PrefixMap) (as : List Attr),
    printAttrs skip m (shown as) = printAttrs skip m as
  | m, [] => rfl
  | m, a :: as => by
    unfold shown
    rw [List.filter_cons]
    by_cases h : a.name.loc = []
    · simp only [h, ne_eq, not_true_eq_false, decide_false, Bool.false_eq_true, if_false, printAttrs, if_true]
      exact printAttrs_shown skip m as
    · have ih := fun m => printAttrs_shown skip m as
      unfold shown at ih
      simp only [ne_eq, h, not_false_eq_true, decide_true, if_true, printAttrs, if_false, ih]

theorem printOps_shown {n : Name} {as : List Attr} {auto skip : Bool} {m : PrefixMap} {ops : List Op} :
    printOps m (.start n (shown as) auto skip :: ops) = printOps m (.start n as auto skip :: ops) := by
  simp only [printOps, printOp, printStart, printAttrs_shown]

theorem attrMap_other {m : PrefixMap} {a : Attr} (h : a.name.space = [] ∨ a.name.space = nsXML ∨ m a.name.space ≠ []) :
    attrMap m a = m := by
  unfold attrMap createAttrPrefix
  by_cases h0 : a.name.space ≠ []
  · rw [if_pos h0]
    by_cases h1 : m a.name.space ≠ []
    · rw [if_pos h1]
    · rw [if_neg h1]
      rcases h with h | h | h
      · exact absurd h h0
      · rw [if_pos h]
      · exact absurd h h1
  · rw [if_neg h0]

theorem nsXML_ne : (nsXML : Str) ≠ b!"xmlns" := by decide +kernel

theorem attrMap_decl {m : PrefixMap} {a : Attr} (h : a.name.space = b!"xmlns") (hm : m b!"xmlns" = []) :
    attrMap m a = m.set a.value a.name.loc := by
  unfold attrMap createAttrPrefix
  rw [if_pos (by rw [h]; decide), h, if_neg (by simp [hm]), if_neg (fun h => nsXML_ne h.symm), if_pos rfl]

/-- The state of the table in the root element, after the attributes `l`. -/
structure TableOK (l : List Attr) (m : PrefixMap) : Prop where
  entries : Entries (decls l) m
  total : ∀ s ∈ (decls l).map (·.2), m s ≠ []
  xmlns : m b!"xmlns" = []

/-! ## The attributes -/

theorem ncname_xml : NCName b!"xml" := by decide +kernel
theorem ncname_xmlns : NCName b!"xmlns" := by decide +kernel

/-- The prefix written for an attribute. -/
theorem attrPrefix_cases {m : PrefixMap} {a : Attr}
    (h : a.name.space = [] ∨ a.name.space = b!"xmlns" ∨ a.name.space = nsXML ∨ m a.name.space ≠ [])
    (hm : m b!"xmlns" = []) :
    (a.name.space = [] ∧ attrPrefix m a = []) ∨ (a.name.space = b!"xmlns" ∧ attrPrefix m a = b!"xmlns") ∨
    (a.name.space = nsXML ∧ attrPrefix m a = b!"xml") ∨
    (a.name.space ≠ [] ∧ m a.name.space ≠ [] ∧ attrPrefix m a = m a.name.space) := by
  unfold attrPrefix createAttrPrefix
  by_cases h0 : a.name.space = []
  · simp [h0]
  · rw [if_pos h0]
    by_cases h1 : m a.name.space ≠ []
    · rw [if_pos h1]
      exact Or.inr (Or.inr (Or.inr ⟨h0, h1, rfl⟩))
    · rw [if_neg h1]
      by_cases h2 : a.name.space = nsXML
      · rw [if_pos h2]
        exact Or.inr (Or.inr (Or.inl ⟨h2, rfl⟩))
      · rw [if_neg h2]
        rcases h with h | h | h | h
        · exact absurd h h0
        · rw [if_pos h]
          exact Or.inr (Or.inl ⟨h, h⟩)
        · exact absurd h h2
        · exact absurd h h1

/-- The bindings of the root element. -/
structure BindOK (D : List (Str × Str)) (bind : Str → Option Str) : Prop where
  decl : ∀ d ∈ D, bind d.1 = some d.2
  nc : ∀ d ∈ D, NCName d.1 ∧ d.1 ≠ b!"xml" ∧ d.1 ≠ b!"xmlns"

/-- The name of an attribute as written resolves to the name given. -/
theorem resolveAttr_print {D : List (Str × Str)} {bind : Str → Option Str} (hb : BindOK D bind) {m : PrefixMap}
    (hm : Entries D m) (hx : m b!"xmlns" = []) {a : Attr}
    (h : a.name.space = [] ∨ a.name.space = b!"xmlns" ∨ a.name.space = nsXML ∨ m a.name.space ≠ []) :
    resolveAttr bind ⟨attrPrefix m a, a.name.loc⟩ = a.name := by
  unfold resolveAttr
  rcases attrPrefix_cases h hx with ⟨h1, h2⟩ | ⟨h1, h2⟩ | ⟨h1, h2⟩ | ⟨h0, h1, h2⟩
  · simp only [h2]
    rw [if_pos (Or.inr trivial), ← h1]
  · simp only [h2]
    rw [if_pos (Or.inl trivial), ← h1]
  · simp only [h2]
    rw [if_neg (by decide), if_pos trivial]
    have e : b!"http://www.w3.org/XML/1998/namespace" = a.name.space := by rw [h1]; decide +kernel
    rw [e]
  · have hd := hm _ h1
    have hn := hb.nc _ hd
    have hbd := hb.decl _ hd
    simp only at hn hbd
    simp only [h2]
    rw [if_neg (by simp [hn.2.2, h1]), if_neg hn.2.1, hbd]
    rfl

theorem rawAttrs_nil (m : PrefixMap) : rawAttrs m [] = [] := rfl

theorem rawAttrs_cons {m : PrefixMap} {a : Attr} {as : List Attr} (h : a.name.loc ≠ []) :
    rawAttrs m (a :: as) = ⟨⟨attrPrefix m a, a.name.loc⟩, cleanText a.value⟩ :: rawAttrs (attrMap m a) as := by
  simp only [rawAttrs]
  rw [if_neg h]

theorem attrsOK_cons {skip : Bool} {m : PrefixMap} {a : Attr} {as : List Attr} (h : a.name.loc ≠ []) :
    AttrsOK skip m (a :: as) ↔ NCName a.name.loc ∧ (a.name.space = [] ∨ NCName (attrPrefix m a)) ∧
      (skip = true → escape a.value = a.value) ∧ AttrsOK skip (attrMap m a) as := by
  simp only [AttrsOK]
  rw [if_neg h]

theorem declOf_raw {D : List (Str × Str)} (hD : ∀ d ∈ D, NCName d.1 ∧ d.1 ≠ b!"xml" ∧ d.1 ≠ b!"xmlns") {m : PrefixMap}
    (hm : Entries D m) (hx : m b!"xmlns" = []) {a : Attr}
    (h : a.name.space = [] ∨ a.name.space = b!"xmlns" ∨ a.name.space = nsXML ∨ m a.name.space ≠ []) :
    declOf ⟨⟨attrPrefix m a, a.name.loc⟩, cleanText a.value⟩ =
      if a.name.space = b!"xmlns" then some (a.name.loc, cleanText a.value)
      else if a.name.space = [] ∧ a.name.loc = b!"xmlns" then some ([], cleanText a.value) else none := by
  unfold declOf
  rcases attrPrefix_cases h hx with ⟨h1, h2⟩ | ⟨h1, h2⟩ | ⟨h1, h2⟩ | ⟨h0, h1, h2⟩
  · simp only [h2, h1]
  · simp only [h2, h1]
  · simp only [h2, h1]
    rw [if_neg (by decide), if_neg (by simp), if_neg nsXML_ne, if_neg (by simp [nsXML])]
  · have hd := hm _ h1
    have hn := hD _ hd
    simp only at hn
    have h3 : a.name.space ≠ b!"xmlns" := by
      intro h
      rw [h, hx] at h1
      exact h1 rfl
    simp only [h2]
    rw [if_neg hn.2.2, if_neg (by simp [h1]), if_neg h3, if_neg (by simp [h0])]

/-- What the attributes of the root element declare, prefix and name space. -/
def rootDecls (as : List Attr) : List (Str × Str) :=
  as.filterMap fun a =>
    if a.name.space = b!"xmlns" then some (a.name.loc, a.value)
    else if a.name.space = [] ∧ a.name.loc = b!"xmlns" then some ([], a.value) else none

theorem root_decl {as : List Attr} (h : RootOK as) :
    ∀ d ∈ decls as, NCName d.1 ∧ d.1 ≠ b!"xml" ∧ d.1 ≠ b!"xmlns" := by
  intro d hd
  refine ⟨?_, (h.prefixes d hd).1, (h.prefixes d hd).2.1⟩
  unfold decls at hd
  rw [List.mem_filterMap] at hd
  obtain ⟨a, ha, he⟩ := hd
  split at he
  · simp only [Option.some.injEq] at he
    rw [← he]
    exact h.names a ha
  · simp at he

/-- The spaces of the attributes after `l` in the root element, in terms of the table. -/
theorem root_space {as l r : List Attr} {a : Attr} (h : RootOK as) (e : as = l ++ a :: r) {m : PrefixMap}
    (hm : TableOK l m) :
    a.name.space = [] ∨ a.name.space = b!"xmlns" ∨ a.name.space = nsXML ∨ m a.name.space ≠ [] := by
  rcases h.spaces l a r e with h1 | h1 | h1 | h1
  · exact Or.inl h1
  · exact Or.inr (Or.inl h1)
  · exact Or.inr (Or.inr (Or.inl h1))
  · exact Or.inr (Or.inr (Or.inr (hm.total _ h1)))

theorem entries_mono {D E : List (Str × Str)} {m : PrefixMap} (h : Entries D m) (hs : ∀ d ∈ D, d ∈ E) : Entries E m :=
  fun s hm => hs _ (h s hm)

theorem tableOK_step {as l r : List Attr} {a : Attr} (h : RootOK as) (e : as = l ++ a :: r) {m : PrefixMap}
    (hm : TableOK l m) : TableOK (l ++ [a]) (attrMap m a) := by
  have hloc : a.name.loc ≠ [] := (h.names a (by simp [e])).1
  have hd : decls (l ++ [a]) = decls l ++ decls [a] := decls_append l [a]
  by_cases hx : a.name.space = b!"xmlns"
  · have hda : decls [a] = [(a.name.loc, a.value)] := by rw [decls_cons, if_pos hx]; rfl
    have hv : a.value ≠ b!"xmlns" := by
      have : (a.name.loc, a.value) ∈ decls as := by
        rw [e, decls_append, decls_cons, if_pos hx]
        simp
      exact (h.prefixes _ this).2.2
    rw [attrMap_decl hx hm.xmlns]
    rw [hda] at hd
    constructor
    · intro s hs
      rw [hd]
      unfold PrefixMap.set at hs ⊢
      by_cases hsv : s = a.value
      · rw [if_pos hsv] at hs ⊢
        simp [hsv]
      · rw [if_neg hsv] at hs ⊢
        exact List.mem_append_left _ (hm.entries s hs)
    · intro s hs
      rw [hd] at hs
      unfold PrefixMap.set
      by_cases hsv : s = a.value
      · rw [if_pos hsv]
        exact hloc
      · rw [if_neg hsv]
        apply hm.total
        simpa [hsv] using hs
    · unfold PrefixMap.set
      rw [if_neg (fun h => hv h.symm)]
      exact hm.xmlns
  · have hda : decls [a] = [] := by rw [decls_cons, if_neg hx]; rfl
    rw [hda, List.append_nil] at hd
    have hmm : attrMap m a = m := by
      apply attrMap_other
      rcases root_space h e hm with h1 | h1 | h1 | h1
      · exact Or.inl h1
      · exact absurd h1 hx
      · exact Or.inr (Or.inl h1)
      · exact Or.inr (Or.inr h1)
    rw [hmm]
    exact ⟨by rw [hd]; exact hm.entries, by rw [hd]; exact hm.total, hm.xmlns⟩

/-- The attributes of the root element can be written, and they resolve to themselves. -/
theorem root_attrs {as : List Attr} (h : RootOK as) {bind : Str → Option Str} (hb : BindOK (decls as) bind) :
    ∀ (r l : List Attr) (m : PrefixMap), as = l ++ r → TableOK l m →
    AttrsOK false m r ∧
    (rawAttrs m r).filterMap declOf = rootDecls r ∧
    (rawAttrs m r).map (fun a => (⟨resolveAttr bind a.name, a.value⟩ : Attr)) = r.map fun a => (⟨a.name, cleanText a.value⟩ : Attr)
  | [], l, m, e, hm => ⟨trivial, rfl, rfl⟩
  | a :: r, l, m, e, hm => by
    have hloc := h.names a (by simp [e])
    have hsp := root_space h e hm
    obtain ⟨i1, i2, i3⟩ := root_attrs h hb r (l ++ [a]) (attrMap m a) (by simp [e]) (tableOK_step h e hm)
    have hent : Entries (decls as) m := entries_mono hm.entries (by
      intro d hd
      rw [e, decls_append]
      exact List.mem_append_left _ hd)
    refine ⟨?_, ?_, ?_⟩
    · rw [attrsOK_cons hloc.1]
      refine ⟨hloc, ?_, by simp, i1⟩
      rcases attrPrefix_cases hsp hm.xmlns with ⟨h1, h2⟩ | ⟨h1, h2⟩ | ⟨h1, h2⟩ | ⟨h0, h1, h2⟩
      · exact Or.inl h1
      · rw [h2]; exact Or.inr ncname_xmlns
      · rw [h2]; exact Or.inr ncname_xml
      · rw [h2]; exact Or.inr (hb.nc _ (hent _ h1)).1
    · rw [rawAttrs_cons hloc.1, List.filterMap_cons, declOf_raw hb.nc hent hm.xmlns hsp, i2]
      unfold rootDecls
      rw [List.filterMap_cons]
      by_cases h1 : a.name.space = b!"xmlns"
      · simp only [if_pos h1]
        rw [h.clean a (by simp [e]) (Or.inl h1)]
      · simp only [if_neg h1]
        by_cases h2 : a.name.space = [] ∧ a.name.loc = b!"xmlns"
        · simp only [if_pos h2]
          rw [h.clean a (by simp [e]) (Or.inr h2)]
        · simp only [if_neg h2]
    · rw [rawAttrs_cons hloc.1, List.map_cons, List.map_cons, i3, resolveAttr_print hb hent hm.xmlns hsp]

/-- The attributes of the other elements can be written without changing the table, and they resolve to themselves. -/
theorem inner_attrs {D : List (Str × Str)} {bind : Str → Option Str} (hb : BindOK D bind) {m : PrefixMap}
    (hm : Entries D m) (ht : ∀ s ∈ D.map (·.2), m s ≠ []) (hx : m b!"xmlns" = []) (skip : Bool) : ∀ (as : List Attr),
    (∀ a ∈ as, AttrOK D skip a) →
    AttrsOK skip m as ∧ (printAttrs skip m as).2 = m ∧ (rawAttrs m as).filterMap declOf = [] ∧
    (rawAttrs m as).map (fun a => (⟨resolveAttr bind a.name, a.value⟩ : Attr)) = as.map fun a => (⟨a.name, cleanText a.value⟩ : Attr)
  | [], _ => ⟨trivial, rfl, rfl, rfl⟩
  | a :: as, h => by
    obtain ⟨hloc, hdef, hs, hv⟩ := h a (by simp)
    obtain ⟨i1, i2, i3, i4⟩ := inner_attrs hb hm ht hx skip as (fun b hb => h b (by simp [hb]))
    have hsp : a.name.space = [] ∨ a.name.space = b!"xmlns" ∨ a.name.space = nsXML ∨ m a.name.space ≠ [] := by
      rcases hs with h1 | h1 | h1
      · exact Or.inl h1
      · exact Or.inr (Or.inr (Or.inl h1))
      · exact Or.inr (Or.inr (Or.inr (ht _ h1)))
    have hmm : attrMap m a = m := by
      apply attrMap_other
      rcases hs with h1 | h1 | h1
      · exact Or.inl h1
      · exact Or.inr (Or.inl h1)
      · exact Or.inr (Or.inr (ht _ h1))
    have hnd : ¬ a.name.space = b!"xmlns" := by
      intro hh
      rcases hs with h1 | h1 | h1
      · rw [h1] at hh
        exact absurd hh (by decide)
      · rw [h1] at hh
        exact nsXML_ne hh
      · have := ht _ h1
        rw [hh, hx] at this
        exact this rfl
    refine ⟨?_, ?_, ?_, ?_⟩
    · rw [attrsOK_cons hloc.1, hmm]
      refine ⟨hloc, ?_, hv, i1⟩
      rcases attrPrefix_cases hsp hx with ⟨h1, h2⟩ | ⟨h1, h2⟩ | ⟨h1, h2⟩ | ⟨h0, h1, h2⟩
      · exact Or.inl h1
      · exact absurd h1 hnd
      · rw [h2]; exact Or.inr ncname_xml
      · rw [h2]; exact Or.inr (hb.nc _ (hm _ h1)).1
    · rw [printAttrs_map] at i2 ⊢
      rw [List.foldl_cons, if_neg hloc.1, hmm, i2]
    · rw [rawAttrs_cons hloc.1, List.filterMap_cons, declOf_raw hb.nc hm hx hsp, hmm, i3, if_neg hnd]
      rw [if_neg hdef]
    · rw [rawAttrs_cons hloc.1, List.map_cons, List.map_cons, hmm, i4, resolveAttr_print hb hm hx hsp]

/-! ## The bindings declared by the root element -/

theorem rootDecls_mem {as : List Attr} (h : RootOK as) {d e : Str × Str} (hd : d ∈ decls as) (he : e ∈ rootDecls as)
    (hp : e.1 = d.1) : e = d := by
  have hnc := (root_decl h d hd).1.1
  have he' : e ∈ decls as := by
    unfold rootDecls at he
    unfold decls
    rw [List.mem_filterMap] at he ⊢
    obtain ⟨a, ha, hae⟩ := he
    refine ⟨a, ha, ?_⟩
    by_cases h1 : a.name.space = b!"xmlns"
    · rw [if_pos h1] at hae ⊢
      exact hae
    · rw [if_neg h1] at hae
      exfalso
      split at hae
      · simp only [Option.some.injEq] at hae
        rw [← hae] at hp
        exact hnc hp.symm
      · simp at hae
  exact List.inj_on_of_nodup_map h.distinct he' hd hp

theorem decls_sub {as : List Attr} {d : Str × Str} (hd : d ∈ decls as) : d ∈ rootDecls as := by
  unfold decls at hd
  unfold rootDecls
  rw [List.mem_filterMap] at hd ⊢
  obtain ⟨a, ha, hae⟩ := hd
  refine ⟨a, ha, ?_⟩
  by_cases h1 : a.name.space = b!"xmlns"
  · rw [if_pos h1] at hae ⊢
    exact hae
  · rw [if_neg h1] at hae
    simp at hae

/-- The name space of a prefix according to the root element. -/
def rootBind (as : List Attr) (p : Str) : Option Str := ((rootDecls as).reverse.find? fun d => d.1 = p).map (·.2)

theorem rootBind_ok {as : List Attr} (h : RootOK as) : BindOK (decls as) (rootBind as) := by
  refine ⟨?_, root_decl h⟩
  intro d hd
  unfold rootBind
  have hs : ((rootDecls as).reverse.find? fun e => e.1 = d.1).isSome := by
    rw [List.find?_isSome]
    exact ⟨d, by simpa using decls_sub hd, by simp⟩
  obtain ⟨e, he⟩ := Option.isSome_iff_exists.1 hs
  rw [he]
  have h1 := List.find?_some he
  have h2 := List.mem_of_find?_eq_some he
  simp only [decide_eq_true_eq] at h1
  rw [rootDecls_mem h hd (by simpa using h2) h1]
  rfl

theorem rootBind_default {as : List Attr} (h : RootOK as) : (rootBind as []).getD [] = defaultNs as := by
  unfold rootBind defaultNs rootDecls
  rw [← List.filterMap_reverse]
  have hn : ∀ a ∈ as.reverse, a.name.loc ≠ [] := fun a ha => (h.names a (by simpa using ha)).1
  generalize as.reverse = l at hn
  congr 1
  induction l with
  | nil => rfl
  | cons a l ih =>
    have ih := ih (fun b hb => hn b (by simp [hb]))
    have ha := hn a (by simp)
    rw [List.filterMap_cons, List.find?_cons]
    by_cases h1 : a.name.space = b!"xmlns"
    · have h2 : ¬ (a.name.space = [] ∧ a.name.loc = b!"xmlns") := by
        rw [h1]
        rintro ⟨h, -⟩
        exact absurd h (by decide)
      simp only [if_pos h1, List.find?_cons]
      rw [decide_eq_false ha, decide_eq_false h2]
      exact ih
    · simp only [if_neg h1]
      by_cases h2 : a.name.space = [] ∧ a.name.loc = b!"xmlns"
      · simp only [if_pos h2, List.find?_cons]
        rw [decide_eq_true h2]
        rfl
      · simp only [if_neg h2]
        rw [decide_eq_false h2]
        exact ih

/-! ## The names of elements -/

theorem elem_print {D : List (Str × Str)} {bind : Str → Option Str} (hb : BindOK D bind) {m : PrefixMap}
    (hm : Entries D m) (ht : ∀ s ∈ D.map (·.2), m s ≠ []) {n : Name} (hn : NameOK D ((bind []).getD []) n) :
    ElemOK m n ∧ resolveElem bind (rawName m n) = fullName ((bind []).getD []) n := by
  obtain ⟨h1, h2, h3⟩ := hn
  unfold ElemOK rawName elemPrefix fullName resolveElem
  by_cases hp : n.space ≠ [] ∧ m n.space ≠ []
  · simp only [if_pos hp, if_neg hp.1]
    have hd := hm _ hp.2
    have hn := hb.nc _ hd
    have hbd := hb.decl _ hd
    simp only at hn hbd
    refine ⟨⟨h1, Or.inr hn.1⟩, ?_⟩
    rw [if_neg (by simp [hn.2.2, hp.2]), if_neg hn.2.1, hbd]
    rfl
  · simp only [if_neg hp]
    refine ⟨⟨h1, Or.inl trivial⟩, ?_⟩
    rw [if_neg (by simp [h2]), if_neg (by simp)]
    by_cases hs : n.space = []
    · rw [if_pos hs]
    · rw [if_neg hs]
      rcases h3 with h3 | h3 | h3
      · exact absurd h3 hs
      · rw [← h3]
      · exact absurd ⟨hs, ht _ h3⟩ hp

/-! ## The tokens -/

theorem declared_nil {as : List Attr} (h : as.filterMap declOf = []) (p : Str) : declared as p = none := by
  simp [declared, h]

theorem binding_inner {inner sc : Scopes} (h : ∀ x ∈ inner, x.2.filterMap declOf = []) :
    binding (inner ++ sc) = binding sc := by
  induction inner with
  | nil => rfl
  | cons x inner ih =>
    funext p
    obtain ⟨n, as⟩ := x
    rw [List.cons_append, binding, declared_nil (h (n, as) (by simp)), ih (fun y hy => h y (by simp [hy]))]
    rfl

theorem rawAttrs_shown : ∀ (m : PrefixMap) (as : List Attr), rawAttrs m (shown as) = rawAttrs m as
  | m, [] => rfl
  | m, a :: as => by
    have ih := fun m => rawAttrs_shown m as
    unfold shown at ih ⊢
    rw [List.filter_cons]
    by_cases h : a.name.loc = []
    · simp only [h, ne_eq, not_true_eq_false, decide_false, Bool.false_eq_true, if_false, rawAttrs, if_true]
      exact ih m
    · simp only [ne_eq, h, not_false_eq_true, decide_true, if_true, rawAttrs, if_false, ih]

theorem attrsOK_shown (skip : Bool) : ∀ (m : PrefixMap) (as : List Attr), AttrsOK skip m (shown as) ↔ AttrsOK skip m as
  | m, [] => Iff.rfl
  | m, a :: as => by
    have ih := fun m => attrsOK_shown skip m as
    unfold shown at ih ⊢
    rw [List.filter_cons]
    by_cases h : a.name.loc = []
    · simp only [h, ne_eq, not_true_eq_false, decide_false, Bool.false_eq_true, if_false, AttrsOK, if_true]
      exact ih m
    · simp only [ne_eq, h, not_false_eq_true, decide_true, if_true, AttrsOK, if_false, ih]

section
variable {D : List (Str × Str)} {bind : Str → Option Str} {m : PrefixMap} {root : Name} {rootAs : List Attr}

theorem opsOK (hb : BindOK D bind) (hm : Entries D m) (ht : ∀ s ∈ D.map (·.2), m s ≠ []) (hx : m b!"xmlns" = []) :
    ∀ ops : List Op, (∀ op ∈ ops, OpOK D ((bind []).getD []) op) → OpsOK m ops
  | [], _ => trivial
  | .chars _ :: ops, h => opsOK hb hm ht hx ops (fun o ho => h o (by simp [ho]))
  | .stop n :: ops, h => ⟨(elem_print hb hm ht (h (.stop n) (by simp))).1,
      opsOK hb hm ht hx ops (fun o ho => h o (by simp [ho]))⟩
  | .start n as auto skip :: ops, h => by
    obtain ⟨h1, h2⟩ := h (.start n as auto skip) (by simp)
    obtain ⟨i1, i2, -, -⟩ := inner_attrs hb hm ht hx skip (shown as) h2
    rw [attrsOK_shown] at i1
    rw [printAttrs_shown] at i2
    refine ⟨(elem_print hb hm ht h1).1, i1, ?_⟩
    rw [i2]
    exact opsOK hb hm ht hx ops (fun o ho => h o (by simp [ho]))

theorem resolveAll_flush (sc : Scopes) (t : Str) (evs : List (Option Event)) (e : LexErr) :
    resolveAll sc (flushText t ++ evs) e = (flushText t ++ (resolveAll sc evs e).1, (resolveAll sc evs e).2) := by
  unfold flushText
  by_cases h : t = []
  · simp [h]
  · simp [h, resolveAll]

theorem resolve_ops (hb : BindOK D bind) (hm : Entries D m) (ht : ∀ s ∈ D.map (·.2), m s ≠ []) (hx : m b!"xmlns" = [])
    (hbind : binding [(fullName ((bind []).getD []) root, rootAs)] = bind)
    (hroot : NameOK D ((bind []).getD []) root) :
    ∀ (ops : List Op) (t : Str) (inner : Scopes) (st : List Name),
    (∀ op ∈ ops, OpOK D ((bind []).getD []) op) → (∀ x ∈ inner, x.2.filterMap declOf = []) →
    inner.map (·.1) = st.map (fullName ((bind []).getD [])) → openOps st ops = some [] →
    resolveAll (inner ++ [(fullName ((bind []).getD []) root, rootAs)]) (rawOps m t (ops ++ [.stop root])) .eof =
      (readOps ((bind []).getD []) t (ops ++ [.stop root]), .eof)
  | [], t, inner, st, _, _, hin, hst => by
    simp only [openOps, Option.some.injEq] at hst
    subst hst
    simp only [List.map_nil, List.map_eq_nil_iff] at hin
    subst hin
    simp only [List.nil_append, rawOps, readOps]
    rw [resolveAll_flush]
    simp only [resolveAll]
    rw [hbind, (elem_print hb hm ht hroot).2, if_pos rfl]
    simp [flushText, resolveAll]
  | .chars s :: ops, t, inner, st, h, hi, hin, hst => by
    simp only [List.cons_append, rawOps, readOps]
    exact resolve_ops hb hm ht hx hbind hroot ops _ inner st (fun o ho => h o (by simp [ho])) hi hin hst
  | .stop n :: ops, t, inner, st, h, hi, hin, hst => by
    cases st with
    | nil => simp [openOps] at hst
    | cons k st =>
      simp only [openOps] at hst
      by_cases hnk : n = k
      · rw [if_pos hnk] at hst
        subst hnk
        cases inner with
        | nil => simp at hin
        | cons x inner =>
          obtain ⟨q, as⟩ := x
          simp only [List.map_cons, List.cons.injEq] at hin
          simp only [List.cons_append, rawOps, readOps]
          rw [resolveAll_flush]
          simp only [resolveAll]
          have hbi : binding ((q, as) :: (inner ++ [(fullName ((bind []).getD []) root, rootAs)])) = bind := by
            rw [← List.cons_append, binding_inner hi, hbind]
          rw [hbi, (elem_print hb hm ht (h (.stop n) (by simp))).2, if_pos hin.1.symm]
          rw [resolve_ops hb hm ht hx hbind hroot ops [] inner st (fun o ho => h o (by simp [ho]))
            (fun y hy => hi y (by simp [hy])) hin.2 hst]
      · rw [if_neg hnk] at hst
        simp at hst
  | .start n as auto skip :: ops, t, inner, st, h, hi, hin, hst => by
    obtain ⟨h1, h2⟩ := h (.start n as auto skip) (by simp)
    obtain ⟨-, i2, i3, i4⟩ := inner_attrs hb hm ht hx skip (shown as) h2
    rw [printAttrs_shown] at i2
    rw [rawAttrs_shown] at i3 i4
    simp only [List.cons_append, rawOps, readOps]
    rw [i2, resolveAll_flush]
    simp only [resolveAll]
    have hbi : (fun p => (declared (rawAttrs m as) p).or
        (binding (inner ++ [(fullName ((bind []).getD []) root, rootAs)]) p)) = bind := by
      funext p
      rw [declared_nil i3, binding_inner hi, hbind]
      rfl
    rw [hbi, (elem_print hb hm ht h1).2, i4]
    have hi' : ∀ x ∈ (fullName ((bind []).getD []) n, rawAttrs m as) :: inner, x.2.filterMap declOf = [] := by
      intro x hx
      rcases List.mem_cons.1 hx with rfl | hx
      · exact i3
      · exact hi x hx
    cases auto with
    | true =>
      simp only [openOps, if_true] at hst
      simp only [if_true, List.cons_append, List.nil_append, resolveAll]
      have hbi2 : binding ((fullName ((bind []).getD []) n, rawAttrs m as) ::
          (inner ++ [(fullName ((bind []).getD []) root, rootAs)])) = bind := by
        rw [← List.cons_append, binding_inner hi', hbind]
      rw [hbi2, (elem_print hb hm ht h1).2, if_pos rfl]
      rw [resolve_ops hb hm ht hx hbind hroot ops [] inner st (fun o ho => h o (by simp [ho])) hi hin hst]
      rfl
    | false =>
      simp only [openOps, Bool.false_eq_true, if_false] at hst
      simp only [Bool.false_eq_true, if_false, List.nil_append]
      rw [← List.cons_append, resolve_ops hb hm ht hx hbind hroot ops [] _ (n :: st) (fun o ho => h o (by simp [ho]))
        hi' (by simp [hin]) hst]
      rfl

end

/-- The document: the root element around the tokens. -/
def document (root : Str) (as : List Attr) (ops : List Op) : List Op :=
  .start ⟨[], root⟩ as false false :: (ops ++ [.stop ⟨[], root⟩])

theorem tableOK_nil : TableOK [] (fun _ => []) := by
  refine ⟨?_, ?_, rfl⟩
  · intro s hs
    exact absurd rfl hs
  · intro s hs
    simp [decls] at hs

theorem tableOK_all {as : List Attr} (h : RootOK as) : ∀ (r l : List Attr) (m : PrefixMap), as = l ++ r → TableOK l m →
    TableOK as (r.foldl (fun m a => if a.name.loc = [] then m else attrMap m a) m)
  | [], l, m, e, hm => by
    rw [List.append_nil] at e
    subst e
    exact hm
  | a :: r, l, m, e, hm => by
    rw [List.foldl_cons, if_neg (h.names a (by simp [e])).1]
    exact tableOK_all h r (l ++ [a]) _ (by simp [e]) (tableOK_step h e hm)

/-- The reading of a document in terms of the tags as written. -/
theorem document_raw (root : Str) (as : List Attr) (ops : List Op) (hr : NCName root) (hr2 : root ≠ b!"xmlns")
    (ha : RootOK (shown as)) (hops : ∀ op ∈ ops, OpOK (decls (shown as)) (defaultNs (shown as)) op)
    (hst : openOps [] ops = some []) :
    raws .eof (printOps (fun _ => []) (document root as ops)) none =
      (rawOps (fun _ => []) [] (document root as ops), .eof) ∧
    resolveAll [] (rawOps (fun _ => []) [] (document root as ops)) .eof =
      (readOps (defaultNs (shown as)) [] (document root as ops), .eof) := by
  have hb := rootBind_ok ha
  have hd := rootBind_default ha
  obtain ⟨r1, r2, r3⟩ := root_attrs ha hb (shown as) [] (fun _ => []) rfl tableOK_nil
  have hT := tableOK_all ha (shown as) [] (fun _ => []) rfl tableOK_nil
  rw [← printAttrs_map false, printAttrs_shown] at hT
  rw [attrsOK_shown] at r1
  rw [rawAttrs_shown] at r2 r3
  rw [← hd] at hops ⊢
  have hroot : NameOK (decls (shown as)) ((rootBind (shown as) []).getD []) ⟨[], root⟩ := ⟨hr, hr2, Or.inl rfl⟩
  have hall : ∀ op ∈ ops ++ [Op.stop ⟨[], root⟩], OpOK (decls (shown as)) ((rootBind (shown as) []).getD []) op := by
    intro op ho
    rcases List.mem_append.1 ho with ho | ho
    · exact hops op ho
    · simp only [List.mem_singleton] at ho
      subst ho
      exact hroot
  have hemp : elemPrefix (fun _ => []) ⟨[], root⟩ = [] := by simp [elemPrefix]
  have hOK : OpsOK (fun _ => []) (document root as ops) :=
    ⟨⟨hr, Or.inl hemp⟩, r1, opsOK hb hT.entries hT.total hT.xmlns _ hall⟩
  constructor
  · simpa using raws_print .eof (document root as ops) (fun _ => []) [] hOK
  · simp only [document, rawOps, readOps]
    rw [resolveAll_flush]
    simp only [resolveAll]
    have hbind : (fun p => (declared (rawAttrs (fun _ => []) as) p).or (binding [] p)) = rootBind (shown as) := by
      funext p
      simp only [declared, r2, binding, rootBind, Option.or_none]
    have hname : resolveElem (rootBind (shown as)) (rawName (fun _ => []) ⟨[], root⟩) =
        fullName ((rootBind (shown as) []).getD []) ⟨[], root⟩ := by
      simp [resolveElem, rawName, hemp, fullName, hr2]
    rw [hbind, hname, r3]
    have hbind2 : binding [(fullName ((rootBind (shown as) []).getD []) ⟨[], root⟩, rawAttrs (fun _ => []) as)] =
        rootBind (shown as) := by
      rw [← hbind]
      rfl
    have key := resolve_ops hb hT.entries hT.total hT.xmlns hbind2 hroot ops [] [] [] hops (by simp) rfl hst
    simp only [List.nil_append] at key
    rw [if_neg (by simp)]
    simp only [List.nil_append]
    rw [key]
    rfl

/-- **C23** (name spaces declared in the root element): reading what is written for a document gives its tokens, with the
texts joined, the default name space filled in, and the characters that XML forbids replaced. -/
theorem C23_roundtrip_partial (root : Str) (as : List Attr) (ops : List Op) (hr : NCName root) (hr2 : root ≠ b!"xmlns")
    (ha : RootOK (shown as)) (hops : ∀ op ∈ ops, OpOK (decls (shown as)) (defaultNs (shown as)) op)
    (hst : openOps [] ops = some []) :
    lex .eof (.new (printOps (fun _ => []) (document root as ops))) =
      (readOps (defaultNs (shown as)) [] (document root as ops), .eof) := by
  obtain ⟨h1, h2⟩ := document_raw root as ops hr hr2 ha hops hst
  rw [C24_resolve, rawTags_eq, h1, h2]

/-- **C23**: the same after the XML header that the encoder writes first; the line end after it is read as a text. -/
theorem C23_header_partial (root : Str) (as : List Attr) (ops : List Op) (hr : NCName root) (hr2 : root ≠ b!"xmlns")
    (ha : RootOK (shown as)) (hops : ∀ op ∈ ops, OpOK (decls (shown as)) (defaultNs (shown as)) op)
    (hst : openOps [] ops = some []) :
    lex .eof (.new (xmlHeader ++ printOps (fun _ => []) (document root as ops))) =
      (none :: some (.chars b!"\n") :: readOps (defaultNs (shown as)) [] (document root as ops), .eof) := by
  obtain ⟨h1, h2⟩ := document_raw root as ops hr hr2 ha hops hst
  have hlt : ∃ t, printOps (fun _ => []) (document root as ops) = 60 :: t :=
    ⟨_, by simp [document, printOps, printOp, printStart]; rfl⟩
  rw [C24_resolve, rawTags_eq]
  generalize printOps (fun _ => []) (document root as ops) = r at h1 hlt
  have t1 : rawTok .eof (xmlHeader ++ r) none = .ok (none, b!"\n" ++ r, none) := by
    rfl
  have t2 : raws .eof (b!"\n" ++ r) none = (some (.chars b!"\n") :: (raws .eof r none).1, (raws .eof r none).2) := by
    obtain ⟨t, rfl⟩ := hlt
    exact raws_ok rfl
  rw [raws_ok t1, t2, h1]
  simp only [resolveAll, h2]

/-- **C23**: texts and attribute values of XML characters are read unchanged. -/
theorem C23_values (cs : List Nat) (h : ∀ c ∈ cs, Spec.XmlChar c) : cleanText (Spec.utf8s cs) = Spec.utf8s cs :=
  cleanText_utf8s h

/-! ## Outside of these documents -/

/-- A prefix declared a second time, inside an element, is used after the end of that element. -/
def scopeDoc : List Op :=
  [.start ⟨[], b!"r"⟩ [⟨⟨b!"xmlns", b!"a"⟩, b!"u"⟩] false false,
   .start ⟨[], b!"x"⟩ [⟨⟨b!"xmlns", b!"b"⟩, b!"u"⟩] false false, .stop ⟨[], b!"x"⟩,
   .start ⟨b!"u", b!"y"⟩ [] false false, .stop ⟨b!"u", b!"y"⟩, .stop ⟨[], b!"r"⟩]

/-- **C23** is false for nested declarations: the element `y` of the name space `u` is read as of the name space `b`. -/
theorem C23_scope_false :
    printOps (fun _ => []) scopeDoc = b!"<r xmlns:a=\"u\"><x xmlns:b=\"u\"></x><b:y></b:y></r>" ∧
    some (.start ⟨b!"b", b!"y"⟩ []) ∈ (lex .eof (.new (printOps (fun _ => []) scopeDoc))).1 ∧
    some (.start ⟨b!"u", b!"y"⟩ []) ∉ (lex .eof (.new (printOps (fun _ => []) scopeDoc))).1 := by decide +kernel

/-- **C23** is false for attributes in name spaces that are not declared: the name space is written as the prefix, and the
document cannot be read. -/
theorem C23_attr_false :
    printOps (fun _ => []) [.start ⟨[], b!"r"⟩ [⟨⟨b!"http://u", b!"k"⟩, b!"v"⟩] true false] =
      b!"<r http://u:k=\"v\"/>" ∧
    lex .eof (.new (printOps (fun _ => []) [.start ⟨[], b!"r"⟩ [⟨⟨b!"http://u", b!"k"⟩, b!"v"⟩] true false])) =
      ([], .syntax) := by decide +kernel

/-- **C23** is false for elements in name spaces that are not declared: the name space is lost. -/
theorem C23_elem_false :
    lex .eof (.new (printOps (fun _ => []) [.start ⟨b!"u", b!"r"⟩ [] true false])) =
      ([some (.start ⟨[], b!"r"⟩ []), some (.stop ⟨[], b!"r"⟩)], .eof) := by decide +kernel

/-! ## Non-vacuity -/

/-- The attributes of a root element with a default name space, a prefix, and attributes in both. -/
def exampleRoot : List Attr :=
  [⟨⟨[], b!"xmlns"⟩, b!"http://core"⟩, ⟨⟨nsXML, b!"lang"⟩, b!"en"⟩, ⟨⟨b!"xmlns", b!"p"⟩, b!"http://prod"⟩,
   ⟨⟨b!"xmlns", []⟩, b!"skipped"⟩, ⟨⟨b!"http://prod", b!"k"⟩, b!"a<b"⟩]

theorem exampleRoot_ok : RootOK (shown exampleRoot) where
  names := by decide +kernel
  spaces := by
    have key : ∀ i < 4, ((shown exampleRoot)[i]?.map fun a => decide (a.name.space = [] ∨ a.name.space = b!"xmlns" ∨
        a.name.space = nsXML ∨ a.name.space ∈ (decls ((shown exampleRoot).take i)).map (·.2))) = some true := by
      decide +kernel
    intro l a r e
    have hlen : l.length < 4 := by
      have h1 : (shown exampleRoot).length = 4 := by decide +kernel
      rw [e] at h1
      simp only [List.length_append, List.length_cons] at h1
      omega
    have := key l.length hlen
    rw [e] at this
    simpa using this
  prefixes := by decide +kernel
  distinct := by decide +kernel
  clean := by decide +kernel

example : ∀ op ∈ [Op.start ⟨b!"http://prod", b!"e"⟩ [⟨⟨b!"http://prod", b!"u"⟩, b!"1"⟩] true true, .chars b!"x & y",
      .start ⟨[], b!"e"⟩ [⟨⟨[], b!"t"⟩, b!"\""⟩] false false, .stop ⟨[], b!"e"⟩],
    OpOK (decls (shown exampleRoot)) (defaultNs (shown exampleRoot)) op := by
  intro op h
  simp only [List.mem_cons, List.not_mem_nil, or_false] at h
  rcases h with rfl | rfl | rfl | rfl
  · exact ⟨⟨by decide +kernel, by decide +kernel, by decide +kernel⟩, by
      intro a ha
      have : a = ⟨⟨b!"http://prod", b!"u"⟩, b!"1"⟩ := by
        have := List.mem_of_mem_filter ha
        simpa using this
      subst this
      exact ⟨by decide +kernel, by decide +kernel, by decide +kernel, by decide +kernel⟩⟩
  · trivial
  · exact ⟨⟨by decide +kernel, by decide +kernel, by decide +kernel⟩, by
      intro a ha
      have : a = ⟨⟨[], b!"t"⟩, b!"\""⟩ := by
        have := List.mem_of_mem_filter ha
        simpa using this
      subst this
      exact ⟨by decide +kernel, by decide +kernel, by decide +kernel, by simp⟩⟩
  · exact ⟨by decide +kernel, by decide +kernel, by decide +kernel⟩

end Go3mf
