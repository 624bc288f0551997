import Verif.Props.C22
import Verif.Props.C24
import Verif.Model.Printer

/-!
# Lemmas: the tags as written by the printer
-/

namespace Go3mf

/-! ## The raw tokens, without the bound on their number -/

/-- The size of what is left to read. -/
def rawSize (inp : Str) (close : Option Name) : Nat := 2 * inp.length + (if close.isSome then 1 else 0)

theorem rawTok_size {fin : LexErr} {inp inp' : Str} {close close' : Option Name} {ev : Option Event}
    (h : rawTok fin inp close = .ok (ev, inp', close')) : rawSize inp' close' < rawSize inp close := by
  have key : ∀ (sc sc' : Scopes) (ev' : Option Event), rawToken fin (lexerOf inp close sc) =
      .ok (ev', lexerOf inp' close' sc') → rawSize inp' close' < rawSize inp close :=
    fun sc sc' ev' hh => rawToken_size hh
  cases ev with
  | none =>
    refine key [] [] none ?_
    rw [rawToken_rawTok fin inp close (by intro p hp; simp at hp), h]
  | some ev =>
    cases ev with
    | chars t =>
      refine key [] [] (some (.chars t)) ?_
      rw [rawToken_rawTok fin inp close (by intro p hp; simp at hp), h]
    | start n as =>
      refine key [] [(resolveElem (fun p => (declared as p).or (binding [] p)) n, as)]
        (some (.start (resolveElem (fun p => (declared as p).or (binding [] p)) n)
          (as.map fun a => ⟨resolveAttr (fun p => (declared as p).or (binding [] p)) a.name, a.value⟩))) ?_
      rw [rawToken_rawTok fin inp close (by intro p hp; simp at hp), h]
      simp only
      rw [handleStart_stkOf inp' close' n as (by intro p hp; simp at hp) (rawTok_start h)]
    | stop n =>
      refine key [(resolveElem (fun _ => none) n, [])] [] (some (.stop (resolveElem (fun _ => none) n))) ?_
      have hsc : ScopesOK [(resolveElem (fun _ => none) n, [])] := by
        intro p hp
        simp only [List.mem_singleton] at hp
        subst hp
        simp
      rw [rawToken_rawTok fin inp close hsc, h]
      simp only
      rw [handleEnd_stkOf inp' close' n hsc]
      have hb : binding [(resolveElem (fun _ => none) n, [])] = fun _ => none := by
        funext p
        simp [binding, declared]
      simp [hb, TokenRes.of]

theorem rawFuel_eq (fin : LexErr) : ∀ {f g : Nat} {inp : Str} {close : Option Name}, rawSize inp close < f →
    rawSize inp close < g → rawFuel fin f inp close = rawFuel fin g inp close
  | 0, _, _, _, h, _ => by omega
  | _ + 1, 0, _, _, _, h => by omega
  | f + 1, g + 1, inp, close, hf, hg => by
    simp only [rawFuel]
    cases hr : rawTok fin inp close with
    | error e => rfl
    | ok p =>
      obtain ⟨ev, inp', close'⟩ := p
      have := rawTok_size hr
      simp only
      rw [rawFuel_eq fin (f := f) (g := g) (inp := inp') (close := close') (by omega) (by omega)]

/-- The tags and texts as written, from a state. -/
def raws (fin : LexErr) (inp : Str) (close : Option Name) : List (Option Event) × LexErr :=
  rawFuel fin (rawSize inp close + 1) inp close

theorem raws_ok {fin : LexErr} {inp inp' : Str} {close close' : Option Name} {ev : Option Event}
    (h : rawTok fin inp close = .ok (ev, inp', close')) :
    raws fin inp close = (ev :: (raws fin inp' close').1, (raws fin inp' close').2) := by
  unfold raws
  rw [rawFuel, h]
  have := rawTok_size h
  simp only
  rw [rawFuel_eq fin (f := rawSize inp close) (g := rawSize inp' close' + 1) (by omega) (by omega)]

theorem raws_nil (fin : LexErr) : raws fin [] none = ([], fin) := by
  simp [raws, rawFuel, rawTok]

theorem rawTags_eq (fin : LexErr) (inp : Str) : rawTags fin inp = raws fin inp none := by
  unfold rawTags raws
  exact rawFuel_eq fin (by simp [rawSize]) (by simp)

/-! ## Names -/

/-- A name without colon. -/
def NCName (s : Str) : Prop := s ≠ [] ∧ ∀ b ∈ s, nameByte b = true ∧ b ≠ 58

instance (s : Str) : Decidable (NCName s) := inferInstanceAs (Decidable (_ ∧ _))

theorem splitColon_none : ∀ {s : Str}, (∀ b ∈ s, b ≠ 58) → splitColon s = none
  | [], _ => rfl
  | c :: s, h => by
    simp [splitColon, h c (by simp), splitColon_none (s := s) (fun b hb => h b (by simp [hb]))]

theorem splitColon_some : ∀ {s : Str} (t : Str), (∀ b ∈ s, b ≠ 58) → splitColon (s ++ 58 :: t) = some (s, t)
  | [], t, _ => by simp [splitColon]
  | c :: s, t, h => by
    simp [splitColon, h c (by simp), splitColon_some (s := s) t (fun b hb => h b (by simp [hb]))]

theorem toName_plain {s : Str} (h : NCName s) : toName s = ⟨[], s⟩ := by
  unfold toName
  rw [splitColon_none (fun b hb => (h.2 b hb).2)]

theorem toName_prefix {p s : Str} (h : NCName p) : toName (p ++ b!":" ++ s) = ⟨p, s⟩ := by
  unfold toName
  have : p ++ b!":" ++ s = p ++ 58 :: s := by simp
  rw [this, splitColon_some s (fun b hb => (h.2 b hb).2)]

/-- The prefix written before the name of an element. -/
def elemPrefix (m : PrefixMap) (n : Name) : Str := if n.space ≠ [] ∧ m n.space ≠ [] then m n.space else []

/-- The name of an element as written. -/
def rawName (m : PrefixMap) (n : Name) : Name := ⟨elemPrefix m n, n.loc⟩

/-- The name of an element can be written. -/
def ElemOK (m : PrefixMap) (n : Name) : Prop := NCName n.loc ∧ (elemPrefix m n = [] ∨ NCName (elemPrefix m n))

theorem printName_spec {m : PrefixMap} {n : Name} (h : ElemOK m n) :
    printName m n ≠ [] ∧ (∀ b ∈ printName m n, nameByte b = true) ∧ toName (printName m n) = rawName m n := by
  obtain ⟨h1, h2⟩ := h
  unfold printName rawName
  unfold elemPrefix at h2 ⊢
  by_cases hp : n.space ≠ [] ∧ m n.space ≠ []
  · rw [if_pos hp] at h2 ⊢
    rw [if_pos hp]
    have h3 : NCName (m n.space) := by
      rcases h2 with h2 | h2
      · exact absurd h2 hp.2
      · exact h2
    refine ⟨by simp, ?_, toName_prefix h3⟩
    intro b hb
    simp only [List.mem_append] at hb
    rcases hb with (hb | hb) | hb
    · exact (h3.2 b hb).1
    · simp only [List.mem_singleton] at hb
      subst hb
      decide
    · exact (h1.2 b hb).1
  · rw [if_neg hp, if_neg hp]
    exact ⟨by simpa using h1.1, fun b hb => (h1.2 b (by simpa using hb)).1, by simpa using toName_plain h1⟩

/-! ## Attributes -/

/-- The prefix written before the name of an attribute. -/
def attrPrefix (m : PrefixMap) (a : Attr) : Str := if a.name.space ≠ [] then (createAttrPrefix m a).1 else []

/-- The map after an attribute. -/
def attrMap (m : PrefixMap) (a : Attr) : PrefixMap := if a.name.space ≠ [] then (createAttrPrefix m a).2 else m

/-- The attributes as written. -/
def rawAttrs : PrefixMap → List Attr → List Attr
  | _, [] => []
  | m, a :: as =>
    if a.name.loc = [] then rawAttrs m as
    else ⟨⟨attrPrefix m a, a.name.loc⟩, cleanText a.value⟩ :: rawAttrs (attrMap m a) as

/-- The attributes can be written. -/
def AttrsOK (skip : Bool) : PrefixMap → List Attr → Prop
  | _, [] => True
  | m, a :: as =>
    if a.name.loc = [] then AttrsOK skip m as
    else NCName a.name.loc ∧ (a.name.space = [] ∨ NCName (attrPrefix m a)) ∧
      (skip = true → escape a.value = a.value) ∧ AttrsOK skip (attrMap m a) as

theorem attrStep_print (fin : LexErr) {p : Str} (hp : p ≠ []) (hpn : ∀ b ∈ p, nameByte b = true) (v r : Str) :
    attrStep fin (b!" " ++ p ++ b!"=\"" ++ escape v ++ b!"\"" ++ r) = .attr ⟨toName p, cleanText v⟩ r := by
  have e : b!" " ++ p ++ b!"=\"" ++ escape v ++ b!"\"" ++ r = 32 :: (p ++ 61 :: 34 :: (escape v ++ 34 :: r)) := by
    simp
  rw [e]
  unfold attrStep
  have hn := readName_append fin (c := 61) (by decide) (34 :: (escape v ++ 34 :: r)) hp hpn
  cases p with
  | nil => exact absurd rfl hp
  | cons b p =>
    have hb := hpn b (by simp)
    have hne : ∀ c : Byte, nameByte c = false → b ≠ c := by
      rintro c hc rfl
      rw [hb] at hc
      exact absurd hc (by decide)
    have hsp : skipSpace (32 :: (b :: p ++ 61 :: 34 :: (escape v ++ 34 :: r))) =
        b :: (p ++ 61 :: 34 :: (escape v ++ 34 :: r)) := by
      simp only [List.cons_append, skipSpace]
      have h1 := hne 32 (by decide)
      have h2 := hne 13 (by decide)
      have h3 := hne 10 (by decide)
      have h4 := hne 9 (by decide)
      simp [h1, h2, h3, h4]
    rw [hsp]
    simp only
    rw [if_neg (hne 47 (by decide)), if_neg (hne 62 (by decide))]
    simp only [List.cons_append] at hn
    rw [hn]
    have hv := lexText_escape_quote fin v r
    simp [skipSpace, attrval, hv]

theorem printAttrs_map (skip : Bool) : ∀ (m : PrefixMap) (as : List Attr),
    (printAttrs skip m as).2 = as.foldl (fun m a => if a.name.loc = [] then m else attrMap m a) m
  | m, [] => rfl
  | m, a :: as => by
    simp only [printAttrs, List.foldl_cons]
    by_cases h : a.name.loc = []
    · rw [if_pos h, if_pos h]
      exact printAttrs_map skip m as
    · rw [if_neg h, if_neg h]
      simp only
      rw [printAttrs_map]
      unfold attrMap
      by_cases hs : a.name.space ≠ []
      · rw [if_pos hs, if_pos hs]
      · rw [if_neg hs, if_neg hs]

theorem lexAttrs_print (fin : LexErr) (skip auto : Bool) (r : Str) : ∀ (as : List Attr) (m : PrefixMap) (f : Nat),
    AttrsOK skip m as →
    ((printAttrs skip m as).1 ++ (if auto then b!"/" else []) ++ b!">" ++ r).length < f →
    lexAttrs fin f ((printAttrs skip m as).1 ++ (if auto then b!"/" else []) ++ b!">" ++ r) =
      .ok (rawAttrs m as, auto, r)
  | [], m, 0, _, h => by omega
  | [], m, f + 1, _, _ => by
    rw [lexAttrs_step]
    cases auto <;> simp [printAttrs, attrStep, skipSpace, rawAttrs]
  | a :: as, m, f, h, hf => by
    simp only [printAttrs, rawAttrs, AttrsOK] at h hf ⊢
    by_cases hl : a.name.loc = []
    · rw [if_pos hl] at h hf ⊢
      rw [if_pos hl]
      exact lexAttrs_print fin skip auto r as m f h hf
    · rw [if_neg hl] at h hf ⊢
      rw [if_neg hl]
      obtain ⟨h1, h2, h3, h4⟩ := h
      have hval : (if skip = true then a.value else escape a.value) = escape a.value := by
        cases skip with
        | false => rfl
        | true => simpa using (h3 rfl).symm
      have hmap : (if a.name.space ≠ [] then createAttrPrefix m a else ([], m)).2 = attrMap m a := by
        unfold attrMap
        split <;> rfl
      have hpre : (if a.name.space ≠ [] then createAttrPrefix m a else ([], m)).1 = attrPrefix m a := by
        unfold attrPrefix
        split <;> rfl
      simp only [hval, hmap, hpre] at hf ⊢
      -- the name as written
      obtain ⟨p, hpe, hpn, hpb, hpt⟩ : ∃ p, (if a.name.space ≠ [] then attrPrefix m a ++ b!":" else []) ++ a.name.loc = p ∧
          p ≠ [] ∧ (∀ b ∈ p, nameByte b = true) ∧ toName p = ⟨attrPrefix m a, a.name.loc⟩ := by
        refine ⟨_, rfl, ?_⟩
        by_cases hs : a.name.space ≠ []
        · rw [if_pos hs]
          have h5 : NCName (attrPrefix m a) := by
            rcases h2 with h2 | h2
            · exact absurd h2 hs
            · exact h2
          refine ⟨by simp, ?_, toName_prefix h5⟩
          intro b hb
          simp only [List.mem_append] at hb
          rcases hb with (hb | hb) | hb
          · exact (h5.2 b hb).1
          · simp only [List.mem_singleton] at hb
            subst hb
            decide
          · exact (h1.2 b hb).1
        · rw [if_neg hs]
          have : attrPrefix m a = [] := by unfold attrPrefix; rw [if_neg hs]
          rw [this]
          exact ⟨by simpa using h1.1, fun b hb => (h1.2 b (by simpa using hb)).1, by simpa using toName_plain h1⟩
      have hassoc : ∀ (x y : Str), b!" " ++ x ++ a.name.loc ++ b!"=\"" ++ escape a.value ++ b!"\"" ++ y =
          b!" " ++ (x ++ a.name.loc) ++ b!"=\"" ++ escape a.value ++ b!"\"" ++ y := by intro x y; simp
      rw [hassoc, hpe] at hf ⊢
      generalize hR : (printAttrs skip (attrMap m a) as).1 = R at hf ⊢
      have hassoc2 : ∀ z : Str, b!" " ++ p ++ b!"=\"" ++ escape a.value ++ b!"\"" ++ R ++ z ++ b!">" ++ r =
          b!" " ++ p ++ b!"=\"" ++ escape a.value ++ b!"\"" ++ (R ++ z ++ b!">" ++ r) := by intro z; simp
      rw [hassoc2] at hf ⊢
      cases f with
      | zero => omega
      | succ f =>
        rw [lexAttrs_step, attrStep_print fin hpn hpb]
        simp only
        have ih := lexAttrs_print fin skip auto r as (attrMap m a) f h4 (by
          rw [hR]
          simp only [List.length_append, List.length_cons, List.length_nil] at hf ⊢
          omega)
        rw [hR] at ih
        rw [ih, hpt]

/-! ## Tags -/

theorem rawTok_start_print (fin : LexErr) {m : PrefixMap} {n : Name} {as : List Attr} (auto skip : Bool) (r : Str)
    (hn : ElemOK m n) (ha : AttrsOK skip m as) :
    rawTok fin ((printStart m n as auto skip).1 ++ r) none =
      .ok (some (.start (rawName m n) (rawAttrs m as)), r, if auto then some (rawName m n) else none) := by
  obtain ⟨h1, h2, h3⟩ := printName_spec hn
  have e : (printStart m n as auto skip).1 ++ r =
      60 :: (printName m n ++ ((printAttrs skip m as).1 ++ (if auto then b!"/" else []) ++ b!">" ++ r)) := by
    simp [printStart]
  rw [e]
  generalize hA : (printAttrs skip m as).1 ++ (if auto then b!"/" else []) ++ b!">" ++ r = A
  have hlex := lexAttrs_print fin skip auto r as m (A.length + 1) ha (by rw [hA]; omega)
  rw [hA] at hlex
  have hA1 : ∃ c t, A = c :: t ∧ nameByte c = false := by
    rw [← hA]
    have hP : (printAttrs skip m as).1 = [] ∨ ∃ t, (printAttrs skip m as).1 = 32 :: t := by
      clear hA hlex ha hn h1 h2 h3 e
      induction as generalizing m with
      | nil => left; rfl
      | cons a as ih =>
        simp only [printAttrs]
        split
        · exact ih
        · right
          exact ⟨_, rfl⟩
    rcases hP with hP | ⟨t, hP⟩
    · rw [hP]
      cases auto
      · exact ⟨62, _, rfl, by decide⟩
      · exact ⟨47, _, rfl, by decide⟩
    · rw [hP]
      exact ⟨32, _, rfl, by decide⟩
  obtain ⟨c, t, hAc, hc⟩ := hA1
  have hread := readName_append fin hc t h1 h2
  rw [← hAc] at hread
  cases hp : printName m n with
  | nil => exact absurd hp h1
  | cons b p =>
    have hb := h2 b (by rw [hp]; simp)
    have hne : ∀ c : Byte, nameByte c = false → b ≠ c := by
      rintro c hc rfl
      rw [hb] at hc
      exact absurd hc (by decide)
    rw [hp] at hread h3
    simp only [List.cons_append] at hread ⊢
    simp only [rawTok]
    rw [if_neg (by decide)]
    rw [if_neg (hne 47 (by decide)), if_neg (hne 63 (by decide)), hread]
    simp only
    rw [hlex, h3]

theorem rawTok_stop_print (fin : LexErr) {m : PrefixMap} {n : Name} (r : Str) (hn : ElemOK m n) :
    rawTok fin (printEnd m n ++ r) none = .ok (some (.stop (rawName m n)), r, none) := by
  obtain ⟨h1, h2, h3⟩ := printName_spec hn
  have e : printEnd m n ++ r = 60 :: 47 :: (printName m n ++ 62 :: r) := by simp [printEnd]
  rw [e]
  have hread := readName_append fin (c := 62) (by decide) r h1 h2
  simp only [rawTok]
  rw [if_neg (by decide), if_pos trivial, hread]
  simp [skipSpace, h3]

/-! ## Texts -/

theorem textGo_escapes (fin : LexErr) {u : Str} {X : Except LexErr (Str × Str)}
    (hu : ∀ b1, textGo fin none 0 b1 u = X) : ∀ (es : List Str) (b1 : Byte),
    textGo fin none 0 b1 (es.flatMap escape ++ u) = prepend (es.flatMap cleanText) X
  | [], b1 => by simp [hu, prepend_nil]
  | e :: es, b1 => by
    simp only [List.flatMap_cons, List.append_assoc]
    have ih := textGo_escapes fin hu es
    have key := textGo_escapeGo (Or.inl rfl) ih e 0 false b1 (by simp)
    rw [prepend_prepend] at key
    exact key

theorem escape_eq_nil {s : Str} : escape s = [] ↔ s = [] := by
  constructor
  · intro h
    cases s with
    | nil => rfl
    | cons b s =>
      exfalso
      unfold escape at h
      simp only [escapeGo] at h
      split at h
      · have : escapeASCII b ≠ [] := by
          unfold escapeASCII
          repeat' split
          all_goals simp [replacement]
        simp [this] at h
      · split at h
        · simp [replacement] at h
        · split at h
          · simp [replacement] at h
          · simp at h
  · rintro rfl
    rfl

theorem cleanText_eq_nil {s : Str} : cleanText s = [] ↔ s = [] := by
  constructor
  · intro h
    cases s with
    | nil => rfl
    | cons b s =>
      exfalso
      unfold cleanText at h
      simp only [cleanGo] at h
      split at h
      · have : cleanASCII b ≠ [] := by
          unfold cleanASCII
          repeat' split
          all_goals simp [replacement]
        simp [this] at h
      · split at h
        · simp [replacement] at h
        · split at h
          · simp [replacement] at h
          · simp at h
  · rintro rfl
    rfl

theorem flatMap_eq_nil' {f : Str → Str} (hf : ∀ s, f s = [] ↔ s = []) {es : List Str} :
    es.flatMap f = [] ↔ ∀ s ∈ es, s = [] := by
  rw [List.flatMap_eq_nil_iff]
  exact forall_congr' fun s => by rw [hf s]

/-- The texts before a tag, or before the end of the input, are read as one text. -/
theorem raws_text (fin : LexErr) (es : List Str) (r : Str) (hr : r = [] ∨ ∃ t, r = 60 :: t) :
    raws fin (es.flatMap escape ++ r) none =
      ((if es.flatMap cleanText = [] then [] else [some (.chars (es.flatMap cleanText))]) ++ (raws fin r none).1,
        (raws fin r none).2) := by
  by_cases hes : es.flatMap cleanText = []
  · have h2 : es.flatMap escape = [] := by
      rw [flatMap_eq_nil' (fun s => escape_eq_nil)]
      rwa [flatMap_eq_nil' (fun s => cleanText_eq_nil)] at hes
    simp [h2, hes]
  · have h2 : es.flatMap escape ≠ [] := by
      intro hh
      apply hes
      rw [flatMap_eq_nil' (fun s => escape_eq_nil)] at hh
      rwa [flatMap_eq_nil' (fun s => cleanText_eq_nil)]
    rw [if_neg hes]
    have htext : lexText fin none (es.flatMap escape ++ r) = .ok (es.flatMap cleanText, r) := by
      unfold lexText
      rcases hr with rfl | ⟨t, rfl⟩
      · rw [textGo_escapes fin (X := .ok ([], [])) (by intro b1; simp [textGo])]
        simp [prepend]
      · rw [textGo_escapes fin (X := .ok ([], 60 :: t)) (by intro b1; simp [textGo])]
        simp [prepend]
    have hsafe : ∀ b ∈ es.flatMap escape, b ≠ 60 := by
      intro b hb
      rw [List.mem_flatMap] at hb
      obtain ⟨s, _, hb⟩ := hb
      exact (escapeGo_safe s 0 false (by simp) b hb).1
    cases hE : es.flatMap escape with
    | nil => exact absurd hE h2
    | cons b E =>
      rw [hE] at htext hsafe
      have htok : rawTok fin (b :: (E ++ r)) none = .ok (some (.chars (es.flatMap cleanText)), r, none) := by
        simp only [rawTok]
        rw [if_pos (hsafe b (by simp))]
        simp only [List.cons_append] at htext
        rw [htext]
      simp only [List.cons_append]
      rw [raws_ok htok]
      rfl

/-! ## Sequences of operations -/

/-- The text collected before a tag. -/
def flushText (t : Str) : List (Option Event) := if t = [] then [] else [some (.chars t)]

/-- The tags and texts as written by a sequence of operations, after the text `t`. -/
def rawOps (m : PrefixMap) (t : Str) : List Op → List (Option Event)
  | [] => flushText t
  | .chars s :: ops => rawOps m (t ++ cleanText s) ops
  | .start n as auto skip :: ops =>
    flushText t ++ some (.start (rawName m n) (rawAttrs m as)) ::
      ((if auto then [some (.stop (rawName m n))] else []) ++ rawOps (printAttrs skip m as).2 [] ops)
  | .stop n :: ops => flushText t ++ some (.stop (rawName m n)) :: rawOps m [] ops

/-- The operations can be written. -/
def OpsOK : PrefixMap → List Op → Prop
  | _, [] => True
  | m, .chars _ :: ops => OpsOK m ops
  | m, .start n as _ skip :: ops => ElemOK m n ∧ AttrsOK skip m as ∧ OpsOK (printAttrs skip m as).2 ops
  | m, .stop n :: ops => ElemOK m n ∧ OpsOK m ops

theorem raws_print (fin : LexErr) : ∀ (ops : List Op) (m : PrefixMap) (es : List Str), OpsOK m ops →
    raws fin (es.flatMap escape ++ printOps m ops) none = (rawOps m (es.flatMap cleanText) ops, fin)
  | [], m, es, _ => by
    rw [printOps, raws_text fin es [] (Or.inl rfl), raws_nil]
    simp [rawOps, flushText]
  | .chars s :: ops, m, es, h => by
    have ih := raws_print fin ops m (es ++ [s]) h
    simp only [printOps, printOp, rawOps]
    simpa using ih
  | .start n as auto skip :: ops, m, es, h => by
    obtain ⟨h1, h2, h3⟩ := h
    have ih := raws_print fin ops (printAttrs skip m as).2 [] h3
    simp only [printOps, printOp, rawOps]
    have hm : (printStart m n as auto skip).2 = (printAttrs skip m as).2 := rfl
    rw [hm]
    have hst := rawTok_start_print fin (m := m) (n := n) (as := as) auto skip
      (printOps (printAttrs skip m as).2 ops) h1 h2
    rw [raws_text fin es _ (Or.inr ⟨_, by simp [printStart]; rfl⟩), raws_ok hst]
    simp only [List.flatMap_nil, List.nil_append] at ih
    cases auto with
    | false =>
      simp only [Bool.false_eq_true, if_false]
      rw [ih]
      simp [flushText]
    | true =>
      simp only [if_true]
      have hcl : rawTok fin (printOps (printAttrs skip m as).2 ops) (some (rawName m n)) =
          .ok (some (.stop (rawName m n)), printOps (printAttrs skip m as).2 ops, none) := rfl
      rw [raws_ok hcl, ih]
      simp [flushText]
  | .stop n :: ops, m, es, h => by
    obtain ⟨h1, h2⟩ := h
    have ih := raws_print fin ops m [] h2
    simp only [printOps, printOp, rawOps]
    have hst := rawTok_stop_print fin (m := m) (n := n) (printOps m ops) h1
    rw [raws_text fin es _ (Or.inr ⟨_, by simp [printEnd]; rfl⟩), raws_ok hst]
    simp only [List.flatMap_nil, List.nil_append] at ih
    rw [ih]
    simp [flushText]

end Go3mf
