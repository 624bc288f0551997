import Verif.Lemmas.Plain
import Verif.Model.Decode
import Verif.Props.C23

/-!
# Running the decoder over encoded elements
-/

namespace Go3mf

/-! ## The stack machine -/

/-- Inside of an element `n` with decoder `d`, the tokens `evs` lead from the registers `r` to `r'` without an error and
without a panic, and back to the same element. -/
def Within (cfg : DecCfg) (d : Dec) (n : Name) (r : Regs) (evs : List (Option Event)) (r' : Regs) : Prop :=
  ∀ (strict : Bool) (fin : LexErr) (i : Nat) (idx : Int) (st : List Frame) (rest : List (Option Event)),
    runTokens cfg strict (fun _ => false) fin i ⟨r, d, n, ⟨d, n, idx⟩ :: st, []⟩ (evs ++ rest) =
      runTokens cfg strict (fun _ => false) fin (i + evs.length) ⟨r', d, n, ⟨d, n, idx⟩ :: st, []⟩ rest

theorem Within.nil {cfg : DecCfg} {d : Dec} {n : Name} {r : Regs} : Within cfg d n r [] r := by
  intro strict fin i idx st rest; rfl

theorem Within.append {cfg : DecCfg} {d : Dec} {n : Name} {r r' r'' : Regs} {evs evs' : List (Option Event)}
    (h : Within cfg d n r evs r') (h' : Within cfg d n r' evs' r'') : Within cfg d n r (evs ++ evs') r'' := by
  intro strict fin i idx st rest
  rw [List.append_assoc, h, h', List.length_append, Nat.add_assoc]

theorem Within.elem {cfg : DecCfg} {d d' : Dec} {n n' : Name} {r r1 r2 r3 : Regs} {k : Int} {as : List Attr}
    {evs : List (Option Event)} (hc : d.hasChild = true) (h1 : child cfg r d n' = some (r1, some (k, d')))
    (h2 : start cfg r1 d' as = some (r2, [])) (h3 : Within cfg d' n' r2 evs r3) :
    Within cfg d n r (some (.start n' as) :: (evs ++ [some (.stop n')])) (stop r3 d') := by
  intro strict fin i idx st rest
  have e : DState.step cfg ⟨r, d, n, ⟨d, n, idx⟩ :: st, []⟩ i (some (.start n' as)) =
      some ⟨r2, d', n', ⟨d', n', k⟩ :: ⟨d, n, idx⟩ :: st, []⟩ := by
    simp [DState.step, DState.onStart, hc, h1, h2]
  rw [List.cons_append, runTokens, e]
  simp only [List.isEmpty_nil, Bool.not_true, Bool.and_false, Bool.false_eq_true, if_false]
  rw [List.append_assoc, h3, List.singleton_append, runTokens]
  simp only [DState.step, DState.onEnd, if_true, List.isEmpty_nil, Bool.not_true, Bool.and_false, Bool.false_eq_true, if_false,
    List.length_cons, List.length_append, List.length_nil]
  congr 1
  omega

/-- A token that only changes the registers. -/
theorem Within.single {cfg : DecCfg} {d : Dec} {n : Name} {r r' : Regs} {ev : Option Event}
    (h : ∀ i idx st, DState.step cfg ⟨r, d, n, ⟨d, n, idx⟩ :: st, []⟩ i ev = some ⟨r', d, n, ⟨d, n, idx⟩ :: st, []⟩) :
    Within cfg d n r [ev] r' := by
  intro strict fin i idx st rest
  rw [List.singleton_append, runTokens, h]
  simp

/-! ## Tokens written -/

/-- The tokens read for the tokens written. -/
abbrev rd (ops : List Op) : List (Option Event) := readOps nsCore [] ops

/-- The tokens do not begin with a text. -/
def NoText : List Op → Prop
  | .chars _ :: _ => False
  | _ => True

theorem flushText_nil : flushText [] = [] := rfl

theorem readOps_flush {d t : Str} {ops : List Op} (h : NoText ops) : readOps d t ops = flushText t ++ readOps d [] ops := by
  cases ops with
  | nil => simp [readOps, flushText_nil]
  | cons op ops =>
    cases op with
    | chars s => exact h.elim
    | start n as auto skip => simp [readOps, flushText_nil]
    | stop n => simp [readOps, flushText_nil]

theorem readOps_append {d : Str} {ops' : List Op} (h : NoText ops') :
    ∀ (ops : List Op) (t : Str), readOps d t (ops ++ ops') = readOps d t ops ++ readOps d [] ops'
  | [], t => by rw [List.nil_append, readOps_flush h]; rfl
  | .chars s :: ops, t => by
    rw [List.cons_append, readOps, readOps_append h ops]; rfl
  | .start n as auto skip :: ops, t => by
    rw [List.cons_append, readOps, readOps_append h ops]; simp [readOps]
  | .stop n :: ops, t => by
    rw [List.cons_append, readOps, readOps_append h ops]; simp [readOps]

theorem rd_append {ops ops' : List Op} (h : NoText ops') : rd (ops ++ ops') = rd ops ++ rd ops' :=
  readOps_append h ops []

theorem rd_elem (n : Name) (as : List Attr) (skip : Bool) (ops : List Op) :
    rd (.start n as false skip :: ops ++ [.stop n]) =
      some (.start (fullName nsCore n) (readAttrs as)) :: (rd ops ++ [some (.stop (fullName nsCore n))]) := by
  rw [List.cons_append, rd, readOps, readOps_append (by exact trivial)]
  simp [readOps, flushText_nil]

theorem rd_auto (n : Name) (as : List Attr) (skip : Bool) : rd [.start n as true skip] =
    some (.start (fullName nsCore n) (readAttrs as)) :: ([] ++ [some (.stop (fullName nsCore n))]) := by
  simp [readOps, flushText_nil]

theorem noText_append {ops ops' : List Op} (h : NoText ops) (h' : NoText ops') : NoText (ops ++ ops') := by
  cases ops with
  | nil => exact h'
  | cons op ops => cases op <;> first | exact h | exact trivial

theorem noText_flatMap {α : Type} {f : α → List Op} {xs : List α} (h : ∀ x ∈ xs, NoText (f x)) : NoText (xs.flatMap f) := by
  induction xs with
  | nil => exact trivial
  | cons x xs ih =>
    rw [List.flatMap_cons]
    exact noText_append (h x (by simp)) (ih fun y hy => h y (by simp [hy]))

theorem noText_map {α : Type} {f : α → Op} {xs : List α} (h : ∀ x, NoText [f x]) : NoText (xs.map f) := by
  cases xs with
  | nil => exact trivial
  | cons x xs =>
    have := h x
    rw [List.map_cons]
    cases hx : f x <;> rw [hx] at this <;> first | exact this | exact trivial

/-- An element that is closed by an end element. -/
theorem Within.ops {cfg : DecCfg} {d d' : Dec} {n n' : Name} {r r1 r2 r3 : Regs} {k : Int} {as : List Attr} {skip : Bool}
    {ops : List Op} (hc : d.hasChild = true) (h1 : child cfg r d (fullName nsCore n') = some (r1, some (k, d')))
    (h2 : start cfg r1 d' (readAttrs as) = some (r2, [])) (h3 : Within cfg d' (fullName nsCore n') r2 (rd ops) r3) :
    Within cfg d n r (rd (.start n' as false skip :: ops ++ [.stop n'])) (stop r3 d') := by
  rw [rd_elem]
  exact Within.elem hc h1 h2 h3

/-- An element in auto-close mode. -/
theorem Within.auto {cfg : DecCfg} {d d' : Dec} {n n' : Name} {r r1 r2 : Regs} {k : Int} {as : List Attr} {skip : Bool}
    (hc : d.hasChild = true) (h1 : child cfg r d (fullName nsCore n') = some (r1, some (k, d')))
    (h2 : start cfg r1 d' (readAttrs as) = some (r2, [])) :
    Within cfg d n r (rd [.start n' as true skip]) (stop r2 d') := by
  rw [rd_auto]
  exact Within.elem hc h1 h2 Within.nil

theorem Within.seq {cfg : DecCfg} {d : Dec} {n : Name} {r r' r'' : Regs} {ops ops' : List Op}
    (h : Within cfg d n r (rd ops) r') (ht : NoText ops') (h' : Within cfg d n r' (rd ops') r'') :
    Within cfg d n r (rd (ops ++ ops')) r'' := by
  rw [rd_append ht]
  exact h.append h'

/-- A list of elements: `base acc r` says that the registers `r` hold the results `acc`. -/
theorem within_list {cfg : DecCfg} {d : Dec} {n : Name} {α β : Type} {f : α → List Op} {g : α → β}
    {base : List β → Regs → Prop} : ∀ {xs : List α}
    (_ : ∀ x ∈ xs, NoText (f x))
    (_ : ∀ x ∈ xs, ∀ acc r, base acc r → ∃ r', Within cfg d n r (rd (f x)) r' ∧ base (acc ++ [g x]) r')
    {acc : List β} {r : Regs} (_ : base acc r),
    ∃ r', Within cfg d n r (rd (xs.flatMap f)) r' ∧ base (acc ++ xs.map g) r'
  | [], _, _, acc, r, hb => ⟨r, Within.nil, by simpa using hb⟩
  | x :: xs, ht, h, acc, r, hb => by
    obtain ⟨r1, w1, b1⟩ := h x (by simp) acc r hb
    obtain ⟨r2, w2, b2⟩ := within_list (xs := xs) (fun y hy => ht y (by simp [hy])) (fun y hy => h y (by simp [hy])) b1
    refine ⟨r2, ?_, by simpa using b2⟩
    rw [List.flatMap_cons]
    exact w1.seq (noText_flatMap fun y hy => ht y (by simp [hy])) w2

theorem map_eq_flatMap {α : Type} (f : α → Op) (xs : List α) : xs.map f = xs.flatMap fun x => [f x] := by
  induction xs with
  | nil => rfl
  | cons x xs ih => simp [ih]

/-! ## Attributes -/

/-- The attributes are read as they are written. -/
def Clean (as : List Attr) : Prop := ∀ a ∈ as, a.name.loc ≠ [] ∧ cleanText a.value = a.value

theorem readAttrs_clean {as : List Attr} (h : Clean as) : readAttrs as = as := by
  have h1 : shown as = as := by
    unfold shown
    rw [List.filter_eq_self]
    intro a ha
    simp [(h a ha).1]
  unfold readAttrs
  rw [h1]
  conv_rhs => rw [← List.map_id as]
  refine List.map_congr_left fun a ha => ?_
  rw [(h a ha).2]; rfl

theorem Clean.append {as bs : List Attr} (h : Clean as) (h' : Clean bs) : Clean (as ++ bs) := by
  intro a ha
  rcases List.mem_append.1 ha with ha | ha
  · exact h a ha
  · exact h' a ha

theorem clean_nil : Clean [] := by intro a ha; simp at ha

theorem clean_cons {a : Attr} {as : List Attr} (h1 : a.name.loc ≠ []) (h2 : cleanText a.value = a.value) (h : Clean as) :
    Clean (a :: as) := by
  intro b hb
  rcases List.mem_cons.1 hb with rfl | hb
  · exact ⟨h1, h2⟩
  · exact h b hb

theorem clean_attrIf {c : Bool} {l v : Str} (h1 : l ≠ []) (h2 : c = true → cleanText v = v) : Clean (attrIf c l v) := by
  cases c with
  | false => exact clean_nil
  | true => exact clean_cons h1 (h2 rfl) clean_nil

theorem attrFold_append {σ : Type} {f : σ → Attr → Option (σ × List Leaf)} {s s' : σ} {as bs : List Attr}
    (h : attrFold f s as = some (s', [])) : attrFold f s (as ++ bs) = attrFold f s' bs := by
  induction as generalizing s with
  | nil => simp only [attrFold, Option.some.injEq, Prod.mk.injEq, and_true] at h; rw [List.nil_append, h]
  | cons a as ih =>
    rw [List.cons_append]
    rw [attrFold] at h ⊢
    cases hf : f s a with
    | none => simp [hf] at h
    | some p =>
      obtain ⟨s1, e⟩ := p
      rw [hf] at h
      simp only at h ⊢
      cases hg : attrFold f s1 as with
      | none => simp [hg] at h
      | some q =>
        obtain ⟨s2, e'⟩ := q
        rw [hg] at h
        simp only [Option.some.injEq, Prod.mk.injEq, List.append_eq_nil_iff] at h
        obtain ⟨rfl, rfl, rfl⟩ := h
        rw [ih hg]
        cases attrFold f s2 bs with
        | none => rfl
        | some z => simp

theorem attrFold_cons {σ : Type} {f : σ → Attr → Option (σ × List Leaf)} {s s' : σ} {a : Attr} {as : List Attr}
    (h : f s a = some (s', [])) : attrFold f s (a :: as) = attrFold f s' as := by
  rw [attrFold, h]
  simp only
  cases attrFold f s' as with
  | none => rfl
  | some q => simp

theorem attrFold_if {σ : Type} {f : σ → Attr → Option (σ × List Leaf)} {s s' : σ} {c : Bool} {l v : Str} {as : List Attr}
    (h : c = true → f s (attr l v) = some (s', [])) (h' : c = false → s = s') :
    attrFold f s (attrIf c l v ++ as) = attrFold f s' as := by
  cases c with
  | false => rw [h' rfl]; rfl
  | true => exact attrFold_cons (h rfl)

theorem attrLoop_cons {σ : Type} {f : σ → Attr → σ × List Leaf} {s s' : σ} {a : Attr} {as : List Attr}
    (h : f s a = (s', [])) : attrLoop f s (a :: as) = attrLoop f s' as := by
  rw [attrLoop, h]
  rfl

theorem attrLoop_if {σ : Type} {f : σ → Attr → σ × List Leaf} {s s' : σ} {c : Bool} {l v : Str} {as : List Attr}
    (h : c = true → f s (attr l v) = (s', [])) (h' : c = false → s = s') :
    attrLoop f s (attrIf c l v ++ as) = attrLoop f s' as := by
  cases c with
  | false => rw [h' rfl]; rfl
  | true => exact attrLoop_cons (h rfl)

theorem uintAttr_format (req : Bool) (l : Str) (x : UInt32) : uintAttr req (attr l (formatUint x)) = (x, []) := by
  simp [uintAttr, attr, parseUintVal_format, C20_uint]

theorem floatAttr_format (req : Bool) (l : Str) (prec : Int) (x : F32) :
    floatAttr req (attr l (x.format prec)) = (x.back prec, []) := by
  simp [floatAttr, attr, parseVal_back, parse_back]

theorem matrixAttr_format (l : Str) (m : Matrix) : matrixAttr (attr l m.str) = (m.back, []) := by
  simp [matrixAttr, enumAttr, attr, parse_matrix_back]

theorem colorAttr_format (l : Str) (c : RGBA) : colorAttr (attr l (formatRGBA c)) = (c, []) := by
  simp [colorAttr, attr, C16_roundtrip]

theorem uintsAttr_format (l : Str) (xs : List UInt32) : uintsAttr (attr l (joinWords formatUint xs)) = (xs, []) := by
  simp only [uintsAttr, attr, fields_joinWords word_formatUint, List.map_map, List.flatMap_map, C20_uint]
  simp [Function.comp_def, parseUintVal_format]

theorem floatsAttr_format (l : Str) (prec : Int) (xs : List F32) :
    floatsAttr (attr l (joinWords (F32.format prec) xs)) = (xs.map (F32.back prec), []) := by
  simp only [floatsAttr, attr, fields_joinWords (word_format prec), List.map_map, List.flatMap_map, parse_back]
  simp [Function.comp_def, parseVal_back]

/-! ## Attribute groups -/

/-- The attribute group is one that the decoder produces for a parent of the given name. -/
def AttrGroup.OK (env : Env) (parent : Str) : AttrGroup → Prop
  | .unknown space attrs => space ≠ [] ∧ env.load space = none ∧ attrs ≠ [] ∧
      ∀ a ∈ attrs, a.name.space = space ∧ a.name.loc ≠ [] ∧ cleanText a.value = a.value
  | .prodBuild u => env.production = true ∧ parent = b!"build" ∧ uuidValid u = true ∧ cleanText u = u
  | .prodItem u p => env.production = true ∧ parent = b!"item" ∧ uuidValid u = true ∧ cleanText u = u ∧ cleanText p = p
  | .prodObject u => env.production = true ∧ parent = b!"object" ∧ uuidValid u = true ∧ cleanText u = u
  | .prodComponent u p =>
    env.production = true ∧ parent = b!"component" ∧ uuidValid u = true ∧ cleanText u = u ∧ cleanText p = p
  | .sliceObject _ _ => env.slices = true ∧ parent = b!"object"

/-- At most one group for each name space, each of the kind that the decoder produces. -/
def AnyOK (env : Env) (parent : Str) (any : AnyAttr) : Prop :=
  (any.map AttrGroup.ns).Nodup ∧ ∀ g ∈ any, g.OK env parent

theorem load_production {env : Env} (h : env.production = true) : env.load nsProduction = some .production := by
  simp [Env.load, h]

theorem load_slices {env : Env} (h : env.slices = true) : env.load nsSlices = some .slices := by
  have : nsSlices ≠ nsProduction := by decide +kernel
  simp [Env.load, h, this]

theorem anyUpdate_none {a : Attr} : ∀ {any : AnyAttr}, a.name.space ∉ any.map AttrGroup.ns → anyUpdate a any = none
  | [], _ => rfl
  | g :: gs, h => by
    simp only [List.map_cons, List.mem_cons, not_or] at h
    rw [anyUpdate, if_neg (fun e => h.1 e.symm), anyUpdate_none h.2]
    rfl

theorem anyUpdate_last {a : Attr} {g : AttrGroup} (hg : g.ns = a.name.space) : ∀ {any : AnyAttr},
    a.name.space ∉ any.map AttrGroup.ns →
    anyUpdate a (any ++ [g]) = some (any ++ [(g.unmarshal a).1], (g.unmarshal a).2)
  | [], _ => by simp [anyUpdate, hg]
  | x :: xs, h => by
    simp only [List.map_cons, List.mem_cons, not_or] at h
    rw [List.cons_append, anyUpdate, if_neg (fun e => h.1 e.symm), anyUpdate_last hg h.2]
    rfl

/-- The first attribute of a new group. -/
theorem anyAttrAdd_new {env : Env} {parent : Str} {any : AnyAttr} {a : Attr} {g : AttrGroup}
    (h : a.name.space ∉ any.map AttrGroup.ns) (hg : newAttrGroup env parent a.name.space = some g) :
    anyAttrAdd env parent any a = some (any ++ [(g.unmarshal a).1], (g.unmarshal a).2) := by
  rw [anyAttrAdd, anyUpdate_none h, hg]

/-- A further attribute of the last group. -/
theorem anyAttrAdd_last {env : Env} {parent : Str} {any : AnyAttr} {a : Attr} {g : AttrGroup} (hg : g.ns = a.name.space)
    (h : a.name.space ∉ any.map AttrGroup.ns) :
    anyAttrAdd env parent (any ++ [g]) a = some (any ++ [(g.unmarshal a).1], (g.unmarshal a).2) := by
  rw [anyAttrAdd, anyUpdate_last hg h]

theorem fold_unknown {env : Env} {parent space : Str} {pre : AnyAttr} (hp : space ∉ pre.map AttrGroup.ns) :
    ∀ (as done : List Attr), (∀ a ∈ as, a.name.space = space) →
    attrFold (anyAttrAdd env parent) (pre ++ [.unknown space done]) as = some (pre ++ [.unknown space (done ++ as)], [])
  | [], done, _ => by simp [attrFold]
  | a :: as, done, h => by
    have ha : a.name.space = space := h a (by simp)
    have h1 := anyAttrAdd_last (env := env) (parent := parent) (any := pre) (a := a) (g := .unknown space done) ha.symm
      (by rw [ha]; exact hp)
    rw [attrFold_cons h1]
    have := fold_unknown (env := env) (parent := parent) hp as (done ++ [a]) (fun b hb => h b (by simp [hb]))
    simpa [AttrGroup.unmarshal] using this

theorem fold_group {env : Env} {parent : Str} {g : AttrGroup} (hg : g.OK env parent) {pre : AnyAttr}
    (hp : g.ns ∉ pre.map AttrGroup.ns) :
    attrFold (anyAttrAdd env parent) pre g.appends.flatten = some (pre ++ [g], []) := by
  cases g with
  | unknown space attrs =>
    obtain ⟨-, hl, hne, ha⟩ := hg
    cases attrs with
    | nil => exact absurd rfl hne
    | cons a as =>
      have hs : a.name.space = space := (ha a (by simp)).1
      have h1 := anyAttrAdd_new (env := env) (parent := parent) (any := pre) (a := a) (g := .unknown space [])
        (by rw [hs]; exact hp) (by simp [newAttrGroup, hs, hl])
      simp only [AttrGroup.appends, List.flatten_cons, List.flatten_nil, List.append_nil]
      rw [attrFold_cons h1]
      exact fold_unknown hp as [a] fun b hb => (ha b (by simp [hb])).1
  | prodBuild u =>
    obtain ⟨he, rfl, hu, -⟩ := hg
    have h1 := anyAttrAdd_new (env := env) (parent := b!"build") (any := pre) (a := ⟨⟨nsProduction, b!"UUID"⟩, u⟩)
      (g := .prodBuild []) hp (by simp [newAttrGroup, load_production he])
    simp only [AttrGroup.unmarshal, hu, if_true] at h1
    simp only [AttrGroup.appends, List.flatten_cons, List.flatten_nil, List.append_nil]
    rw [attrFold_cons h1]; rfl
  | prodObject u =>
    obtain ⟨he, rfl, hu, -⟩ := hg
    have h1 := anyAttrAdd_new (env := env) (parent := b!"object") (any := pre) (a := ⟨⟨nsProduction, b!"UUID"⟩, u⟩)
      (g := .prodObject []) hp (by simp [newAttrGroup, load_production he])
    simp only [AttrGroup.unmarshal, hu, if_true] at h1
    simp only [AttrGroup.appends, List.flatten_cons, List.flatten_nil, List.append_nil]
    rw [attrFold_cons h1]; rfl
  | prodItem u p =>
    obtain ⟨he, rfl, hu, -⟩ := hg
    have hn : newAttrGroup env b!"item" nsProduction = some (.prodItem [] []) := by
      simp [newAttrGroup, load_production he]
    by_cases hpe : p = []
    · subst hpe
      have h1 := anyAttrAdd_new (env := env) (parent := b!"item") (any := pre) (a := ⟨⟨nsProduction, b!"UUID"⟩, u⟩) hp hn
      simp only [AttrGroup.unmarshal, hu, if_true] at h1
      simp only [AttrGroup.appends, ne_eq, not_true_eq_false, if_false, List.nil_append, List.flatten_cons, List.flatten_nil,
        List.append_nil]
      rw [attrFold_cons h1]; rfl
    · have h1 := anyAttrAdd_new (env := env) (parent := b!"item") (any := pre) (a := ⟨⟨nsProduction, b!"path"⟩, p⟩) hp hn
      have h2 := anyAttrAdd_last (env := env) (parent := b!"item") (any := pre) (a := ⟨⟨nsProduction, b!"UUID"⟩, u⟩)
        (g := .prodItem [] p) rfl hp
      simp only [AttrGroup.unmarshal, hu, if_true] at h2
      have e : (AttrGroup.prodItem u p).appends.flatten =
          [⟨⟨nsProduction, b!"path"⟩, p⟩, ⟨⟨nsProduction, b!"UUID"⟩, u⟩] := by simp [AttrGroup.appends, hpe]
      rw [e, attrFold_cons h1]
      exact (attrFold_cons h2).trans rfl
  | prodComponent u p =>
    obtain ⟨he, rfl, hu, -⟩ := hg
    have hn : newAttrGroup env b!"component" nsProduction = some (.prodComponent [] []) := by
      simp [newAttrGroup, load_production he]
    by_cases hpe : p = []
    · subst hpe
      have h1 := anyAttrAdd_new (env := env) (parent := b!"component") (any := pre) (a := ⟨⟨nsProduction, b!"UUID"⟩, u⟩) hp hn
      simp only [AttrGroup.unmarshal, hu, if_true] at h1
      simp only [AttrGroup.appends, ne_eq, not_true_eq_false, if_false, List.nil_append, List.flatten_cons, List.flatten_nil,
        List.append_nil]
      rw [attrFold_cons h1]; rfl
    · have h1 := anyAttrAdd_new (env := env) (parent := b!"component") (any := pre) (a := ⟨⟨nsProduction, b!"path"⟩, p⟩) hp hn
      have h2 := anyAttrAdd_last (env := env) (parent := b!"component") (any := pre) (a := ⟨⟨nsProduction, b!"UUID"⟩, u⟩)
        (g := .prodComponent [] p) rfl hp
      simp only [AttrGroup.unmarshal, hu, if_true] at h2
      have e : (AttrGroup.prodComponent u p).appends.flatten =
          [⟨⟨nsProduction, b!"path"⟩, p⟩, ⟨⟨nsProduction, b!"UUID"⟩, u⟩] := by simp [AttrGroup.appends, hpe]
      rw [e, attrFold_cons h1]
      exact (attrFold_cons h2).trans rfl
  | sliceObject i m =>
    obtain ⟨he, rfl⟩ := hg
    have h1 := anyAttrAdd_new (env := env) (parent := b!"object") (any := pre)
      (a := ⟨⟨nsSlices, b!"slicestackid"⟩, formatUint i⟩) (g := .sliceObject 0 .full) hp
      (by simp [newAttrGroup, load_slices he])
    simp only [AttrGroup.unmarshal, if_true, C20_uint] at h1
    have h2 := anyAttrAdd_last (env := env) (parent := b!"object") (any := pre)
      (a := ⟨⟨nsSlices, b!"meshresolution"⟩, m.str⟩) (g := .sliceObject i .full) rfl hp
    have e : newMeshResolution m.str = some m := (C21_meshResolution _ m).2 rfl
    simp only [AttrGroup.unmarshal, e, if_true] at h2
    simp only [AttrGroup.appends, List.flatten_cons, List.flatten_nil, List.append_nil]
    rw [attrFold_cons h1]
    exact (attrFold_cons h2).trans rfl

theorem fold_groups {env : Env} {parent : Str} : ∀ {any pre : AnyAttr}, (∀ g ∈ any, g.OK env parent) →
    ((pre ++ any).map AttrGroup.ns).Nodup →
    attrFold (anyAttrAdd env parent) pre (encodeAnyAttr any) = some (pre ++ any, [])
  | [], pre, _, _ => by simp [encodeAnyAttr, attrFold]
  | g :: gs, pre, h, hn => by
    have hp : g.ns ∉ pre.map AttrGroup.ns := by
      intro hm
      rw [List.map_append, List.map_cons] at hn
      exact (List.disjoint_of_nodup_append hn) hm (by simp)
    have e : encodeAnyAttr (g :: gs) = g.appends.flatten ++ encodeAnyAttr gs := by simp [encodeAnyAttr]
    rw [e, attrFold_append (fold_group (h g (by simp)) hp),
      fold_groups (pre := pre ++ [g]) (fun x hx => h x (by simp [hx])) (by simpa using hn)]
    simp

theorem fold_any {env : Env} {parent : Str} {any : AnyAttr} (h : AnyOK env parent any) :
    attrFold (anyAttrAdd env parent) [] (encodeAnyAttr any) = some (any, []) := by
  have := fold_groups (pre := []) h.2 (by simpa using h.1)
  simpa using this

theorem AttrGroup.OK.attrs {env : Env} {parent : Str} {g : AttrGroup} (h : g.OK env parent) :
    ∀ a ∈ g.appends.flatten, a.name.space = g.ns ∧ a.name.loc ≠ [] ∧ cleanText a.value = a.value := by
  cases g with
  | unknown space attrs =>
    obtain ⟨-, -, -, ha⟩ := h
    simpa [AttrGroup.appends, AttrGroup.ns] using ha
  | prodBuild u =>
    intro a ha
    simp only [AttrGroup.appends, List.flatten_cons, List.flatten_nil, List.append_nil, List.mem_singleton] at ha
    subst ha
    exact ⟨rfl, by simp, h.2.2.2⟩
  | prodObject u =>
    intro a ha
    simp only [AttrGroup.appends, List.flatten_cons, List.flatten_nil, List.append_nil, List.mem_singleton] at ha
    subst ha
    exact ⟨rfl, by simp, h.2.2.2⟩
  | prodItem u p =>
    intro a ha
    by_cases hp : p = []
    · simp only [AttrGroup.appends, hp, ne_eq, not_true_eq_false, if_false, List.nil_append, List.flatten_cons,
        List.flatten_nil, List.append_nil, List.mem_singleton] at ha
      subst ha
      exact ⟨rfl, by simp, h.2.2.2.1⟩
    · simp only [AttrGroup.appends, hp, ne_eq, not_false_eq_true, if_true, List.flatten_cons, List.cons_append,
        List.nil_append, List.flatten_nil, List.append_nil, List.mem_cons, List.not_mem_nil, or_false] at ha
      rcases ha with rfl | rfl
      · exact ⟨rfl, by simp, h.2.2.2.2⟩
      · exact ⟨rfl, by simp, h.2.2.2.1⟩
  | prodComponent u p =>
    intro a ha
    by_cases hp : p = []
    · simp only [AttrGroup.appends, hp, ne_eq, not_true_eq_false, if_false, List.nil_append, List.flatten_cons,
        List.flatten_nil, List.append_nil, List.mem_singleton] at ha
      subst ha
      exact ⟨rfl, by simp, h.2.2.2.1⟩
    · simp only [AttrGroup.appends, hp, ne_eq, not_false_eq_true, if_true, List.flatten_cons, List.cons_append,
        List.nil_append, List.flatten_nil, List.append_nil, List.mem_cons, List.not_mem_nil, or_false] at ha
      rcases ha with rfl | rfl
      · exact ⟨rfl, by simp, h.2.2.2.2⟩
      · exact ⟨rfl, by simp, h.2.2.2.1⟩
  | sliceObject i m =>
    intro a ha
    simp only [AttrGroup.appends, List.flatten_cons, List.flatten_nil, List.append_nil, List.mem_cons, List.not_mem_nil,
      or_false] at ha
    rcases ha with rfl | rfl
    · exact ⟨rfl, by simp, (plain_formatUint i).clean⟩
    · exact ⟨rfl, by simp, (plain_meshResolution m).clean⟩

theorem AttrGroup.OK.ns_ne {env : Env} {parent : Str} {g : AttrGroup} (h : g.OK env parent) : g.ns ≠ [] := by
  cases g with
  | unknown space attrs => exact h.1
  | _ => simp only [AttrGroup.ns]; decide +kernel

theorem AnyOK.attrs {env : Env} {parent : Str} {any : AnyAttr} (h : AnyOK env parent any) :
    ∀ a ∈ encodeAnyAttr any, a.name.space ∈ any.map AttrGroup.ns ∧ a.name.space ≠ [] ∧ a.name.loc ≠ [] ∧
      cleanText a.value = a.value := by
  intro a ha
  unfold encodeAnyAttr at ha
  rw [← List.flatMap_id', List.flatMap_assoc] at ha
  obtain ⟨g, hg, hag⟩ := List.mem_flatMap.1 ha
  rw [List.flatMap_id'] at hag
  obtain ⟨h1, h2, h3⟩ := (h.2 g hg).attrs a hag
  exact ⟨List.mem_map.2 ⟨g, hg, h1.symm⟩, by rw [h1]; exact (h.2 g hg).ns_ne, h2, h3⟩

theorem AnyOK.clean {env : Env} {parent : Str} {any : AnyAttr} (h : AnyOK env parent any) : Clean (encodeAnyAttr any) :=
  fun a ha => (h.attrs a ha).2.2

/-- An element whose attributes in name spaces go to its attribute groups. -/
theorem attrFold_any {σ : Type} {env : Env} {parent : Str} {f : σ → Attr → Option (σ × List Leaf)} {get : σ → AnyAttr}
    {set : σ → AnyAttr → σ}
    (hf : ∀ s a, a.name.space ≠ [] → f s a = (anyAttrAdd env parent (get s) a).map fun p => (set s p.1, p.2))
    (hget : ∀ s x, get (set s x) = x) (hset : ∀ s x y, set (set s x) y = set s y) (hid : ∀ s, set s (get s) = s) :
    ∀ (as : List Attr) (s : σ), (∀ a ∈ as, a.name.space ≠ []) →
      attrFold f s as = (attrFold (anyAttrAdd env parent) (get s) as).map fun p => (set s p.1, p.2)
  | [], s, _ => by simp [attrFold, hid]
  | a :: as, s, h => by
    rw [attrFold, attrFold, hf s a (h a (by simp))]
    cases ha : anyAttrAdd env parent (get s) a with
    | none => rfl
    | some p =>
      simp only [Option.map_some]
      rw [attrFold_any hf hget hset hid as (set s p.1) (fun b hb => h b (by simp [hb])), hget]
      cases attrFold (anyAttrAdd env parent) p.1 as with
      | none => rfl
      | some q => simp [hset]

/-- The same for the attributes of groups as the decoder produces them. -/
theorem attrFold_groups {σ : Type} {env : Env} {parent : Str} {f : σ → Attr → Option (σ × List Leaf)} {get : σ → AnyAttr}
    {set : σ → AnyAttr → σ} {s : σ} {any : AnyAttr} (h : AnyOK env parent any) (h0 : get s = [])
    (hf : ∀ s a, a.name.space ≠ [] → f s a = (anyAttrAdd env parent (get s) a).map fun p => (set s p.1, p.2))
    (hget : ∀ s x, get (set s x) = x) (hset : ∀ s x y, set (set s x) y = set s y) (hid : ∀ s, set s (get s) = s) :
    attrFold f s (encodeAnyAttr any) = some (set s any, []) := by
  rw [attrFold_any hf hget hset hid _ _ (fun a ha => (h.attrs a ha).2.1), h0, fold_any h]
  rfl

end Go3mf
