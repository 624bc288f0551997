import Verif.Lemmas.RtModel

/-!
# Encoded models decoded
-/

namespace Go3mf

/-! ## Extensions -/

/-- The prefixes that the root element declares. -/
def Model.decls (m : Model) : List (Str × Str) := m.extensions.map fun x => (x.localName, x.ns)

theorem markRequired_map {l : Str} : ∀ {xs : List Extension}, (xs.map (·.localName)).Nodup →
    markRequired l xs = xs.map fun x => if x.localName = l then { x with isRequired := true } else x
  | [], _ => rfl
  | x :: xs, h => by
    rw [List.map_cons, List.nodup_cons] at h
    rw [markRequired, List.map_cons]
    by_cases hx : x.localName = l
    · rw [if_pos hx, if_pos hx]
      congr 1
      symm
      rw [List.map_congr_left (g := id), List.map_id]
      intro y hy
      rw [if_neg]
      · rfl
      · intro hy'
        exact h.1 (by rw [hx, ← hy']; exact List.mem_map_of_mem hy)
    · rw [if_neg hx, if_neg hx, markRequired_map h.2]

theorem foldl_markRequired : ∀ (ls : List Str) {xs : List Extension}, (xs.map (·.localName)).Nodup →
    ls.foldl (fun xs l => markRequired l xs) xs =
      xs.map fun x => if x.localName ∈ ls then { x with isRequired := true } else x
  | [], xs, h => by simp
  | l :: ls, xs, h => by
    rw [List.foldl_cons, markRequired_map h, foldl_markRequired ls, List.map_map]
    · apply List.map_congr_left
      intro x _
      by_cases h1 : x.localName = l
      · simp [h1]
      · simp [h1]
    · have : ((xs.map fun x => if x.localName = l then { x with isRequired := true } else x).map (·.localName)) =
          xs.map (·.localName) := by
        rw [List.map_map]
        apply List.map_congr_left
        intro x _
        by_cases h1 : x.localName = l <;> simp [h1]
      rw [this]
      exact h

theorem restore_required {m : Model} (h : (m.extensions.map (·.localName)).Nodup) :
    m.requiredNames.foldl (fun xs l => markRequired l xs)
      (m.extensions.map fun x => (⟨x.ns, x.localName, false⟩ : Extension)) = m.extensions := by
  rw [foldl_markRequired, List.map_map]
  · conv_rhs => rw [← List.map_id m.extensions]
    apply List.map_congr_left
    intro x hx
    have hm : x.localName ∈ m.requiredNames ↔ x.isRequired = true := by
      unfold Model.requiredNames
      rw [List.mem_mergeSort, List.mem_map]
      constructor
      · rintro ⟨y, hy, he⟩
        rw [List.mem_filter] at hy
        rw [← List.inj_on_of_nodup_map h hy.1 hx he]
        exact hy.2
      · intro hr
        exact ⟨x, List.mem_filter.2 ⟨hx, hr⟩, rfl⟩
    simp only [Function.comp, id]
    by_cases hr : x.isRequired = true
    · rw [if_pos (hm.2 hr), ← hr]
    · rw [if_neg (fun h => hr (hm.1 h))]
      simp only [Bool.not_eq_true] at hr
      rw [← hr]
  · rw [List.map_map]
    exact h

/-! ## The attributes of the root element -/

/-- What the attributes of the root element need. -/
structure Model.RootDom (env : Env) (m : Model) : Prop where
  names : ∀ x ∈ m.extensions, NCName x.localName ∧ x.localName ≠ b!"xml" ∧ x.localName ≠ b!"xmlns"
  spaces : ∀ x ∈ m.extensions, x.ns ≠ b!"xmlns" ∧ cleanText x.ns = x.ns
  distinct : (m.extensions.map (·.localName)).Nodup
  words : ∀ x ∈ m.extensions, x.isRequired = true → Spec.Word x.localName
  required : cleanText (Str.join b!" " m.requiredNames) = Str.join b!" " m.requiredNames
  language : cleanText m.language = m.language
  thumbnail : cleanText m.thumbnail = m.thumbnail
  attrs : AnyDom env m.decls b!"model" m.anyAttr
  attrSpaces : ∀ a ∈ encodeAnyAttr m.anyAttr, a.name.space ≠ nsXML ∧ a.name.space ≠ b!"xmlns"

section
variable {env : Env} {m : Model}

/-- The attributes before the groups. -/
def Model.rootPre (m : Model) (isRoot : Bool) : List Attr :=
  [attr b!"xmlns" nsCore, attr b!"unit" m.units.str, ⟨⟨nsXML, b!"lang"⟩, m.language⟩] ++
    attrIf (isRoot && m.thumbnail ≠ []) b!"thumbnail" m.thumbnail ++
    (m.extensions.map fun x => ⟨⟨b!"xmlns", x.localName⟩, x.ns⟩) ++
    attrIf (m.requiredNames ≠ []) b!"requiredextensions" (Str.join b!" " m.requiredNames)

theorem rootAttrs_eq (m : Model) (isRoot : Bool) : m.rootAttrs isRoot = m.rootPre isRoot ++ encodeAnyAttr m.anyAttr := rfl

theorem mem_attrIf {c : Bool} {l v : Str} {a : Attr} (h : a ∈ attrIf c l v) : a = attr l v := by
  cases c with
  | false => simp [attrIf] at h
  | true => simpa [attrIf] using h

theorem rootPre_cases {isRoot : Bool} {a : Attr} (h : a ∈ m.rootPre isRoot) :
    a = attr b!"xmlns" nsCore ∨ a = attr b!"unit" m.units.str ∨ a = ⟨⟨nsXML, b!"lang"⟩, m.language⟩ ∨
    a = attr b!"thumbnail" m.thumbnail ∨ (∃ x ∈ m.extensions, a = ⟨⟨b!"xmlns", x.localName⟩, x.ns⟩) ∨
    a = attr b!"requiredextensions" (Str.join b!" " m.requiredNames) := by
  unfold Model.rootPre at h
  simp only [List.mem_append, List.mem_cons, List.not_mem_nil, or_false, List.mem_map] at h
  rcases h with ((h | h) | ⟨x, hx, rfl⟩) | h
  · rcases h with h | h | h
    · exact Or.inl h
    · exact Or.inr (Or.inl h)
    · exact Or.inr (Or.inr (Or.inl h))
  · exact Or.inr (Or.inr (Or.inr (Or.inl (mem_attrIf h))))
  · exact Or.inr (Or.inr (Or.inr (Or.inr (Or.inl ⟨x, hx, rfl⟩))))
  · exact Or.inr (Or.inr (Or.inr (Or.inr (Or.inr (mem_attrIf h)))))

theorem decls_attrIf (c : Bool) (l v : Str) : decls (attrIf c l v) = [] := by
  cases c with
  | false => rfl
  | true => simp [attrIf, decls, attr]

theorem decls_exts (xs : List Extension) : decls (xs.map fun x => ⟨⟨b!"xmlns", x.localName⟩, x.ns⟩) =
    xs.map fun x => (x.localName, x.ns) := by
  simp [decls, List.filterMap_map, Function.comp_def]

theorem decls_pre (m : Model) (isRoot : Bool) : decls (m.rootPre isRoot) = m.decls := by
  unfold Model.rootPre
  rw [decls_append, decls_append, decls_append, decls_attrIf, decls_attrIf, decls_exts]
  have : decls [attr b!"xmlns" nsCore, attr b!"unit" m.units.str, ⟨⟨nsXML, b!"lang"⟩, m.language⟩] = [] := by
    simp [decls, attr, nsXML_ne]
  rw [this]
  simp [Model.decls]

theorem decls_root (h : m.RootDom env) (isRoot : Bool) : decls (m.rootAttrs isRoot) = m.decls := by
  rw [rootAttrs_eq, decls_append, decls_pre]
  have : decls (encodeAnyAttr m.anyAttr) = [] := by
    unfold decls
    rw [List.filterMap_eq_nil_iff]
    intro a ha
    rw [if_neg (h.attrSpaces a ha).2]
  rw [this, List.append_nil]

theorem rootOK (h : m.RootDom env) (isRoot : Bool) : RootOK (m.rootAttrs isRoot) where
  names a ha := by
    rw [rootAttrs_eq, List.mem_append] at ha
    rcases ha with ha | ha
    · rcases rootPre_cases ha with rfl | rfl | rfl | rfl | ⟨x, hx, rfl⟩ | rfl
      · decide +kernel
      · exact (by decide +kernel : NCName b!"unit")
      · exact (by decide +kernel : NCName b!"lang")
      · exact (by decide +kernel : NCName b!"thumbnail")
      · exact (h.names x hx).1
      · exact (by decide +kernel : NCName b!"requiredextensions")
    · exact (h.attrs.2 a ha).1
  spaces l a r e := by
    have key : a ∈ m.rootPre isRoot ∨ ∃ c, l = m.rootPre isRoot ++ c ∧ a ∈ encodeAnyAttr m.anyAttr := by
      rw [rootAttrs_eq, List.append_eq_append_iff] at e
      rcases e with ⟨c, h1, h2⟩ | ⟨c, h1, h2⟩
      · exact Or.inr ⟨c, h1, by rw [h2]; simp⟩
      · cases c with
        | nil => exact Or.inr ⟨[], by rw [h1]; simp, by rw [List.nil_append] at h2; rw [← h2]; simp⟩
        | cons x c =>
          rw [List.cons_append, List.cons.injEq] at h2
          exact Or.inl (by rw [h1, h2.1]; simp)
    rcases key with ha | ⟨c, rfl, ha⟩
    · rcases rootPre_cases ha with rfl | rfl | rfl | rfl | ⟨x, hx, rfl⟩ | rfl
      · exact Or.inl rfl
      · exact Or.inl rfl
      · exact Or.inr (Or.inr (Or.inl rfl))
      · exact Or.inl rfl
      · exact Or.inr (Or.inl rfl)
      · exact Or.inl rfl
    · right; right; right
      rcases (h.attrs.2 a ha).2 with h1 | h1
      · exact absurd h1 (h.attrSpaces a ha).1
      · rw [decls_append, decls_pre, List.map_append]
        exact List.mem_append_left _ h1
  prefixes d hd := by
    rw [decls_root h] at hd
    obtain ⟨x, hx, rfl⟩ := List.mem_map.1 hd
    exact ⟨(h.names x hx).2.1, (h.names x hx).2.2, (h.spaces x hx).1⟩
  distinct := by
    rw [decls_root h, Model.decls, List.map_map]
    exact h.distinct
  clean a ha hs := by
    rw [rootAttrs_eq, List.mem_append] at ha
    rcases ha with ha | ha
    · rcases rootPre_cases ha with rfl | rfl | rfl | rfl | ⟨x, hx, rfl⟩ | rfl
      · decide +kernel
      · exact absurd hs (by simp [attr])
      · exact absurd hs (by simp [nsXML])
      · exact absurd hs (by simp [attr])
      · exact (h.spaces x hx).2
      · exact absurd hs (by simp [attr])
    · rcases hs with hs | hs
      · exact absurd hs (h.attrSpaces a ha).2
      · exact absurd hs.1 (h.attrs.1.attrs a ha).2.1

theorem root_clean (h : m.RootDom env) (isRoot : Bool) : Clean (m.rootAttrs isRoot) := by
  intro a ha
  refine ⟨((rootOK h isRoot).names a ha).1, ?_⟩
  rw [rootAttrs_eq, List.mem_append] at ha
  rcases ha with ha | ha
  · rcases rootPre_cases ha with rfl | rfl | rfl | rfl | ⟨x, hx, rfl⟩ | rfl
    · decide +kernel
    · exact (plain_units _).clean
    · exact h.language
    · exact h.thumbnail
    · exact (h.spaces x hx).2
    · exact h.required
  · exact (h.attrs.1.attrs a ha).2.2.2

theorem root_shown (h : m.RootDom env) (isRoot : Bool) : shown (m.rootAttrs isRoot) = m.rootAttrs isRoot := by
  unfold shown
  rw [List.filter_eq_self]
  intro a ha
  simpa using ((rootOK h isRoot).names a ha).1

theorem root_default (h : m.RootDom env) (isRoot : Bool) : defaultNs (m.rootAttrs isRoot) = nsCore := by
  unfold defaultNs
  have e : (m.rootAttrs isRoot).reverse.find? (fun a => decide (a.name.space = [] ∧ a.name.loc = b!"xmlns")) =
      some (attr b!"xmlns" nsCore) := by
    have hs : ((m.rootAttrs isRoot).reverse.find? (fun a => decide (a.name.space = [] ∧ a.name.loc = b!"xmlns"))).isSome := by
      rw [List.find?_isSome]
      exact ⟨attr b!"xmlns" nsCore, by simp [Model.rootAttrs], by simp [attr]⟩
    obtain ⟨a, ha⟩ := Option.isSome_iff_exists.1 hs
    have h1 := List.find?_some ha
    have h2 := List.mem_of_find?_eq_some ha
    simp only [decide_eq_true_eq] at h1
    rw [List.mem_reverse, rootAttrs_eq, List.mem_append] at h2
    rw [ha]
    rcases h2 with h2 | h2
    · rcases rootPre_cases h2 with rfl | rfl | rfl | rfl | ⟨x, hx, rfl⟩ | rfl
      · rfl
      · exact absurd h1 (by simp [attr])
      · exact absurd h1 (by simp [nsXML])
      · exact absurd h1 (by simp [attr])
      · exact absurd h1 (by simp)
      · exact absurd h1 (by simp [attr])
    · exact absurd h1.1 (h.attrs.1.attrs a h2).2.1
  rw [e]
  rfl

/-! ## The start of the root element -/

theorem attrFold_congr {σ : Type} {f g : σ → Attr → Option (σ × List Leaf)} : ∀ {as : List Attr} {s : σ},
    (∀ s, ∀ a ∈ as, f s a = g s a) → attrFold f s as = attrFold g s as
  | [], s, _ => rfl
  | a :: as, s, h => by
    rw [attrFold, attrFold, h s a (by simp)]
    cases g s a with
    | none => rfl
    | some p =>
      simp only
      rw [attrFold_congr fun s b hb => h s b (by simp [hb])]

theorem fold_exts : ∀ (xs : List Extension) (s : ModelAttrs),
    attrFold (modelAttr env) s (xs.map fun x => ⟨⟨b!"xmlns", x.localName⟩, x.ns⟩) =
      some (({ s.1 with extensions := s.1.extensions ++ xs.map fun x => ⟨x.ns, x.localName, false⟩ }, s.2), [])
  | [], s => by simp [attrFold]
  | x :: xs, s => by
    rw [List.map_cons, attrFold_cons (s' := ({ s.1 with extensions := s.1.extensions ++ [⟨x.ns, x.localName, false⟩] }, s.2))]
    · rw [fold_exts xs]
      simp
    · simp only [modelAttr]
      rw [if_neg (by simp), if_neg (by simp [nsXML]), if_pos trivial]

/-- The model `m` with what the root model part does not contain taken from `m0`. -/
def Model.over (m0 m : Model) : Model :=
  { m with
    path := m0.path, attachments := m0.attachments, childs := m0.childs, rootRelationships := m0.rootRelationships
    relationships := m0.relationships }

/-- What the attributes of the root element say. -/
def Model.head (m : Model) : Model :=
  { Model.zero with
    language := m.language, units := m.units, thumbnail := m.thumbnail, extensions := m.extensions, anyAttr := m.anyAttr }

theorem modelStart_root (h : m.RootDom env) (m0 : Model) :
    modelStart env (m0.over .zero) (m.rootAttrs true) = some (m0.over m.head, []) := by
  have hu : newUnits m.units.str = some m.units := (C21_units _ _).2 rfl
  have key : attrFold (modelAttr env) (m0.over .zero, []) (m.rootAttrs true) =
      some (({ m0.over m.head with extensions := m.extensions.map fun x => ⟨x.ns, x.localName, false⟩ }, m.requiredNames), []) := by
    unfold Model.rootAttrs
    simp only [List.cons_append, List.nil_append, List.append_assoc, Bool.true_and]
    rw [attrFold_cons (s' := (m0.over .zero, [])) (by
      simp [modelAttr, attr])]
    rw [attrFold_cons (s' := ({ m0.over .zero with units := m.units }, [])) (by
      simp only [modelAttr, attr, if_true, enumAttr, hu])]
    rw [attrFold_cons (s' := ({ m0.over .zero with units := m.units, language := m.language }, [])) (by
      simp only [modelAttr]
      rw [if_neg (by decide), if_pos trivial, if_pos trivial])]
    rw [attrFold_if (s' := ({ m0.over .zero with units := m.units, language := m.language, thumbnail := m.thumbnail }, []))
      (fun hc => by
        simp only [modelAttr, attr, if_true]
        rw [if_neg (by decide)])
      (fun hc => by
        have : m.thumbnail = [] := by simpa using hc
        rw [this]; rfl)]
    rw [attrFold_append (fold_exts _ _)]
    rw [attrFold_if (s' := ({ m0.over .zero with
        units := m.units, language := m.language, thumbnail := m.thumbnail
        extensions := m.extensions.map fun x => ⟨x.ns, x.localName, false⟩ }, m.requiredNames))
      (fun hc => by
        have hf : fields (Str.join b!" " m.requiredNames) = m.requiredNames := by
          refine fields_of_split (split_join _ fun s hs => ?_)
          unfold Model.requiredNames at hs
          rw [List.mem_mergeSort, List.mem_map] at hs
          obtain ⟨x, hx, rfl⟩ := hs
          rw [List.mem_filter] at hx
          exact h.words x hx.1 hx.2
        simp only [modelAttr, attr, if_true, hf]
        rw [if_neg (by decide), if_neg (by decide)]
        rfl)
      (fun hc => by
        have : m.requiredNames = [] := by simpa using hc
        rw [this]; rfl)]
    rw [attrFold_congr (g := fun (s : ModelAttrs) a => (anyAttrAdd env b!"model" s.1.anyAttr a).map fun p =>
      (({ s.1 with anyAttr := p.1 }, s.2), p.2)) (by
        intro s a ha
        rw [modelAttr, if_neg (h.attrs.1.attrs a ha).2.1, if_neg (h.attrSpaces a ha).1, if_neg (h.attrSpaces a ha).2]
        cases anyAttrAdd env b!"model" s.1.anyAttr a with
        | none => rfl
        | some p => rfl)]
    rw [attrFold_groups (get := fun s : ModelAttrs => s.1.anyAttr) (set := fun s x => ({ s.1 with anyAttr := x }, s.2))
      h.attrs.1 rfl (fun s a _ => rfl) (fun _ _ => rfl) (fun _ _ _ => rfl) (fun _ => rfl)]
    rfl
  rw [modelStart, key]
  simp only
  rw [restore_required h.distinct]
  rfl

end

/-! ## Documents -/

section
variable {cfg : DecCfg} {env : Env} {m : Model} {txt : Prop} {prec : Int}

/-- The model can be written and read back; `txt` says whether unknown elements contain text. -/
structure Model.Dom (env : Env) (txt : Prop) (m : Model) : Prop where
  root : m.RootDom env
  metadata : ∀ md ∈ m.metadata, md.Dom m.extensions
  resources : m.resources.Dom env m.decls txt m.extensions
  build : m.build.Dom env m.decls m.extensions
  any : ∀ e ∈ m.any.take 1, e.Dom env m.decls txt

/-- What a model becomes. -/
def Model.back (prec : Int) (m : Model) : Model :=
  { Model.zero with
    language := m.language, units := m.units, thumbnail := m.thumbnail, extensions := m.extensions
    metadata := m.metadata, resources := m.resources.back prec, build := m.build.back, any := anyBack prec m.any
    anyAttr := m.anyAttr }

theorem Model.Dom.good (h : m.Dom env txt) : Good m.decls (m.bodyOps prec) :=
  .append (.append (.append (encodeMetadata_good h.metadata) h.resources.good) h.build.good) (any_good h.any)

theorem within_body (hroot : cfg.isRoot = true) (h : m.Dom cfg.env txt) (ht : txt → ∀ i t, cfg.mem i t = t)
    {n : Name} {r : Regs} {m0 : Model} (hr : r.res = some .zero) (hm : r.model = m0.over m.head) :
    ∃ r', Within cfg .model n r (rd (m.bodyOps prec)) r' ∧ r'.res = some (m.resources.back prec) ∧
      r'.model = m0.over { m.back prec with resources := .zero } := by
  have he : r.model.extensions = m.extensions := by rw [hm]; rfl
  obtain ⟨v1, w1⟩ := within_modelMetadata (cfg := cfg) (n := n) hroot (mds := m.metadata) (r := r) (by rw [he]; exact h.metadata)
  obtain ⟨r2, w2, m2, e2⟩ := Resources.Dom.within (cfg := cfg) (n := n) (D := m.decls) (txt := txt) (prec := prec)
    (rs := m.resources) (r := { r with md := v1, model := { r.model with metadata := r.model.metadata ++ m.metadata } })
    (by simp only [he]; exact h.resources) ht hr
  obtain ⟨v3, v4, w3⟩ := Build.within (cfg := cfg) (n := n) (r := r2) (b := m.build) (D := m.decls) hroot
    (by rw [m2]; simp only [hm]; rfl) (by rw [m2]; simp only [he]; exact h.build)
  have w4 : ∃ r4, Within cfg .model n { r2 with md := v3, item := v4, model := { r2.model with build := m.build.back } }
      (rd (encodeAny prec m.any)) r4 ∧ r4.res = r2.res ∧
      r4.model = { r2.model with build := m.build.back, any := r2.model.any ++ anyBack prec m.any } := by
    have ha := h.any
    cases hany : m.any with
    | nil => exact ⟨_, Within.nil, rfl, by simp [anyBack]⟩
    | cons e es =>
      rw [hany] at ha
      obtain ⟨s, b, hw⟩ := AnyElem.Dom.within (cfg := cfg) (loc := .modelAny) (n := n) (prec := prec) (D := m.decls) (txt := txt)
        (r := { r2 with md := v3, item := v4, model := { r2.model with build := m.build.back } }) (e := e)
        (ha e (by simp)) ht (by simp) trivial
      exact ⟨_, hw, rfl, by simp [Regs.putAny, anyBack]⟩
  obtain ⟨r4, w4, e4, m4⟩ := w4
  refine ⟨r4, ?_, by rw [e4, e2], ?_⟩
  · exact (((w1.seq h.resources.good.text w2).seq h.build.good.text w3).seq (any_good h.any).text w4)
  · rw [m4, m2, hm]
    simp [Model.head, Model.back, Model.zero, Model.over]

/-- Decoding the tokens of the root element, after tokens that change nothing. -/
theorem decode_document (h : m.Dom env txt) {mem : Nat → Str → Str} (ht : txt → ∀ i t, mem i t = t) (strict : Bool)
    {m0 : Model} {path : Str} (hpath : path = [] ∨ path = m0.path ∨ (m0.path = [] ∧ path = defaultModelPath))
    {pre : List (Option Event)} (hpre : ∀ ev ∈ pre, ev = none ∨ ∃ t, ev = some (.chars t)) :
    decodeEvents ⟨env, true, mem⟩ strict (fun _ => false) (m0.over .zero) path (pre ++ rd (m.ops prec)) .eof =
      some (m0.over (m.back prec), .ok) := by
  have hskip : ∀ (pre : List (Option Event)), (∀ ev ∈ pre, ev = none ∨ ∃ t, ev = some (.chars t)) →
      ∀ i rest, runTokens ⟨env, true, mem⟩ strict (fun _ => false) .eof i (DState.init (m0.over .zero) path) (pre ++ rest) =
        runTokens ⟨env, true, mem⟩ strict (fun _ => false) .eof (i + pre.length) (DState.init (m0.over .zero) path) rest := by
    intro pre
    induction pre with
    | nil => intro _ i rest; rfl
    | cons ev pre ih =>
      intro hp i rest
      have hs : (DState.init (m0.over .zero) path).step ⟨env, true, mem⟩ i ev = some (DState.init (m0.over .zero) path) := by
        rcases hp ev (by simp) with rfl | ⟨t, rfl⟩
        · rfl
        · rfl
      rw [List.cons_append, runTokens, hs]
      simp only [DState.init, List.isEmpty_nil, Bool.not_true, Bool.and_false, Bool.false_eq_true, if_false]
      have := ih (fun e he => hp e (by simp [he])) (i + 1) rest
      simp only [DState.init] at this
      rw [this, List.length_cons]
      congr 1
      omega
  have hres : (DState.init (m0.over .zero) path).regs.res = some .zero := by
    simp only [DState.init, Model.findResources]
    exact if_pos hpath
  rw [decodeEvents, hskip pre hpre]
  unfold Model.ops opStart
  rw [rd_elem, fullName_core, readAttrs_clean (root_clean h.root true)]
  obtain ⟨r', w, e1, e2⟩ := within_body (cfg := ⟨env, true, mem⟩) (prec := prec) rfl h ht (n := ⟨nsCore, b!"model"⟩)
    (r := { (DState.init (m0.over .zero) path).regs with model := m0.over m.head }) hres rfl
  have hst : (DState.init (m0.over .zero) path).step ⟨env, true, mem⟩ (0 + pre.length)
      (some (.start ⟨nsCore, b!"model"⟩ (m.rootAttrs true))) =
      some ⟨{ (DState.init (m0.over .zero) path).regs with model := m0.over m.head }, .model, ⟨nsCore, b!"model"⟩,
        [⟨.model, ⟨nsCore, b!"model"⟩, -1⟩], []⟩ := by
    simp only [DState.step, DState.onStart, DState.init, Dec.hasChild, if_true, child, onlyChild, start]
    rw [modelStart_root h.root]
    rfl
  rw [runTokens, hst]
  simp only [List.isEmpty_nil, Bool.not_true, Bool.and_false, Bool.false_eq_true, if_false]
  rw [w, runTokens]
  simp only [DState.step, DState.onEnd, if_true, List.isEmpty_nil, Bool.not_true, Bool.and_false, Bool.false_eq_true, if_false,
    runTokens, Option.map_some, DState.result, stop, e1, e2, decodeResult, Model.setResources]
  refine congrArg some (Prod.ext ?_ rfl)
  exact (if_pos hpath).trans rfl

/-- A written model is read back: the bytes of `MarshalModel`. -/
theorem decode_marshal (h : m.Dom env txt) {mem : Nat → Str → Str} (ht : txt → ∀ i t, mem i t = t) :
    unmarshalModel env mem (printOps (fun _ => []) (m.ops prec)) .zero = some (m.back prec, .ok) := by
  have hl := C23_roundtrip_partial b!"model" (m.rootAttrs true) (m.bodyOps prec) (by decide +kernel) (by decide +kernel)
    (by rw [root_shown h.root]; exact rootOK h.root true)
    (by rw [root_shown h.root, decls_root h.root, root_default h.root]; exact h.good.ok)
    (by have := h.good (prec := prec) |>.nest [] []; rw [List.append_nil] at this; rw [this]; rfl)
  have he : document b!"model" (m.rootAttrs true) (m.bodyOps prec) = m.ops prec := by
    simp [document, Model.ops, opStart, coreName]
  rw [root_shown h.root, root_default h.root, he] at hl
  rw [unmarshalModel, hl]
  exact decode_document h ht false (m0 := .zero) (Or.inr (Or.inr ⟨rfl, rfl⟩)) (pre := []) (by simp)

/-- A written model is read back: the bytes of the part that `Encode` writes, in strict or lenient mode. -/
theorem decode_part (h : m.Dom env txt) {mem : Nat → Str → Str} (ht : txt → ∀ i t, mem i t = t) (strict : Bool)
    {m0 : Model} {path : Str} (hpath : path = [] ∨ path = m0.path ∨ (m0.path = [] ∧ path = defaultModelPath)) :
    decodeEvents ⟨env, true, mem⟩ strict (fun _ => false) (m0.over .zero) path (lex .eof (.new (m.partBytes prec))).1
      (lex .eof (.new (m.partBytes prec))).2 = some (m0.over (m.back prec), .ok) := by
  have hl := C23_header_partial b!"model" (m.rootAttrs true) (m.bodyOps prec) (by decide +kernel) (by decide +kernel)
    (by rw [root_shown h.root]; exact rootOK h.root true)
    (by rw [root_shown h.root, decls_root h.root, root_default h.root]; exact h.good.ok)
    (by have := h.good (prec := prec) |>.nest [] []; rw [List.append_nil] at this; rw [this]; rfl)
  have he : document b!"model" (m.rootAttrs true) (m.bodyOps prec) = m.ops prec := by
    simp [document, Model.ops, opStart, coreName]
  rw [root_shown h.root, root_default h.root, he] at hl
  rw [Model.partBytes, hl]
  exact decode_document h ht strict hpath (pre := [none, some (.chars b!"\n")]) (by
    intro ev hev
    simp only [List.mem_cons, List.not_mem_nil, or_false] at hev
    rcases hev with rfl | rfl
    · exact Or.inl rfl
    · exact Or.inr ⟨_, rfl⟩)

end

end Go3mf
