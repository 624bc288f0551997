import Verif.Spec.Prefix
import Verif.Lemmas.PresentationValue

/-!
# Lemmas on the change of prefixes
-/

namespace Go3mf.Spec

/-! ## Names -/

theorem dropWhile_colon {v : Str} (h : 58 ∈ v) : ∃ l, v.dropWhile (· ≠ 58) = 58 :: l := by
  induction v with
  | nil => simp at h
  | cons b v ih =>
    by_cases hb : b = 58
    · subst hb; exact ⟨v, by simp⟩
    · have h' : 58 ∈ v := by
        rcases List.mem_cons.mp h with h | h
        · exact absurd h.symm hb
        · exact h
      obtain ⟨l, hl⟩ := ih h'
      exact ⟨l, by simpa [List.dropWhile_cons, hb] using hl⟩

theorem dropWhile_plain {v : Str} (h : 58 ∉ v) : v.dropWhile (· ≠ 58) = [] := by
  induction v with
  | nil => rfl
  | cons b v ih =>
    have hb : b ≠ 58 := fun e => h (by simp [e])
    simpa [List.dropWhile_cons, hb] using ih fun e => h (List.mem_cons_of_mem _ e)

theorem takeWhile_plain (v : Str) : 58 ∉ v.takeWhile (· ≠ 58) := by
  induction v with
  | nil => simp
  | cons b v ih =>
    by_cases hb : b = 58
    · simp [hb]
    · simp only [ne_eq, List.takeWhile_cons, hb, not_false_eq_true, decide_true, if_true, List.mem_cons, not_or]
      exact ⟨fun e => hb e.symm, by simpa using ih⟩

theorem split_colon {p : Str} (hp : 58 ∉ p) (l : Str) :
    (p ++ 58 :: l).takeWhile (· ≠ 58) = p ∧ (p ++ 58 :: l).dropWhile (· ≠ 58) = 58 :: l := by
  have h : ∀ x ∈ p, decide (x ≠ 58) = true := fun x hx => by
    have : x ≠ 58 := fun e => hp (e ▸ hx)
    simpa using this
  constructor
  · rw [List.takeWhile_append_of_pos h]; simp
  · rw [List.dropWhile_append_of_pos h]; simp

theorem metaName_rename {ρ : Str → Str} (hρ : Renaming ρ) {exts exts' : List Extension}
    (he : exts'.map (·.localName) = (exts.map (·.localName)).map ρ) (h0 : [] ∉ exts.map (·.localName)) (v : Str) :
    metaName exts' (renameValue ρ v) = renameName ρ (metaName exts v) := by
  by_cases h : 58 ∈ v
  · obtain ⟨l, hl⟩ := dropWhile_colon h
    have hp := takeWhile_plain v
    have hs := split_colon (hρ.plain _ hp) l
    have hv : renameValue ρ v = ρ (v.takeWhile (· ≠ 58)) ++ 58 :: l := by rw [renameValue, if_pos h, hl]
    rw [hv, metaName, hs.2, metaName, hl]
    simp only [hs.1, he]
    by_cases hm : v.takeWhile (· ≠ 58) ∈ exts.map (·.localName)
    · rw [if_pos (List.mem_map_of_mem hm), if_pos hm, renameName, if_neg]
      intro e
      exact h0 (e ▸ hm)
    · rw [if_neg, if_neg hm, renameName, if_pos rfl]
      · simp only [hv]
      · intro hq
        obtain ⟨q, hq, e⟩ := List.mem_map.mp hq
        exact hm (hρ.inj _ _ e ▸ hq)
  · have hv : renameValue ρ v = v := by rw [renameValue, if_neg h]
    have hx : ∀ es, metaName es v = ⟨[], v⟩ := fun es => by rw [metaName, dropWhile_plain h]
    rw [hv, hx, hx, renameName, if_pos rfl, hv]

/-! ## Attributes -/

theorem attr?_rename (ρ : Str → Str) (as : List Attr) (n : Name) :
    attr? (as.map (renameAttr ρ)) n = if n = ⟨[], b!"name"⟩ then (attr? as n).map (renameValue ρ) else attr? as n := by
  induction as with
  | nil => simp [attr?]
  | cons a as ih =>
    have hn : (renameAttr ρ a).name = a.name := by rw [renameAttr]; split <;> rfl
    simp only [attr?, List.map_cons, List.find?_cons, hn] at ih ⊢
    by_cases h : a.name = n
    · simp only [h, decide_true, Option.map_some]
      split
      · next h' => rw [renameAttr, if_pos (h.trans h')]
      · next h' => rw [renameAttr, if_neg (h ▸ h')]
    · simp only [h, decide_false]
      exact ih

theorem metadata_rename {ρ : Str → Str} (hρ : Renaming ρ) {exts exts' : List Extension}
    (he : exts'.map (·.localName) = (exts.map (·.localName)).map ρ) (h0 : [] ∉ exts.map (·.localName)) (e : List Attr × List Node) :
    metadataOf exts' (renameMetaElem ρ e) = renameMetadata ρ (metadataOf exts e) := by
  simp only [metadataOf, renameMetaElem, renameMetadata, plain?, textAt, attr?_rename]
  rw [if_pos trivial, if_neg (by decide +kernel), if_neg (by decide +kernel)]
  congr 1
  cases attr? e.1 ⟨[], b!"name"⟩ with
  | none => simp [renameName, renameValue]
  | some v => simp only [Option.map_some, Option.getD_some, metaName_rename hρ he h0]

/-! ## Content -/

theorem children_change (n : Name) (f : List Attr × List Node → List Attr × List Node) (c : List Node) :
    children n (c.map (changeElem n f)) = (children n c).map f := by
  induction c with
  | nil => rfl
  | cons x c ih =>
    simp only [children, List.map_cons, List.filterMap_cons] at ih ⊢
    cases x with
    | elem m as d =>
      by_cases h : m = n
      · simp only [changeElem, h, if_true, ih, List.map_cons]
      · simp only [changeElem, h, if_false, ih]
    | text t => simpa [changeElem] using ih
    | other => simpa [changeElem] using ih

theorem children_change_ne {n k : Name} (h : n ≠ k) (f : List Attr × List Node → List Attr × List Node) (c : List Node) :
    children k (c.map (changeElem n f)) = children k c := by
  induction c with
  | nil => rfl
  | cons x c ih =>
    simp only [children, List.map_cons, List.filterMap_cons] at ih ⊢
    cases x with
    | elem m as d =>
      by_cases h' : m = n
      · have : m ≠ k := h' ▸ h
        simp only [changeElem, h', if_true, h, if_false, ih]
      · simp only [changeElem, h', if_false, ih]
    | text t => simpa [changeElem] using ih
    | other => simpa [changeElem] using ih

theorem child?_change (n : Name) (f : List Attr × List Node → List Attr × List Node) (c : List Node) :
    child? n (c.map (changeElem n f)) = (child? n c).map f := by
  rw [child?, child?, children_change, List.head?_map]

theorem child?_change_ne {n k : Name} (h : n ≠ k) (f : List Attr × List Node → List Attr × List Node) (c : List Node) :
    child? k (c.map (changeElem n f)) = child? k c := by
  rw [child?, child?, children_change_ne h]

/-- Whatever is nothing for the elements with the name is not changed. -/
theorem filterMap_change {α : Type} {n : Name} {f : List Attr × List Node → List Attr × List Node} {g : Node → Option α}
    (h : ∀ as d, g (.elem n as d) = none) (c : List Node) : (c.map (changeElem n f)).filterMap g = c.filterMap g := by
  induction c with
  | nil => rfl
  | cons x c ih =>
    have hx : g (changeElem n f x) = g x := by
      cases x with
      | elem m as d =>
        by_cases h' : m = n
        · subst h'; simp only [changeElem, if_true, h]
        · simp only [changeElem, h', if_false]
      | text t => rfl
      | other => rfl
    simp only [List.map_cons, List.filterMap_cons, hx, ih]

theorem group_rename {ρ : Str → Str} (hρ : Renaming ρ) {exts exts' : List Extension} (env : Env)
    (he : exts'.map (·.localName) = (exts.map (·.localName)).map ρ) (h0 : [] ∉ exts.map (·.localName))
    (e : Option (List Attr × List Node)) :
    metadataGroupOf env exts' (e.map (renameGroupElem ρ)) = renameGroup ρ (metadataGroupOf env exts e) := by
  cases e with
  | none => rfl
  | some e =>
    simp only [Option.map_some, metadataGroupOf, renameGroupElem, renameGroup, children_change, List.map_map]
    congr 1
    exact List.map_congr_left fun x _ => metadata_rename hρ he h0 x

theorem item_rename {ρ : Str → Str} (hρ : Renaming ρ) {exts exts' : List Extension} (env : Env)
    (he : exts'.map (·.localName) = (exts.map (·.localName)).map ρ) (h0 : [] ∉ exts.map (·.localName)) (e : List Attr × List Node) :
    itemOf env exts' (renameHolderElem ρ e) = renameItem ρ (itemOf env exts e) := by
  simp only [itemOf, renameHolderElem, renameItem, child?_change, group_rename hρ env he h0]

theorem object_rename {ρ : Str → Str} (hρ : Renaming ρ) {exts exts' : List Extension} (env : Env)
    (he : exts'.map (·.localName) = (exts.map (·.localName)).map ρ) (h0 : [] ∉ exts.map (·.localName)) (e : List Attr × List Node) :
    objectOf env exts' (renameHolderElem ρ e) = renameObject ρ (objectOf env exts e) := by
  simp only [objectOf, renameHolderElem, renameObject, child?_change, group_rename hρ env he h0]
  rw [child?_change_ne (by decide +kernel), child?_change_ne (by decide +kernel)]

theorem build_rename {ρ : Str → Str} (hρ : Renaming ρ) {exts exts' : List Extension} (env : Env)
    (he : exts'.map (·.localName) = (exts.map (·.localName)).map ρ) (h0 : [] ∉ exts.map (·.localName))
    (e : Option (List Attr × List Node)) :
    buildOf env exts' (e.map (renameBuildElem ρ)) =
      { buildOf env exts e with items := (buildOf env exts e).items.map (renameItem ρ) } := by
  cases e with
  | none => rfl
  | some e =>
    simp only [Option.map_some, buildOf, renameBuildElem, children_change, List.map_map]
    congr 1
    exact List.map_congr_left fun x _ => item_rename hρ env he h0 x

theorem resources_rename {ρ : Str → Str} (hρ : Renaming ρ) {exts exts' : List Extension} (env : Env)
    (he : exts'.map (·.localName) = (exts.map (·.localName)).map ρ) (h0 : [] ∉ exts.map (·.localName))
    (e : Option (List Attr × List Node)) :
    resourcesOf env exts' (e.map (renameResourcesElem ρ)) = renameResources ρ (resourcesOf env exts e) := by
  cases e with
  | none => rfl
  | some e =>
    simp only [Option.map_some, resourcesOf, renameResourcesElem, renameResources, children_change, List.map_map]
    rw [filterMap_change (g := assetOf env) fun as d => by
      rw [assetOf, childKind_core, show (elements .resources).lookup (core b!"object") = some (.object, .many) by decide +kernel]
      rfl]
    congr 1
    exact List.map_congr_left fun x _ => object_rename hρ env he h0 x

/-! ## Faults -/

theorem change_indexOf {env : Env} {k : Kind} (n : Name) (f : List Attr × List Node → List Attr × List Node) (x : Node) (n' : Name)
    (mu : Mult) : indexOf env k [x] n' mu = indexOf env k [changeElem n f x] n' mu := by
  cases x with
  | elem m as d =>
    by_cases h : m = n
    · cases mu <;> simp only [changeElem, h, if_true, indexOf, children, List.filterMap_cons, List.filterMap_nil, List.filter_cons, List.filter_nil]
      · by_cases h' : n = n' <;> simp [h']
      · split <;> rfl
    · simp only [changeElem, h, if_false]
  | text t => rfl
  | other => rfl

theorem change_faults {env : Env} {k : Kind} {n : Name} {k' : Kind} {mu : Mult} (hn : childKind env k n = some (k', mu))
    {f : List Attr × List Node → List Attr × List Node} (h1 : ∀ e, attrFaults env k' (f e).1 = attrFaults env k' e.1)
    (h2 : ∀ e, contentFaults env k' [] (f e).2 = contentFaults env k' [] e.2) : ∀ (c b b' : List Node), SameBefore env k b b' →
    contentFaults env k b (c.map (changeElem n f)) = contentFaults env k b' c
  | [], _, _, _ => by simp [contentFaults]
  | x :: c, b, b', h => by
    rw [List.map_cons, contentFaults, contentFaults,
      change_faults hn h1 h2 c _ _ (h.append (changeElem n f x) x fun n' _ mu _ _ => (change_indexOf n f x n' mu).symm), nodeFaults_before h]
    congr 1
    cases x with
    | elem m as d =>
      by_cases h' : m = n
      · subst h'
        simp only [changeElem, if_true, nodeFaults, hn, h1, h2]
      · simp only [changeElem, h', if_false]
    | text t => rfl
    | other => rfl

theorem metaElem_faults (env : Env) (ρ : Str → Str) (e : List Attr × List Node) :
    attrFaults env .metadata (renameMetaElem ρ e).1 = attrFaults env .metadata e.1 := by
  simp only [renameMetaElem, attrFaults, List.flatMap_map]
  refine List.flatMap_congr fun a _ => ?_
  rw [renameAttr]
  split
  · next h =>
    rw [attrFault, attrFault, h, attrType, if_pos rfl,
      show (attributes .metadata).lookup b!"name" = some (.text, true) by decide +kernel]
    rfl
  · rfl

theorem groupElem_faults (env : Env) (ρ : Str → Str) (e : List Attr × List Node) :
    contentFaults env .metadataGroup [] (renameGroupElem ρ e).2 = contentFaults env .metadataGroup [] e.2 :=
  change_faults (k := .metadataGroup) (n := core b!"metadata") (f := renameMetaElem ρ) (k' := .metadata) (mu := .many) (by rw [childKind_core]; decide +kernel) (metaElem_faults env ρ) (fun _ => rfl) _ _ _
    fun _ _ _ _ _ => rfl

theorem itemElem_faults (env : Env) (ρ : Str → Str) (e : List Attr × List Node) :
    contentFaults env .item [] (renameHolderElem ρ e).2 = contentFaults env .item [] e.2 :=
  change_faults (k := .item) (n := core b!"metadatagroup") (f := renameGroupElem ρ) (k' := .metadataGroup) (mu := .single) (by rw [childKind_core]; decide +kernel) (fun _ => rfl) (groupElem_faults env ρ) _ _ _
    fun _ _ _ _ _ => rfl

theorem objectElem_faults (env : Env) (ρ : Str → Str) (e : List Attr × List Node) :
    contentFaults env .object [] (renameHolderElem ρ e).2 = contentFaults env .object [] e.2 :=
  change_faults (k := .object) (n := core b!"metadatagroup") (f := renameGroupElem ρ) (k' := .metadataGroup) (mu := .single) (by rw [childKind_core]; decide +kernel) (fun _ => rfl) (groupElem_faults env ρ) _ _ _
    fun _ _ _ _ _ => rfl

theorem buildElem_faults (env : Env) (ρ : Str → Str) (e : List Attr × List Node) :
    contentFaults env .build [] (renameBuildElem ρ e).2 = contentFaults env .build [] e.2 :=
  change_faults (k := .build) (n := core b!"item") (f := renameHolderElem ρ) (k' := .item) (mu := .many) (by rw [childKind_core]; decide +kernel) (fun _ => rfl) (itemElem_faults env ρ) _ _ _
    fun _ _ _ _ _ => rfl

theorem resourcesElem_faults (env : Env) (ρ : Str → Str) (e : List Attr × List Node) :
    contentFaults env .resources [] (renameResourcesElem ρ e).2 = contentFaults env .resources [] e.2 :=
  change_faults (k := .resources) (n := core b!"object") (f := renameHolderElem ρ) (k' := .object) (mu := .many) (by rw [childKind_core]; decide +kernel) (fun _ => rfl) (objectElem_faults env ρ) _ _ _
    fun _ _ _ _ _ => rfl

theorem content_faults (env : Env) (ρ : Str → Str) (c : List Node) :
    contentFaults env .model [] (renameContent ρ c) = contentFaults env .model [] c := by
  rw [renameContent,
    change_faults (k := .model) (n := core b!"resources") (f := renameResourcesElem ρ) (k' := .resources) (mu := .single) (by rw [childKind_core]; decide +kernel) (fun _ => rfl) (resourcesElem_faults env ρ) _ _ []
      fun _ _ _ _ _ => rfl,
    change_faults (k := .model) (n := core b!"build") (f := renameBuildElem ρ) (k' := .build) (mu := .single) (by rw [childKind_core]; decide +kernel) (fun _ => rfl) (buildElem_faults env ρ) _ _ []
      fun _ _ _ _ _ => rfl,
    change_faults (k := .model) (n := core b!"metadata") (f := renameMetaElem ρ) (k' := .metadata) (mu := .many) (by rw [childKind_core]; decide +kernel) (metaElem_faults env ρ) (fun _ => rfl) _ _ []
      fun _ _ _ _ _ => rfl]

end Go3mf.Spec
