import Verif.Lemmas.Good

/-!
# Encoded metadata, items and components decoded
-/

namespace Go3mf

/-! ## Metadata -/

/-- The metadata can be written and read back in a model with the given extensions. -/
structure Metadata.Dom (exts : List Extension) (md : Metadata) : Prop where
  space : cleanText md.name.space = md.name.space
  name : cleanText (if md.name.space ≠ [] then md.name.space ++ b!":" ++ md.name.loc else md.name.loc) =
    if md.name.space ≠ [] then md.name.space ++ b!":" ++ md.name.loc else md.name.loc
  /-- A name space is a known prefix, and what looks like a known prefix is a name space. -/
  pref : (md.name.space ≠ [] ∧ cutColon md.name.space = none ∧ hasPrefix exts md.name.space = true) ∨
    (md.name.space = [] ∧ ∀ p l, cutColon md.name.loc = some (p, l) → hasPrefix exts p = false)
  type : cleanText md.type = md.type
  value : cleanText md.value = md.value

theorem cutColon_append : ∀ {s : Str} (l : Str), cutColon s = none → cutColon (s ++ b!":" ++ l) = some (s, l)
  | [], l, _ => by simp [cutColon]
  | b :: s, l, h => by
    unfold cutColon at h
    by_cases hb : b = 58
    · simp [hb] at h
    · rw [if_neg hb] at h
      have h' : cutColon s = none := by simpa using h
      have e : b :: s ++ b!":" ++ l = b :: (s ++ b!":" ++ l) := by simp
      rw [e, cutColon, if_neg hb, cutColon_append l h']
      rfl

theorem metadata_attrs {exts : List Extension} {md : Metadata} (h : md.Dom exts) :
    (attr b!"name" (if md.name.space ≠ [] then md.name.space ++ b!":" ++ md.name.loc else md.name.loc) ::
      (attrIf md.preserve b!"preserve" b!"true" ++ attrIf (md.type ≠ []) b!"type" md.type)).foldl (metadataAttr exts) .zero =
    { md with value := [] } := by
  have e1 : metadataAttr exts .zero
      (attr b!"name" (if md.name.space ≠ [] then md.name.space ++ b!":" ++ md.name.loc else md.name.loc)) =
      ⟨md.name, [], [], false⟩ := by
    unfold metadataAttr attr
    rw [if_neg (by simp), if_pos rfl]
    simp only
    rcases h.pref with ⟨h1, h2, h3⟩ | ⟨h1, h2⟩
    · rw [if_pos h1, cutColon_append _ h2]
      simp only [h3, if_true]
      rfl
    · rw [if_neg (by simp [h1])]
      cases hc : cutColon md.name.loc with
      | none =>
        simp only
        obtain ⟨⟨s, l⟩, v, t, p⟩ := md
        simp only at h1
        subst h1
        rfl
      | some q =>
        obtain ⟨p, l⟩ := q
        simp only [h2 p l hc, Bool.false_eq_true, if_false]
        obtain ⟨⟨s, l⟩, v, t, p⟩ := md
        simp only at h1
        subst h1
        rfl
  rw [List.foldl_cons, e1, List.foldl_append]
  have e2 : (attrIf md.preserve b!"preserve" b!"true").foldl (metadataAttr exts) ⟨md.name, [], [], false⟩ =
      ⟨md.name, [], [], md.preserve⟩ := by
    cases md.preserve <;> rfl
  rw [e2]
  by_cases ht : md.type = []
  · simp [attrIf, ht]
  · simp [attrIf, ht, metadataAttr, attr]

theorem within_text {cfg : DecCfg} {loc : Option MetaLoc} {n : Name} {r : Regs} {v : Str} (hv : r.md.value = []) :
    Within cfg (.metadata loc) n r (flushText v) { r with md := { r.md with value := v } } := by
  by_cases h : v = []
  · subst h
    rw [flushText_nil, ← hv]
    exact Within.nil
  · have e : flushText v = [some (.chars v)] := by simp [flushText, h]
    rw [e]
    exact Within.single fun i idx st => rfl

theorem rd_text (n : Name) (as : List Attr) (skip : Bool) (s : Str) :
    rd [.start n as false skip, .chars s, .stop n] =
      some (.start (fullName nsCore n) (readAttrs as)) :: (flushText (cleanText s) ++ [some (.stop (fullName nsCore n))]) := by
  simp [readOps, flushText_nil]

theorem Metadata.Dom.attrsDom {D : List (Str × Str)} {exts : List Extension} {md : Metadata} (h : md.Dom exts) : AttrsDom D false
    (attr b!"name" (if md.name.space ≠ [] then md.name.space ++ b!":" ++ md.name.loc else md.name.loc) ::
      (attrIf md.preserve b!"preserve" b!"true" ++ attrIf (md.type ≠ []) b!"type" md.type)) :=
  .cons (.text (by decide +kernel) h.name)
    (.append (.ite fun _ => .plain (by decide +kernel) (by unfold Plain; decide))
      (.ite fun _ => .text (by decide +kernel) h.type))

theorem Metadata.Dom.good {D : List (Str × Str)} {exts : List Extension} {md : Metadata} (h : md.Dom exts) : Good D md.ops :=
  .textElem (nameOK_core (by decide +kernel)) h.attrsDom

theorem encodeMetadata_good {D : List (Str × Str)} {exts : List Extension} {mds : List Metadata} (h : ∀ md ∈ mds, md.Dom exts) :
    Good D (encodeMetadata mds) := .flatMap fun md hmd => (h md hmd).good

theorem Metadata.within {cfg : DecCfg} {d : Dec} {loc : Option MetaLoc} {n : Name} {r : Regs} {md : Metadata} {k : Int}
    (hd : d.hasChild = true)
    (hc : child cfg r d ⟨nsCore, b!"metadata"⟩ = some ({ r with md := .zero }, some (k, .metadata loc)))
    (h : md.Dom r.model.extensions) :
    Within cfg d n r (rd md.ops) (stop { r with md := md } (.metadata loc)) := by
  unfold Metadata.ops opStart
  rw [rd_text, (h.attrsDom (D := [])).read, h.value]
  refine Within.elem (r1 := { r with md := .zero }) (r2 := { r with md := { md with value := [] } }) hd hc ?_ ?_
  · simp only [start]
    rw [metadata_attrs h]
  · exact within_text rfl

theorem within_modelMetadata {cfg : DecCfg} {n : Name} (hroot : cfg.isRoot = true) : ∀ {mds : List Metadata} {r : Regs},
    (∀ md ∈ mds, md.Dom r.model.extensions) →
    ∃ v, Within cfg .model n r (rd (encodeMetadata mds))
      { r with md := v, model := { r.model with metadata := r.model.metadata ++ mds } }
  | [], r, _ => ⟨r.md, by rw [List.append_nil]; exact Within.nil⟩
  | md :: mds, r, h => by
    have h1 := Metadata.within (cfg := cfg) (d := .model) (n := n) (r := r) (loc := none) (md := md)
      (k := r.model.metadata.length) rfl (by
        simp only [child, modelChild]
        rw [if_pos trivial, if_neg (by decide +kernel), if_neg (fun h => absurd h.1 (by decide +kernel)),
          if_pos ⟨trivial, hroot⟩]) (h md (by simp))
    obtain ⟨v, h2⟩ := within_modelMetadata (cfg := cfg) (n := n) hroot (mds := mds) (r := stop { r with md := md } (.metadata none))
      (fun x hx => h x (by simp [hx]))
    refine ⟨v, ?_⟩
    rw [encodeMetadata, List.flatMap_cons, ← encodeMetadata]
    have := h1.seq (encodeMetadata_good (D := []) (fun x hx => h x (by simp [hx]))).text h2
    simpa [stop] using this

theorem within_groupMetadata {cfg : DecCfg} {loc : MetaLoc} {n : Name} : ∀ {mds : List Metadata} {r : Regs},
    (∀ md ∈ mds, md.Dom r.model.extensions) →
    ∃ v, Within cfg (.metadataGroup loc) n r (rd (encodeMetadata mds))
      ({ r with md := v }.modMeta (fun g => { g with metadata := g.metadata ++ mds }) loc)
  | [], r, _ => ⟨r.md, by cases loc <;> (simp only [Regs.modMeta, List.append_nil]; exact Within.nil)⟩
  | md :: mds, r, h => by
    have h1 := Metadata.within (cfg := cfg) (d := .metadataGroup loc) (n := n) (r := r) (loc := some loc) (md := md)
      (k := (r.getMeta loc).metadata.length) rfl (by
        simp only [child, onlyChild]
        rw [if_pos trivial]) (h md (by simp))
    obtain ⟨v, h2⟩ := within_groupMetadata (cfg := cfg) (n := n) (loc := loc) (mds := mds)
      (r := stop { r with md := md } (.metadata (some loc)))
      (fun x hx => by cases loc <;> exact h x (by simp [hx]))
    refine ⟨v, ?_⟩
    rw [encodeMetadata, List.flatMap_cons, ← encodeMetadata]
    have := h1.seq (encodeMetadata_good (D := []) (fun x hx => h x (by simp [hx]))).text h2
    cases loc <;> simpa [stop, Regs.modMeta] using this

/-- The group of metadata can be written and read back. -/
structure MetadataGroup.Dom (env : Env) (D : List (Str × Str)) (exts : List Extension) (g : MetadataGroup) : Prop where
  metadata : ∀ md ∈ g.metadata, md.Dom exts
  attrs : AnyDom env D b!"metadatagroup" g.anyAttr
  /-- A group without metadata is not written. -/
  empty : g.metadata = [] → g.anyAttr = []

theorem MetadataGroup.Dom.good {env : Env} {D : List (Str × Str)} {exts : List Extension} {g : MetadataGroup}
    (h : g.Dom env D exts) : Good D g.ops :=
  .elem (nameOK_core (by decide +kernel)) h.attrs.attrs (encodeMetadata_good h.metadata)

theorem MetadataGroup.within {cfg : DecCfg} {d : Dec} {loc : MetaLoc} {n : Name} {r : Regs} {g : MetadataGroup}
    {D : List (Str × Str)} (hd : d.hasChild = true)
    (hc : child cfg r d ⟨nsCore, b!"metadatagroup"⟩ = some (r, some (-1, .metadataGroup loc)))
    (hz : r.getMeta loc = .zero) (h : g.Dom cfg.env D r.model.extensions) :
    ∃ v, Within cfg d n r (rd g.ops) ({ r with md := v }.modMeta (fun _ => g) loc) := by
  have hr : (r.modMeta (fun x => { x with anyAttr := g.anyAttr }) loc).model = r.model := by cases loc <;> rfl
  obtain ⟨v, hv⟩ := within_groupMetadata (cfg := cfg) (loc := loc) (n := ⟨nsCore, b!"metadatagroup"⟩) (mds := g.metadata)
    (r := r.modMeta (fun x => { x with anyAttr := g.anyAttr }) loc) (by rw [hr]; exact h.metadata)
  refine ⟨v, ?_⟩
  have := Within.ops (n := n) (n' := coreName b!"metadatagroup") (skip := false) (as := encodeAnyAttr g.anyAttr) hd hc
    (r2 := r.modMeta (fun x => { x with anyAttr := g.anyAttr }) loc) (by
      rw [h.attrs.attrs.read]
      simp only [start, anyAttrs, hz]
      rw [show MetadataGroup.zero.anyAttr = [] from rfl, fold_any h.attrs.1]
      rfl) hv
  unfold MetadataGroup.ops opStart
  cases loc
  · simp only [Regs.getMeta] at hz
    simpa [stop, Regs.modMeta, hz, MetadataGroup.zero] using this
  · simp only [Regs.getMeta] at hz
    simpa [stop, Regs.modMeta, hz, MetadataGroup.zero] using this

/-! ## Transforms -/

/-- What the transform of an item or component becomes: none is written if it is none. -/
def Matrix.written (m : Matrix) : Matrix := if m.isTransform then m.back else .zero

/-! ## Items -/

/-- The item can be written and read back. -/
structure Item.Dom (env : Env) (D : List (Str × Str)) (exts : List Extension) (i : Item) : Prop where
  partNumber : cleanText i.partNumber = i.partNumber
  metadata : i.metadata.Dom env D exts
  attrs : AnyDom env D b!"item" i.anyAttr

/-- What an item becomes. -/
def Item.back (i : Item) : Item := { i with transform := i.transform.written }

theorem Item.Dom.attrsDom {env : Env} {D : List (Str × Str)} {exts : List Extension} {i : Item} (h : i.Dom env D exts) :
    AttrsDom D false i.attrs :=
  .cons (.plain (by decide +kernel) (plain_formatUint _))
    (.append (.append (.ite fun _ => .plain (by decide +kernel) (plain_matrix _))
      (.ite fun _ => .text (by decide +kernel) h.partNumber)) h.attrs.attrs)

theorem Item.Dom.good {env : Env} {D : List (Str × Str)} {exts : List Extension} {i : Item} (h : i.Dom env D exts) :
    Good D i.ops := by
  unfold Item.ops
  by_cases hm : i.metadata.metadata = []
  · rw [if_neg (by simp [hm])]
    exact .auto (nameOK_core (by decide +kernel)) h.attrsDom
  · rw [if_pos hm]
    exact .elem (nameOK_core (by decide +kernel)) h.attrsDom h.metadata.good

theorem item_attrs {env : Env} {D : List (Str × Str)} {exts : List Extension} {i : Item} (h : i.Dom env D exts) :
    attrFold (itemAttr env) .zero i.attrs = some ({ i.back with metadata := .zero }, []) := by
  unfold Item.attrs
  rw [attrFold_cons (s' := { Item.zero with objectID := i.objectID }) (by
    simp only [itemAttr, attr, if_true, itemCore]
    rw [← attr, uintAttr_format])]
  rw [List.append_assoc, attrFold_if (s' := { Item.zero with objectID := i.objectID, transform := i.transform.written })
    (fun hc => by
      simp only [itemAttr, attr, if_true, itemCore]
      rw [if_neg (by decide +kernel), if_neg (by decide +kernel), ← attr, matrixAttr_format]
      simp [Matrix.written, hc])
    (fun hc => by simp [Matrix.written, hc, Item.zero])]
  rw [attrFold_if (s' := { Item.zero with objectID := i.objectID, transform := i.transform.written, partNumber := i.partNumber })
    (fun hc => by
      simp only [itemAttr, attr, if_true, itemCore]
      rw [if_neg (by decide +kernel)])
    (fun hc => by
      have : i.partNumber = [] := by simpa using hc
      simp [this, Item.zero])]
  rw [attrFold_groups (get := Item.anyAttr) (set := fun i x => { i with anyAttr := x }) h.attrs.1 rfl
    (fun s a ha => by simp [itemAttr, ha]) (fun _ _ => rfl) (fun _ _ _ => rfl) (fun _ => rfl)]
  rfl

theorem Item.within {cfg : DecCfg} {n : Name} {r : Regs} {i : Item} {D : List (Str × Str)}
    (h : i.Dom cfg.env D r.model.extensions) :
    ∃ v w, Within cfg .build n r (rd i.ops) { r with
      md := v, item := w
      model := { r.model with build := { r.model.build with items := r.model.build.items ++ [i.back] } } } := by
  have hc : child cfg r .build ⟨nsCore, b!"item"⟩ =
      some ({ r with item := .zero }, some ((r.model.build.items.length : Int), Dec.item)) := by
    simp only [child, onlyChild]
    rw [if_pos trivial]
  have hs : start cfg { r with item := .zero } .item (readAttrs i.attrs) =
      some ({ r with item := { i.back with metadata := .zero } }, []) := by
    rw [h.attrsDom.read]
    simp only [start]
    rw [item_attrs h]
    rfl
  unfold Item.ops
  by_cases hm : i.metadata.metadata = []
  · rw [if_neg (by simp [hm])]
    have hz : i.metadata = .zero := by
      have h1 := h.metadata.empty hm
      obtain ⟨_, _, _, ⟨m, a⟩, _⟩ := i
      simp only at hm h1
      rw [hm, h1]; rfl
    have := Within.auto (n := n) (n' := coreName b!"item") (skip := false) (as := i.attrs) (d := .build) rfl hc hs
    refine ⟨r.md, i.back, ?_⟩
    have e : ({ i.back with metadata := .zero } : Item) = i.back := by rw [← hz]; rfl
    rw [e] at this
    exact this
  · rw [if_pos hm]
    obtain ⟨v, hv⟩ := MetadataGroup.within (cfg := cfg) (d := .item) (loc := .item) (n := ⟨nsCore, b!"item"⟩)
      (r := { r with item := { i.back with metadata := .zero } }) (g := i.metadata) rfl (by
        simp only [child, onlyChild]
        rw [if_pos trivial]) rfl h.metadata
    have := Within.ops (n := n) (n' := coreName b!"item") (skip := false) (as := i.attrs) (d := .build) rfl hc hs hv
    exact ⟨v, _, this⟩

theorem within_items {cfg : DecCfg} {n : Name} {D : List (Str × Str)} : ∀ {is : List Item} {r : Regs},
    (∀ i ∈ is, i.Dom cfg.env D r.model.extensions) →
    ∃ v w, Within cfg .build n r (rd (is.flatMap Item.ops)) { r with
      md := v, item := w
      model := { r.model with build := { r.model.build with items := r.model.build.items ++ is.map Item.back } } }
  | [], r, _ => ⟨r.md, r.item, by rw [List.map_nil, List.append_nil]; exact Within.nil⟩
  | i :: is, r, h => by
    obtain ⟨v, w, h1⟩ := Item.within (n := n) (h i (by simp))
    obtain ⟨v', w', h2⟩ := within_items (cfg := cfg) (n := n) (D := D) (is := is) (r := { r with
      md := v, item := w
      model := { r.model with build := { r.model.build with items := r.model.build.items ++ [i.back] } } })
      (fun x hx => h x (by simp [hx]))
    refine ⟨v', w', ?_⟩
    rw [List.flatMap_cons]
    have := h1.seq (Good.flatMap fun x hx => (h x (List.mem_cons_of_mem _ hx)).good).text h2
    simpa using this

/-- The build can be written and read back. -/
structure Build.Dom (env : Env) (D : List (Str × Str)) (exts : List Extension) (b : Build) : Prop where
  items : ∀ i ∈ b.items, i.Dom env D exts
  attrs : AnyDom env D b!"build" b.anyAttr

/-- What a build becomes. -/
def Build.back (b : Build) : Build := { b with items := b.items.map Item.back }

theorem Build.Dom.good {env : Env} {D : List (Str × Str)} {exts : List Extension} {b : Build} (h : b.Dom env D exts) :
    Good D b.ops :=
  .elem (nameOK_core (by decide +kernel)) h.attrs.attrs (.flatMap fun i hi => (h.items i hi).good)

theorem Build.within {cfg : DecCfg} {n : Name} {r : Regs} {b : Build} {D : List (Str × Str)} (hroot : cfg.isRoot = true)
    (hz : r.model.build = .zero) (h : b.Dom cfg.env D r.model.extensions) :
    ∃ v w, Within cfg .model n r (rd b.ops) { r with md := v, item := w, model := { r.model with build := b.back } } := by
  obtain ⟨v, w, hv⟩ := within_items (cfg := cfg) (n := ⟨nsCore, b!"build"⟩) (D := D) (is := b.items)
    (r := { r with model := { r.model with build := { r.model.build with anyAttr := b.anyAttr } } }) h.items
  refine ⟨v, w, ?_⟩
  have := Within.ops (n := n) (n' := coreName b!"build") (skip := false) (as := encodeAnyAttr b.anyAttr) (d := .model) (d' := .build)
    (k := -1) (r := r) (r1 := r) rfl (by
      simp only [child, modelChild, fullName_core]
      rw [if_pos trivial, if_neg (by decide +kernel), if_pos ⟨trivial, hroot⟩]) (by
      rw [h.attrs.attrs.read]
      simp only [start, anyAttrs, hz]
      rw [show Build.zero.anyAttr = [] from rfl, fold_any h.attrs.1]
      rfl) (by rw [hz] at hv; exact hv)
  simpa [stop, Build.zero, Build.back, Build.ops, opStart] using this

/-! ## Components -/

/-- What a component becomes. -/
def Component.back (c : Component) : Component := { c with transform := c.transform.written }

/-- What components become. -/
def Components.back (c : Components) : Components := { c with component := c.component.map Component.back }

/-- The components can be written and read back. -/
structure Components.Dom (env : Env) (D : List (Str × Str)) (c : Components) : Prop where
  component : ∀ x ∈ c.component, AnyDom env D b!"component" x.anyAttr
  attrs : AnyDom env D b!"components" c.anyAttr

theorem component_attrsDom {env : Env} {D : List (Str × Str)} {c : Component} (h : AnyDom env D b!"component" c.anyAttr) :
    AttrsDom D false (attr b!"objectid" (formatUint c.objectID) ::
      (attrIf c.transform.isTransform b!"transform" c.transform.str ++ encodeAnyAttr c.anyAttr)) :=
  .cons (.plain (by decide +kernel) (plain_formatUint _))
    (.append (.ite fun _ => .plain (by decide +kernel) (plain_matrix _)) h.attrs)

theorem component_good {env : Env} {D : List (Str × Str)} {c : Component} (h : AnyDom env D b!"component" c.anyAttr) :
    Good D [c.op] := .auto (nameOK_core (by decide +kernel)) (component_attrsDom h)

theorem Components.Dom.good {env : Env} {D : List (Str × Str)} {c : Components} (h : c.Dom env D) : Good D c.ops :=
  .elem (nameOK_core (by decide +kernel)) h.attrs.attrs (.map fun x hx => component_good (h.component x hx))

theorem component_attrs {env : Env} {D : List (Str × Str)} {c : Component} (h : AnyDom env D b!"component" c.anyAttr) :
    attrFold (componentAttr env) .zero (attr b!"objectid" (formatUint c.objectID) ::
      (attrIf c.transform.isTransform b!"transform" c.transform.str ++ encodeAnyAttr c.anyAttr)) = some (c.back, []) := by
  rw [attrFold_cons (s' := { Component.zero with objectID := c.objectID }) (by
    simp only [componentAttr, attr, if_true]
    rw [← attr, uintAttr_format])]
  rw [attrFold_if (s' := { Component.zero with objectID := c.objectID, transform := c.transform.written })
    (fun hc => by
      simp only [componentAttr, attr, if_true]
      rw [if_neg (by decide +kernel), ← attr, matrixAttr_format]
      simp [Matrix.written, hc])
    (fun hc => by simp [Matrix.written, hc, Component.zero])]
  rw [attrFold_groups (get := Component.anyAttr) (set := fun i x => { i with anyAttr := x }) h.1 rfl
    (fun s a ha => by simp [componentAttr, ha]) (fun _ _ => rfl) (fun _ _ _ => rfl) (fun _ => rfl)]
  rfl

theorem within_components {cfg : DecCfg} {n : Name} {D : List (Str × Str)} : ∀ {cs : List Component} {r : Regs} {c0 : Components},
    r.obj.components = some c0 → (∀ c ∈ cs, AnyDom cfg.env D b!"component" c.anyAttr) →
    Within cfg .components n r (rd (cs.map Component.op)) { r with
      obj := { r.obj with components := some { c0 with component := c0.component ++ cs.map Component.back } } }
  | [], r, c0, h0, _ => by
    obtain ⟨_, _, _, _, _, ⟨_, _, _, _, _, _, _, _, _, comps, _⟩, _, _, _, _⟩ := r
    simp only at h0
    subst h0
    simp only [List.map_nil, List.append_nil]
    exact Within.nil
  | c :: cs, r, c0, h0, h => by
    have h1 : Within cfg .components n r (rd [c.op]) _ := Within.auto (n' := coreName b!"component") (skip := false) rfl
      (by
        simp only [child, onlyChild, fullName_core]
        rw [if_pos trivial]) (by
        rw [(component_attrsDom (h c (by simp))).read]
        simp only [start]
        rw [component_attrs (h c (by simp))]
        rfl)
    simp only [stop, Object.modComponents, h0, Option.map_some] at h1
    have h2 := within_components (cfg := cfg) (n := n) (D := D) (cs := cs) (r := { r with
      obj := { r.obj with components := some { c0 with component := c0.component ++ [c.back] } } }) rfl
      (fun x hx => h x (by simp [hx]))
    have := h1.seq (Good.map fun x hx => component_good (h x (List.mem_cons_of_mem _ hx))).text h2
    simpa using this

theorem Components.within {cfg : DecCfg} {n : Name} {r : Regs} {c : Components} {D : List (Str × Str)} (h : c.Dom cfg.env D) :
    Within cfg .object n r (rd c.ops) { r with obj := { r.obj with components := some c.back } } := by
  have hv := within_components (cfg := cfg) (n := ⟨nsCore, b!"components"⟩) (D := D) (cs := c.component)
    (r := { r with obj := { r.obj with components := some ⟨[], c.anyAttr⟩ } }) rfl h.component
  have := Within.ops (cfg := cfg) (n := n) (n' := coreName b!"components") (skip := false) (as := encodeAnyAttr c.anyAttr) (d := .object)
    (d' := .components) (k := -1) (r := r) (r1 := r) rfl (by
      simp only [child, fullName_core]
      rw [if_neg (by decide +kernel), if_pos trivial]) (by
      rw [h.attrs.attrs.read]
      simp only [start, anyAttrs]
      rw [fold_any h.attrs.1]
      rfl) hv
  simpa [stop, Components.back, Components.ops, opStart] using this

/-! ## Base materials -/

/-- The base materials can be written and read back. -/
structure BaseMaterials.Dom (env : Env) (D : List (Str × Str)) (r : BaseMaterials) : Prop where
  names : ∀ b ∈ r.materials, cleanText b.name = b.name
  materials : ∀ b ∈ r.materials, AnyDom env D b!"base" b.anyAttr
  attrs : AnyDom env D b!"basematerials" r.anyAttr

theorem base_attrsDom {env : Env} {D : List (Str × Str)} {b : Base} (hn : cleanText b.name = b.name)
    (h : AnyDom env D b!"base" b.anyAttr) :
    AttrsDom D false (attr b!"name" b.name :: attr b!"displaycolor" (formatRGBA b.color) :: encodeAnyAttr b.anyAttr) :=
  .cons (.text (by decide +kernel) hn) (.cons (.plain (by decide +kernel) (plain_formatRGBA _)) h.attrs)

theorem base_good {env : Env} {D : List (Str × Str)} {b : Base} (hn : cleanText b.name = b.name)
    (h : AnyDom env D b!"base" b.anyAttr) : Good D [b.op] :=
  .auto (nameOK_core (by decide +kernel)) (base_attrsDom hn h)

theorem BaseMaterials.Dom.attrsDom {env : Env} {D : List (Str × Str)} {r : BaseMaterials} (h : r.Dom env D) :
    AttrsDom D false (attr b!"id" (formatUint r.id) :: encodeAnyAttr r.anyAttr) :=
  .cons (.plain (by decide +kernel) (plain_formatUint _)) h.attrs.attrs

theorem BaseMaterials.Dom.good {env : Env} {D : List (Str × Str)} {r : BaseMaterials} (h : r.Dom env D) : Good D r.ops :=
  .elem (nameOK_core (by decide +kernel)) h.attrsDom (.map fun x hx => base_good (h.names x hx) (h.materials x hx))

theorem base_attrs {env : Env} {D : List (Str × Str)} {b : Base} (h : AnyDom env D b!"base" b.anyAttr) :
    attrFold (baseAttr env) ⟨[], .zero, []⟩
      (attr b!"name" b.name :: attr b!"displaycolor" (formatRGBA b.color) :: encodeAnyAttr b.anyAttr) = some (b, []) := by
  rw [attrFold_cons (s' := ⟨b.name, .zero, []⟩) (by simp only [baseAttr, attr, if_true])]
  rw [attrFold_cons (s' := ⟨b.name, b.color, []⟩) (by
    simp only [baseAttr, attr, if_true]
    rw [if_neg (by decide +kernel), ← attr, colorAttr_format])]
  rw [attrFold_groups (get := Base.anyAttr) (set := fun i x => { i with anyAttr := x }) h.1 rfl
    (fun s a ha => by simp [baseAttr, ha]) (fun _ _ => rfl) (fun _ _ _ => rfl) (fun _ => rfl)]

theorem within_bases {cfg : DecCfg} {n : Name} {D : List (Str × Str)} : ∀ {bs : List Base} {r : Regs},
    (∀ b ∈ bs, cleanText b.name = b.name ∧ AnyDom cfg.env D b!"base" b.anyAttr) →
    Within cfg .baseMaterials n r (rd (bs.map Base.op)) { r with base := { r.base with materials := r.base.materials ++ bs } }
  | [], r, _ => by rw [List.append_nil]; exact Within.nil
  | b :: bs, r, h => by
    have hb := h b (by simp)
    have h1 : Within cfg .baseMaterials n r (rd [b.op]) _ := Within.auto (n' := coreName b!"base") (skip := false) rfl
      (by
        simp only [child, onlyChild, fullName_core]
        rw [if_pos trivial]) (by
        rw [(base_attrsDom hb.1 hb.2).read]
        simp only [start]
        rw [base_attrs hb.2]
        rfl)
    have h2 := within_bases (cfg := cfg) (n := n) (D := D) (bs := bs)
      (r := { r with base := { r.base with materials := r.base.materials ++ [b] } }) (fun x hx => h x (by simp [hx]))
    have := h1.seq (Good.map fun x hx => base_good (h x (List.mem_cons_of_mem _ hx)).1 (h x (List.mem_cons_of_mem _ hx)).2).text h2
    simpa [stop] using this

theorem BaseMaterials.within {cfg : DecCfg} {n : Name} {r : Regs} {b : BaseMaterials} {D : List (Str × Str)} {rs : Resources}
    (hr : r.res = some rs) (h : b.Dom cfg.env D) :
    Within cfg .resources n r (rd b.ops) { r with base := b, res := some { rs with assets := rs.assets ++ [.base b] } } := by
  have hv := within_bases (cfg := cfg) (n := ⟨nsCore, b!"basematerials"⟩) (D := D) (bs := b.materials)
    (r := { r with base := ⟨b.id, [], b.anyAttr⟩ }) (fun x hx => ⟨h.names x hx, h.materials x hx⟩)
  have := Within.ops (cfg := cfg) (n := n) (n' := coreName b!"basematerials") (skip := false)
    (as := attr b!"id" (formatUint b.id) :: encodeAnyAttr b.anyAttr) (d := .resources)
    (d' := .baseMaterials) (k := rs.assets.length) (r := r) (r1 := { r with base := .zero }) rfl (by
      simp only [child, fullName_core, resourcesChild, hr]
      rw [if_neg (by decide +kernel), if_pos trivial, if_neg (by decide +kernel)]) (by
      rw [h.attrsDom.read]
      simp only [start]
      rw [attrFold_cons (s' := ⟨b.id, [], []⟩) (by
        simp only [baseMaterialsAttr, attr, if_true]
        rw [← attr, uintAttr_format]
        rfl)]
      rw [attrFold_groups (get := BaseMaterials.anyAttr) (set := fun i x => { i with anyAttr := x }) h.attrs.1 rfl
        (fun s a ha => by simp [baseMaterialsAttr, ha]) (fun _ _ => rfl) (fun _ _ _ => rfl) (fun _ => rfl)]
      rfl) hv
  simpa [stop, BaseMaterials.ops, opStart, hr] using this

end Go3mf
