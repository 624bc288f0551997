import Verif.Lemmas.DocList

/-!
# Elements of the extensions in a document
-/

namespace Go3mf
open Spec

theorem isOk_attrs_leaf {cfg : DecCfg} {kept : Prop} {ck : Kind} {loc : AnyLoc} {kd : ExtDec} {cn : Name} {r : Regs} {c : List Node}
    (h1 : ck ≠ .metadata) (h2 : ck.isOpen = false) (h3 : elements ck = []) (h4 : kd.hasChild = false)
    (hon : Once cfg.env ck c) (hok : ContentOk cfg.env kept ck cn c) :
    Runs cfg (.ext loc kd) cn r (treeEvents c) r (contentFaults cfg.env ck [] c) :=
  runs_leaf h1 (childKind_leaf h2 h3)
    ⟨fun h => by rw [Dec.hasChild, h4] at h; exact absurd h (by simp), fun _ => rfl, fun _ h => Dec.noConfusion h⟩ hok hon

/-- The content of an element of an extension that has a list of elements without content. -/
theorem ext_list {cfg : DecCfg} {kept : Prop} {k ck : Kind} {loc : AnyLoc} {kd cd : ExtDec} {n cn : Name} {c : List Node}
    {S : List (List Attr × List Node) → Regs} (hkm : k ≠ .metadata) (ho : k.isOpen = false)
    (hel : elements k = [(cn, ck, .many)]) (hc : kd.hasChild = true)
    (h1 : ck ≠ .metadata) (h2 : ck.isOpen = false) (h3 : elements ck = []) (h4 : cd.hasChild = false)
    (hch : ∀ xs m, extChild (S xs) loc kd m = if m = cn then some ((xs.length : Int), cd) else none)
    (hst : ∀ xs as c, AttrsFit cfg.env ck as →
      extStart (S xs) loc cd as = (S (xs ++ [(as, c)]), attrFaults cfg.env ck as))
    (hok : ContentOk cfg.env kept k n c) (hon : Once cfg.env k c) :
    Runs cfg (.ext loc kd) n (S []) (treeEvents c) (S (children cn c)) (contentFaults cfg.env k [] c) := by
  have hcd1 : cd ≠ .slice := by rintro rfl; exact absurd h4 (by decide)
  have hcd2 : cd ≠ .beamSet := by rintro rfl; exact absurd h4 (by decide)
  obtain ⟨r', w, rfl⟩ := runs_list (cfg := cfg) (kept := kept) (k := k) (ck := ck) (d := .ext loc kd) (n := n) (cn := cn)
    (I := fun xs r => r = S xs) (c := c) (r := S []) hkm ho hel hc
    (by
      rintro xs _ rfl
      refine ⟨fun _ m hm => ?_, fun _ => rfl, fun _ h => Dec.noConfusion h⟩
      have : m ≠ cn := by
        rintro rfl
        rw [childKind_one ho hel, if_pos rfl] at hm
        exact absurd hm (by simp)
      simp only [child, hch, if_neg this])
    (by
      rintro xs _ as c rfl ha hon hok
      refine ⟨S xs, .ext loc cd, S (xs ++ [(as, c)]), S (xs ++ [(as, c)]), ?_, ?_, isOk_attrs_leaf h1 h2 h3 h4 hon hok, ?_⟩
      · simp only [child, hch, if_true]
      · simp only [start, hst xs as c ha]
      · cases cd <;> first | exact absurd rfl hcd1 | exact absurd rfl hcd2 | rfl)
    hok hon rfl
  exact w

/-- The element of an extension at its place has been read. -/
def ReadsAs (cfg : DecCfg) (loc : AnyLoc) (kd : ExtDec) (k : Kind) (n : Name) (e0 : AnyElem)
    (of : List Attr × List Node → AnyElem) (kept : Prop) : Prop :=
  ∀ (r : Regs) (as : List Attr) (c : List Node), Holds loc r e0 → AttrsFit cfg.env k as → Once cfg.env k c →
    ContentOk cfg.env kept k n c → ∃ r2 r3, extStart (r.putAny loc e0) loc kd as = (r2, attrFaults cfg.env k as) ∧
      Runs cfg (.ext loc kd) n r2 (treeEvents c) r3 (contentFaults cfg.env k [] c) ∧
      ∃ s b, r3 = ({ r with slice := s, beamSet := b } : Regs).putAny loc (of (as, c))

theorem extStart_put {r : Regs} {loc : AnyLoc} {k : ExtDec} {as : List Attr} {e e' : AnyElem} {ls : List Leaf} (hk : k.isTop = true)
    (he : e.start as = (e', ls)) (h : Holds loc r e) (h' : Holds loc r e') :
    extStart (r.putAny loc e) loc k as = (r.putAny loc e', ls) := by
  have h1 : (r.putAny loc e).modAny (fun e => (e.start as).1) loc = r.putAny loc e' := by
    rw [modAny_put h (by simp only [he]; exact h'), he]
  have h2 : (((r.putAny loc e).getAny loc).map fun e => (e.start as).2).getD [] = ls := by
    rw [getAny_put h]
    simp [he]
  cases k <;> simp only [ExtDec.isTop, Bool.false_eq_true] at hk <;> simp only [extStart, h1, h2]

/-- A resource with a list of elements without content: `E as xs` is the resource with the attributes and the list. -/
theorem reads_list {cfg : DecCfg} {loc : AnyLoc} {kept : Prop} {kd cd : ExtDec} {k ck : Kind} {n cn : Name} {x0 : ExtRes}
    {E : List Attr → List (List Attr × List Node) → ExtRes} {of : List Attr × List Node → ExtRes}
    (hof : ∀ as c, of (as, c) = E as (children cn c)) (htop : kd.isTop = true)
    (hstart : ∀ as, AttrsFit cfg.env k as → (AnyElem.res x0).start as = (.res (E as []), attrFaults cfg.env k as))
    (hkm : k ≠ .metadata) (ho : k.isOpen = false)
    (hel : elements k = [(cn, ck, .many)]) (hc : kd.hasChild = true)
    (h1 : ck ≠ .metadata) (h2 : ck.isOpen = false) (h3 : elements ck = []) (h4 : cd.hasChild = false)
    (hch : ∀ as xs r m, Holds loc r (.res x0) →
      extChild (r.putAny loc (.res (E as xs))) loc kd m = if m = cn then some ((xs.length : Int), cd) else none)
    (hst : ∀ as0 xs as c r, Holds loc r (.res x0) → AttrsFit cfg.env ck as →
      extStart (r.putAny loc (.res (E as0 xs))) loc cd as =
        (r.putAny loc (.res (E as0 (xs ++ [(as, c)]))), attrFaults cfg.env ck as)) :
    ReadsAs cfg loc kd k n (.res x0) (fun e => .res (of e)) kept := by
  intro r as c hh ha hon hok
  refine ⟨r.putAny loc (.res (E as [])), r.putAny loc (.res (E as (children cn c))),
    extStart_put htop (hstart as ha) hh (holds_res hh), ?_, r.slice, r.beamSet, by simp only [hof]⟩
  exact ext_list (S := fun xs => r.putAny loc (.res (E as xs))) hkm ho hel hc h1 h2 h3 h4
    (fun xs m => hch as xs r m hh) (fun xs as' c' ha' => hst as xs as' c' r hh ha') hok hon

section
variable {cfg : DecCfg} {loc : AnyLoc} {kept : Prop} {n : Name}

/-- A change of the resource at its place. -/
theorem modRes_put {r : Regs} {x : ExtRes} {f : ExtRes → ExtRes} (h : Holds loc r (.res x)) :
    (r.putAny loc (.res x)).modAny (·.modRes f) loc = r.putAny loc (.res (f x)) :=
  modAny_put (f := (·.modRes f)) h (holds_res h)

theorem colorGroup_reads : ReadsAs cfg loc .colorGroup .colorGroup n (.res (.colorGroup ⟨0, []⟩))
    (fun e => .res (.colorGroup (colorGroupOf e))) kept := by
  refine reads_list (cn := mat b!"color") (ck := .color) (cd := .color)
    (E := fun as xs => .colorGroup ⟨uintAt as b!"id", xs.map fun x => (parseRGBA (textAt x.1 b!"color")).1⟩)
    (fun as c => rfl) rfl ?_ (by decide) rfl rfl rfl (by decide) rfl rfl rfl ?_ ?_
  · intro as ha
    simp only [AnyElem.start, ExtRes.start, colorGroup_start ha]
    rfl
  · intro as xs r m hh
    simp only [extChild, getAny_put (holds_res hh), List.length_map]
    rfl
  · intro as0 xs as c r hh ha
    simp only [extStart, color_start ha]
    rw [modRes_put (holds_res hh)]
    simp [ExtRes.addColors]

theorem texture2DGroup_reads : ReadsAs cfg loc .texture2DGroup .texture2DGroup n (.res (.texture2DGroup ⟨0, 0, []⟩))
    (fun e => .res (.texture2DGroup (texture2DGroupOf e))) kept := by
  refine reads_list (cn := mat b!"tex2coord") (ck := .tex2Coord) (cd := .coord)
    (E := fun as xs => .texture2DGroup ⟨uintAt as b!"id", uintAt as b!"texid",
      xs.map fun x => ⟨floatAt x.1 b!"u", floatAt x.1 b!"v"⟩⟩)
    (fun as c => rfl) rfl ?_ (by decide) rfl rfl rfl (by decide) rfl rfl rfl ?_ ?_
  · intro as ha
    simp only [AnyElem.start, ExtRes.start, texture2DGroup_start ha]
    rfl
  · intro as xs r m hh
    simp only [extChild, getAny_put (holds_res hh), List.length_map]
    rfl
  · intro as0 xs as c r hh ha
    simp only [extStart, coord_start ha]
    rw [modRes_put (holds_res hh)]
    simp [ExtRes.addCoord]

theorem compositeMaterials_reads : ReadsAs cfg loc .compositeMaterials .compositeMaterials n (.res (.composite ⟨0, 0, [], []⟩))
    (fun e => .res (.composite (compositeMaterialsOf e))) kept := by
  refine reads_list (cn := mat b!"composite") (ck := .composite) (cd := .composite)
    (E := fun as xs => .composite ⟨uintAt as b!"id", uintAt as b!"matid", uintsAt as b!"matindices",
      xs.map fun x => floatsAt x.1 b!"values"⟩)
    (fun as c => rfl) rfl ?_ (by decide) rfl rfl rfl (by decide) rfl rfl rfl ?_ ?_
  · intro as ha
    simp only [AnyElem.start, ExtRes.start, compositeMaterials_start ha]
    rfl
  · intro as xs r m hh
    simp only [extChild, getAny_put (holds_res hh), List.length_map]
    rfl
  · intro as0 xs as c r hh ha
    simp only [extStart, composite_start ha]
    rw [modRes_put (holds_res hh)]
    simp [ExtRes.addComposite]

theorem multiProperties_reads : ReadsAs cfg loc .multiProperties .multiProperties n (.res (.multi ⟨0, [], [], []⟩))
    (fun e => .res (.multi (multiPropertiesOf e))) kept := by
  refine reads_list (cn := mat b!"multi") (ck := .multi) (cd := .multi)
    (E := fun as xs => .multi ⟨uintAt as b!"id", uintsAt as b!"pids",
      (fields (textAt as b!"blendmethods")).map fun f => (newBlendMethod f).getD .mix, xs.map fun x => uintsAt x.1 b!"pindices"⟩)
    (fun as c => rfl) rfl ?_ (by decide) rfl rfl rfl (by decide) rfl rfl rfl ?_ ?_
  · intro as ha
    simp only [AnyElem.start, ExtRes.start, multiProperties_start ha]
    rfl
  · intro as xs r m hh
    simp only [extChild, getAny_put (holds_res hh), List.length_map]
    rfl
  · intro as0 xs as c r hh ha
    simp only [extStart, multi_start ha]
    rw [modRes_put (holds_res hh)]
    simp [ExtRes.addMulti]

theorem texture2D_reads : ReadsAs cfg loc .texture2D .texture2D n (.res (.texture2D ⟨0, [], .unset, .wrap, .wrap, .auto⟩))
    (fun e => .res (.texture2D (texture2DOf e.1))) kept := by
  intro r as c hh ha hon hok
  refine ⟨_, _, extStart_put (e' := .res (.texture2D (texture2DOf as))) rfl ?_ hh (holds_res hh),
    isOk_attrs_leaf (by decide) rfl rfl rfl hon hok, r.slice, r.beamSet, rfl⟩
  simp only [AnyElem.start, ExtRes.start, texture2D_start ha]

/-! ## Slices -/

theorem polygonVertices_runs {r : Regs} {c : List Node} (h0 : r.slice.vertices = [])
    (hon : Once cfg.env .polygonVertices c) (hok : ContentOk cfg.env kept .polygonVertices n c) :
    Runs cfg (.ext loc .polygonVertices) n r (treeEvents c)
      { r with slice := { r.slice with vertices := (children (slc b!"vertex") c).map fun x => polygonVertexOf x.1 } }
      (contentFaults cfg.env .polygonVertices [] c) := by
  have := ext_list (cfg := cfg) (kept := kept) (k := .polygonVertices) (ck := .polygonVertex) (loc := loc)
    (kd := .polygonVertices) (cd := .polygonVertex) (n := n) (cn := slc b!"vertex") (c := c)
    (S := fun xs => ({ r with slice := { r.slice with vertices := xs.map fun x => polygonVertexOf x.1 } } : Regs))
    (by decide) rfl rfl rfl (by decide) rfl rfl rfl
    (by
      intro xs m
      simp only [extChild, List.length_map]
      rfl)
    (by
      intro xs as c ha
      simp only [extStart, polygonVertex_start ha, List.map_append, List.map_cons, List.map_nil])
    hok hon
  have e : ({ r with slice := { r.slice with vertices := [] } } : Regs) = r := by rw [← h0]
  simpa only [List.map_nil, e] using this

theorem contentFaults_leaf {env : Env} {k : Kind} (h : ∀ m, childKind env k m = none) :
    ∀ (c before : List Node), contentFaults env k before c = []
  | [], before => by rw [contentFaults]
  | x :: xs, before => by
    rw [contentFaults, contentFaults_leaf h xs, nodeFaults_ignored]
    · rfl
    · cases x with
      | elem m as c => exact h m
      | text t => trivial
      | other => trivial

theorem segments_runs {r : Regs} {c : List Node} {ps : List Polygon} {v : UInt32} (h0 : r.slice.polygons = ps ++ [⟨v, []⟩])
    (hon : Once cfg.env .polygon c) (hok : ContentOk cfg.env kept .polygon n c) :
    Runs cfg (.ext loc .polygon) n r (treeEvents c)
      { r with slice := { r.slice with
        polygons := ps ++ [⟨v, (children (slc b!"segment") c).map fun x => segmentOf x.1⟩] } }
      (contentFaults cfg.env .polygon [] c) := by
  have hck := childKind_one (env := cfg.env) (k := .polygon) rfl rfl
  obtain ⟨r', w, rfl⟩ := runs_content (cfg := cfg) (kept := kept) (k := .polygon) (d := .ext loc .polygon) (n := n)
    (I := fun b x => x = ({ r with slice := { r.slice with
      polygons := ps ++ [⟨v, (children (slc b!"segment") b).map fun x => segmentOf x.1⟩] } } : Regs)) (by decide)
    (by
      rintro b _ rfl
      refine ⟨fun _ m hm => ?_, fun _ => rfl, fun _ h => Dec.noConfusion h⟩
      have : m ≠ ⟨nsSlices, b!"segment"⟩ := by
        rintro rfl
        rw [hck] at hm
        exact absurd hm (by simp [slc])
      simp only [child, extChild, if_neg this])
    (by
      rintro b x _ rfl hx
      rw [children_ignored hx (by rw [hck]; simp)])
    (by
      rintro b m as c k' mu _ rfl hm _ ha hon hok _
      rw [hck] at hm
      by_cases hmn : m = slc b!"segment"
      · rw [if_pos hmn] at hm
        obtain ⟨rfl, rfl⟩ := Prod.mk.inj (Option.some.inj hm)
        subst hmn
        have hf := ha.segment rfl
        have hl : ∀ m, childKind cfg.env .segment m = none := childKind_leaf rfl rfl
        refine ⟨_, ?_, rfl⟩
        rw [nodeFaults_elem (k' := .segment) (mu := .many) (by rw [hck, if_pos rfl]), hf, contentFaults_leaf hl, Node.events]
        have hq : Runs cfg (.ext loc .segment) (slc b!"segment") ({ r with slice := { r.slice with
            polygons := ps ++ [⟨v, (children (slc b!"segment") (b ++ [.elem (slc b!"segment") as c])).map
              fun x => segmentOf x.1⟩] } } : Regs) (treeEvents c) _ (contentFaults cfg.env .segment [] c) :=
          isOk_attrs_leaf (by decide) rfl rfl rfl hon hok
        rw [contentFaults_leaf hl] at hq
        refine Runs.elem (k := ((ps ++ [(⟨v, (children (slc b!"segment") b).map fun x => segmentOf x.1⟩ : Polygon)]).length : Int))
          (d' := .ext loc .segment) (es := []) (r1 := ({ r with slice := { r.slice with
            polygons := ps ++ [⟨v, (children (slc b!"segment") b).map fun x => segmentOf x.1⟩] } } : Regs)) rfl ?_ ?_ hq
        · simp only [child, extChild, slc, if_true]
        · simp only [start, extStart, segment_start ha, hf, modLast_append, children_same, List.map_append, List.map_cons,
            List.map_nil]
          rfl
      · rw [if_neg hmn] at hm; simp at hm)
    c [] r hok (by simpa using hon) (by simp only [children, List.filterMap_nil, List.map_nil, ← h0])
  simpa using w

theorem quiet_ext {k : Kind} {kd : ExtDec} {r : Regs}
    (h : ∀ m, childKind cfg.env k m = none → extChild r loc kd m = none) : Quiet cfg k (.ext loc kd) r :=
  ⟨fun _ m hm => by simp only [child, h m hm], fun _ => rfl, fun _ h => Dec.noConfusion h⟩

/-- The content of a slice. -/
theorem slice_runs {r : Regs} {as : List Attr} {c : List Node} (h0 : r.slice = sliceOf (as, []))
    (hon : Once cfg.env .slice c) (hok : ContentOk cfg.env kept .slice n c) :
    Runs cfg (.ext loc .slice) n r (treeEvents c) { r with slice := sliceOf (as, c) } (contentFaults cfg.env .slice [] c) := by
  have hck := childKind_two (env := cfg.env) (k := .slice) rfl rfl
  have hne : slc b!"vertices" ≠ slc b!"polygon" := by decide +kernel
  obtain ⟨r', w, rfl⟩ := runs_content (cfg := cfg) (kept := kept) (k := .slice) (d := .ext loc .slice) (n := n)
    (I := fun b x => x = ({ r with slice := sliceOf (as, b) } : Regs)) (by decide)
    (by
      rintro b _ rfl
      refine quiet_ext fun m hm => ?_
      rw [hck] at hm
      by_cases h1 : m = slc b!"vertices"
      · rw [if_pos h1] at hm; simp at hm
      · by_cases h2 : m = slc b!"polygon"
        · rw [if_neg h1, if_pos h2] at hm; simp at hm
        · simp only [slc] at h1 h2
          simp only [extChild, if_neg h1, if_neg h2])
    (by
      rintro b x _ rfl hx
      simp only [sliceOf]
      rw [children_ignored hx (by rw [hck, if_neg (Ne.symm hne)]; simp), child?_ignored hx (by rw [hck]; simp)])
    (by
      rintro b m as' c k' mu _ rfl hm _ ha hon hok hs
      have hm' := hm
      rw [hck] at hm'
      by_cases h1 : m = slc b!"vertices"
      · rw [if_pos h1] at hm'
        obtain ⟨rfl, rfl⟩ := Prod.mk.inj (Option.some.inj hm')
        subst h1
        have hb := hs rfl
        have hf : attrFaults cfg.env .polygonVertices as' = [] := beamSet_faults (by simp [attributes]) rfl rfl
        refine ⟨_, runs_elem (i := -1) (d' := .ext loc .polygonVertices)
          (r1 := { r with slice := sliceOf (as, b) }) (r2 := { r with slice := sliceOf (as, b) }) hm rfl (by simp only [child, extChild, slc, if_true]) rfl
          (by simp only [start, extStart, hf]) (polygonVertices_runs (by simp only [sliceOf, child?_none hb]) hon hok), ?_⟩
        simp only [stop, sliceOf, child?_one hb, children_ne hne]
      · rw [if_neg h1] at hm'
        by_cases h2 : m = slc b!"polygon"
        · rw [if_pos h2] at hm'
          obtain ⟨rfl, rfl⟩ := Prod.mk.inj (Option.some.inj hm')
          subst h2
          refine ⟨_, runs_elem (i := ((children (slc b!"polygon") b).length : Int)) (d' := .ext loc .polygon)
            (r1 := { r with slice := sliceOf (as, b) }) hm rfl ?_ rfl ?_
            (segments_runs (ps := (children (slc b!"polygon") b).map polygonOf) (v := uintAt as' b!"startv") (r :=
              ({ r with slice := { sliceOf (as, b) with
                polygons := (children (slc b!"polygon") b).map polygonOf ++ [⟨uintAt as' b!"startv", []⟩] } } : Regs)) rfl hon hok), ?_⟩
          · have h1' : (⟨nsSlices, b!"polygon"⟩ : Name) ≠ ⟨nsSlices, b!"vertices"⟩ := h1
            simp only [child, extChild, slc, if_neg h1', if_true, sliceOf, List.length_map]
          · simp only [start, extStart, polygon_start ha]
            rfl
          · simp only [stop, sliceOf, children_same, List.map_append, List.map_cons, List.map_nil, polygonOf, child?_ne h1]
        · rw [if_neg h2] at hm'; simp at hm')
    c [] r hok (by simpa using hon) (by rw [← h0])
  simpa using w

theorem sliceStack_reads : ReadsAs cfg loc .sliceStack .sliceStack n (.res (.sliceStack ⟨0, .zero, [], []⟩))
    (fun e => .res (.sliceStack (sliceStackOf e))) kept := by
  intro r as c hh ha hon hok
  have hck := childKind_two (env := cfg.env) (k := .sliceStack) rfl rfl
  have hne : slc b!"slice" ≠ slc b!"sliceref" := by decide +kernel
  have hst := extStart_put (k := .sliceStack) (as := as) (e' := .res (.sliceStack (sliceStackOf (as, [])))) (ls := attrFaults cfg.env .sliceStack as) rfl
    (by simp only [AnyElem.start, ExtRes.start, sliceStack_start ha]) hh (holds_res hh)
  obtain ⟨r', w, s, e⟩ := runs_content (cfg := cfg) (kept := kept) (k := .sliceStack) (d := .ext loc .sliceStack) (n := n)
    (I := fun b x => ∃ s, x = ({ r with slice := s } : Regs).putAny loc (.res (.sliceStack (sliceStackOf (as, b))))) (by decide)
    (by
      rintro b _ ⟨s, rfl⟩
      refine quiet_ext fun m hm => ?_
      rw [hck] at hm
      by_cases h1 : m = slc b!"slice"
      · rw [if_pos h1] at hm; simp at hm
      · by_cases h2 : m = slc b!"sliceref"
        · rw [if_neg h1, if_pos h2] at hm; simp at hm
        · simp only [slc] at h1 h2
          simp only [extChild, getAny_put (holds_res (holds_slice hh)), if_neg h1, if_neg h2])
    (by
      rintro b x _ ⟨s, rfl⟩ hx
      refine ⟨s, ?_⟩
      simp only [sliceStackOf]
      have n1 : childKind cfg.env .sliceStack (slc b!"slice") ≠ none := by rw [hck, if_pos rfl]; simp
      have n2 : childKind cfg.env .sliceStack (slc b!"sliceref") ≠ none := by
        rw [hck, if_neg (Ne.symm hne), if_pos rfl]; simp
      rw [children_ignored hx n1, children_ignored hx n2])
    (by
      rintro b m as' c k' mu _ ⟨s, rfl⟩ hm _ ha hon hok hs
      have hm' := hm
      rw [hck] at hm'
      by_cases h1 : m = slc b!"slice"
      · rw [if_pos h1] at hm'
        obtain ⟨rfl, rfl⟩ := Prod.mk.inj (Option.some.inj hm')
        subst h1
        refine ⟨_, runs_elem (i := ((children (slc b!"slice") b).length : Int)) (d' := .ext loc .slice)
          (r1 := ({ r with slice := ⟨.zero, [], []⟩ } : Regs).putAny loc (.res (.sliceStack (sliceStackOf (as, b)))))
          (r2 := ({ r with slice := sliceOf (as', []) } : Regs).putAny loc (.res (.sliceStack (sliceStackOf (as, b))))) hm rfl ?_ rfl ?_
          (slice_runs (as := as') (by rw [putAny_slice]) hon hok), sliceOf (as', c), ?_⟩
        · simp only [child, extChild, getAny_put (holds_res (holds_slice hh)), slc, if_true, put_slice, sliceStackOf, List.length_map]
        · simp only [start, extStart, putAny_slice, slice_start ha, put_slice]
        · simp only [stop, put_slice, putAny_slice]
          rw [modRes_put (holds_res (holds_slice hh))]
          simp only [ExtRes.addSlice, sliceStackOf, children_same, children_ne hne, List.map_append, List.map_cons, List.map_nil]
      · rw [if_neg h1] at hm'
        by_cases h2 : m = slc b!"sliceref"
        · rw [if_pos h2] at hm'
          obtain ⟨rfl, rfl⟩ := Prod.mk.inj (Option.some.inj hm')
          subst h2
          have h1' : (⟨nsSlices, b!"sliceref"⟩ : Name) ≠ ⟨nsSlices, b!"slice"⟩ := h1
          refine ⟨_, runs_elem (i := ((children (slc b!"sliceref") b).length : Int)) (d' := .ext loc .sliceRef)
            (r1 := ({ r with slice := s } : Regs).putAny loc (.res (.sliceStack (sliceStackOf (as, b)))))
            (r2 := ({ r with slice := s } : Regs).putAny loc
              (.res (.sliceStack (sliceStackOf (as, b ++ [.elem (slc b!"sliceref") as' c]))))) hm rfl ?_ rfl ?_
            (isOk_attrs_leaf (by decide) rfl rfl rfl hon hok), s, rfl⟩
          · simp only [child, extChild, getAny_put (holds_res (holds_slice hh)), slc, if_neg h1', if_true, sliceStackOf,
              List.length_map]
          · simp only [start, extStart, sliceRef_start ha]
            rw [modRes_put (holds_res (holds_slice hh))]
            simp only [ExtRes.addRef, sliceStackOf, children_same, children_ne h1, List.map_append, List.map_cons, List.map_nil]
        · rw [if_neg h2] at hm'; simp at hm')
    c [] (r.putAny loc (.res (.sliceStack (sliceStackOf (as, []))))) hok (by simpa using hon) ⟨r.slice, rfl⟩
  exact ⟨_, r', hst, w, s, r.beamSet, by simpa using e⟩

/-! ## Beam lattices -/

/-- A change of the beam lattice at its place. -/
theorem modBeam_put {r : Regs} {x : BeamLattice} {f : BeamLattice → BeamLattice} (h : Holds loc r (.beamLattice x)) :
    (r.putAny loc (.beamLattice x)).modAny (·.modBeam f) loc = r.putAny loc (.beamLattice (f x)) :=
  modAny_put (f := (·.modBeam f)) h (holds_beam h)

theorem beams_runs {r : Regs} {c : List Node} {l : BeamLattice} (hh : Holds loc r (.beamLattice l)) (h0 : l.beams = [])
    (hon : Once cfg.env .beams c) (hok : ContentOk cfg.env kept .beams n c) :
    Runs cfg (.ext loc .beams) n (r.putAny loc (.beamLattice l)) (treeEvents c)
      (r.putAny loc (.beamLattice { l with
        beams := (children (bml b!"beam") c).map fun x => beamOf l.radius l.capMode x.1 }))
      (contentFaults cfg.env .beams [] c) := by
  have := ext_list (cfg := cfg) (kept := kept) (k := .beams) (ck := .beam) (loc := loc)
    (kd := .beams) (cd := .beam) (n := n) (cn := bml b!"beam") (c := c)
    (S := fun xs => r.putAny loc (.beamLattice { l with beams := xs.map fun x => beamOf l.radius l.capMode x.1 }))
    (by decide) rfl rfl rfl (by decide) rfl rfl rfl
    (by
      intro xs m
      simp only [extChild, getAny_put (holds_beam hh), List.length_map]
      rfl)
    (by
      intro xs as c ha
      simp only [extStart]
      rw [modBeam_put (holds_beam hh)]
      simp only [BeamLattice.addBeam, beam_start ha, beamVars_beam, List.map_append, List.map_cons, List.map_nil])
    hok hon
  have e : ({ l with beams := [] } : BeamLattice) = l := by rw [← h0]
  simpa only [List.map_nil, e] using this

theorem refs_runs {r : Regs} {as : List Attr} {c : List Node} (h0 : r.beamSet = beamSetOf (as, []))
    (hon : Once cfg.env .beamSet c) (hok : ContentOk cfg.env kept .beamSet n c) :
    Runs cfg (.ext loc .beamSet) n r (treeEvents c) { r with beamSet := beamSetOf (as, c) }
      (contentFaults cfg.env .beamSet [] c) := by
  have := ext_list (cfg := cfg) (kept := kept) (k := .beamSet) (ck := .beamRef) (loc := loc)
    (kd := .beamSet) (cd := .beamRef) (n := n) (cn := bml b!"ref") (c := c)
    (S := fun xs => ({ r with beamSet :=
      ⟨xs.map fun x => uintAt x.1 b!"index", textAt as b!"name", textAt as b!"identifier"⟩ } : Regs))
    (by decide) rfl rfl rfl (by decide) rfl rfl rfl
    (by
      intro xs m
      simp only [extChild, List.length_map]
      rfl)
    (by
      intro xs as c ha
      simp only [extStart, beamRef_start ha, List.map_append, List.map_cons, List.map_nil])
    hok hon
  have e : ({ r with beamSet := beamSetOf (as, []) } : Regs) = r := by rw [← h0]
  simp only [beamSetOf, children, List.filterMap_nil, List.map_nil] at e
  simp only [List.map_nil, e] at this
  exact this

theorem beamSets_runs {r : Regs} {c : List Node} {l : BeamLattice} (hh : Holds loc r (.beamLattice l)) (h0 : l.beamSets = [])
    (hon : Once cfg.env .beamSets c) (hok : ContentOk cfg.env kept .beamSets n c) :
    ∃ r', Runs cfg (.ext loc .beamSets) n (r.putAny loc (.beamLattice l)) (treeEvents c) r'
      (contentFaults cfg.env .beamSets [] c) ∧
      ∃ s, r' = ({ r with beamSet := s } : Regs).putAny loc (.beamLattice { l with
        beamSets := (children (bml b!"beamset") c).map beamSetOf }) := by
  have hck := childKind_one (env := cfg.env) (k := .beamSets) rfl rfl
  refine runs_list (cfg := cfg) (kept := kept) (k := .beamSets) (ck := .beamSet) (d := .ext loc .beamSets) (n := n)
    (cn := bml b!"beamset") (I := fun xs x => ∃ s, x = ({ r with beamSet := s } : Regs).putAny loc
      (.beamLattice { l with beamSets := xs.map beamSetOf })) (by decide) rfl rfl rfl ?_ ?_ hok hon
      ⟨r.beamSet, by simp only [List.map_nil, ← h0]⟩
  · rintro xs _ ⟨s, rfl⟩
    refine quiet_ext fun m hm => ?_
    have : m ≠ ⟨nsBeam, b!"beamset"⟩ := by
      rintro rfl
      rw [hck] at hm
      exact absurd hm (by simp [bml])
    simp only [extChild, getAny_put (holds_beam (holds_beamSet hh)), if_neg this]
  · rintro xs _ as c ⟨s, rfl⟩ ha hon hok
    have hf : attrFaults cfg.env .beamSet as = [] := beamSet_faults (by simp [attributes]) rfl rfl
    refine ⟨({ r with beamSet := ⟨[], [], []⟩ } : Regs).putAny loc (.beamLattice { l with beamSets := xs.map beamSetOf }),
      .ext loc .beamSet,
      ({ r with beamSet := beamSetOf (as, []) } : Regs).putAny loc (.beamLattice { l with beamSets := xs.map beamSetOf }),
      _, ?_, ?_, refs_runs (as := as) (by rw [putAny_beamSet]) hon hok, beamSetOf (as, c), ?_⟩
    · simp only [child, extChild, getAny_put (holds_beam (holds_beamSet hh)), bml, if_true, put_beamSet, List.length_map]
    · simp only [start, extStart, putAny_beamSet, beamSet_start ha.distinct, put_beamSet, hf]
    · simp only [stop, put_beamSet, putAny_beamSet]
      rw [modBeam_put (holds_beam (holds_beamSet hh))]
      simp only [List.map_append, List.map_cons, List.map_nil]

theorem beamLattice_reads : ReadsAs cfg loc .beamLattice .beamLattice n
    (.beamLattice ⟨.none, 0, 0, [], [], .zero, .zero, .sphere⟩) (fun e => .beamLattice (beamLatticeOf e)) kept := by
  intro r as c hh ha hon hok
  have hck := childKind_two (env := cfg.env) (k := .beamLattice) rfl rfl
  have hne : bml b!"beams" ≠ bml b!"beamsets" := by decide +kernel
  have hst := extStart_put (k := .beamLattice) (as := as) (e' := .beamLattice (beamLatticeOf (as, [])))
    (ls := attrFaults cfg.env .beamLattice as) rfl (by simp only [AnyElem.start, beamLattice_start ha]) hh (holds_beam hh)
  obtain ⟨r', w, s, e⟩ := runs_content (cfg := cfg) (kept := kept) (k := .beamLattice) (d := .ext loc .beamLattice) (n := n)
    (I := fun b x => ∃ s, x = ({ r with beamSet := s } : Regs).putAny loc (.beamLattice (beamLatticeOf (as, b)))) (by decide)
    (by
      rintro b _ ⟨s, rfl⟩
      refine quiet_ext fun m hm => ?_
      rw [hck] at hm
      by_cases h1 : m = bml b!"beams"
      · rw [if_pos h1] at hm; simp at hm
      · by_cases h2 : m = bml b!"beamsets"
        · rw [if_neg h1, if_pos h2] at hm; simp at hm
        · simp only [bml] at h1 h2
          simp only [extChild, getAny_put (holds_beam (holds_beamSet hh)), if_neg h1, if_neg h2])
    (by
      rintro b x _ ⟨s, rfl⟩ hx
      refine ⟨s, ?_⟩
      have n1 : childKind cfg.env .beamLattice (bml b!"beams") ≠ none := by rw [hck, if_pos rfl]; simp
      have n2 : childKind cfg.env .beamLattice (bml b!"beamsets") ≠ none := by
        rw [hck, if_neg (Ne.symm hne), if_pos rfl]; simp
      simp only [beamLatticeOf]
      rw [child?_ignored hx n1, child?_ignored hx n2])
    (by
      rintro b m as' c k' mu _ ⟨s, rfl⟩ hm _ ha hon hok hs
      have hm' := hm
      rw [hck] at hm'
      have hh' : ∀ x, Holds loc ({ r with beamSet := s } : Regs) (.beamLattice x) := fun x => holds_beam (holds_beamSet hh)
      by_cases h1 : m = bml b!"beams"
      · rw [if_pos h1] at hm'
        obtain ⟨rfl, rfl⟩ := Prod.mk.inj (Option.some.inj hm')
        subst h1
        have hb := hs rfl
        have hf : attrFaults cfg.env .beams as' = [] := beamSet_faults (by simp [attributes]) rfl rfl
        refine ⟨_, runs_elem (i := -1) (d' := .ext loc .beams)
          (r1 := ({ r with beamSet := s } : Regs).putAny loc (.beamLattice (beamLatticeOf (as, b))))
          (r2 := ({ r with beamSet := s } : Regs).putAny loc (.beamLattice (beamLatticeOf (as, b)))) hm rfl
          (by simp only [child, extChild, getAny_put (hh' _), bml, if_true]) rfl
          (by simp only [start, extStart, hf])
          (beams_runs (hh' _) (by simp only [beamLatticeOf, child?_none hb]) hon hok), s, ?_⟩
        simp only [stop, beamLatticeOf, child?_one hb, child?_ne hne]
      · rw [if_neg h1] at hm'
        by_cases h2 : m = bml b!"beamsets"
        · rw [if_pos h2] at hm'
          obtain ⟨rfl, rfl⟩ := Prod.mk.inj (Option.some.inj hm')
          subst h2
          have hb := hs rfl
          have h1' : (⟨nsBeam, b!"beamsets"⟩ : Name) ≠ ⟨nsBeam, b!"beams"⟩ := h1
          have hf : attrFaults cfg.env .beamSets as' = [] := beamSet_faults (by simp [attributes]) rfl rfl
          obtain ⟨r3, w3, s3, rfl⟩ := beamSets_runs (cfg := cfg) (kept := kept) (n := bml b!"beamsets") (c := c) (hh' (beamLatticeOf (as, b)))
            (by simp only [beamLatticeOf, child?_none hb]) hon hok
          refine ⟨_, runs_elem (i := -1) (d' := .ext loc .beamSets)
            (r1 := ({ r with beamSet := s } : Regs).putAny loc (.beamLattice (beamLatticeOf (as, b))))
            (r2 := ({ r with beamSet := s } : Regs).putAny loc (.beamLattice (beamLatticeOf (as, b)))) hm rfl
            (by simp only [child, extChild, getAny_put (hh' _), bml, if_neg h1', if_true]) rfl
            (by simp only [start, extStart, hf]) w3, s3, ?_⟩
          simp only [stop, beamLatticeOf, child?_one hb, child?_ne h1]
        · rw [if_neg h2] at hm'; simp at hm')
    c [] (r.putAny loc (.beamLattice (beamLatticeOf (as, [])))) hok (by simpa using hon) ⟨r.beamSet, rfl⟩
  exact ⟨_, r', hst, w, r.slice, s, by simpa using e⟩

end

end Go3mf
