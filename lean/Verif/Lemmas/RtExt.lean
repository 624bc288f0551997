import Verif.Lemmas.Good

/-!
# Encoded elements of the extensions decoded
-/

namespace Go3mf

/-! ## Places -/

/-- The registers with an element more in the list. -/
def Regs.putAny (loc : AnyLoc) (e : AnyElem) (r : Regs) : Regs :=
  match loc with
  | .asset => match e with
    | .res x => { r with res := r.res.map fun rs => { rs with assets := rs.assets ++ [.res x] } }
    | _ => r
  | .modelAny => { r with model := { r.model with any := r.model.any ++ [e] } }
  | .meshAny => { r with obj := r.obj.modMesh fun m => { m with any := m.any ++ [e] } }

/-- The list is there, and the element is one that the list can hold. -/
def Holds (loc : AnyLoc) (r : Regs) (e : AnyElem) : Prop :=
  match loc with
  | .asset => r.res.isSome = true ∧ ∃ x, e = .res x
  | .modelAny => True
  | .meshAny => r.obj.mesh.isSome = true

theorem modLast_append {α : Type} (f : α → α) : ∀ (l : List α) (a : α), modLast f (l ++ [a]) = l ++ [f a]
  | [], a => rfl
  | [b], a => rfl
  | b :: c :: l, a => by
    have := modLast_append f (c :: l) a
    simp only [List.cons_append] at this ⊢
    rw [modLast, this]

theorem modAny_put {loc : AnyLoc} {r : Regs} {e : AnyElem} {f : AnyElem → AnyElem} (h : Holds loc r e)
    (h' : Holds loc r (f e)) : (r.putAny loc e).modAny f loc = r.putAny loc (f e) := by
  cases loc with
  | asset =>
    obtain ⟨-, x, rfl⟩ := h
    obtain ⟨-, y, hy⟩ := h'
    rw [hy]
    simp only [Regs.putAny, Regs.modAny, Option.map_map]
    congr 2
    funext rs
    simp [modLast_append, Asset.modAny, hy]
  | modelAny => simp [Regs.putAny, Regs.modAny, modLast_append]
  | meshAny =>
    simp only [Regs.putAny, Regs.modAny, Object.modMesh, Option.map_map]
    congr 3
    funext m
    simp [modLast_append]

theorem getAny_put {loc : AnyLoc} {r : Regs} {e : AnyElem} (h : Holds loc r e) : (r.putAny loc e).getAny loc = some e := by
  cases loc with
  | asset =>
    obtain ⟨h1, x, rfl⟩ := h
    obtain ⟨rs, hrs⟩ := Option.isSome_iff_exists.1 h1
    simp [Regs.putAny, Regs.getAny, hrs]
  | modelAny => simp [Regs.putAny, Regs.getAny]
  | meshAny =>
    obtain ⟨m, hm⟩ := Option.isSome_iff_exists.1 h
    simp [Regs.putAny, Regs.getAny, Object.modMesh, hm]

theorem holds_res {loc : AnyLoc} {r : Regs} {x y : ExtRes} (h : Holds loc r (.res x)) : Holds loc r (.res y) := by
  cases loc with
  | asset => exact ⟨h.1, y, rfl⟩
  | modelAny => trivial
  | meshAny => exact h

theorem holds_beam {loc : AnyLoc} {r : Regs} {x y : BeamLattice} (h : Holds loc r (.beamLattice x)) :
    Holds loc r (.beamLattice y) := by
  cases loc with
  | asset => obtain ⟨_, z, hz⟩ := h; exact AnyElem.noConfusion hz
  | modelAny => trivial
  | meshAny => exact h

theorem put_slice (loc : AnyLoc) (e : AnyElem) (r : Regs) (s : Slice) :
    { r.putAny loc e with slice := s } = { r with slice := s }.putAny loc e := by
  cases loc with
  | asset => cases e <;> rfl
  | modelAny => rfl
  | meshAny => rfl

theorem put_beamSet (loc : AnyLoc) (e : AnyElem) (r : Regs) (s : BeamSet) :
    { r.putAny loc e with beamSet := s } = { r with beamSet := s }.putAny loc e := by
  cases loc with
  | asset => cases e <;> rfl
  | modelAny => rfl
  | meshAny => rfl

theorem putAny_slice (loc : AnyLoc) (e : AnyElem) (r : Regs) : (r.putAny loc e).slice = r.slice := by
  cases loc with
  | asset => cases e <;> rfl
  | modelAny => rfl
  | meshAny => rfl

theorem putAny_beamSet (loc : AnyLoc) (e : AnyElem) (r : Regs) : (r.putAny loc e).beamSet = r.beamSet := by
  cases loc with
  | asset => cases e <;> rfl
  | modelAny => rfl
  | meshAny => rfl

/-- The decoder of the element that has the list. -/
def AnyLoc.parent : AnyLoc → Dec
  | .asset => .resources
  | .modelAny => .model
  | .meshAny => .mesh

theorem load_beam {env : Env} (h : env.beamlattice = true) : env.load nsBeam = some .beamlattice := by
  have h1 : nsBeam ≠ nsProduction := by decide +kernel
  have h2 : nsBeam ≠ nsSlices := by decide +kernel
  simp [Env.load, h, h1, h2]

theorem load_materials {env : Env} (h : env.materials = true) : env.load nsMaterials = some .materials := by
  have h1 : nsMaterials ≠ nsProduction := by decide +kernel
  have h2 : nsMaterials ≠ nsSlices := by decide +kernel
  have h3 : nsMaterials ≠ nsBeam := by decide +kernel
  simp [Env.load, h, h1, h2, h3]

theorem child_ext {cfg : DecCfg} {loc : AnyLoc} {r : Regs} {ns l : Str} {x : Ext} {k : ExtDec} {e : AnyElem} (hns : ns ≠ nsCore)
    (hx : cfg.env.load ns = some x) (he : newExtElement x l = some (k, e)) (h : Holds loc r e) :
    ∃ i, child cfg r loc.parent ⟨ns, l⟩ = some (r.putAny loc e, some (i, .ext loc k)) := by
  have hn : ∀ loc, newAnyElement cfg.env loc ⟨ns, l⟩ = some (.ext loc k, e) := by
    intro loc
    simp [newAnyElement, hx, he]
  cases loc with
  | asset =>
    obtain ⟨h1, y, rfl⟩ := h
    obtain ⟨rs, hrs⟩ := Option.isSome_iff_exists.1 h1
    refine ⟨rs.assets.length, ?_⟩
    simp only [AnyLoc.parent, child, resourcesChild, hrs]
    rw [if_neg (fun h => hns h.1), if_neg hns, hn]
    simp [Regs.putAny, hrs]
  | modelAny =>
    refine ⟨-1, ?_⟩
    simp only [AnyLoc.parent, child, modelChild]
    rw [if_neg hns, hn]
    rfl
  | meshAny =>
    refine ⟨-1, ?_⟩
    simp only [AnyLoc.parent, child, meshChild]
    rw [if_neg hns, hn]
    rfl

theorem parent_hasChild (loc : AnyLoc) : loc.parent.hasChild = true := by cases loc <;> rfl

/-- The elements of the extensions that are created by `NewElementDecoder`. -/
def ExtDec.isTop : ExtDec → Bool
  | .colorGroup | .texture2DGroup | .texture2D | .compositeMaterials | .multiProperties | .sliceStack | .beamLattice => true
  | _ => false

theorem extStart_top {r : Regs} {loc : AnyLoc} {k : ExtDec} {as : List Attr} {e e' : AnyElem} (hk : k.isTop = true)
    (he : e.start as = (e', [])) (h : Holds loc r e) (h' : Holds loc r e') :
    extStart (r.putAny loc e) loc k as = (r.putAny loc e', []) := by
  have h1 : (r.putAny loc e).modAny (fun e => (e.start as).1) loc = r.putAny loc e' := by
    rw [modAny_put h (by simp only [he]; exact h'), he]
  have h2 : (((r.putAny loc e).getAny loc).map fun e => (e.start as).2).getD [] = [] := by
    rw [getAny_put h]
    simp [he]
  cases k <;> simp only [ExtDec.isTop, Bool.false_eq_true] at hk <;> simp only [extStart, h1, h2]

/-- An element of an extension, with its children. -/
theorem within_top {cfg : DecCfg} {loc : AnyLoc} {n : Name} {r r' : Regs} {ns l : Str} {x : Ext} {k : ExtDec} {e0 e1 : AnyElem}
    {as : List Attr} {skip : Bool} {body : List Op} (h0 : ns ≠ []) (hns : ns ≠ nsCore) (hx : cfg.env.load ns = some x)
    (he : newExtElement x l = some (k, e0)) (hk : k.isTop = true) (hr : readAttrs as = as) (hs : e0.start as = (e1, []))
    (h : Holds loc r e0) (h' : Holds loc r e1) (hb : Within cfg (.ext loc k) ⟨ns, l⟩ (r.putAny loc e1) (rd body) r') :
    Within cfg loc.parent n r (rd (.start ⟨ns, l⟩ as false skip :: body ++ [.stop ⟨ns, l⟩])) r' := by
  obtain ⟨i, hi⟩ := child_ext (cfg := cfg) hns hx he h
  have := Within.ops (n := n) (n' := ⟨ns, l⟩) (skip := skip) (as := as) (parent_hasChild loc)
    (by rw [fullName_ext h0]; exact hi) (by rw [hr]; simp only [start]; rw [extStart_top hk hs h h'])
    (by rw [fullName_ext h0]; exact hb)
  have e : stop r' (.ext loc k) = r' := by cases k <;> simp only [ExtDec.isTop, Bool.false_eq_true] at hk <;> rfl
  rwa [e] at this

/-- An element of an extension without children. -/
theorem within_top_auto {cfg : DecCfg} {loc : AnyLoc} {n : Name} {r : Regs} {ns l : Str} {x : Ext} {k : ExtDec} {e0 e1 : AnyElem}
    {as : List Attr} {skip : Bool} (h0 : ns ≠ []) (hns : ns ≠ nsCore) (hx : cfg.env.load ns = some x)
    (he : newExtElement x l = some (k, e0)) (hk : k.isTop = true) (hr : readAttrs as = as) (hs : e0.start as = (e1, []))
    (h : Holds loc r e0) (h' : Holds loc r e1) :
    Within cfg loc.parent n r (rd [.start ⟨ns, l⟩ as true skip]) (r.putAny loc e1) := by
  have := within_top (n := n) (skip := skip) (body := []) h0 hns hx he hk hr hs h h' Within.nil
  rw [rd_auto]
  rw [rd_elem] at this
  simpa [readOps, flushText_nil] using this

/-- A child in auto-close mode of an element of an extension. -/
theorem within_ext_auto {cfg : DecCfg} {loc : AnyLoc} {n : Name} {r r' : Regs} {ns l : Str} {k k' : ExtDec} {i : Int}
    {as : List Attr} {skip : Bool} (h0 : ns ≠ []) (hk : k.hasChild = true) (hr : readAttrs as = as)
    (hc : extChild r loc k ⟨ns, l⟩ = some (i, k')) (h1 : k' ≠ .slice) (h2 : k' ≠ .beamSet)
    (hs : extStart r loc k' as = (r', [])) :
    Within cfg (.ext loc k) n r (rd [.start ⟨ns, l⟩ as true skip]) r' := by
  have := Within.auto (cfg := cfg) (n := n) (d := .ext loc k) (n' := ⟨ns, l⟩) (skip := skip) (as := as) (r := r) (r1 := r)
    (r2 := r') (k := i) (d' := .ext loc k') hk (by
      rw [fullName_ext h0]
      simp only [child, hc])
    (by rw [hr]; simp only [start]; rw [hs])
  have e : stop r' (.ext loc k') = r' := by cases k' <;> first | exact absurd rfl h1 | exact absurd rfl h2 | rfl
  rwa [e] at this

/-- A child with children of an element of an extension. -/
theorem within_ext_elem {cfg : DecCfg} {loc : AnyLoc} {n : Name} {r r' r'' : Regs} {ns l : Str} {k k' : ExtDec} {i : Int}
    {as : List Attr} {skip : Bool} {body : List Op} (h0 : ns ≠ []) (hk : k.hasChild = true) (hr : readAttrs as = as)
    (hc : extChild r loc k ⟨ns, l⟩ = some (i, k')) (h1 : k' ≠ .slice) (h2 : k' ≠ .beamSet)
    (hs : extStart r loc k' as = (r', [])) (hb : Within cfg (.ext loc k') ⟨ns, l⟩ r' (rd body) r'') :
    Within cfg (.ext loc k) n r (rd (.start ⟨ns, l⟩ as false skip :: body ++ [.stop ⟨ns, l⟩])) r'' := by
  have := Within.ops (cfg := cfg) (n := n) (d := .ext loc k) (n' := ⟨ns, l⟩) (skip := skip) (as := as) (r := r) (r1 := r)
    (r2 := r') (k := i) (d' := .ext loc k') hk (by
      rw [fullName_ext h0]
      simp only [child, hc])
    (by rw [hr]; simp only [start]; rw [hs]) (by rw [fullName_ext h0]; exact hb)
  have e : stop r'' (.ext loc k') = r'' := by cases k' <;> first | exact absurd rfl h1 | exact absurd rfl h2 | rfl
  rwa [e] at this

/-- A list of children, each of which adds to the element. -/
theorem within_ext_list {cfg : DecCfg} {d : Dec} {n : Name} {α β : Type} {op : α → Op} {g : α → β} {st : List β → Regs}
    (ht : ∀ x, NoText [op x]) : ∀ {xs : List α} {acc : List β},
    (∀ x ∈ xs, ∀ acc, Within cfg d n (st acc) (rd [op x]) (st (acc ++ [g x]))) →
    Within cfg d n (st acc) (rd (xs.map op)) (st (acc ++ xs.map g))
  | [], acc, _ => by rw [List.map_nil, List.map_nil, List.append_nil]; exact Within.nil
  | x :: xs, acc, h => by
    have h1 := h x (by simp) acc
    have h2 := within_ext_list (cfg := cfg) (d := d) (n := n) ht (xs := xs) (acc := acc ++ [g x]) (fun y hy => h y (by simp [hy]))
    have := h1.seq (noText_map ht) h2
    simpa using this

theorem nsM0 : nsMaterials ≠ [] := by decide +kernel
theorem nsM1 : nsMaterials ≠ nsCore := by decide +kernel
theorem nsS0 : nsSlices ≠ [] := by decide +kernel
theorem nsS1 : nsSlices ≠ nsCore := by decide +kernel
theorem nsB0 : nsBeam ≠ [] := by decide +kernel
theorem nsB1 : nsBeam ≠ nsCore := by decide +kernel

/-! ## Materials -/

/-- What a point becomes. -/
def Point2D.back (prec : Int) (p : Point2D) : Point2D := ⟨p.x.back prec, p.y.back prec⟩

theorem noText_fast (n : Name) (as : List Attr) (skip auto : Bool) : NoText [.start n as auto skip] := trivial

section
variable {cfg : DecCfg} {loc : AnyLoc} {n : Name} {r : Regs} {D : List (Str × Str)}

theorem color_dom (c : RGBA) : AttrsDom D true [attr b!"color" (formatRGBA c)] :=
  .one (.plain (by decide +kernel) (plain_formatRGBA c))

theorem id_dom (x : UInt32) : AttrsDom D false [attr b!"id" (formatUint x)] :=
  .one (.plain (by decide +kernel) (plain_formatUint x))

theorem ColorGroup.good {g : ColorGroup} (h : nsMaterials ∈ D.map (·.2)) : Good D g.ops :=
  .elem (nameOK_ext (by decide +kernel) h) (id_dom _)
    (.map fun c _ => .auto (nameOK_ext (by decide +kernel) h) (color_dom c))

theorem ColorGroup.within {g : ColorGroup} (he : cfg.env.materials = true) (h : Holds loc r (.res (.colorGroup g))) :
    Within cfg loc.parent n r (rd g.ops) (r.putAny loc (.res (.colorGroup g))) := by
  refine within_top (x := .materials) (k := .colorGroup) (e0 := .res (.colorGroup ⟨0, []⟩)) (e1 := .res (.colorGroup ⟨g.id, []⟩))
    nsM0 nsM1 (load_materials he) (by rfl) rfl (id_dom (D := []) g.id).read ?_ (holds_res h) (holds_res h) ?_
  · simp only [AnyElem.start, ExtRes.start, ColorGroup.start]
    have : firstID [attr b!"id" (formatUint g.id)] = some (attr b!"id" (formatUint g.id)) := rfl
    rw [this]
    simp only [uintAttr_format]
  · have := within_ext_list (cfg := cfg) (d := .ext loc .colorGroup) (n := ⟨nsMaterials, b!"colorgroup"⟩) (g := fun c => c)
      (op := fun c => opFast ⟨nsMaterials, b!"color"⟩ [attr b!"color" (formatRGBA c)])
      (st := fun acc => r.putAny loc (.res (.colorGroup ⟨g.id, acc⟩))) (xs := g.colors) (acc := []) (fun _ => trivial)
      (fun c _ acc => by
        refine within_ext_auto (k' := .color) (i := acc.length) nsM0 rfl (color_dom (D := []) c).read ?_ (by simp) (by simp) ?_
        · simp only [extChild, getAny_put (holds_res (y := .colorGroup ⟨g.id, acc⟩) h)]
          rw [if_pos trivial]
        · have e : colorStart [attr b!"color" (formatRGBA c)] = ([c], []) := by
            have : ([attr b!"color" (formatRGBA c)].find? fun a => a.name.space = [] ∧ a.name.loc = b!"color") =
              some (attr b!"color" (formatRGBA c)) := rfl
            simp only [colorStart, this, colorAttr_format]
          simp only [extStart, e]
          rw [modAny_put (holds_res h) (holds_res h)]
          rfl)
    simpa using this

theorem coord_dom (prec : Int) (p : Point2D) : AttrsDom D true [attr b!"u" (p.x.format prec), attr b!"v" (p.y.format prec)] :=
  .cons (.plain (by decide +kernel) (plain_format _ _)) (.one (.plain (by decide +kernel) (plain_format _ _)))

theorem texGroup_dom (x y : UInt32) : AttrsDom D false [attr b!"id" (formatUint x), attr b!"texid" (formatUint y)] :=
  .cons (.plain (by decide +kernel) (plain_formatUint _)) (.one (.plain (by decide +kernel) (plain_formatUint _)))

/-- What a group of texture coordinates becomes. -/
def Texture2DGroup.back (prec : Int) (g : Texture2DGroup) : Texture2DGroup := { g with coords := g.coords.map (Point2D.back prec) }

theorem Texture2DGroup.good {g : Texture2DGroup} {prec : Int} (h : nsMaterials ∈ D.map (·.2)) : Good D (g.ops prec) :=
  .elem (nameOK_ext (by decide +kernel) h) (texGroup_dom _ _)
    (.map fun c _ => .auto (nameOK_ext (by decide +kernel) h) (coord_dom prec c))

theorem Texture2DGroup.within {g : Texture2DGroup} {prec : Int} (he : cfg.env.materials = true)
    (h : Holds loc r (.res (.texture2DGroup g))) :
    Within cfg loc.parent n r (rd (g.ops prec)) (r.putAny loc (.res (.texture2DGroup (g.back prec)))) := by
  refine within_top (x := .materials) (k := .texture2DGroup) (e0 := .res (.texture2DGroup ⟨0, 0, []⟩))
    (e1 := .res (.texture2DGroup ⟨g.id, g.textureID, []⟩))
    nsM0 nsM1 (load_materials he) (by rfl) rfl (texGroup_dom (D := []) g.id g.textureID).read ?_ (holds_res h) (holds_res h) ?_
  · simp only [AnyElem.start, ExtRes.start]
    rw [attrLoop_cons (s' := ⟨g.id, 0, []⟩) (by
        simp only [texture2DGroupAttr, uintAttr_format]
        rfl),
      attrLoop_cons (s' := ⟨g.id, g.textureID, []⟩) (by
        simp only [texture2DGroupAttr, uintAttr_format]
        rfl)]
    rfl
  · have := within_ext_list (cfg := cfg) (d := .ext loc .texture2DGroup) (n := ⟨nsMaterials, b!"texture2dgroup"⟩)
      (g := Point2D.back prec)
      (op := fun c => opFast ⟨nsMaterials, b!"tex2coord"⟩ [attr b!"u" (c.x.format prec), attr b!"v" (c.y.format prec)])
      (st := fun acc => r.putAny loc (.res (.texture2DGroup ⟨g.id, g.textureID, acc⟩))) (xs := g.coords) (acc := [])
      (fun _ => trivial)
      (fun c _ acc => by
        refine within_ext_auto (k' := .coord) (i := acc.length) nsM0 rfl (coord_dom (D := []) prec c).read ?_ (by simp) (by simp) ?_
        · simp only [extChild, getAny_put (holds_res (y := .texture2DGroup ⟨g.id, g.textureID, acc⟩) h)]
          rw [if_pos trivial]
        · have e : attrLoop coordAttr ⟨.zero, .zero⟩ [attr b!"u" (c.x.format prec), attr b!"v" (c.y.format prec)] =
              (c.back prec, []) := by
            rw [attrLoop_cons (s' := ⟨c.x.back prec, .zero⟩) (by simp only [coordAttr, floatAttr_format]; rfl),
              attrLoop_cons (s' := ⟨c.x.back prec, c.y.back prec⟩) (by simp only [coordAttr, floatAttr_format]; rfl)]
            rfl
          simp only [extStart, e]
          rw [modAny_put (holds_res h) (holds_res h)]
          rfl)
    simpa [Texture2DGroup.back] using this

theorem compositeGroup_dom (x y : UInt32) (is : List UInt32) : AttrsDom D false
    [attr b!"id" (formatUint x), attr b!"matid" (formatUint y), attr b!"matindices" (joinWords formatUint is)] :=
  .cons (.plain (by decide +kernel) (plain_formatUint _)) (.cons (.plain (by decide +kernel) (plain_formatUint _))
    (.one (.plain (by decide +kernel) (plain_joinWords plain_formatUint _))))

theorem composite_dom (prec : Int) (c : List F32) : AttrsDom D true [attr b!"values" (joinWords (F32.format prec) c)] :=
  .one (.plain (by decide +kernel) (plain_joinWords (plain_format prec) _))

/-- What a group of composite materials becomes. -/
def CompositeMaterials.back (prec : Int) (g : CompositeMaterials) : CompositeMaterials :=
  { g with composites := g.composites.map fun c => c.map (F32.back prec) }

theorem CompositeMaterials.good {g : CompositeMaterials} {prec : Int} (h : nsMaterials ∈ D.map (·.2)) : Good D (g.ops prec) :=
  .elem (nameOK_ext (by decide +kernel) h) (compositeGroup_dom _ _ _)
    (.map fun c _ => .auto (nameOK_ext (by decide +kernel) h) (composite_dom prec c))

theorem CompositeMaterials.within {g : CompositeMaterials} {prec : Int} (he : cfg.env.materials = true)
    (h : Holds loc r (.res (.composite g))) :
    Within cfg loc.parent n r (rd (g.ops prec)) (r.putAny loc (.res (.composite (g.back prec)))) := by
  refine within_top (x := .materials) (k := .compositeMaterials) (e0 := .res (.composite ⟨0, 0, [], []⟩))
    (e1 := .res (.composite ⟨g.id, g.materialID, g.indices, []⟩))
    nsM0 nsM1 (load_materials he) (by rfl) rfl (compositeGroup_dom (D := []) g.id g.materialID g.indices).read ?_
    (holds_res h) (holds_res h) ?_
  · simp only [AnyElem.start, ExtRes.start]
    rw [attrLoop_cons (s' := ⟨g.id, 0, [], []⟩) (by
        simp only [compositeMaterialsAttr, uintAttr_format]
        rfl),
      attrLoop_cons (s' := ⟨g.id, g.materialID, [], []⟩) (by
        simp only [compositeMaterialsAttr, uintAttr_format]
        rfl),
      attrLoop_cons (s' := ⟨g.id, g.materialID, g.indices, []⟩) (by
        simp only [compositeMaterialsAttr, uintsAttr_format]
        rfl)]
    rfl
  · have := within_ext_list (cfg := cfg) (d := .ext loc .compositeMaterials) (n := ⟨nsMaterials, b!"compositematerials"⟩)
      (g := fun c => c.map (F32.back prec))
      (op := fun c => opFast ⟨nsMaterials, b!"composite"⟩ [attr b!"values" (joinWords (F32.format prec) c)])
      (st := fun acc => r.putAny loc (.res (.composite ⟨g.id, g.materialID, g.indices, acc⟩))) (xs := g.composites) (acc := [])
      (fun _ => trivial)
      (fun c _ acc => by
        refine within_ext_auto (k' := .composite) (i := acc.length) nsM0 rfl (composite_dom (D := []) prec c).read ?_ (by simp) (by simp) ?_
        · simp only [extChild, getAny_put (holds_res (y := .composite ⟨g.id, g.materialID, g.indices, acc⟩) h)]
          rw [if_pos trivial]
        · have e : attrLoop compositeAttr [] [attr b!"values" (joinWords (F32.format prec) c)] =
              (c.map (F32.back prec), []) := by
            rw [attrLoop_cons (s' := c.map (F32.back prec)) (by simp only [compositeAttr, floatsAttr_format]; rfl)]
            rfl
          simp only [extStart, e]
          rw [modAny_put (holds_res h) (holds_res h)]
          rfl)
    simpa [CompositeMaterials.back] using this

theorem multiGroup_dom (x : UInt32) (ps : List UInt32) (bs : List BlendMethod) : AttrsDom D false
    [attr b!"id" (formatUint x), attr b!"pids" (joinWords formatUint ps), attr b!"blendmethods" (joinWords BlendMethod.str bs)] :=
  .cons (.plain (by decide +kernel) (plain_formatUint _))
    (.cons (.plain (by decide +kernel) (plain_joinWords plain_formatUint _))
      (.one (.plain (by decide +kernel) (plain_joinWords plain_blendMethod _))))

theorem multi_dom (c : List UInt32) : AttrsDom D true [attr b!"pindices" (joinWords formatUint c)] :=
  .one (.plain (by decide +kernel) (plain_joinWords plain_formatUint _))

theorem MultiProperties.good {g : MultiProperties} (h : nsMaterials ∈ D.map (·.2)) : Good D g.ops :=
  .elem (nameOK_ext (by decide +kernel) h) (multiGroup_dom _ _ _)
    (.map fun c _ => .auto (nameOK_ext (by decide +kernel) h) (multi_dom c))

theorem blend_back (bs : List BlendMethod) :
    (fields (joinWords BlendMethod.str bs)).map (fun f => (newBlendMethod f).getD .mix) = bs := by
  rw [fields_joinWords word_blendMethod, List.map_map]
  conv_rhs => rw [← List.map_id bs]
  refine List.map_congr_left fun b _ => ?_
  have : newBlendMethod b.str = some b := (C21_blendMethod _ b).2 rfl
  simp [this]

theorem MultiProperties.within {g : MultiProperties} (he : cfg.env.materials = true)
    (h : Holds loc r (.res (.multi g))) :
    Within cfg loc.parent n r (rd g.ops) (r.putAny loc (.res (.multi g))) := by
  refine within_top (x := .materials) (k := .multiProperties) (e0 := .res (.multi ⟨0, [], [], []⟩))
    (e1 := .res (.multi ⟨g.id, g.pids, g.blend, []⟩))
    nsM0 nsM1 (load_materials he) (by rfl) rfl (multiGroup_dom (D := []) g.id g.pids g.blend).read ?_
    (holds_res h) (holds_res h) ?_
  · simp only [AnyElem.start, ExtRes.start]
    rw [attrLoop_cons (s' := ⟨g.id, [], [], []⟩) (by
        simp only [multiPropertiesAttr, uintAttr_format]
        rfl),
      attrLoop_cons (s' := ⟨g.id, g.pids, [], []⟩) (by
        simp only [multiPropertiesAttr, uintsAttr_format]
        rfl),
      attrLoop_cons (s' := ⟨g.id, g.pids, g.blend, []⟩) (by
        have := blend_back g.blend
        simp only [multiPropertiesAttr, attr, this, List.nil_append]
        rfl)]
    rfl
  · have := within_ext_list (cfg := cfg) (d := .ext loc .multiProperties) (n := ⟨nsMaterials, b!"multiproperties"⟩)
      (g := fun c => c)
      (op := fun c => opFast ⟨nsMaterials, b!"multi"⟩ [attr b!"pindices" (joinWords formatUint c)])
      (st := fun acc => r.putAny loc (.res (.multi ⟨g.id, g.pids, g.blend, acc⟩))) (xs := g.multis) (acc := [])
      (fun _ => trivial)
      (fun c _ acc => by
        refine within_ext_auto (k' := .multi) (i := acc.length) nsM0 rfl (multi_dom (D := []) c).read ?_ (by simp) (by simp) ?_
        · simp only [extChild, getAny_put (holds_res (y := .multi ⟨g.id, g.pids, g.blend, acc⟩) h)]
          rw [if_pos trivial]
        · have e : attrLoop multiAttr [] [attr b!"pindices" (joinWords formatUint c)] = (c, []) := by
            rw [attrLoop_cons (s' := c) (by simp only [multiAttr, uintsAttr_format]; rfl)]
            rfl
          simp only [extStart, e]
          rw [modAny_put (holds_res h) (holds_res h)]
          rfl)
    simpa using this

theorem Texture2D.attrsDom {t : Texture2D} (hp : cleanText t.path = t.path) : AttrsDom D false
    ([attr b!"id" (formatUint t.id), attr b!"path" t.path, attr b!"contenttype" t.contentType.str] ++
      attrIf (t.tileU ≠ .wrap) b!"tilestyleu" t.tileU.str ++ attrIf (t.tileV ≠ .wrap) b!"tilestylev" t.tileV.str ++
      attrIf (t.filter ≠ .auto) b!"filter" t.filter.str) :=
  .append (.append (.append
    (.cons (.plain (by decide +kernel) (plain_formatUint _)) (.cons (.text (by decide +kernel) hp)
      (.one (.plain (by decide +kernel) (plain_texture2DType _)))))
    (.ite fun _ => .plain (by decide +kernel) (plain_tileStyle _)))
    (.ite fun _ => .plain (by decide +kernel) (plain_tileStyle _)))
    (.ite fun _ => .plain (by decide +kernel) (plain_textureFilter _))

theorem Texture2D.good {t : Texture2D} (h : nsMaterials ∈ D.map (·.2)) (hp : cleanText t.path = t.path) : Good D t.ops :=
  .auto (nameOK_ext (by decide +kernel) h) (Texture2D.attrsDom hp)

theorem Texture2D.within {t : Texture2D} (he : cfg.env.materials = true) (h : Holds loc r (.res (.texture2D t)))
    (hp : cleanText t.path = t.path) :
    Within cfg loc.parent n r (rd t.ops) (r.putAny loc (.res (.texture2D t))) := by
  refine within_top_auto (x := .materials) (k := .texture2D) (e0 := .res (.texture2D ⟨0, [], .unset, .wrap, .wrap, .auto⟩))
    nsM0 nsM1 (load_materials he) (by rfl) rfl (Texture2D.attrsDom (D := []) hp).read ?_ (holds_res h) (holds_res h)
  simp only [AnyElem.start, ExtRes.start, List.append_assoc, List.cons_append, List.nil_append]
  have ht : (newTexture2DType t.contentType.str).getD .unset = t.contentType := by cases t.contentType <;> rfl
  have hu : (newTileStyle t.tileU.str).getD .wrap = t.tileU := by cases t.tileU <;> rfl
  have hv : (newTileStyle t.tileV.str).getD .wrap = t.tileV := by cases t.tileV <;> rfl
  have hf : (newTextureFilter t.filter.str).getD .auto = t.filter := by cases t.filter <;> rfl
  rw [attrLoop_cons (s' := ⟨t.id, [], .unset, .wrap, .wrap, .auto⟩) (by
      simp only [texture2DAttr, uintAttr_format]; rfl),
    attrLoop_cons (s' := ⟨t.id, t.path, .unset, .wrap, .wrap, .auto⟩) rfl,
    attrLoop_cons (s' := ⟨t.id, t.path, t.contentType, .wrap, .wrap, .auto⟩) (by
      simp only [texture2DAttr, attr, ht]; rfl),
    attrLoop_if (s' := ⟨t.id, t.path, t.contentType, t.tileU, .wrap, .auto⟩)
      (fun _ => by simp only [texture2DAttr, attr, hu]; rfl) (fun hc => by
        have : t.tileU = .wrap := by simpa using hc
        rw [this]),
    attrLoop_if (s' := ⟨t.id, t.path, t.contentType, t.tileU, t.tileV, .auto⟩)
      (fun _ => by simp only [texture2DAttr, attr, hv]; rfl) (fun hc => by
        have : t.tileV = .wrap := by simpa using hc
        rw [this])]
  rw [← List.append_nil (attrIf _ _ _), attrLoop_if (s' := t)
      (fun _ => by simp only [texture2DAttr, attr, hf]; rfl) (fun hc => by
        have : t.filter = .auto := by simpa using hc
        obtain ⟨_, _, _, _, _, _⟩ := t
        simp only at this
        rw [this])]
  rfl

end

end Go3mf
