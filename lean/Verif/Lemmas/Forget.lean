import Verif.Lemmas.BackTwice

/-!
# The content of extensions as it is read by a program that does not know them

`forget env` replaces the resources, elements and attributes of the extensions that are not registered in `env` by the tokens
that are written for them.
-/

namespace Go3mf
open Spec

/-! ## Tokens -/

/-- The tokens that are read for a token that is written. -/
def Op.toks : Op → List Token
  | .start n as auto _ => .start n as :: if auto then [.stop n] else []
  | .stop n => [.stop n]
  | .chars s => [.chars s]

def opsToks (ops : List Op) : List Token := ops.flatMap Op.toks

/-- The same token, without auto-close. -/
def Op.plain : Op → List Op
  | .start n as auto _ => .start n as false false :: if auto then [.stop n] else []
  | op => [op]

/-- The same tokens, without auto-close. -/
def plainOps (ops : List Op) : List Op := ops.flatMap Op.plain

theorem plainOps_append (xs ys : List Op) : plainOps (xs ++ ys) = plainOps xs ++ plainOps ys := List.flatMap_append

theorem plainOps_cons (x : Op) (ys : List Op) : plainOps (x :: ys) = x.plain ++ plainOps ys := List.flatMap_cons

theorem readOps_plain (d : Str) : ∀ (ops : List Op) (t : Str), readOps d t (plainOps ops) = readOps d t ops
  | [], t => rfl
  | .chars s :: ops, t => by
    rw [plainOps_cons]
    exact readOps_plain d ops _
  | .stop n :: ops, t => by
    rw [plainOps_cons]
    simp only [Op.plain, List.cons_append, List.nil_append, readOps, readOps_plain d ops]
  | .start n as auto skip :: ops, t => by
    rw [plainOps_cons]
    cases auto
    · simp only [Op.plain, List.cons_append, List.nil_append, readOps, readOps_plain d ops, Bool.false_eq_true, if_false]
    · simp only [Op.plain, List.cons_append, List.nil_append, readOps, readOps_plain d ops, Bool.false_eq_true, if_false, if_true,
        flushText_nil]

theorem readOps_congr {d t : Str} {xs ys : List Op} (h : plainOps xs = plainOps ys) : readOps d t xs = readOps d t ys := by
  rw [← readOps_plain, h, readOps_plain]

theorem plain_toks : ∀ ops : List Op, plainOps (tokensOps (opsToks ops)) = plainOps ops
  | [] => rfl
  | op :: ops => by
    have ih := plain_toks ops
    unfold opsToks tokensOps at ih ⊢
    rw [List.flatMap_cons, List.map_append, plainOps_append, ih, plainOps_cons]
    congr 1
    cases op with
    | start n as auto skip => cases auto <;> rfl
    | stop n => rfl
    | chars s => rfl

theorem opsToks_append (xs ys : List Op) : opsToks (xs ++ ys) = opsToks xs ++ opsToks ys := List.flatMap_append

/-! ## Complete elements -/

section
variable {D : List (Str × Str)} {n : Name}

theorem AttrsDom.weaken {skip : Bool} {as : List Attr} (h : AttrsDom D skip as) : AttrsDom D false as :=
  fun a ha => ⟨⟨(h a ha).1.1, (h a ha).1.2.1, (h a ha).1.2.2.1, by simp⟩, (h a ha).2⟩

theorem Inner.append {ts us : List Token} (h : Inner D False n ts) (h' : Inner D False n us) : Inner D False n (ts ++ us) := by
  induction h with
  | nil => exact h'
  | @elem m as ts rest h1 h2 h3 h4 _ _ ih =>
    have := Inner.elem h1 h2 h3 h4 ih
    simpa using this
  | text h => exact h.elim

/-- Tokens written below an element with the name `n` that are complete elements with other names. -/
def InOps (D : List (Str × Str)) (n : Name) (ops : List Op) : Prop := Inner D False n (opsToks ops)

theorem InOps.nil : InOps D n [] := Inner.nil

theorem InOps.append {xs ys : List Op} (h : InOps D n xs) (h' : InOps D n ys) : InOps D n (xs ++ ys) := by
  unfold InOps
  rw [opsToks_append]
  exact Inner.append h h'

theorem elemName_ext {s l : Str} (hs : s ∈ D.map (·.2)) (h : locOK l = true) (h0 : s ≠ []) : ElemName D ⟨s, l⟩ :=
  ⟨nameOK_ext h hs, h0⟩

theorem InOps.elem {m : Name} {as : List Attr} {skip : Bool} {ops : List Op} (hm : m ≠ n) (hn : ElemName D m)
    (ha : AttrsDom D skip as) (h : InOps D n ops) : InOps D n (.start m as false skip :: ops ++ [.stop m]) := by
  have := Inner.elem hm hn ha.weaken h Inner.nil
  unfold InOps opsToks at *
  simpa [Op.toks] using this

theorem InOps.auto {m : Name} {as : List Attr} {skip : Bool} (hm : m ≠ n) (hn : ElemName D m)
    (ha : AttrsDom D skip as) : InOps D n [.start m as true skip] :=
  Inner.elem (ts := []) (rest := []) hm hn ha.weaken Inner.nil Inner.nil

theorem InOps.flatMap {α : Type} {f : α → List Op} : ∀ {xs : List α}, (∀ x ∈ xs, InOps D n (f x)) → InOps D n (xs.flatMap f)
  | [], _ => .nil
  | x :: xs, h => by
    rw [List.flatMap_cons]
    exact .append (h x (by simp)) (InOps.flatMap fun y hy => h y (by simp [hy]))

theorem InOps.map {α : Type} {f : α → Op} {xs : List α} (h : ∀ x ∈ xs, InOps D n [f x]) : InOps D n (xs.map f) := by
  rw [map_eq_flatMap]
  exact InOps.flatMap h

variable {env : Env}

/-- A complete element of an extension is one of an unknown extension where it is not registered. -/
theorem TokensDom.ofOps {as : List Attr} {skip : Bool} {ops : List Op} (hn : ElemName D n) (hc : n.space ≠ nsCore)
    (hu : env.load n.space = none) (ha : AttrsDom D skip as) (h : InOps D n ops) :
    ∃ body, TokensDom env D False n as body (opsToks (.start n as false skip :: ops ++ [.stop n])) :=
  ⟨_, by simp [opsToks, Op.toks], hn, hc, hu, ha.weaken, h⟩

theorem TokensDom.ofAuto {as : List Attr} {skip : Bool} (hn : ElemName D n) (hc : n.space ≠ nsCore)
    (hu : env.load n.space = none) (ha : AttrsDom D skip as) :
    ∃ body, TokensDom env D False n as body (opsToks [.start n as true skip]) :=
  ⟨[], rfl, hn, hc, hu, ha.weaken, Inner.nil⟩

/-! ## Resources of extensions -/

variable {prec : Int}

/-- The name space of a resource. -/
def ExtRes.space : ExtRes → Str
  | .sliceStack _ => nsSlices
  | _ => nsMaterials

theorem firstID_head (x : UInt32) (as : List Attr) : assetID (attr b!"id" (formatUint x) :: as) x := by
  have : firstID (attr b!"id" (formatUint x) :: as) = some (attr b!"id" (formatUint x)) := by
    unfold firstID
    rw [List.find?_cons_of_pos (by simp [attr])]
  unfold assetID
  rw [this]
  exact parseUint_formatUint x

theorem ExtRes.Dom.tokens {env0 : Env} {x : ExtRes} (h : x.Dom env0 D) (hu : env.load x.space = none) :
    ∃ n as body, TokensDom env D False n as body (opsToks (x.ops prec)) ∧ assetID as x.identify := by
  have hM0 : nsMaterials ≠ [] := by decide +kernel
  have hM1 : nsMaterials ≠ nsCore := by decide +kernel
  have hS0 : nsSlices ≠ [] := by decide +kernel
  have hS1 : nsSlices ≠ nsCore := by decide +kernel
  cases x with
  | colorGroup g =>
    obtain ⟨b, hb⟩ := TokensDom.ofOps (env := env) (D := D) (n := ⟨nsMaterials, b!"colorgroup"⟩)
      (elemName_ext h.2 (by decide +kernel) hM0) hM1 hu (id_dom g.id)
      (.map fun c (_ : c ∈ g.colors) => .auto (m := ⟨nsMaterials, b!"color"⟩) (by decide +kernel)
        (elemName_ext h.2 (by decide +kernel) hM0) (color_dom c))
    exact ⟨_, _, b, hb, firstID_head _ _⟩
  | texture2D g =>
    obtain ⟨b, hb⟩ := TokensDom.ofAuto (env := env) (D := D) (n := ⟨nsMaterials, b!"texture2d"⟩)
      (elemName_ext h.1.2 (by decide +kernel) hM0) hM1 hu (Texture2D.attrsDom h.2)
    exact ⟨_, _, b, hb, firstID_head _ _⟩
  | texture2DGroup g =>
    obtain ⟨b, hb⟩ := TokensDom.ofOps (env := env) (D := D) (n := ⟨nsMaterials, b!"texture2dgroup"⟩)
      (elemName_ext h.2 (by decide +kernel) hM0) hM1 hu (texGroup_dom g.id g.textureID)
      (.map fun c (_ : c ∈ g.coords) => .auto (m := ⟨nsMaterials, b!"tex2coord"⟩) (by decide +kernel)
        (elemName_ext h.2 (by decide +kernel) hM0) (coord_dom prec c))
    exact ⟨_, _, b, hb, firstID_head _ _⟩
  | composite g =>
    obtain ⟨b, hb⟩ := TokensDom.ofOps (env := env) (D := D) (n := ⟨nsMaterials, b!"compositematerials"⟩)
      (elemName_ext h.2 (by decide +kernel) hM0) hM1 hu (compositeGroup_dom g.id g.materialID g.indices)
      (.map fun c (_ : c ∈ g.composites) => .auto (m := ⟨nsMaterials, b!"composite"⟩) (by decide +kernel)
        (elemName_ext h.2 (by decide +kernel) hM0) (composite_dom prec c))
    exact ⟨_, _, b, hb, firstID_head _ _⟩
  | multi g =>
    obtain ⟨b, hb⟩ := TokensDom.ofOps (env := env) (D := D) (n := ⟨nsMaterials, b!"multiproperties"⟩)
      (elemName_ext h.2 (by decide +kernel) hM0) hM1 hu (multiGroup_dom g.id g.pids g.blend)
      (.map fun c (_ : c ∈ g.multis) => .auto (m := ⟨nsMaterials, b!"multi"⟩) (by decide +kernel)
        (elemName_ext h.2 (by decide +kernel) hM0) (multi_dom c))
    exact ⟨_, _, b, hb, firstID_head _ _⟩
  | sliceStack s =>
    have hn : ∀ {l : Str}, locOK l = true → ElemName D ⟨nsSlices, l⟩ := fun hl => elemName_ext h.1.2 hl hS0
    obtain ⟨b, hb⟩ := TokensDom.ofOps (env := env) (D := D) (n := ⟨nsSlices, b!"slicestack"⟩)
      (hn (by decide +kernel)) hS1 hu (sliceStack_dom prec s)
      (.append (ys := s.refs.map fun r => opAuto ⟨nsSlices, b!"sliceref"⟩
          [attr b!"slicestackid" (formatUint r.sliceStackID), attr b!"slicepath" r.path])
        (.flatMap (f := Slice.ops prec) (xs := s.slices) fun p _ => by
          rw [slice_ops_eq]
          exact .elem (by decide +kernel) (hn (by decide +kernel)) (slice_dom prec p)
            (.append (.elem (by decide +kernel) (hn (by decide +kernel)) .nil
                (.map fun v _ => .auto (by decide +kernel) (hn (by decide +kernel)) (pvertex_dom prec v)))
              (.flatMap fun q _ => .elem (by decide +kernel) (hn (by decide +kernel)) (polygon_dom q)
                (.map fun v _ => .auto (by decide +kernel) (hn (by decide +kernel)) (segment_dom v)))))
        (.map fun x hx => .auto (by decide +kernel) (hn (by decide +kernel)) (sliceRef_dom (h.2 x hx))))
    rw [← sliceStack_ops_eq] at hb
    exact ⟨_, _, b, hb, firstID_head _ _⟩

theorem BeamLattice.tokens {m : BeamLattice} (h : nsBeam ∈ D.map (·.2)) (hs : ∀ s ∈ m.beamSets, s.Dom) (hu : env.load nsBeam = none) :
    ∃ n as body, TokensDom env D False n as body (opsToks (m.ops prec)) := by
  have hn : ∀ {l : Str}, locOK l = true → ElemName D ⟨nsBeam, l⟩ := fun hl => elemName_ext h hl (by decide +kernel)
  rw [beamLattice_ops_eq]
  obtain ⟨b, hb⟩ := TokensDom.ofOps (env := env) (D := D) (n := ⟨nsBeam, b!"beamlattice"⟩)
    (hn (by decide +kernel)) (by decide +kernel) hu (beamLattice_dom prec m)
    (.append (xs := m.beamsOps prec) (ys := m.setsOps)
      (.elem (by decide +kernel) (hn (by decide +kernel)) .nil
        (.map fun b _ => .auto (by decide +kernel) (hn (by decide +kernel)) (beam_dom prec m b)))
      (.elem (by decide +kernel) (hn (by decide +kernel)) .nil
        (.flatMap fun s hsm => .elem (by decide +kernel) (hn (by decide +kernel)) (beamSet_dom (hs s hsm))
          (.map fun i _ => .auto (by decide +kernel) (hn (by decide +kernel)) (ref_dom i)))))
  exact ⟨_, _, b, hb⟩

end

/-! ## Fewer extensions -/

/-- What is registered in the first is registered in the second. -/
structure Spec.Fewer (env' env : Env) : Prop where
  production : env'.production = true → env.production = true
  slices : env'.slices = true → env.slices = true
  beamlattice : env'.beamlattice = true → env.beamlattice = true
  materials : env'.materials = true → env.materials = true

theorem load_known {env : Env} {ns : Str} (h : env.load ns = none) : ¬ Known env ns := by
  rintro (⟨h1, rfl⟩ | ⟨h1, rfl⟩ | ⟨h1, rfl⟩ | ⟨h1, rfl⟩)
  · rw [load_production h1] at h; cases h
  · rw [load_slices h1] at h; cases h
  · rw [load_beam h1] at h; cases h
  · rw [load_materials h1] at h; cases h

theorem Spec.Fewer.load {env' env : Env} (h : Fewer env' env) {ns : Str} (hn : env.load ns = none) : env'.load ns = none := by
  refine load_unknown fun hk => load_known hn ?_
  rcases hk with ⟨h1, h2⟩ | ⟨h1, h2⟩ | ⟨h1, h2⟩ | ⟨h1, h2⟩
  · exact .inl ⟨h.production h1, h2⟩
  · exact .inr (.inl ⟨h.slices h1, h2⟩)
  · exact .inr (.inr (.inl ⟨h.beamlattice h1, h2⟩))
  · exact .inr (.inr (.inr ⟨h.materials h1, h2⟩))

theorem loaded_production {env : Env} (h : env.load nsProduction ≠ none) : env.production = true := by
  by_contra hp
  exact h (load_unknown (by simp [Known, hp, show nsProduction ≠ nsSlices by decide +kernel,
    show nsProduction ≠ nsBeam by decide +kernel, show nsProduction ≠ nsMaterials by decide +kernel]))

theorem loaded_slices {env : Env} (h : env.load nsSlices ≠ none) : env.slices = true := by
  by_contra hp
  exact h (load_unknown (by simp [Known, hp, show nsSlices ≠ nsProduction by decide +kernel,
    show nsSlices ≠ nsBeam by decide +kernel, show nsSlices ≠ nsMaterials by decide +kernel]))

theorem loaded_beam {env : Env} (h : env.load nsBeam ≠ none) : env.beamlattice = true := by
  by_contra hp
  exact h (load_unknown (by simp [Known, hp, show nsBeam ≠ nsProduction by decide +kernel,
    show nsBeam ≠ nsSlices by decide +kernel, show nsBeam ≠ nsMaterials by decide +kernel]))

theorem loaded_materials {env : Env} (h : env.load nsMaterials ≠ none) : env.materials = true := by
  by_contra hp
  exact h (load_unknown (by simp [Known, hp, show nsMaterials ≠ nsProduction by decide +kernel,
    show nsMaterials ≠ nsSlices by decide +kernel, show nsMaterials ≠ nsBeam by decide +kernel]))

/-! ## Attributes -/

section
variable {env' env : Env} {D : List (Str × Str)} {prec : Int}

/-- The group as it is read without its extension. -/
def AttrGroup.forget (env' : Env) (g : AttrGroup) : AttrGroup :=
  if env'.load g.ns = none then .unknown g.ns g.appends.flatten else g

def AnyAttr.forget (env' : Env) (any : AnyAttr) : AnyAttr := any.map (AttrGroup.forget env')

theorem AttrGroup.forget_ns (env' : Env) (g : AttrGroup) : (g.forget env').ns = g.ns := by
  unfold AttrGroup.forget
  split <;> rfl

theorem AttrGroup.forget_appends (env' : Env) (g : AttrGroup) : (g.forget env').appends.flatten = g.appends.flatten := by
  unfold AttrGroup.forget
  split
  · simp [AttrGroup.appends]
  · rfl

theorem encode_forget (env' : Env) (any : AnyAttr) : encodeAnyAttr (any.forget env') = encodeAnyAttr any := by
  unfold encodeAnyAttr AnyAttr.forget
  induction any with
  | nil => rfl
  | cons g gs ih =>
    simp only [List.map_cons, List.flatMap_cons, List.flatten_append] at ih ⊢
    rw [ih, AttrGroup.forget_appends]

theorem AttrGroup.OK.nonempty {parent : Str} {g : AttrGroup} (h : g.OK env parent) : g.appends.flatten ≠ [] := by
  cases g with
  | unknown s as => simpa [AttrGroup.appends] using h.2.2.1
  | prodBuild u => simp [AttrGroup.appends]
  | prodObject u => simp [AttrGroup.appends]
  | prodItem u p => by_cases hp : p = [] <;> simp [AttrGroup.appends, hp]
  | prodComponent u p => by_cases hp : p = [] <;> simp [AttrGroup.appends, hp]
  | sliceObject i r => simp [AttrGroup.appends]

theorem AttrGroup.OK.forget (hf : Fewer env' env) {parent : Str} {g : AttrGroup} (h : g.OK env parent) :
    (g.forget env').OK env' parent := by
  unfold AttrGroup.forget
  by_cases hl : env'.load g.ns = none
  · rw [if_pos hl]
    exact ⟨h.ns_ne, hl, h.nonempty, h.attrs⟩
  · rw [if_neg hl]
    cases g with
    | unknown s as => exact absurd (hf.load h.2.1) hl
    | prodBuild u => exact ⟨loaded_production hl, h.2⟩
    | prodObject u => exact ⟨loaded_production hl, h.2⟩
    | prodItem u p => exact ⟨loaded_production hl, h.2⟩
    | prodComponent u p => exact ⟨loaded_production hl, h.2⟩
    | sliceObject i r => exact ⟨loaded_slices hl, h.2⟩

theorem AnyDom.forget (hf : Fewer env' env) {parent : Str} {any : AnyAttr} (h : AnyDom env D parent any) :
    AnyDom env' D parent (any.forget env') := by
  refine ⟨⟨?_, fun g hg => ?_⟩, ?_⟩
  · have : (any.forget env').map AttrGroup.ns = any.map AttrGroup.ns := by
      unfold AnyAttr.forget
      rw [List.map_map]
      exact List.map_congr_left fun g _ => g.forget_ns env'
    rw [this]
    exact h.1.1
  · obtain ⟨x, hx, rfl⟩ := List.mem_map.1 hg
    exact (h.1.2 x hx).forget hf
  · rw [encode_forget]
    exact h.2

/-- Elsewhere there are only attributes of unknown extensions. -/
theorem AnyDom.fewer (hf : Fewer env' env) {parent : Str}
    (hp : parent ∉ [b!"build", b!"item", b!"object", b!"component"]) {any : AnyAttr} (h : AnyDom env D parent any) :
    AnyDom env' D parent any := by
  simp only [List.mem_cons, List.not_mem_nil, or_false, not_or] at hp
  refine ⟨⟨h.1.1, fun g hg => ?_⟩, h.2⟩
  have hk := h.1.2 g hg
  cases g with
  | unknown s as => exact ⟨hk.1, hf.load hk.2.1, hk.2.2⟩
  | prodBuild u => exact absurd hk.2.1 hp.1
  | prodItem u p => exact absurd hk.2.1 hp.2.1
  | prodObject u => exact absurd hk.2.1 hp.2.2.1
  | prodComponent u p => exact absurd hk.2.1 hp.2.2.2
  | sliceObject i r => exact absurd hk.2 hp.2.2.1

/-! ## Elements -/

def AnyElem.forget (env' : Env) (prec : Int) : AnyElem → AnyElem
  | .tokens ts => .tokens ts
  | .res x => if env'.load x.space = none then .tokens (opsToks (x.ops prec)) else .res x
  | .beamLattice b => if env'.load nsBeam = none then .tokens (opsToks (b.ops prec)) else .beamLattice b

def Asset.forget (env' : Env) (prec : Int) : Asset → Asset
  | .base b => .base b
  | .unknown id ts => .unknown id ts
  | .res x => if env'.load x.space = none then .unknown x.identify (opsToks (x.ops prec)) else .res x

theorem TokensDom.fewer (hf : Fewer env' env) {txt : Prop} {n : Name} {as : List Attr} {body ts : List Token}
    (h : TokensDom env D txt n as body ts) : TokensDom env' D txt n as body ts :=
  ⟨h.eq, h.name, h.core, hf.load h.unknown, h.attrs, h.inner⟩

theorem ExtRes.Dom.loaded {x : ExtRes} (h : x.Dom env D) (hl : env'.load x.space ≠ none) : x.Dom env' D := by
  cases x with
  | colorGroup g => exact ⟨loaded_materials hl, h.2⟩
  | texture2D g => exact ⟨⟨loaded_materials hl, h.1.2⟩, h.2⟩
  | texture2DGroup g => exact ⟨loaded_materials hl, h.2⟩
  | composite g => exact ⟨loaded_materials hl, h.2⟩
  | multi g => exact ⟨loaded_materials hl, h.2⟩
  | sliceStack g => exact ⟨⟨loaded_slices hl, h.1.2⟩, h.2⟩

theorem AnyElem.Dom.forget (hf : Fewer env' env) {e : AnyElem} (h : e.Dom env D False) : (e.forget env' prec).Dom env' D False := by
  cases e with
  | tokens ts =>
    obtain ⟨n, as, body, h⟩ := h
    exact ⟨n, as, body, h.fewer hf⟩
  | res x =>
    rw [AnyElem.forget]
    by_cases hl : env'.load x.space = none
    · rw [if_pos hl]
      obtain ⟨n, as, body, h, -⟩ := ExtRes.Dom.tokens (prec := prec) h hl
      exact ⟨n, as, body, h⟩
    · rw [if_neg hl]
      exact ExtRes.Dom.loaded h hl
  | beamLattice b =>
    rw [AnyElem.forget]
    by_cases hl : env'.load nsBeam = none
    · rw [if_pos hl]
      exact BeamLattice.tokens h.1.2 h.2 hl
    · rw [if_neg hl]
      exact ⟨⟨loaded_beam hl, h.1.2⟩, h.2⟩

theorem Asset.Dom.forget (hf : Fewer env' env) {a : Asset} (h : a.Dom env D False) : (a.forget env' prec).Dom env' D False := by
  cases a with
  | base b =>
    have h : b.Dom env D := h
    exact ⟨h.names, fun x hx => (h.materials x hx).fewer hf (by decide +kernel), h.attrs.fewer hf (by decide +kernel)⟩
  | unknown id ts =>
    obtain ⟨n, as, body, h, hid⟩ := h
    exact ⟨n, as, body, h.fewer hf, hid⟩
  | res x =>
    rw [Asset.forget]
    by_cases hl : env'.load x.space = none
    · rw [if_pos hl]
      exact ExtRes.Dom.tokens (prec := prec) h hl
    · rw [if_neg hl]
      exact ExtRes.Dom.loaded h hl

theorem AnyElem.forget_ops (e : AnyElem) : plainOps ((e.forget env' prec).ops prec) = plainOps (e.ops prec) := by
  cases e with
  | tokens ts => rfl
  | res x =>
    rw [AnyElem.forget]
    split
    · exact plain_toks _
    · rfl
  | beamLattice b =>
    rw [AnyElem.forget]
    split
    · exact plain_toks _
    · rfl

theorem Asset.forget_ops (a : Asset) : plainOps ((a.forget env' prec).ops prec) = plainOps (a.ops prec) := by
  cases a with
  | base b => rfl
  | unknown id ts => rfl
  | res x =>
    rw [Asset.forget]
    split
    · exact plain_toks _
    · rfl

theorem encodeAny_forget (es : List AnyElem) :
    plainOps (encodeAny prec (es.map (AnyElem.forget env' prec))) = plainOps (encodeAny prec es) := by
  cases es with
  | nil => rfl
  | cons e es => exact e.forget_ops

/-! ## The core -/

def Item.forget (env' : Env) (i : Item) : Item := { i with anyAttr := i.anyAttr.forget env' }

def Component.forget (env' : Env) (c : Component) : Component := { c with anyAttr := c.anyAttr.forget env' }

def Components.forget (env' : Env) (c : Components) : Components := { c with component := c.component.map (Component.forget env') }

def Mesh.forget (env' : Env) (prec : Int) (m : Mesh) : Mesh := { m with any := m.any.map (AnyElem.forget env' prec) }

def Object.forget (env' : Env) (prec : Int) (o : Object) : Object :=
  { o with
    mesh := o.mesh.map (Mesh.forget env' prec)
    components := o.components.map (Components.forget env')
    anyAttr := o.anyAttr.forget env' }

def Resources.forget (env' : Env) (prec : Int) (rs : Resources) : Resources :=
  { rs with assets := rs.assets.map (Asset.forget env' prec), objects := rs.objects.map (Object.forget env' prec) }

def Build.forget (env' : Env) (b : Build) : Build := { b with items := b.items.map (Item.forget env'), anyAttr := b.anyAttr.forget env' }

def Model.forget (env' : Env) (prec : Int) (m : Model) : Model :=
  { m with
    resources := m.resources.forget env' prec
    build := m.build.forget env'
    any := m.any.map (AnyElem.forget env' prec) }

theorem Item.forget_ops (i : Item) : (i.forget env').ops = i.ops := by
  simp only [Item.ops, Item.forget, Item.attrs, encode_forget]
  rfl

theorem Build.forget_ops (b : Build) : (b.forget env').ops = b.ops := by
  simp only [Build.ops, Build.forget, encode_forget, List.flatMap_map, Item.forget_ops]

theorem Component.forget_op (c : Component) : (c.forget env').op = c.op := by
  simp only [Component.op, Component.forget, encode_forget]

theorem Components.forget_ops (c : Components) : (c.forget env').ops = c.ops := by
  simp only [Components.ops, Components.forget, List.map_map, Function.comp_def, Component.forget_op]

theorem Mesh.forget_ops (pid pindex : UInt32) (m : Mesh) :
    plainOps ((m.forget env' prec).ops prec pid pindex) = plainOps (m.ops prec pid pindex) := by
  simp only [Mesh.ops, Mesh.forget, Mesh.verticesOps, Mesh.trianglesOps, plainOps_append, plainOps_cons, encodeAny_forget]

theorem Object.forget_ops (o : Object) : plainOps ((o.forget env' prec).ops prec) = plainOps (o.ops prec) := by
  have h1 : (o.forget env' prec).attrs = o.attrs := by
    simp only [Object.attrs, Object.forget, encode_forget, Option.isSome_map]
    rfl
  have h2 : plainOps ((o.forget env' prec).shapeOps prec) = plainOps (o.shapeOps prec) := by
    unfold Object.shapeOps Object.forget
    cases o.mesh with
    | some m => exact m.forget_ops _ _
    | none =>
      cases o.components with
      | none => rfl
      | some c => exact congrArg plainOps c.forget_ops
  have h3 : (o.forget env' prec).metadata = o.metadata := rfl
  simp only [Object.ops, plainOps_append, plainOps_cons, h1, h2, h3]

theorem plainOps_flatMap {α : Type} {f g : α → List Op} {t : α → α} (h : ∀ x, plainOps (f (t x)) = plainOps (g x)) (xs : List α) :
    plainOps ((xs.map t).flatMap f) = plainOps (xs.flatMap g) := by
  induction xs with
  | nil => rfl
  | cons x xs ih => simp only [List.map_cons, List.flatMap_cons, plainOps_append, ih, h]

theorem Model.forget_ops (m : Model) : plainOps ((m.forget env' prec).ops prec) = plainOps (m.ops prec) := by
  have hr : plainOps ((m.resources.forget env' prec).ops prec) = plainOps (m.resources.ops prec) := by
    simp only [Resources.ops, Resources.forget, plainOps_append, plainOps_cons,
      plainOps_flatMap (fun a : Asset => a.forget_ops), plainOps_flatMap (fun o : Object => o.forget_ops)]
  have hroot : (m.forget env' prec).rootAttrs true = m.rootAttrs true := rfl
  have e1 : (m.forget env' prec).metadata = m.metadata := rfl
  have e2 : (m.forget env' prec).resources = m.resources.forget env' prec := rfl
  have e3 : (m.forget env' prec).build = m.build.forget env' := rfl
  have e4 : (m.forget env' prec).any = m.any.map (AnyElem.forget env' prec) := rfl
  simp only [Model.ops, Model.bodyOps, plainOps_append, plainOps_cons, hroot, e1, e2, e3, e4, hr, Build.forget_ops, encodeAny_forget]

theorem MetadataGroup.Dom.fewer (hf : Fewer env' env) {exts : List Extension} {g : MetadataGroup} (h : g.Dom env D exts) :
    g.Dom env' D exts := ⟨h.metadata, h.attrs.fewer hf (by decide +kernel), h.empty⟩

theorem any_forget (hf : Fewer env' env) {es : List AnyElem} (h : ∀ e ∈ es.take 1, e.Dom env D False) :
    ∀ e ∈ (es.map (AnyElem.forget env' prec)).take 1, e.Dom env' D False := by
  intro e he
  rw [← List.map_take] at he
  obtain ⟨x, hx, rfl⟩ := List.mem_map.1 he
  exact (h x hx).forget hf

theorem Object.Dom.forget (hf : Fewer env' env) {exts : List Extension} {o : Object} (h : o.Dom env D False exts) :
    (o.forget env' prec).Dom env' D False exts := by
  refine ⟨h.name, h.partNumber, h.thumbnail, h.metadata.fewer hf, fun x hx => ?_, fun c hm hc => ?_, h.attrs.forget hf⟩
  · obtain ⟨y, hy, rfl⟩ := Option.map_eq_some_iff.1 hx
    have hd := h.mesh y hy
    exact ⟨hd.attrs.fewer hf (by decide +kernel), hd.vertices.fewer hf (by decide +kernel), hd.triangles.fewer hf (by decide +kernel),
      fun t ht => ⟨(hd.triangle t ht).attrs.fewer hf (by decide +kernel), (hd.triangle t ht).escape⟩, hd.room, any_forget hf hd.any⟩
  · obtain ⟨y, hy, rfl⟩ := Option.map_eq_some_iff.1 hc
    have hd := h.components y (Option.map_eq_none_iff.1 hm) hy
    refine ⟨fun x hx => ?_, hd.attrs.fewer hf (by decide +kernel)⟩
    obtain ⟨z, hz, rfl⟩ := List.mem_map.1 hx
    exact (hd.component z hz).forget hf

theorem Model.Dom.forget (hf : Fewer env' env) {m : Model} (h : m.Dom env False) : (m.forget env' prec).Dom env' False := by
  have hr := h.root
  refine ⟨⟨hr.names, hr.spaces, hr.distinct, hr.words, hr.required, hr.language, hr.thumbnail, hr.attrs.fewer hf (by decide +kernel),
    hr.attrSpaces⟩, h.metadata, ⟨fun a ha => ?_, fun o ho => ?_, h.resources.attrs.fewer hf (by decide +kernel)⟩,
    ⟨fun i hi => ?_, h.build.attrs.forget hf⟩, any_forget hf h.any⟩
  · obtain ⟨x, hx, rfl⟩ := List.mem_map.1 ha
    exact (h.resources.assets x hx).forget hf
  · obtain ⟨x, hx, rfl⟩ := List.mem_map.1 ho
    exact (h.resources.objects x hx).forget hf
  · obtain ⟨x, hx, rfl⟩ := List.mem_map.1 hi
    have hd := h.build.items x hx
    exact ⟨hd.partNumber, hd.metadata.fewer hf, hd.attrs.forget hf⟩

/-! ## What is read without some extensions, and written again

`part` rounds only what is read: the content of the extensions that are not registered is kept as it was written. -/

def AnyElem.part (env' : Env) (prec : Int) : AnyElem → AnyElem
  | .tokens ts => .tokens ts
  | .res x => if env'.load x.space = none then .res x else .res (x.back prec)
  | .beamLattice b => if env'.load nsBeam = none then .beamLattice b else .beamLattice (b.back prec)

def anyPart (env' : Env) (prec : Int) (es : List AnyElem) : List AnyElem := (es.take 1).map (AnyElem.part env' prec)

def Asset.part (env' : Env) (prec : Int) : Asset → Asset
  | .base b => .base b
  | .unknown id ts => .unknown id ts
  | .res x => if env'.load x.space = none then .res x else .res (x.back prec)

def Mesh.part (env' : Env) (prec : Int) (pid pindex : UInt32) (m : Mesh) : Mesh :=
  { m.back prec pid pindex with any := anyPart env' prec m.any }

def Object.part (env' : Env) (prec : Int) (o : Object) : Object :=
  { o.back prec with mesh := o.mesh.map (Mesh.part env' prec o.pid o.pindex) }

def Resources.part (env' : Env) (prec : Int) (rs : Resources) : Resources :=
  { rs with assets := rs.assets.map (Asset.part env' prec), objects := rs.objects.map (Object.part env' prec) }

def Model.part (env' : Env) (prec : Int) (m : Model) : Model :=
  { m.back prec with resources := m.resources.part env' prec, any := anyPart env' prec m.any }

theorem ExtRes.back_space (x : ExtRes) : (x.back prec).space = x.space := by cases x <;> rfl

theorem AnyElem.forget_back (e : AnyElem) : (e.forget env' prec).back prec = (e.part env' prec).forget env' prec := by
  cases e with
  | tokens ts => rfl
  | res x =>
    by_cases hl : env'.load x.space = none
    · simp only [AnyElem.forget, AnyElem.part, if_pos hl, AnyElem.back]
    · simp only [AnyElem.forget, AnyElem.part, if_neg hl, AnyElem.back, ExtRes.back_space]
  | beamLattice b =>
    by_cases hl : env'.load nsBeam = none
    · simp only [AnyElem.forget, AnyElem.part, if_pos hl, AnyElem.back]
    · simp only [AnyElem.forget, AnyElem.part, if_neg hl, AnyElem.back]

theorem any_forget_back (es : List AnyElem) :
    anyBack prec (es.map (AnyElem.forget env' prec)) = (anyPart env' prec es).map (AnyElem.forget env' prec) := by
  unfold anyBack anyPart
  rw [← List.map_take, List.map_map, List.map_map]
  exact List.map_congr_left fun e _ => e.forget_back

theorem Asset.forget_back (a : Asset) : (a.forget env' prec).back prec = (a.part env' prec).forget env' prec := by
  cases a with
  | base b => rfl
  | unknown id ts => rfl
  | res x =>
    by_cases hl : env'.load x.space = none
    · simp only [Asset.forget, Asset.part, if_pos hl, Asset.back]
    · simp only [Asset.forget, Asset.part, if_neg hl, Asset.back, ExtRes.back_space]

theorem Mesh.forget_back (pid pindex : UInt32) (m : Mesh) :
    (m.forget env' prec).back prec pid pindex = (m.part env' prec pid pindex).forget env' prec := by
  simp only [Mesh.forget, Mesh.back, Mesh.part, any_forget_back]

theorem Components.forget_back (c : Components) : (c.forget env').back = c.back.forget env' := by
  simp only [Components.forget, Components.back, List.map_map]
  rfl

theorem Object.forget_back (o : Object) : (o.forget env' prec).back prec = (o.part env' prec).forget env' prec := by
  unfold Object.forget Object.part Object.back
  cases o.mesh with
  | some m => simp only [Option.map_some, Option.isSome_some, if_true, Option.map_none, Mesh.forget_back]
  | none =>
    cases o.components with
    | none => rfl
    | some c =>
      simp only [Option.map_some, Option.map_none, Option.isSome_none, Bool.false_eq_true, if_false, Components.forget_back]

theorem Model.forget_back (m : Model) : (m.forget env' prec).back prec = (m.part env' prec).forget env' prec := by
  have hb : (m.build.forget env').back = m.build.back.forget env' := by
    simp only [Build.forget, Build.back, List.map_map]
    rfl
  have hr : (m.resources.forget env' prec).back prec = (m.resources.part env' prec).forget env' prec := by
    simp only [Resources.forget, Resources.back, Resources.part, List.map_map, Function.comp_def, Asset.forget_back, Object.forget_back]
  simp only [Model.forget, Model.back, Model.part, hb, hr, any_forget_back]

/-! ## Rounded once more -/

theorem AnyElem.part_back {e : AnyElem} (h : SettledElem prec e) : (e.part env' prec).back prec = e.back prec := by
  cases e with
  | tokens ts => rfl
  | res x =>
    rw [AnyElem.part]
    split
    · rfl
    · exact AnyElem.back_twice (x := .res x) h
  | beamLattice b =>
    rw [AnyElem.part]
    split
    · rfl
    · exact AnyElem.back_twice (x := .beamLattice b) h

theorem any_part_back {es : List AnyElem} (h : ∀ e ∈ es, SettledElem prec e) : anyBack prec (anyPart env' prec es) = anyBack prec es := by
  cases es with
  | nil => rfl
  | cons e es =>
    simp only [anyBack, anyPart, List.take_succ_cons, List.take_zero, List.map_cons, List.map_nil, AnyElem.part_back (h e List.mem_cons_self)]

theorem Mesh.part_back (pid pindex : UInt32) {m : Mesh} (h : ∀ e ∈ m.any, SettledElem prec e) :
    (m.part env' prec pid pindex).back prec pid pindex = m.back prec pid pindex := by
  simp only [Mesh.part, Mesh.back, List.map_map, Function.comp_def, Triangle.back_back, Point3D.back_back, any_part_back h]

theorem Object.part_back {o : Object} (h : SettledObject prec o) : (o.part env' prec).back prec = o.back prec := by
  unfold Object.part Object.back
  cases hm : o.mesh with
  | some x => simp only [Option.map_some, Option.isSome_some, if_true, Mesh.part_back _ _ (h.mesh x hm)]
  | none =>
    cases hc : o.components with
    | none => rfl
    | some c =>
      simp only [Option.map_none, Option.map_some, Option.isSome_none, Bool.false_eq_true, if_false,
        Components.back_twice (h.components c hc)]

theorem Model.part_back {m : Model} (h : SettledModel prec m) : (m.part env' prec).back prec = m.back prec := by
  unfold Model.part Model.back Resources.part Resources.back Build.back
  simp only [List.map_map, any_part_back h.any]
  congr 2
  · refine List.map_congr_left fun a ha => ?_
    cases a with
    | base => rfl
    | unknown => rfl
    | res x =>
      simp only [Function.comp_def, Asset.part]
      split
      · rfl
      · simp only [Asset.back, ExtRes.back_twice (h.assets x ha)]
  · exact List.map_congr_left fun o ho => Object.part_back (h.objects o ho)
  · refine List.map_congr_left fun i hi => ?_
    simp only [Function.comp_def, Item.back, written_twice (h.items i hi)]

/-! ## It can be written -/

variable {exts : List Extension}

theorem any_part_writable {es : List AnyElem} (h : ∀ e ∈ es, ElemWritable env exts e) :
    ∀ e ∈ anyPart env' prec es, ElemWritable env exts e := by
  intro e he
  obtain ⟨x, hx, rfl⟩ := List.mem_map.1 he
  have hw := h x (List.mem_of_mem_take hx)
  cases x with
  | tokens => exact hw
  | res x =>
    rw [AnyElem.part]
    split
    · exact hw
    · exact res_back_writable (x := x) hw
  | beamLattice =>
    rw [AnyElem.part]
    split
    · exact hw
    · exact hw

theorem object_part_writable {known : List Extension} {o : Object} (h : ObjectWritable env exts known o) :
    ObjectWritable env exts known (o.part env' prec) := by
  have hb := object_back_writable (prec := prec) h
  refine ⟨hb.name, hb.partNumber, hb.thumbnail, hb.metadata, fun m hm => ?_, hb.components, hb.attrs, fun m hm => ?_⟩
  · obtain ⟨x, hx, rfl⟩ := Option.map_eq_some_iff.1 hm
    have hw := mesh_back_writable (prec := prec) (pid := o.pid) (pindex := o.pindex) (h.mesh x hx)
    exact ⟨hw.attrs, hw.vertices, hw.triangles, hw.triangle, any_part_writable (h.mesh x hx).any⟩
  · obtain ⟨x, hx, rfl⟩ := Option.map_eq_some_iff.1 hm
    exact hb.triangles (x.back prec o.pid o.pindex) (by simp only [Object.back, hx, Option.map_some])

theorem model_part_writable {m : Model} (h : Writable env m) : Writable env (m.part env' prec) := by
  have hb := model_back_writable (prec := prec) h
  refine ⟨hb.extensions, hb.distinct, hb.language, hb.thumbnail, hb.attrs, hb.noXml, hb.metadata, fun a ha => ?_, fun o ho => ?_,
    hb.resourcesAttrs, hb.items, hb.buildAttrs, any_part_writable h.any⟩
  · obtain ⟨x, hx, rfl⟩ := List.mem_map.1 ha
    have hw := h.assets x hx
    cases x with
    | base => exact hw
    | unknown => exact hw
    | res x =>
      rw [Asset.part]
      split
      · exact hw
      · exact res_back_writable (x := x) hw
  · obtain ⟨x, hx, rfl⟩ := List.mem_map.1 ho
    exact object_part_writable (h.objects x hx)

/-! ## Documents -/

theorem lex_marshal {m : Model} (h : m.Dom env False) :
    lex .eof (.new (printOps (fun _ => []) (m.ops prec))) = (rd (m.ops prec), .eof) := by
  have hl := C23_roundtrip_partial b!"model" (m.rootAttrs true) (m.bodyOps prec) (by decide +kernel) (by decide +kernel)
    (by rw [root_shown h.root]; exact rootOK h.root true)
    (by rw [root_shown h.root, decls_root h.root, root_default h.root]; exact h.good.ok)
    (by have := h.good (prec := prec) |>.nest [] []; rw [List.append_nil] at this; rw [this]; rfl)
  have he : document b!"model" (m.rootAttrs true) (m.bodyOps prec) = m.ops prec := by
    simp [document, Model.ops, opStart, coreName]
  rw [root_shown h.root, root_default h.root, he] at hl
  exact hl

/-- What one program writes is read by another one as the model whose tokens are the same. -/
theorem decode_alike {m m' : Model} (h : m.Dom env False) (h' : m'.Dom env' False) (e : plainOps (m'.ops prec) = plainOps (m.ops prec))
    (mem : Nat → Str → Str) :
    unmarshalModel env' mem (printOps (fun _ => []) (m.ops prec)) .zero = some (m'.back prec, .ok) := by
  rw [unmarshalModel, lex_marshal h, show rd (m.ops prec) = rd (m'.ops prec) from (readOps_congr e).symm]
  exact decode_document h' False.elim false (m0 := .zero) (Or.inr (Or.inr ⟨rfl, rfl⟩)) (pre := []) (by simp)

end

end Go3mf
