import Verif.Lemmas.RtSlices

/-!
# Encoded unknown elements decoded
-/

namespace Go3mf

section
variable {cfg : DecCfg} {loc : AnyLoc} {n : Name} {r : Regs} {D : List (Str × Str)} {txt : Prop}

/-- The name of an element in a name space that is declared, or in the default one. -/
def ElemName (D : List (Str × Str)) (n : Name) : Prop := NameOK D nsCore n ∧ n.space ≠ []

/-- The content of an unknown element with name `n`: complete elements with other names and, if `txt`, non-empty texts
between them. -/
inductive Inner (D : List (Str × Str)) (txt : Prop) (n : Name) : List Token → Prop
  | nil : Inner D txt n []
  | elem {m : Name} {as : List Attr} {ts rest : List Token} : m ≠ n → ElemName D m → AttrsDom D false as → Inner D txt n ts →
      Inner D txt n rest → Inner D txt n (.start m as :: (ts ++ .stop m :: rest))
  | text {s : Str} {rest : List Token} : txt → s ≠ [] → cleanText s = s → NoText (tokensOps rest) → Inner D txt n rest →
      Inner D txt n (.chars s :: rest)

theorem ElemName.full {m : Name} (h : ElemName D m) : fullName nsCore m = m := fullName_ext h.2 m.loc

theorem Inner.ok {ts : List Token} (h : Inner D txt n ts) : ∀ op ∈ tokensOps ts, OpOK D nsCore op := by
  induction h with
  | nil => simp [tokensOps]
  | @elem m as ts rest hm hn ha h1 h2 ih1 ih2 =>
    intro op hop
    simp only [tokensOps, List.map_cons, List.map_append, List.mem_cons, List.mem_append] at hop
    rcases hop with rfl | hop | rfl | hop
    · exact ⟨hn.1, ha.ok⟩
    · exact ih1 op hop
    · exact hn.1
    · exact ih2 op hop
  | @text s rest _ _ _ _ _ ih =>
    intro op hop
    simp only [tokensOps, List.map_cons, List.mem_cons] at hop
    rcases hop with rfl | hop
    · exact trivial
    · exact ih op hop

theorem Inner.nest {ts : List Token} (h : Inner D txt n ts) :
    ∀ st rest, openOps st (tokensOps ts ++ rest) = openOps st rest := by
  induction h with
  | nil => intro st rest; rfl
  | @elem m as ts rest' hm hn ha h1 h2 ih1 ih2 =>
    intro st rest
    simp only [tokensOps, List.map_cons, List.map_append, List.cons_append, List.append_assoc] at ih1 ih2 ⊢
    rw [Token.op, opStart, openOps, ih1]
    simp only [Bool.false_eq_true, if_false, Token.op]
    rw [openOps, if_pos rfl]
    exact ih2 st rest
  | @text s rest' _ _ _ _ _ ih =>
    intro st rest
    exact ih st rest

theorem Inner.within {d : Dec} {put : List Token → Regs} (hd : d.hasChild = false) (hm : ∀ l, d ≠ .metadata l)
    (hp : ∀ ts t, (put ts).addToken d t = put (ts ++ [t])) (ht : txt → ∀ i t, cfg.mem i t = t) {ts : List Token}
    (h : Inner D txt n ts) : ∀ acc, Within cfg d n (put acc) (rd (tokensOps ts)) (put (acc ++ ts)) := by
  induction h with
  | nil => intro acc; rw [List.append_nil]; exact Within.nil
  | @elem m as ts rest hne hn ha h1 h2 ih1 ih2 =>
    intro acc
    have e : rd (tokensOps (.start m as :: (ts ++ .stop m :: rest))) =
        [some (.start m as)] ++ (rd (tokensOps ts) ++ ([some (.stop m)] ++ rd (tokensOps rest))) := by
      simp only [tokensOps, List.map_cons, List.map_append, rd, Token.op, opStart, readOps]
      rw [readOps_append (by exact trivial)]
      simp [readOps, flushText_nil, hn.full, ha.read]
    rw [e]
    have w1 : Within cfg d n (put acc) [some (.start m as)] (put (acc ++ [.start m as])) := by
      refine Within.single fun i idx st => ?_
      simp [DState.step, DState.onStart, hd, hp]
    have w2 : ∀ acc, Within cfg d n (put acc) [some (.stop m)] (put (acc ++ [.stop m])) := by
      intro acc
      refine Within.single fun i idx st => ?_
      simp only [DState.step, DState.onEnd]
      rw [if_neg (fun h => hne h.symm), hp]
    have := w1.append ((ih1 _).append ((w2 _).append (ih2 _)))
    simpa using this
  | @text s rest htx hs hc hno h ih =>
    intro acc
    have e : rd (tokensOps (.chars s :: rest)) = [some (.chars s)] ++ rd (tokensOps rest) := by
      rw [tokensOps, List.map_cons, ← tokensOps, rd, Token.op, readOps, List.nil_append, hc, readOps_flush hno]
      simp [flushText, hs]
    rw [e]
    have w1 : Within cfg d n (put acc) [some (.chars s)] (put (acc ++ [.chars s])) := by
      refine Within.single fun i idx st => ?_
      have : DState.onChar cfg ⟨put acc, d, n, ⟨d, n, idx⟩ :: st, []⟩ i s =
          ⟨(put acc).addToken d (.chars (cfg.mem i s)), d, n, ⟨d, n, idx⟩ :: st, []⟩ := by
        unfold DState.onChar
        cases d <;> first | exact absurd rfl (hm _) | rfl
      simp only [DState.step, this, ht htx, hp]
    have := w1.append (ih (acc ++ [.chars s]))
    simpa using this

/-- A whole unknown element that can be written and read back: its own name space is known to no extension. -/
structure TokensDom (env : Env) (D : List (Str × Str)) (txt : Prop) (n : Name) (as : List Attr) (body ts : List Token) : Prop where
  eq : ts = .start n as :: (body ++ [.stop n])
  name : ElemName D n
  core : n.space ≠ nsCore
  unknown : env.load n.space = none
  attrs : AttrsDom D false as
  inner : Inner D txt n body

variable {env : Env} {as : List Attr} {body ts : List Token}

theorem TokensDom.ops (h : TokensDom env D txt n as body ts) :
    tokensOps ts = .start n as false false :: tokensOps body ++ [.stop n] := by
  rw [h.eq]
  simp [tokensOps, Token.op, opStart]

theorem TokensDom.good (h : TokensDom env D txt n as body ts) : Good D (tokensOps ts) := by
  rw [h.ops]
  refine ⟨?_, ?_, trivial⟩
  · intro op hop
    simp only [List.cons_append, List.mem_cons, List.mem_append, List.not_mem_nil, or_false] at hop
    rcases hop with rfl | hop | rfl
    · exact ⟨h.name.1, h.attrs.ok⟩
    · exact h.inner.ok op hop
    · exact h.name.1
  · intro st rest
    rw [List.cons_append, List.cons_append, List.append_assoc, openOps]
    simp only [Bool.false_eq_true, if_false]
    rw [h.inner.nest, List.singleton_append, openOps, if_pos rfl]

/-- An unknown element below a model or mesh. -/
theorem TokensDom.within {n' : Name} (h : TokensDom cfg.env D txt n as body ts) (ht : txt → ∀ i t, cfg.mem i t = t)
    (hl : loc ≠ .asset) (hh : Holds loc r (.tokens ts)) :
    Within cfg loc.parent n' r (rd (tokensOps ts)) (r.putAny loc (.tokens ts)) := by
  have hh' : ∀ ts', Holds loc r (.tokens ts') := by
    intro ts'
    cases loc with
    | asset => exact absurd rfl hl
    | modelAny => trivial
    | meshAny => exact hh
  have hn : newAnyElement cfg.env loc n = some (.unknown loc n, .tokens []) := by
    simp [newAnyElement, h.unknown]
  have hc : child cfg r loc.parent n = some (r.putAny loc (.tokens []), some (-1, .unknown loc n)) := by
    cases loc with
    | asset => exact absurd rfl hl
    | modelAny =>
      simp only [AnyLoc.parent, child, modelChild]
      rw [if_neg h.core, hn]
      rfl
    | meshAny =>
      simp only [AnyLoc.parent, child, meshChild]
      rw [if_neg h.core, hn]
      rfl
  have hp : ∀ ts t, (r.putAny loc (.tokens ts)).addToken (.unknown loc n) t = r.putAny loc (.tokens (ts ++ [t])) := by
    intro ts t
    simp only [Regs.addToken]
    rw [modAny_put (hh' _) (hh' _)]
  have hb := h.inner.within (cfg := cfg) (d := .unknown loc n) (put := fun ts => r.putAny loc (.tokens ts)) rfl (by simp) hp ht
    [.start n as]
  rw [h.ops]
  have := Within.ops (cfg := cfg) (n := n') (n' := n) (skip := false) (as := as) (d := loc.parent) (d' := .unknown loc n) (r := r)
    (r2 := r.putAny loc (.tokens [.start n as])) (parent_hasChild loc)
    (by rw [h.name.full]; exact hc) (by
      rw [h.attrs.read]
      simp only [start]
      rw [modAny_put (hh' _) (hh' _)]
      rfl)
    (by rw [h.name.full]; exact hb)
  simp only [stop, hp] at this
  rw [h.eq]
  simpa using this

/-- The identifier of an unknown asset: the value of the first attribute `id`, zero without one. -/
def assetID (as : List Attr) (id : UInt32) : Prop :=
  match firstID as with
  | some a => parseUint a.value = .ok id
  | none => id = 0

/-- An unknown element below the resources. -/
theorem TokensDom.within_asset {n' : Name} {rs : Resources} {id : UInt32} (h : TokensDom cfg.env D txt n as body ts)
    (ht : txt → ∀ i t, cfg.mem i t = t) (hr : r.res = some rs) (hid : assetID as id) :
    ∃ v, Within cfg .resources n' r (rd (tokensOps ts))
      { r with unk := v, unkID := id, res := some { rs with assets := rs.assets ++ [.unknown id ts] } } := by
  have hn : newAnyElement cfg.env .asset n = some (.unknown .asset n, .tokens []) := by
    simp [newAnyElement, h.unknown]
  have hc : child cfg r .resources n =
      some ({ r with unk := [], unkID := 0 }, some ((rs.assets.length : Int), Dec.unknownAsset n)) := by
    simp only [child, resourcesChild, hr]
    rw [if_neg (fun e => h.core e.1), if_neg h.core, hn]
  have hb := h.inner.within (cfg := cfg) (d := .unknownAsset n) (put := fun ts => { r with unk := ts, unkID := id }) rfl (by simp)
    (fun _ _ => rfl) ht [.start n as]
  rw [h.ops]
  have := Within.ops (cfg := cfg) (n := n') (n' := n) (skip := false) (as := as) (d := .resources) (d' := .unknownAsset n) (r := r)
    (r2 := { r with unk := [.start n as], unkID := id }) rfl
    (by rw [h.name.full]; exact hc) (by
      rw [h.attrs.read]
      unfold assetID at hid
      simp only [start]
      cases hf : firstID as with
      | none => rw [hf] at hid; simp only at hid; subst hid; rfl
      | some a =>
        rw [hf] at hid
        simp only at hid ⊢
        have e : uintAttr true a = (id, []) := by simp [uintAttr, hid, parseUintVal]
        rw [e]; rfl)
    (by rw [h.name.full]; exact hb)
  refine ⟨.start n as :: body ++ [.stop n], ?_⟩
  simp only [stop, hr] at this
  rw [h.eq]
  simpa using this

end

end Go3mf
