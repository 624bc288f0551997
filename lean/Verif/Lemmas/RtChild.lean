import Verif.Lemmas.RtRoot
import Verif.Lemmas.RtWritable

/-!
# Encoded child models decoded
-/

namespace Go3mf

section
variable {env : Env} {m m0 : Model} {c : ChildModel} {txt : Prop} {prec : Int}

/-- The operations between the start and the end of the root element of a child part. -/
def ChildModel.bodyOps (prec : Int) (c : ChildModel) : List Op :=
  c.resources.ops prec ++ ([opStart (coreName b!"build") [], .stop (coreName b!"build")] ++ encodeAny prec c.any)

theorem ChildModel.ops_eq : c.ops prec m = document b!"model" (m.rootAttrs false) (c.bodyOps prec) := by
  simp [document, ChildModel.ops, ChildModel.bodyOps, opStart, coreName]

/-- The child model can be written and read back into a model with the given extensions. -/
structure ChildModel.Dom (env : Env) (m : Model) (txt : Prop) (exts : List Extension) (c : ChildModel) : Prop where
  root : m.RootDom env
  resources : c.resources.Dom env m.decls txt exts
  any : ∀ e ∈ c.any.take 1, e.Dom env m.decls txt

theorem build_good {D : List (Str × Str)} : Good D [opStart (coreName b!"build") [], .stop (coreName b!"build")] :=
  Good.elem (ops := []) (nameOK_core (by decide +kernel)) .nil .nil

theorem ChildModel.Dom.good {exts : List Extension} (h : c.Dom env m txt exts) : Good m.decls (c.bodyOps prec) :=
  .append h.resources.good (.append build_good (any_good h.any))

theorem within_ignored {cfg : DecCfg} (hc : cfg.isRoot = false) {n : Name} (hn : n ≠ ⟨nsCore, b!"build"⟩) {r : Regs} :
    Within cfg .model n r (rd [opStart (coreName b!"build") [], .stop (coreName b!"build")]) r := by
  have e : rd [opStart (coreName b!"build") [], .stop (coreName b!"build")] =
      [some (.start ⟨nsCore, b!"build"⟩ [])] ++ [some (.stop ⟨nsCore, b!"build"⟩)] := by
    have := rd_elem (coreName b!"build") [] false []
    rw [fullName_core] at this
    exact this
  rw [e]
  refine Within.append (r' := r) (Within.single fun i idx st => ?_) (Within.single fun i idx st => ?_)
  · simp only [DState.step, DState.onStart, Dec.hasChild, if_true, child, modelChild, hc]
    rw [if_neg (by decide +kernel), if_neg (by simp), if_neg (by simp)]
  · simp only [DState.step, DState.onEnd]
    rw [if_neg hn]
    rfl

theorem within_childBody {cfg : DecCfg} (hc : cfg.isRoot = false) {n : Name} (hn : n ≠ ⟨nsCore, b!"build"⟩) {r : Regs}
    (h : c.Dom cfg.env m txt r.model.extensions) (ht : txt → ∀ i t, cfg.mem i t = t) (hr : r.res = some .zero) :
    ∃ r', Within cfg .model n r (rd (c.bodyOps prec)) r' ∧ r'.res = some (c.resources.back prec) ∧
      r'.model = { r.model with any := r.model.any ++ anyBack prec c.any } := by
  obtain ⟨r2, w2, m2, e2⟩ := Resources.Dom.within (cfg := cfg) (n := n) (D := m.decls) (txt := txt) (prec := prec)
    (rs := c.resources) (r := r) h.resources ht hr
  have w4 : ∃ r4, Within cfg .model n r2 (rd (encodeAny prec c.any)) r4 ∧ r4.res = r2.res ∧
      r4.model = { r2.model with any := r2.model.any ++ anyBack prec c.any } := by
    have ha := h.any
    cases hany : c.any with
    | nil => exact ⟨_, Within.nil, rfl, by simp [anyBack]⟩
    | cons e es =>
      rw [hany] at ha
      obtain ⟨s, b, hw⟩ := AnyElem.Dom.within (cfg := cfg) (loc := .modelAny) (n := n) (prec := prec) (D := m.decls) (txt := txt)
        (r := r2) (e := e) (ha e (by simp)) ht (by simp) trivial
      exact ⟨_, hw, rfl, by simp [Regs.putAny, anyBack]⟩
  obtain ⟨r4, w4, e4, m4⟩ := w4
  refine ⟨r4, ?_, by rw [e4, e2], by rw [m4, m2]⟩
  exact w2.seq (Good.append build_good (any_good h.any)).text ((within_ignored hc hn).seq (any_good h.any).text w4)

/-- The part of a child model is read: the state of the decoder at the end. -/
theorem run_childPart (h : c.Dom env m txt m0.extensions) {mem : Nat → Str → Str} (ht : txt → ∀ i t, mem i t = t)
    (strict : Bool) {path : Str} (hres : m0.findResources path = some .zero) :
    ∃ s, runTokens ⟨env, false, mem⟩ strict (fun _ => false) (lex .eof (.new (c.partBytes prec m))).2 0 (DState.init m0 path)
        (lex .eof (.new (c.partBytes prec m))).1 = some (s, .token .eof) ∧ s.errs = [] ∧
      s.regs.res = some (c.resources.back prec) ∧ s.regs.model = { m0 with any := m0.any ++ anyBack prec c.any } := by
  have hl := C23_header_partial b!"model" (m.rootAttrs false) (c.bodyOps prec) (by decide +kernel) (by decide +kernel)
    (by rw [root_shown h.root]; exact rootOK h.root false)
    (by rw [root_shown h.root, decls_root h.root, root_default h.root]; exact h.good.ok)
    (by have := h.good (prec := prec) |>.nest [] []; rw [List.append_nil] at this; rw [this]; rfl)
  rw [root_shown h.root, root_default h.root] at hl
  rw [ChildModel.partBytes, ChildModel.ops_eq, hl]
  have hst : ∀ i, (DState.init m0 path).step ⟨env, false, mem⟩ i
      (some (.start ⟨nsCore, b!"model"⟩ (m.rootAttrs false))) =
      some ⟨(DState.init m0 path).regs, .model, ⟨nsCore, b!"model"⟩, [⟨.model, ⟨nsCore, b!"model"⟩, -1⟩], []⟩ := by
    intro i
    simp only [DState.step, DState.onStart, DState.init, Dec.hasChild, if_true, child, onlyChild, start]
    rfl
  obtain ⟨r', w, e1, e2⟩ := within_childBody (cfg := ⟨env, false, mem⟩) (prec := prec) rfl
    (n := ⟨nsCore, b!"model"⟩) (by decide +kernel) (r := (DState.init m0 path).regs) h ht hres
  have hd : document b!"model" (m.rootAttrs false) (c.bodyOps prec) =
      .start (coreName b!"model") (m.rootAttrs false) false false :: c.bodyOps prec ++ [.stop (coreName b!"model")] := rfl
  have he : rd (document b!"model" (m.rootAttrs false) (c.bodyOps prec)) =
      some (.start ⟨nsCore, b!"model"⟩ (m.rootAttrs false)) ::
        (rd (c.bodyOps prec) ++ [some (.stop ⟨nsCore, b!"model"⟩)]) := by
    rw [hd, rd_elem, fullName_core, readAttrs_clean (root_clean h.root false)]
  refine ⟨⟨r', .model, ⟨nsCore, b!"model"⟩, [], []⟩, ?_, rfl, e1, e2⟩
  simp only [he]
  rw [runTokens, show (DState.init m0 path).step ⟨env, false, mem⟩ 0 none = some (DState.init m0 path) from rfl]
  simp only [DState.init, List.isEmpty_nil, Bool.not_true, Bool.and_false, Bool.false_eq_true, if_false]
  rw [runTokens]
  have hc : DState.step ⟨env, false, mem⟩ (DState.init m0 path) (0 + 1) (some (.chars b!"\n")) = some (DState.init m0 path) := rfl
  simp only [DState.init] at hc hst w
  rw [hc]
  simp only [List.isEmpty_nil, Bool.not_true, Bool.and_false, Bool.false_eq_true, if_false]
  rw [runTokens, hst]
  simp only [List.isEmpty_nil, Bool.not_true, Bool.and_false, Bool.false_eq_true, if_false]
  rw [w, runTokens]
  simp only [DState.step, DState.onEnd, if_true, List.isEmpty_nil, Bool.not_true, Bool.and_false, Bool.false_eq_true, if_false,
    runTokens, stop]

end

end Go3mf
