import Verif.Props.C26Exact
import Verif.Props.C53

/-!
# C53: the exact names

The path of every error consists exactly of the names of the open elements that the decoder follows, from the element
itself to the root.  `followed` lists these elements; it looks at the names of the elements only.
-/

namespace Go3mf
open Spec

/-- The error is about an attribute of the element, and its path are the elements that the decoder follows. -/
def PointsExactly (e : Err) (st : List Name × List Attr) : Prop :=
  AboutAttr e st.2 ∧ e.levelNames = st.1.map (·.loc)

theorem Tracks.names {env : Env} {s : DState} {vc : List (Dec × Name)} {depth : Nat} (h : Tracks env s vc depth) :
    s.names = (vc.map Prod.snd).take depth := by
  have := congrArg (List.map Prod.snd) h.stack
  rw [List.map_map, List.map_take] at this
  rw [← this]
  rfl

theorem run_visits {cfg : DecCfg} {strict : Bool} {done : Nat → Bool} {fin : LexErr} :
    ∀ {evs : List (Option Event)} {i : Nat} {s s' : DState} {vc : List (Dec × Name)} {depth : Nat} {e : LoopEnd},
    Tracks cfg.env s vc depth → runTokens cfg strict done fin i s evs = some (s', e) →
    ∃ es, s'.errs = s.errs ++ es ∧ InOrder PointsExactly es (followed cfg.env cfg.isRoot (vc.map Prod.snd, depth) evs)
  | [], i, s, s', vc, depth, e, ht, h => by
    simp only [runTokens, Option.some.injEq, Prod.mk.injEq] at h
    exact ⟨[], by simp [h.1], .nil _ _⟩
  | ev :: evs, i, s, s', vc, depth, e, ht, h => by
    unfold runTokens at h
    rcases track_step (i := i) ht ev with ⟨h1, -⟩ | ⟨s1, vc1, depth1, h1, ht1, hf, -⟩
    · rw [h1] at h; simp at h
    rw [h1] at h
    simp only [] at h
    have hrest : ∃ es, s'.errs = s1.errs ++ es ∧
        InOrder PointsExactly es (followed cfg.env cfg.isRoot (vc1.map Prod.snd, depth1) evs) := by
      by_cases h2 : (strict && !s1.errs.isEmpty) = true
      · rw [if_pos h2] at h
        simp only [Option.some.injEq, Prod.mk.injEq] at h
        exact ⟨[], by simp [h.1], .nil _ _⟩
      · rw [if_neg h2] at h
        by_cases h3 : (i % 1000 == 0 && done i) = true
        · rw [if_pos h3] at h
          simp only [Option.some.injEq, Prod.mk.injEq] at h
          exact ⟨[], by simp [h.1], .nil _ _⟩
        · rw [if_neg h3] at h
          exact run_visits ht1 h
    obtain ⟨es, h4, h5⟩ := hrest
    match ev, h1, hf with
    | none, h1, hf => exact ⟨es, by rw [h4, step_noStart h1 (by simp)], by rw [hf] at h5; exact h5⟩
    | some (.chars t), h1, hf => exact ⟨es, by rw [h4, step_noStart h1 (by simp)], by rw [hf] at h5; exact h5⟩
    | some (.stop n), h1, hf => exact ⟨es, by rw [h4, step_noStart h1 (by simp)], by rw [hf] at h5; exact h5⟩
    | some (.start n as), h1, hf =>
      obtain ⟨g, hg, h6⟩ := step_points h1
      by_cases hF : Follows cfg.env cfg.isRoot (vc.map Prod.snd).head? n
      · simp only [follow, if_pos hF] at hf
        rw [hf] at h5
        simp only [followed, if_pos hF]
        refine ⟨g ++ es, by rw [h4, hg, List.append_assoc], .cons ?_ h5⟩
        rcases h6 with ⟨rfl, -⟩ | ⟨-, h7⟩
        · simp
        · intro x hx
          obtain ⟨ha, hl⟩ := h7 x hx
          exact ⟨ha, by rw [hl, ht.names]; rfl⟩
      · simp only [follow, if_neg hF] at hf
        rw [hf] at h5
        simp only [followed, if_neg hF]
        have hg0 : g = [] := by
          rcases h6 with ⟨h, -⟩ | ⟨h, -⟩
          · exact h
          · rw [ht.names, ht1.names] at h
            simp only [Prod.mk.injEq] at hf
            rw [hf.1, hf.2] at h
            exact absurd (congrArg List.length h) (by simp)
        exact ⟨es, by rw [h4, hg, hg0, List.append_nil], h5⟩

theorem decodeResult_any (strict : Bool) (errs : List Err) (e : LoopEnd) :
    (decodeResult strict errs e).errors = errs ∨ (decodeResult strict errs e).errors = [] ∨
      ∃ x l, errs = x :: l ∧ (decodeResult strict errs e).errors = [x] := by
  have key : ∀ e : LoopEnd, decodeResult strict errs e = decodeResult strict errs .strict →
      (decodeResult strict errs e).errors = errs ∨ (decodeResult strict errs e).errors = [] ∨
      ∃ x l, errs = x :: l ∧ (decodeResult strict errs e).errors = [x] := by
    intro e he
    rw [he]
    match errs, strict with
    | [], _ => exact Or.inl rfl
    | [e], _ => exact Or.inl rfl
    | x :: y :: l, true => exact Or.inr (Or.inr ⟨x, y :: l, rfl, rfl⟩)
    | x :: y :: l, false => exact Or.inl rfl
  match e with
  | .ctx => exact Or.inr (Or.inl rfl)
  | .token .syntax => exact Or.inr (Or.inl rfl)
  | .token .io => exact Or.inr (Or.inl rfl)
  | .token .eof => exact key _ rfl
  | .strict => exact key _ rfl

/-- The first one of the errors. -/
theorem InOrder.first {P : Err → List Name × List Attr → Prop} {x : Err} {l : List Err} {sts : List (List Name × List Attr)}
    (h : InOrder P (x :: l) sts) : InOrder P [x] sts := by
  obtain ⟨gs, h1, h2⟩ := h
  induction h2 with
  | nil => simp at h1
  | @cons g st gs sts hg h2 ih =>
    cases g with
    | nil => exact InOrder.cons (g := []) (by simp) (ih (by simpa using h1))
    | cons y g =>
      simp only [List.flatten_cons, List.cons_append, List.cons.injEq] at h1
      refine InOrder.cons (g := [x]) (es := []) ?_ (.nil _ _)
      intro e he
      rw [List.mem_singleton.1 he, h1.1]
      exact hg y (by simp)

/-- **C53**, without the indices, for all documents, modes and contexts: the errors of the elements come in the order of the
elements, and the path of each error consists of the names of the element and of the open elements around it that the
decoder follows, and of nothing else. -/
theorem C53_exact_partial (cfg : DecCfg) (strict : Bool) (done : Nat → Bool) (m m' : Model) (path : Str)
    (evs : List (Option Event)) (fin : LexErr) {rs : Resources} {res : DecodeResult} (hm : m.findResources path = some rs)
    (hc : CleanTarget cfg.env m rs) (h : decodeEvents cfg strict done m path evs fin = some (m', res)) :
    InOrder PointsExactly res.errors (followed cfg.env cfg.isRoot ([], 0) evs) := by
  unfold decodeEvents at h
  rw [Option.map_eq_some_iff] at h
  obtain ⟨⟨s, e⟩, h1, h2⟩ := h
  simp only [Prod.mk.injEq] at h2
  rw [← h2.2]
  obtain ⟨es, h3, h4⟩ := run_visits (init_tracks hm hc) h1
  have h3' : s.errs = es := by rw [h3]; rfl
  have hd := decodeResult_any strict s.errs e
  rcases hd with hd | hd | ⟨x, l, hx, hd⟩
  · rw [hd, h3']; exact h4
  · rw [hd]; exact .nil _ _
  · rw [hd]
    exact InOrder.first (l := l) (by rw [← hx, h3']; exact h4)

/-- **C53** for `UnmarshalModel`, without the indices: every byte string. -/
theorem C53_unmarshal_exact_partial (env : Env) (mem : Nat → Str → Str) (data : Str) (m m' : Model) (res : DecodeResult)
    (hm : m.path = [] ∨ m.path = defaultModelPath) (hc : CleanTarget env m m.resources)
    (h : unmarshalModel env mem data m = some (m', res)) :
    InOrder PointsExactly res.errors (followed env true ([], 0) (lex .eof (.new data)).1) := by
  refine C53_exact_partial ⟨env, true, mem⟩ false (fun _ => false) m m' defaultModelPath _ _ ?_ hc h
  unfold Model.findResources
  rw [if_pos (by rcases hm with h | h <;> simp [h])]

/-! ## Examples -/

/-- The elements that are followed in a document with errors in an element of an extension, below an element that is not
followed. -/
def skipExample : Str := b!"<model xmlns=\"http://schemas.microsoft.com/3dmanufacturing/core/2015/02\" xmlns:m=\"http://schemas.microsoft.com/3dmanufacturing/material/2015/02\"><resources><x><m:colorgroup id=\"q\"><m:color color=\"x\"/></m:colorgroup></x></resources></model>"

example : (followed allExt true ([], 0) (lex .eof (.new skipExample)).1).map (fun v => v.1.map (·.loc)) =
    [[b!"model"], [b!"resources", b!"model"], [b!"colorgroup", b!"resources", b!"model"],
      [b!"color", b!"colorgroup", b!"resources", b!"model"]] := by decide +kernel

example : ((unmarshalModel allExt (fun _ t => t) skipExample .zero).map fun p => p.2.errors.map Err.levelNames) =
    some [[b!"colorgroup", b!"resources", b!"model"], [b!"color", b!"colorgroup", b!"resources", b!"model"]] := by
  decide +kernel

example : CleanTarget allExt Model.zero Model.zero.resources := cleanTarget_empty rfl rfl rfl

end Go3mf
