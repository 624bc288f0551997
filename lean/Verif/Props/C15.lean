import Verif.Model.Errors

/-!
# C15: wrapping keeps the target and reports the full path
-/

namespace Go3mf

/-- One wrapping call. -/
inductive Spec.WrapOp where
  | wrap (name : Str)
  | index (name : Str) (index : Nat)
  | path (name path : Str)

/-- Perform it. -/
def Spec.WrapOp.apply : Spec.WrapOp → Err → Err
  | .wrap n, e => Go3mf.wrap n e
  | .index n i, e => wrapIndex n i e
  | .path n p, e => wrapPath n p e

/-- The step of the reported location that a call contributes. -/
def Spec.WrapOp.step : Spec.WrapOp → Str
  | .wrap n => n
  | .index n i => n ++ b!"[" ++ natDigits i ++ b!"]"
  | .path n _ => n

/-- All the leaf errors inside an error, list members included. -/
inductive Spec.Holds (l : Leaf) : Err → Prop
  | leaf : Spec.Holds l (.leaf l)
  | wrapped (t : List Level) (e : Err) (p : Str) : Spec.Holds l e → Spec.Holds l (.wrapped t e p)
  | list (es : List Err) (e : Err) : e ∈ es → Spec.Holds l e → Spec.Holds l (.list es)

theorem wrapIndexList_eq (n : Str) (i : Int) (es : List Err) : wrapIndexList n i es = es.map (wrapIndex n i) := by
  induction es with
  | nil => rfl
  | cons e es ih => simp [wrapIndexList, ih]

theorem wrapPathList_eq (n p : Str) (es : List Err) : wrapPathList n p es = es.map (wrapPath n p) := by
  induction es with
  | nil => rfl
  | cons e es ih => simp [wrapPathList, ih]

mutual
theorem is_wrapIndex (n : Str) (i : Int) (l : Leaf) : ∀ e, Err.is l (wrapIndex n i e) = Err.is l e
  | .leaf k => by simp [wrapIndex, Err.is]
  | .wrapped t e p => by simp [wrapIndex, Err.is]
  | .list es => by simp only [wrapIndex, Err.is]; exact isFirst_wrapIndex n i l es
theorem isFirst_wrapIndex (n : Str) (i : Int) (l : Leaf) :
    ∀ es, Err.isFirst l (wrapIndexList n i es) = Err.isFirst l es
  | [] => rfl
  | e :: es => by simp only [wrapIndexList, Err.isFirst]; exact is_wrapIndex n i l e
end

mutual
theorem is_wrapPath (n p : Str) (l : Leaf) : ∀ e, Err.is l (wrapPath n p e) = Err.is l e
  | .leaf k => by simp [wrapPath, Err.is]
  | .wrapped t e p => by simp [wrapPath, Err.is]
  | .list es => by simp only [wrapPath, Err.is]; exact isFirst_wrapPath n p l es
theorem isFirst_wrapPath (n p : Str) (l : Leaf) :
    ∀ es, Err.isFirst l (wrapPathList n p es) = Err.isFirst l es
  | [] => rfl
  | e :: es => by simp only [wrapPathList, Err.isFirst]; exact is_wrapPath n p l e
end

theorem apply_is (op : Spec.WrapOp) (l : Leaf) (e : Err) : Err.is l (op.apply e) = Err.is l e := by
  cases op <;> simp [Spec.WrapOp.apply, wrap, is_wrapIndex, is_wrapPath]

theorem apply_list (op : Spec.WrapOp) (es : List Err) : op.apply (.list es) = .list (es.map op.apply) := by
  cases op with
  | wrap n => simp [Spec.WrapOp.apply, wrap, wrapIndex, wrapIndexList_eq]
  | index n i => simp [Spec.WrapOp.apply, wrapIndex, wrapIndexList_eq]
  | path n p => simp [Spec.WrapOp.apply, wrapPath, wrapPathList_eq]

/-- The errors that `Unwrap` reaches: of a list only the first. -/
inductive Spec.Reaches : Err → Err → Prop
  | refl (e : Err) : Spec.Reaches e e
  | wrapped (t : List Level) (e : Err) (p : Str) (x : Err) : Spec.Reaches e x → Spec.Reaches (.wrapped t e p) x
  | list (e : Err) (es : List Err) (x : Err) : Spec.Reaches e x → Spec.Reaches (.list (e :: es)) x

mutual
theorem is_reaches (l : Leaf) : ∀ e, Err.is l e = true ↔ Spec.Reaches e (.leaf l)
  | .leaf k => by
    simp only [Err.is, beq_iff_eq]
    exact ⟨fun h => h ▸ .refl _, fun h => by cases h; rfl⟩
  | .wrapped t e p => by
    simp only [Err.is, is_reaches l e]
    exact ⟨fun h => .wrapped _ _ _ _ h, fun h => by cases h; assumption⟩
  | .list es => by
    simp only [Err.is]
    exact isFirst_reaches l es
theorem isFirst_reaches (l : Leaf) : ∀ es, Err.isFirst l es = true ↔ Spec.Reaches (.list es) (.leaf l)
  | [] => ⟨fun h => by simp [Err.isFirst] at h, fun h => by cases h⟩
  | e :: es => by
    simp only [Err.isFirst, is_reaches l e]
    exact ⟨fun h => .list _ _ _ h, fun h => by cases h; assumption⟩
end

/-- C15: `errors.Is` finds a leaf if and only if `Unwrap` reaches it; of a list only the first member is seen. -/
theorem C15_reaches (l : Leaf) (e : Err) : Err.is l e = true ↔ Spec.Reaches e (.leaf l) := is_reaches l e

/-- Calling `errors.Unwrap` a number of times. -/
def unwrapN : Nat → Err → Option Err
  | 0, e => some e
  | n + 1, e => e.unwrap.bind (unwrapN n)

/-- C15: the errors that `errors.Unwrap` leads to, step by step. -/
theorem C15_unwrap (e f : Err) : Spec.Reaches e f ↔ ∃ n, unwrapN n e = some f := by
  constructor
  · intro h
    induction h with
    | refl e => exact ⟨0, rfl⟩
    | wrapped t e p f h ih => obtain ⟨n, hn⟩ := ih; exact ⟨n + 1, hn⟩
    | list e es f h ih => obtain ⟨n, hn⟩ := ih; exact ⟨n + 1, hn⟩
  · rintro ⟨n, hn⟩
    induction n generalizing e with
    | zero => simp only [unwrapN, Option.some.injEq] at hn; rw [hn]; exact .refl _
    | succ n ih =>
      simp only [unwrapN] at hn
      match e, hn with
      | .wrapped t e p, hn => exact .wrapped _ _ _ _ (ih e hn)
      | .list (e :: es), hn => exact .list _ _ _ (ih e hn)

/-- `errors.Is` gives the same answer before and after any sequence of wraps. -/
theorem C15_is (ops : List Spec.WrapOp) (l : Leaf) (e : Err) :
    Err.is l (ops.foldl (fun e op => op.apply e) e) = Err.is l e := by
  induction ops generalizing e with
  | nil => rfl
  | cons op ops ih => simp [List.foldl_cons, ih, apply_is]

/-- Wrapping a list wraps each of its members. -/
theorem C15_list (ops : List Spec.WrapOp) (es : List Err) :
    ops.foldl (fun e op => op.apply e) (.list es) =
      .list (es.map fun e => ops.foldl (fun e op => op.apply e) e) := by
  induction ops generalizing es with
  | nil => simp
  | cons op ops ih => simp [List.foldl_cons, apply_list, ih]

mutual
theorem holds_wrapIndex (n : Str) (i : Int) (l : Leaf) : ∀ e, Spec.Holds l (wrapIndex n i e) ↔ Spec.Holds l e
  | .leaf k => by
    simp only [wrapIndex]
    exact ⟨fun h => by cases h; assumption, fun h => .wrapped _ _ _ h⟩
  | .wrapped t e p => by
    simp only [wrapIndex]
    exact ⟨fun h => by cases h; exact .wrapped _ _ _ ‹_›, fun h => by cases h; exact .wrapped _ _ _ ‹_›⟩
  | .list es => by
    have := holds_wrapIndexList n i l es
    simp only [wrapIndex]
    constructor
    · rintro (_ | _ | ⟨_, e, h1, h2⟩)
      obtain ⟨e', h3, h4⟩ := this.1 ⟨e, h1, h2⟩
      exact .list _ e' h3 h4
    · rintro (_ | _ | ⟨_, e, h1, h2⟩)
      obtain ⟨e', h3, h4⟩ := this.2 ⟨e, h1, h2⟩
      exact .list _ e' h3 h4
theorem holds_wrapIndexList (n : Str) (i : Int) (l : Leaf) :
    ∀ es, (∃ e ∈ wrapIndexList n i es, Spec.Holds l e) ↔ ∃ e ∈ es, Spec.Holds l e
  | [] => by simp [wrapIndexList]
  | e :: es => by simp [wrapIndexList, holds_wrapIndex n i l e, holds_wrapIndexList n i l es]
end

mutual
theorem holds_wrapPath (n p : Str) (l : Leaf) : ∀ e, Spec.Holds l (wrapPath n p e) ↔ Spec.Holds l e
  | .leaf k => by
    simp only [wrapPath]
    exact ⟨fun h => by cases h; assumption, fun h => .wrapped _ _ _ h⟩
  | .wrapped t e p => by
    simp only [wrapPath]
    exact ⟨fun h => by cases h; exact .wrapped _ _ _ ‹_›, fun h => by cases h; exact .wrapped _ _ _ ‹_›⟩
  | .list es => by
    have := holds_wrapPathList n p l es
    simp only [wrapPath]
    constructor
    · rintro (_ | _ | ⟨_, e, h1, h2⟩)
      obtain ⟨e', h3, h4⟩ := this.1 ⟨e, h1, h2⟩
      exact .list _ e' h3 h4
    · rintro (_ | _ | ⟨_, e, h1, h2⟩)
      obtain ⟨e', h3, h4⟩ := this.2 ⟨e, h1, h2⟩
      exact .list _ e' h3 h4
theorem holds_wrapPathList (n p : Str) (l : Leaf) :
    ∀ es, (∃ e ∈ wrapPathList n p es, Spec.Holds l e) ↔ ∃ e ∈ es, Spec.Holds l e
  | [] => by simp [wrapPathList]
  | e :: es => by simp [wrapPathList, holds_wrapPath n p l e, holds_wrapPathList n p l es]
end

/-- The errors found anywhere inside (list members included, at any depth) are the same before and after. -/
theorem C15_holds (ops : List Spec.WrapOp) (l : Leaf) (e : Err) :
    Spec.Holds l (ops.foldl (fun e op => op.apply e) e) ↔ Spec.Holds l e := by
  induction ops generalizing e with
  | nil => rfl
  | cons op ops ih =>
    rw [List.foldl_cons, ih]
    cases op <;> simp [Spec.WrapOp.apply, wrap, holds_wrapIndex, holds_wrapPath]

/-- The path recorded by a sequence of wraps: that of the last `WrapPath`, if any. -/
def Spec.lastPath (old : Str) : List Spec.WrapOp → Str
  | [] => old
  | .path _ p :: ops => Spec.lastPath p ops
  | _ :: ops => Spec.lastPath old ops

theorem wraps_wrapped (ops : List Spec.WrapOp) (t : List Level) (e : Err) (p : Str) :
    ∃ t', ops.foldl (fun e op => op.apply e) (.wrapped t e p) = .wrapped (t ++ t') e (Spec.lastPath p ops) ∧
      t'.map Level.str = ops.map Spec.WrapOp.step := by
  induction ops generalizing t p with
  | nil => exact ⟨[], by simp [Spec.lastPath]⟩
  | cons op ops ih =>
    cases op with
    | wrap n =>
      obtain ⟨t', h1, h2⟩ := ih (t ++ [⟨n, -1⟩]) p
      exact ⟨⟨n, -1⟩ :: t', by rw [List.foldl_cons]; exact h1.trans (by simp [Spec.lastPath]),
        by simp [h2, Spec.WrapOp.step, Level.str]⟩
    | index n i =>
      obtain ⟨t', h1, h2⟩ := ih (t ++ [⟨n, i⟩]) p
      refine ⟨⟨n, i⟩ :: t', by rw [List.foldl_cons]; exact h1.trans (by simp [Spec.lastPath]), ?_⟩
      have : ¬ ((i : Int) = -1) := by omega
      simp [h2, Spec.WrapOp.step, Level.str, this]
      rfl
    | path n q =>
      obtain ⟨t', h1, h2⟩ := ih (t ++ [⟨n, -1⟩]) q
      exact ⟨⟨n, -1⟩ :: t', by rw [List.foldl_cons]; exact h1.trans (by simp [Spec.lastPath]),
        by simp [h2, Spec.WrapOp.step, Level.str]⟩

/-- A plain error wrapped one or more times is an `*Error` holding it, whose location is `/` followed by the
steps from the outermost (last) wrap to the innermost, separated by `/`, and whose path is the one of the
last `WrapPath`. -/
theorem C15_xpath (l : Leaf) (op : Spec.WrapOp) (ops : List Spec.WrapOp) :
    ∃ t, (op :: ops).foldl (fun e op => op.apply e) (.leaf l) = .wrapped t (.leaf l) (Spec.lastPath [] (op :: ops)) ∧
      xpath t = b!"/" ++ Str.join b!"/" ((op :: ops).map Spec.WrapOp.step).reverse := by
  have key : ∃ t0 p, op.apply (.leaf l) = .wrapped [t0] (.leaf l) p ∧ t0.str = op.step ∧
      Spec.lastPath [] (op :: ops) = Spec.lastPath p ops := by
    cases op with
    | wrap n => exact ⟨⟨n, -1⟩, [], rfl, by simp [Level.str, Spec.WrapOp.step], rfl⟩
    | index n i =>
      have : ¬ ((i : Int) = -1) := by omega
      exact ⟨⟨n, i⟩, [], rfl, by simp [Level.str, Spec.WrapOp.step, this]; rfl, rfl⟩
    | path n q => exact ⟨⟨n, -1⟩, q, rfl, by simp [Level.str, Spec.WrapOp.step], rfl⟩
  obtain ⟨t0, p, h1, h2, h3⟩ := key
  obtain ⟨t', h4, h5⟩ := wraps_wrapped ops [t0] (.leaf l) p
  refine ⟨[t0] ++ t', ?_, ?_⟩
  · rw [List.foldl_cons, h1, h4, h3]
  · simp [xpath, h2, List.map_reverse, h5]

/-- But `errors.Is` does not see every error of a list: it finds only what its first member holds. -/
theorem C15_is_list_false : ¬ ∀ (l : Leaf) (e : Err), Spec.Holds l e → Err.is l e = true := by
  intro h
  have := h (.sentinel .recursion) (.list [.leaf (.sentinel .missingID), .leaf (.sentinel .recursion)])
    (.list _ _ (List.mem_cons_of_mem _ (List.mem_singleton.2 rfl)) .leaf)
  revert this; decide

/- Wrapping twice, the outer with an index. -/
example : ∃ t, [Spec.WrapOp.wrap b!"mesh", .index b!"object" 12].foldl (fun e op => op.apply e)
      (.leaf (.sentinel .missingID)) = .wrapped t (.leaf (.sentinel .missingID)) [] ∧
    xpath t = b!"/object[12]/mesh" := ⟨[⟨b!"mesh", -1⟩, ⟨b!"object", 12⟩], rfl, by decide⟩

end Go3mf
