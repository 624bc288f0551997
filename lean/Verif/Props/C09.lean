import Verif.Model.CoherencyPar
import Verif.Lemmas.Par
import Verif.Props.C07
import Verif.Props.C14
import Mathlib.Data.List.Induction

/-!
# C09: `Model.ValidateCoherency` is schedule independent
-/

namespace Go3mf

theorem perm_map_inv {α β : Type} (g : α → β) {l : List β} {m : List β} (h : l.Perm m) :
    ∀ a : List α, m = a.map g → ∃ a' : List α, a'.Perm a ∧ l = a'.map g := by
  induction h with
  | nil => intro a ha; exact ⟨a, .refl _, ha⟩
  | @cons x l m h ih =>
    intro a ha
    cases a with
    | nil => cases ha
    | cons b a =>
      simp only [List.map_cons, List.cons.injEq] at ha
      obtain ⟨a', h1, h2⟩ := ih a ha.2
      exact ⟨b :: a', h1.cons b, by rw [List.map_cons, h2, ha.1]⟩
  | swap x y l =>
    intro a ha
    match a, ha with
    | b :: c :: a, ha =>
      simp only [List.map_cons, List.cons.injEq] at ha
      exact ⟨c :: b :: a, .swap .., by simp [ha]⟩
  | trans _ _ ih1 ih2 =>
    intro a ha
    obtain ⟨a1, h1, h2⟩ := ih2 a ha
    obtain ⟨a2, h3, h4⟩ := ih1 a1 h2
    exact ⟨a2, h3.trans h1, h4⟩

/-- The defect of a mesh, if any. -/
def Spec.defect (m : Mesh) : Option Sentinel :=
  if m.vertices.length < 3 then some .insufficientVertices
  else if m.triangles.length < 4 then some .insufficientTriangles
  else if Spec.Manifold (Spec.directedEdges m) then none
  else some .meshConsistency

/-- The error to report for the object number `i` of the model part `path`: objects that are not solid or have no mesh are not
checked. -/
def Spec.objectError (path : Str) (i : Nat) (o : Object) : Option Err :=
  match o.mesh with
  | none => none
  | some mesh =>
    if o.type = .model ∨ o.type = .solidSupport then
      (Spec.defect mesh).map fun d =>
        .wrapped [⟨b!"mesh", -1⟩, ⟨b!"object", i⟩, ⟨b!"resources", -1⟩, ⟨b!"model", -1⟩] (.leaf (.sentinel d)) path
    else none

/-- The errors of one model part. -/
def Spec.partErrors (path : Str) (os : List Object) : List Err := (os.mapIdx (Spec.objectError path)).filterMap id

/-- The errors of a model: those of the root part and those of the child parts. -/
def Spec.coherencyErrors (m : Model) : List Err :=
  Spec.partErrors [] m.resources.objects ++ m.childs.flatMap fun c => Spec.partErrors c.1 c.2.resources.objects

/-- All the meshes have less than 2³² edges. -/
def Spec.SmallMeshes (m : Model) : Prop :=
  (∀ o ∈ m.resources.objects, ∀ mesh ∈ o.mesh, 3 * mesh.triangles.length < 2 ^ 32) ∧
  (∀ c ∈ m.childs, ∀ o ∈ c.2.resources.objects, ∀ mesh ∈ o.mesh, 3 * mesh.triangles.length < 2 ^ 32)

/-- Taking the final `Wrap(…, "model")` off an error. -/
def innerError (path : Str) (i : Nat) (o : Object) : Option Err :=
  match o.mesh with
  | none => none
  | some mesh =>
    if o.type = .model ∨ o.type = .solidSupport then
      (Spec.defect mesh).map fun d =>
        .wrapped [⟨b!"mesh", -1⟩, ⟨b!"object", i⟩, ⟨b!"resources", -1⟩] (.leaf (.sentinel d)) path
    else none

/-- The update that appends one error. -/
def appendOne (e : Err) : ErrVal → ErrVal := fun v => v.append [.err e]

theorem coherencyOp_eq (w : Err → Err) (path : Str)
    (hw : ∀ t e, w (.wrapped t e []) = .wrapped (t ++ [⟨b!"resources", -1⟩]) e path) (i : Nat) (o : Object)
    (hs : ∀ mesh ∈ o.mesh, 3 * mesh.triangles.length < 2 ^ 32) :
    coherencyOp w i o = (innerError path i o).map appendOne := by
  unfold coherencyOp innerError Object.isSolid
  cases hm : o.mesh with
  | none => simp
  | some mesh =>
    have hd : mesh.validateCoherency = Spec.defect mesh := C07_coherency mesh (hs mesh (by simp [hm]))
    simp only [Option.isSome_some, Bool.true_and, Bool.or_eq_true, beq_iff_eq, hd]
    split
    · cases Spec.defect mesh with
      | none => rfl
      | some d =>
        simp only [Option.map_some, Option.some.injEq]
        simp only [wrap, wrapIndex, List.cons_append, List.nil_append, hw]
        rfl
    · rfl

theorem mapIdx_filterMap_map {α β γ : Type} (f : Nat → α → Option β) (g : Nat → α → Option γ) (h : β → γ) (l : List α)
    (hfg : ∀ i, ∀ a ∈ l, g i a = (f i a).map h) :
    (l.mapIdx g).filterMap id = ((l.mapIdx f).filterMap id).map h := by
  induction l using List.reverseRecOn with
  | nil => rfl
  | append_singleton l a ih =>
    rw [List.mapIdx_concat, List.mapIdx_concat, List.filterMap_append, List.filterMap_append, List.map_append,
      ih (fun i b hb => hfg i b (by simp [hb])), hfg _ a (by simp)]
    congr 1
    cases f l.length a <;> simp

/-- The errors before the final `Wrap(…, "model")`. -/
def innerErrors (m : Model) : List Err :=
  ((m.resources.objects.mapIdx (innerError [])).filterMap id) ++
  m.childs.flatMap fun c => (c.2.resources.objects.mapIdx (innerError c.1)).filterMap id

theorem coherencyOps_eq (m : Model) (hs : Spec.SmallMeshes m) :
    m.coherencyOps.filterMap id = (innerErrors m).map appendOne := by
  unfold Model.coherencyOps innerErrors
  rw [List.filterMap_append, List.map_append]
  congr 1
  · exact mapIdx_filterMap_map _ _ _ _ fun i o ho => coherencyOp_eq _ [] (fun _ _ => rfl) i o (hs.1 o ho)
  · have h2 := hs.2
    revert h2
    induction m.childs with
    | nil => intro _; rfl
    | cons c cs ih =>
      intro h2
      rw [List.flatMap_cons, List.flatMap_cons, List.filterMap_append, List.map_append,
        ih (fun c hc => h2 c (by simp [hc]))]
      congr 1
      exact mapIdx_filterMap_map _ _ _ _ fun i o ho =>
        coherencyOp_eq _ c.1 (fun _ _ => rfl) i o (h2 c (by simp) o ho)

theorem objectError_eq (path : Str) (i : Nat) (o : Object) :
    Spec.objectError path i o = (innerError path i o).map (wrap b!"model") := by
  unfold Spec.objectError innerError
  cases o.mesh with
  | none => rfl
  | some mesh =>
    simp only
    split
    · cases Spec.defect mesh <;> rfl
    · rfl

theorem coherencyErrors_eq (m : Model) : Spec.coherencyErrors m = (innerErrors m).map (wrap b!"model") := by
  unfold Spec.coherencyErrors innerErrors Spec.partErrors
  rw [List.map_append]
  congr 1
  · exact mapIdx_filterMap_map _ _ _ _ fun i o _ => objectError_eq _ i o
  · rw [List.map_flatMap]
    congr 1
    funext c
    exact mapIdx_filterMap_map _ _ _ _ fun i o _ => objectError_eq _ i o

theorem fold_appendOne (l acc : List Err) (h : ∀ e ∈ l, ∀ es, e ≠ .list es) :
    (l.map appendOne).foldl (fun y f => f y) (ErrVal.ofErrs acc) = ErrVal.ofErrs (acc ++ l) := by
  induction l generalizing acc with
  | nil => simp
  | cons e l ih =>
    rw [List.map_cons, List.foldl_cons]
    have : appendOne e (ErrVal.ofErrs acc) = ErrVal.ofErrs (acc ++ [e]) := (C14_validators acc [] e).2 (h e (by simp))
    rw [this, ih _ (fun x hx => h x (by simp [hx]))]
    simp

theorem innerError_not_list (path : Str) (i : Nat) (o : Object) (e : Err) (h : innerError path i o = some e) (es : List Err) :
    e ≠ .list es := by
  unfold innerError at h
  cases hm : o.mesh with
  | none => rw [hm] at h; cases h
  | some mesh =>
    rw [hm] at h
    simp only at h
    split at h
    · rw [Option.map_eq_some_iff] at h
      obtain ⟨d, -, rfl⟩ := h
      simp
    · cases h

theorem mem_mapIdx_filterMap {α β : Type} (f : Nat → α → Option β) (l : List α) (b : β)
    (h : b ∈ (l.mapIdx f).filterMap id) : ∃ i a, f i a = some b := by
  rw [List.mem_filterMap] at h
  obtain ⟨x, hx, hb⟩ := h
  rw [List.mem_mapIdx] at hx
  obtain ⟨i, hi, rfl⟩ := hx
  exact ⟨i, _, hb⟩

theorem innerErrors_not_list (m : Model) (e : Err) (h : e ∈ innerErrors m) (es : List Err) : e ≠ .list es := by
  rw [innerErrors, List.mem_append] at h
  rcases h with h | h
  · obtain ⟨i, o, ho⟩ := mem_mapIdx_filterMap _ _ _ h
    exact innerError_not_list _ _ _ _ ho es
  · rw [List.mem_flatMap] at h
    obtain ⟨c, -, h⟩ := h
    obtain ⟨i, o, ho⟩ := mem_mapIdx_filterMap _ _ _ h
    exact innerError_not_list _ _ _ _ ho es

theorem wrapIndexList_map (n : Str) (i : Int) (l : List Err) : wrapIndexList n i l = l.map (wrapIndex n i) := by
  induction l with
  | nil => rfl
  | cons e l ih => rw [wrapIndexList, ih]; rfl

/-- **C09**: under every schedule the result is nil if no object is to be reported, and otherwise a list with
exactly one error per object to be reported, carrying its index and path (in an order that depends on the
schedule). -/
theorem C09_result (m : Model) (hs : Spec.SmallMeshes m) (r : ErrVal) (h : m.ValidateCoherency r) :
    ∃ l : List Err, l.Perm (Spec.coherencyErrors m) ∧ r = if l = [] then .nil else .err (.list l) := by
  obtain ⟨errs, h1, rfl⟩ := h
  obtain ⟨fs, h2, rfl⟩ := Par.result_perm h1
  rw [coherencyOps_eq m hs] at h2
  obtain ⟨l, h3, rfl⟩ := perm_map_inv appendOne h2 _ rfl
  have hn : ∀ e ∈ l, ∀ es, e ≠ .list es := fun e he => innerErrors_not_list m e (h3.mem_iff.1 he)
  have := fold_appendOne l [] hn
  refine ⟨l.map (wrap b!"model"), ?_, ?_⟩
  · rw [coherencyErrors_eq]; exact h3.map _
  · rw [show ErrVal.nil = ErrVal.ofErrs [] from rfl, this, List.nil_append]
    cases l with
    | nil => rfl
    | cons e l =>
      simp only [ErrVal.ofErrs, coherencyReturn, wrap, wrapIndex, wrapIndexList_map]
      rfl

/-- **C09**: nil exactly if no object is to be reported. -/
theorem C09_nil_iff (m : Model) (hs : Spec.SmallMeshes m) (r : ErrVal) (h : m.ValidateCoherency r) :
    r = .nil ↔ Spec.coherencyErrors m = [] := by
  obtain ⟨l, h1, rfl⟩ := C09_result m hs r h
  by_cases hl : l = []
  · subst hl; simp [h1.symm.eq_nil]
  · simp only [hl, if_false]
    constructor
    · intro h; cases h
    · intro h; rw [h] at h1; exact absurd h1.eq_nil hl

/-- **C09**: there is no deadlock, the call returns. -/
theorem C09_returns (m : Model) : ∃ r, m.ValidateCoherency r := by
  obtain ⟨errs, h⟩ := Par.result_exists m.coherencyOps .nil
  exact ⟨_, errs, h, rfl⟩

/-- The order of the child map does not matter. -/
theorem C09_map_order (m : Model) (cs : List (Str × ChildModel)) (h : cs.Perm m.childs) :
    (Spec.coherencyErrors { m with childs := cs }).Perm (Spec.coherencyErrors m) :=
  List.Perm.append (.refl _) (h.flatMap_right _)

/- A model with a coherent root object and an incoherent object in a child. -/
example : Spec.coherencyErrors { Model.zero with
      resources := { Resources.zero with objects := [{ Object.zero with mesh := some Spec.tetra }] }
      childs := [(b!"/c", { ChildModel.zero with resources := { Resources.zero with objects :=
        [Object.zero, { Object.zero with mesh := some { Spec.tetra with triangles := [] } }] } })] } =
    [.wrapped [⟨b!"mesh", -1⟩, ⟨b!"object", 1⟩, ⟨b!"resources", -1⟩, ⟨b!"model", -1⟩]
      (.leaf (.sentinel .insufficientTriangles)) b!"/c"] := by rfl

end Go3mf
