import Verif.Model.ValidateSpec
import Verif.Lemmas.Accepts
import Verif.Props.C14

/-!
# C83: the validators of private extensions are heard

`Validate` asks every declared extension that is registered with a validator about the model, and about every asset and
object of every part.  What they answer is reported, all of it, with the place of the element, and besides that only what
the core specification demands.  Extensions that the model does not declare are not asked, against the documentation of
`ValidateSpec`.
-/

namespace Go3mf

/-- A question to an extension: the path, the element, and how an answer is reported. -/
structure Spec.Question where
  path : Str
  target : ValTarget
  place : Err → Err

/-- The questions about the resources of a part, `f` being the place of the resources. -/
def Spec.resourceQuestions (path : Str) (f : Err → Err) (rs : Resources) : List Spec.Question :=
  (rs.assets.zipIdx.map fun x => ⟨path, .asset x.1, fun e => f (wrapIndex x.1.xmlLocal x.2 e)⟩) ++
  (rs.objects.zipIdx.map fun x => ⟨path, .object x.1, fun e => f (wrapIndex b!"object" x.2 e)⟩)

/-- The questions about a model. -/
def Spec.questions (m : Model) : List Spec.Question :=
  [⟨m.path, .model, wrap b!"model"⟩] ++
  (m.childs.flatMap fun x =>
    Spec.resourceQuestions x.1 (fun e => wrap b!"model" (wrapPath b!"resources" x.1 e)) x.2.resources) ++
  Spec.resourceQuestions (if m.path = [] then b!"/3D/3dmodel.model" else m.path)
    (fun e => wrap b!"model" (wrap b!"resources" e)) m.resources

/-- The answers to a question: one for each entry of `Extensions` whose name space is registered with a validator. -/
def Spec.answers (reg : Registered) (m : Model) (path : Str) (x : ValTarget) : List ErrVal :=
  m.extensions.filterMap fun e =>
    match reg e.ns with
    | some (some v) => some (v m path x)
    | _ => none

/-- The same extensions, without validators. -/
def Spec.silent (reg : Registered) : Registered := fun ns => (reg ns).map fun _ => none

/-! ## Accumulators -/

/-- The value is nil, if `b` is false, or the list `l`. -/
structure VAcc (v : ErrVal) (b : Bool) (l : List Err) : Prop where
  eq : v = if b then .err (.list l) else .nil
  nil : b = false → l = []

theorem VAcc.nonNil {v : ErrVal} {b : Bool} {l : List Err} (h : VAcc v b l) : v.nonNil = b := by
  rw [h.eq]; cases b <;> rfl

theorem VAcc.contrib {v : ErrVal} {b : Bool} {l : List Err} (h : VAcc v b l) : Spec.contrib v = l := by
  rw [h.eq]
  cases b with
  | true => rfl
  | false => rw [h.nil rfl]; rfl

theorem VAcc.append {v : ErrVal} {b : Bool} {l : List Err} (h : VAcc v b l) (w : ErrVal) :
    VAcc (v.append [w]) (b || w.nonNil) (l ++ Spec.contrib w) := by
  obtain ⟨h1, h2⟩ := h
  subst h1
  cases b with
  | true =>
    refine ⟨?_, by simp⟩
    rw [C14_call _ _ (by simp)]
    cases w <;> simp [ErrVal.nonNil, Spec.asList, Spec.contrib]
  | false =>
    cases h2 rfl
    rw [C14_call _ _ (by simp)]
    cases w with
    | nil => exact ⟨by simp [ErrVal.nonNil, Spec.asList], by simp [Spec.contrib]⟩
    | nilList => exact ⟨by simp [ErrVal.nonNil, Spec.contrib], by simp [ErrVal.nonNil]⟩
    | err e => exact ⟨by simp [ErrVal.nonNil, Spec.contrib], by simp [ErrVal.nonNil]⟩

theorem VAcc.ofErrs (l : List Err) : VAcc (.ofErrs l) (!l.isEmpty) l := by
  cases l <;> exact ⟨rfl, by simp⟩

theorem VAcc.start : VAcc .nil false [] := ⟨rfl, fun _ => rfl⟩

theorem VAcc.foldl (ws : List ErrVal) : ∀ {v : ErrVal} {b : Bool} {l : List Err}, VAcc v b l →
    VAcc (ws.foldl (fun acc w => acc.append [w]) v) (b || ws.any ErrVal.nonNil) (l ++ ws.flatMap Spec.contrib) := by
  induction ws with
  | nil => intro v b l h; simpa using h
  | cons w ws ih => intro v b l h; simpa [Bool.or_assoc] using ih (h.append w)

/-- Functions that change each member of a list. -/
def OnMembers (f : Err → Err) : Prop := ∀ es, f (.list es) = .list (es.map f)

theorem VAcc.map {v : ErrVal} {b : Bool} {l : List Err} (h : VAcc v b l) {f : Err → Err} (hf : OnMembers f) :
    VAcc (v.mapErr f) b (l.map f) := by
  obtain ⟨h1, h2⟩ := h
  subst h1
  cases b with
  | true => exact ⟨by simp [ErrVal.mapErr, hf l], by simp⟩
  | false => exact ⟨rfl, fun _ => by simp [h2 rfl]⟩

theorem onMembers_index (n : Str) (i : Int) : OnMembers (wrapIndex n i) := by
  intro es
  have : ∀ es, wrapIndexList n i es = es.map (wrapIndex n i) := by
    intro es; induction es with
    | nil => rfl
    | cons e es ih => simp [wrapIndexList, ih]
  simp [wrapIndex, this]

theorem onMembers_path (n p : Str) : OnMembers (wrapPath n p) := by
  intro es
  have : ∀ es, wrapPathList n p es = es.map (wrapPath n p) := by
    intro es; induction es with
    | nil => rfl
    | cons e es ih => simp [wrapPathList, ih]
  simp [wrapPath, this]

theorem onMembers_wrap (n : Str) : OnMembers (wrap n) := onMembers_index n (-1)

/-! ## What the loops compute -/

theorem extV_acc (reg : Registered) (m : Model) (path : Str) (x : ValTarget) {v : ErrVal} {b : Bool} {l : List Err} (h : VAcc v b l) :
    VAcc (extV reg m path x v) (b || (Spec.answers reg m path x).any ErrVal.nonNil)
      (l ++ (Spec.answers reg m path x).flatMap Spec.contrib) := by
  have : extV reg m path x v = (Spec.answers reg m path x).foldl (fun acc w => acc.append [w]) v := by
    unfold extV Spec.answers
    generalize m.extensions = es
    induction es generalizing v b l with
    | nil => rfl
    | cons e es ih =>
      simp only [List.foldl_cons, List.filterMap_cons]
      cases h1 : reg e.ns with
      | none => exact ih h
      | some o =>
        cases o with
        | none => exact ih h
        | some w => simpa using ih (h.append (w m path x))
  rw [this]
  exact h.foldl _

theorem answers_silent (reg : Registered) (m : Model) (path : Str) (x : ValTarget) : Spec.answers (Spec.silent reg) m path x = [] := by
  unfold Spec.answers Spec.silent
  rw [List.filterMap_eq_nil_iff]
  intro e _
  cases reg e.ns <;> rfl

/-- What the loops report: the errors of the core, `C`, then the answers. -/
def VAdds (reg : Registered) (m : Model) (v : ErrVal) (C : List Err) (qs : List Spec.Question) : Prop :=
  (Spec.contrib v).Perm (C ++ qs.flatMap fun q => ((Spec.answers reg m q.path q.target).flatMap Spec.contrib).map q.place) ∧
    v.nonNil = (!C.isEmpty || qs.any fun q => (Spec.answers reg m q.path q.target).any ErrVal.nonNil)

theorem isEmpty_append_not (a b : List Err) : (!(a ++ b).isEmpty) = (!a.isEmpty || !b.isEmpty) := by cases a <;> cases b <;> rfl

theorem isEmpty_map_not {f : Err → Err} (a : List Err) : (!(a.map f).isEmpty) = !a.isEmpty := by cases a <;> rfl

variable (reg : Registered) (m : Model)

theorem VAdds.map {v : ErrVal} {C : List Err} {qs : List Spec.Question} (h : VAdds reg m v C qs) {b : Bool} {l : List Err} (hv : VAcc v b l)
    {f : Err → Err} (hf : OnMembers f) :
    VAdds reg m (v.mapErr f) (C.map f) (qs.map fun q => ⟨q.path, q.target, fun e => f (q.place e)⟩) := by
  have h1 := hv.map hf
  refine ⟨?_, ?_⟩
  · rw [h1.contrib]
    have := h.1.map f
    rw [hv.contrib] at this
    simpa [List.map_flatMap, List.flatMap_map, Function.comp_def] using this
  · rw [h1.nonNil, ← hv.nonNil, h.2, isEmpty_map_not]
    simp [List.any_map, Function.comp_def]

theorem VAdds.append {v w : ErrVal} {C D : List Err} {qs rs : List Spec.Question} (h : VAdds reg m v C qs) {b : Bool} {l : List Err}
    (hv : VAcc v b l) (hw : VAdds reg m w D rs) : VAdds reg m (v.append [w]) (C ++ D) (qs ++ rs) := by
  have h1 := hv.append w
  refine ⟨?_, ?_⟩
  · rw [h1.contrib, ← hv.contrib]
    refine (h.1.append hw.1).trans ?_
    simp only [List.flatMap_append, List.append_assoc]
    refine List.Perm.append_left _ ?_
    rw [← List.append_assoc, ← List.append_assoc]
    exact List.Perm.append_right _ List.perm_append_comm
  · rw [h1.nonNil, ← hv.nonNil, h.2, hw.2, isEmpty_append_not, List.any_append]
    simp only [Bool.or_assoc, Bool.or_left_comm, Bool.or_comm]

theorem VAdds.ofErrs (l : List Err) : VAdds reg m (.ofErrs l) l [] := by
  have := VAcc.ofErrs l
  exact ⟨by rw [this.contrib]; simp, by rw [this.nonNil]; simp⟩

theorem VAdds.start : VAdds reg m .nil [] [] := VAdds.ofErrs reg m []

theorem VAdds.ext {v : ErrVal} {C : List Err} {qs : List Spec.Question} (h : VAdds reg m v C qs) {b : Bool} {l : List Err} (hv : VAcc v b l)
    (path : Str) (x : ValTarget) : VAdds reg m (extV reg m path x v) C (qs ++ [⟨path, x, id⟩]) := by
  have h1 := extV_acc reg m path x hv
  refine ⟨?_, ?_⟩
  · rw [h1.contrib, ← hv.contrib]
    simp only [List.flatMap_append, ← List.append_assoc]
    refine h.1.append ?_
    simp
  · rw [h1.nonNil, ← hv.nonNil, h.2]
    simp [Bool.or_assoc]

/-- Some accumulator. -/
def IsAcc (v : ErrVal) : Prop := ∃ b l, VAcc v b l

theorem assetV_adds (path : Str) (seen : List UInt32) (a : Asset) :
    IsAcc (assetV reg m path seen a) ∧
    VAdds reg m (assetV reg m path seen a) ((if a.identify ≠ 0 ∧ a.identify ∈ seen then [.of .duplicatedID] else []) ++ a.validate)
      [⟨path, .asset a, id⟩] := by
  have h1 := VAcc.start.append (.ofErrs (if a.identify ≠ 0 ∧ a.identify ∈ seen then [.of .duplicatedID] else []))
  have h2 := h1.append (.ofErrs a.validate)
  refine ⟨⟨_, _, extV_acc reg m path (.asset a) h2⟩, ?_⟩
  have h3 := (VAdds.start reg m).append reg m VAcc.start (VAdds.ofErrs reg m (if a.identify ≠ 0 ∧ a.identify ∈ seen then [.of .duplicatedID] else []))
  have h4 := h3.append reg m h1 (VAdds.ofErrs reg m a.validate)
  exact h4.ext reg m h2 path (.asset a)

/-- The errors of the core about the assets. -/
def assetsC : Nat → List UInt32 → List Asset → List Err
  | _, _, [] => []
  | i, seen, a :: as =>
    ((if a.identify ≠ 0 ∧ a.identify ∈ seen then [Err.of .duplicatedID] else []) ++ a.validate).map (wrapIndex a.xmlLocal i) ++
      assetsC (i + 1) (a.identify :: seen) as

theorem assetsV_adds (path : Str) (as : List Asset) : ∀ (i : Nat) (seen : List UInt32) (v : ErrVal) (C : List Err) (qs : List Spec.Question),
    IsAcc v → VAdds reg m v C qs →
    IsAcc (assetsV reg m path i seen as v) ∧
    VAdds reg m (assetsV reg m path i seen as v) (C ++ assetsC i seen as)
      (qs ++ (as.zipIdx i).map fun x => ⟨path, .asset x.1, fun e => wrapIndex x.1.xmlLocal x.2 e⟩) := by
  induction as with
  | nil => intro i seen v C qs hv h; exact ⟨hv, by simpa [assetsV, assetsC] using h⟩
  | cons a as ih =>
    intro i seen v C qs hv h
    obtain ⟨b, l, hv⟩ := hv
    obtain ⟨⟨b1, l1, h1⟩, h2⟩ := assetV_adds reg m path seen a
    have h3 := h2.map reg m h1 (onMembers_index a.xmlLocal i)
    have h4 := ih (i + 1) (a.identify :: seen) _ _ _ ⟨_, _, hv.append ((assetV reg m path seen a).mapErr (wrapIndex a.xmlLocal i))⟩
      (h.append reg m hv h3)
    simpa [assetsV, assetsC] using h4

theorem objectV_adds (path : Str) (o : Object) :
    IsAcc (objectV reg m path o) ∧ VAdds reg m (objectV reg m path o) (o.validateCore m path) [⟨path, .object o, id⟩] :=
  ⟨⟨_, _, extV_acc reg m path (.object o) (VAcc.ofErrs _)⟩, (VAdds.ofErrs reg m _).ext reg m (VAcc.ofErrs _) path (.object o)⟩

/-- The errors of the core about the objects. -/
def objectsC (path : Str) : Nat → List UInt32 → List Object → List Err
  | _, _, [] => []
  | i, seen, o :: os =>
    (if o.id ≠ 0 ∧ o.id ∈ seen then [wrapIndex b!"object" i (.of .duplicatedID)] else []) ++
      (o.validateCore m path).map (wrapIndex b!"object" i) ++ objectsC path (i + 1) (o.id :: seen) os

theorem objectsV_adds (path : Str) (os : List Object) : ∀ (i : Nat) (seen : List UInt32) (v : ErrVal) (C : List Err) (qs : List Spec.Question),
    IsAcc v → VAdds reg m v C qs →
    IsAcc (objectsV reg m path i seen os v) ∧
    VAdds reg m (objectsV reg m path i seen os v) (C ++ objectsC m path i seen os)
      (qs ++ (os.zipIdx i).map fun x => ⟨path, .object x.1, fun e => wrapIndex b!"object" x.2 e⟩) := by
  induction os with
  | nil => intro i seen v C qs hv h; exact ⟨hv, by simpa [objectsV, objectsC] using h⟩
  | cons o os ih =>
    intro i seen v C qs hv h
    obtain ⟨b, l, hv⟩ := hv
    obtain ⟨⟨b1, l1, h1⟩, h2⟩ := objectV_adds reg m path o
    have h3 := h2.map reg m h1 (onMembers_index b!"object" i)
    have hd := VAdds.ofErrs reg m (if o.id ≠ 0 ∧ o.id ∈ seen then [wrapIndex b!"object" i (.of .duplicatedID)] else [])
    have hv1 := hv.append (.ofErrs (if o.id ≠ 0 ∧ o.id ∈ seen then [wrapIndex b!"object" i (.of .duplicatedID)] else []))
    have h4 := ih (i + 1) (o.id :: seen) _ _ _ ⟨_, _, hv1.append ((objectV reg m path o).mapErr (wrapIndex b!"object" i))⟩
      ((h.append reg m hv hd).append reg m hv1 h3)
    simpa [objectsV, objectsC] using h4

/-- The errors of the core about the resources. -/
def resourcesC (path : Str) (rs : Resources) : List Err :=
  assetsC 0 [] rs.assets ++ objectsC m path 0 (rs.assets.map Asset.identify) rs.objects

theorem resourcesV_adds (path : Str) (rs : Resources) :
    IsAcc (resourcesV reg m path rs) ∧
    VAdds reg m (resourcesV reg m path rs) (resourcesC m path rs) (Spec.resourceQuestions path id rs) := by
  obtain ⟨h1, h2⟩ := assetsV_adds reg m path rs.assets 0 [] .nil [] [] ⟨_, _, VAcc.start⟩ (VAdds.start reg m)
  have := objectsV_adds reg m path rs.objects 0 (rs.assets.map Asset.identify) _ _ _ h1 h2
  simpa [resourcesV, resourcesC, Spec.resourceQuestions] using this

theorem resourceQuestions_map (path : Str) (f : Err → Err) (rs : Resources) :
    (Spec.resourceQuestions path id rs).map (fun q => (⟨q.path, q.target, fun e => f (q.place e)⟩ : Spec.Question)) =
      Spec.resourceQuestions path f rs := by
  simp [Spec.resourceQuestions, Function.comp_def]

/-- The errors of the core about the child models. -/
def childsC (paths : List Str) : List Err :=
  paths.flatMap fun path =>
    match lookupChild m.childs path with
    | some c => (resourcesC m path c.resources).map (wrapPath b!"resources" path)
    | none => []

/-- The questions about the child models. -/
def childsQ (paths : List Str) : List Spec.Question :=
  paths.flatMap fun path =>
    match lookupChild m.childs path with
    | some c => Spec.resourceQuestions path (wrapPath b!"resources" path) c.resources
    | none => []

theorem childsV_adds (paths : List Str) : ∀ (v : ErrVal) (C : List Err) (qs : List Spec.Question), IsAcc v → VAdds reg m v C qs →
    IsAcc (childsV reg m paths v) ∧ VAdds reg m (childsV reg m paths v) (C ++ childsC m paths) (qs ++ childsQ m paths) := by
  induction paths with
  | nil => intro v C qs hv h; exact ⟨hv, by simpa [childsV, childsC, childsQ] using h⟩
  | cons p ps ih =>
    intro v C qs hv h
    simp only [childsV, childsC, childsQ, List.foldl_cons, List.flatMap_cons] at ih ⊢
    cases hc : lookupChild m.childs p with
    | none => simpa [childsV, childsC, childsQ] using ih v C qs hv h
    | some c =>
      obtain ⟨b, l, hv⟩ := hv
      obtain ⟨⟨b1, l1, h1⟩, h2⟩ := resourcesV_adds reg m p c.resources
      have h3 := h2.map reg m h1 (onMembers_path b!"resources" p)
      rw [resourceQuestions_map] at h3
      have := ih _ _ _ ⟨_, _, hv.append ((resourcesV reg m p c.resources).mapErr (wrapPath b!"resources" p))⟩ (h.append reg m hv h3)
      simpa [childsV, childsC, childsQ] using this

/-- The errors of the core. -/
def coreC (env : Env) : List Err :=
  (validateRelationship env m m.rootRelationships [] ++ namespacesV reg m ++ childRelErrs env m m.sortedChilds ++
    validateRelationship env m m.relationships m.pathOrDefault ++ checkMetadata m m.metadata ++
    childsC m m.sortedChilds ++ (resourcesC m m.pathOrDefault m.resources).map (wrap b!"resources") ++
    (m.build.validate m).map (wrap b!"build")).map (wrap b!"model")

/-- The questions, in the order of the code. -/
def codeQ : List Spec.Question :=
  ([(⟨m.path, .model, id⟩ : Spec.Question)] ++ childsQ m m.sortedChilds ++
    Spec.resourceQuestions m.pathOrDefault (wrap b!"resources") m.resources).map fun q => ⟨q.path, q.target, fun e => wrap b!"model" (q.place e)⟩

theorem validateV_adds (env : Env) : VAdds reg m (m.validateV env reg) (coreC reg m env) (codeQ m) := by
  unfold Model.validateV
  have a1 := (VAdds.start reg m).append reg m VAcc.start (VAdds.ofErrs reg m (validateRelationship env m m.rootRelationships []))
  have v1 := VAcc.start.append (.ofErrs (validateRelationship env m m.rootRelationships []))
  have a2 := a1.append reg m v1 (VAdds.ofErrs reg m (namespacesV reg m))
  have v2 := v1.append (.ofErrs (namespacesV reg m))
  have a3 := a2.append reg m v2 (VAdds.ofErrs reg m (childRelErrs env m m.sortedChilds))
  have v3 := v2.append (.ofErrs (childRelErrs env m m.sortedChilds))
  have a4 := a3.append reg m v3 (VAdds.ofErrs reg m (validateRelationship env m m.relationships m.pathOrDefault))
  have v4 := v3.append (.ofErrs (validateRelationship env m m.relationships m.pathOrDefault))
  have a5 := a4.append reg m v4 (VAdds.ofErrs reg m (checkMetadata m m.metadata))
  have v5 := v4.append (.ofErrs (checkMetadata m m.metadata))
  have a6 := a5.ext reg m v5 m.path .model
  have v6 := extV_acc reg m m.path .model v5
  obtain ⟨⟨b7, l7, v7⟩, a7⟩ := childsV_adds reg m m.sortedChilds _ _ _ ⟨_, _, v6⟩ a6
  obtain ⟨⟨b8, l8, v8⟩, a8⟩ := resourcesV_adds reg m m.pathOrDefault m.resources
  have a9 := a8.map reg m v8 (onMembers_wrap b!"resources")
  rw [resourceQuestions_map] at a9
  have a10 := a7.append reg m v7 a9
  have v10 := v7.append ((resourcesV reg m m.pathOrDefault m.resources).mapErr (wrap b!"resources"))
  have a11 := (VAdds.ofErrs reg m (m.build.validate m)).map reg m (VAcc.ofErrs _) (onMembers_wrap b!"build")
  have a12 := a10.append reg m v10 a11
  have v12 := v10.append ((ErrVal.ofErrs (m.build.validate m)).mapErr (wrap b!"build"))
  have a13 := a12.map reg m v12 (onMembers_wrap b!"model")
  simpa [coreC, codeQ] using a13

theorem codeQ_perm (hwf : m.WF) : (codeQ m).Perm (Spec.questions m) := by
  have h1 : (childsQ m m.sortedChilds).Perm (m.childs.flatMap fun x => Spec.resourceQuestions x.1 (wrapPath b!"resources" x.1) x.2.resources) := by
    have h2 : (childsQ m m.sortedChilds).Perm (childsQ m (m.childs.map (·.1))) :=
      List.Perm.flatMap_right _ (List.perm_insertionSort _ _)
    refine h2.trans (List.Perm.of_eq ?_)
    unfold childsQ
    rw [List.flatMap_map]
    have h3 : ∀ l : List (Str × ChildModel), (∀ x ∈ l, x ∈ m.childs) →
        (l.flatMap fun x => match lookupChild m.childs x.1 with
          | some c => Spec.resourceQuestions x.1 (wrapPath b!"resources" x.1) c.resources
          | none => []) = l.flatMap fun x => Spec.resourceQuestions x.1 (wrapPath b!"resources" x.1) x.2.resources := by
      intro l hl
      induction l with
      | nil => rfl
      | cons x l ih =>
        rw [List.flatMap_cons, List.flatMap_cons, ih fun y hy => hl y (by simp [hy]), (lookupChild_spec hwf x.1 x.2).2 (hl x (by simp))]
    exact h3 _ fun _ h => h
  have h4 := ((h1.append_left [(⟨m.path, .model, id⟩ : Spec.Question)]).append_right
    (Spec.resourceQuestions m.pathOrDefault (wrap b!"resources") m.resources)).map
      fun q => (⟨q.path, q.target, fun e => wrap b!"model" (q.place e)⟩ : Spec.Question)
  refine h4.trans (List.Perm.of_eq ?_)
  simp [Spec.questions, Spec.resourceQuestions, List.map_flatMap, Function.comp_def, Model.pathOrDefault, defaultModelPath]

theorem coreC_silent (env : Env) : coreC (Spec.silent reg) m env = coreC reg m env := by
  have : namespacesV (Spec.silent reg) m = namespacesV reg m := by
    unfold namespacesV Spec.silent
    simp
  unfold coreC
  rw [this]

theorem silent_adds (env : Env) : (Spec.contrib (m.validateV env (Spec.silent reg))).Perm (coreC reg m env) ∧
    (m.validateV env (Spec.silent reg)).nonNil = !(coreC reg m env).isEmpty := by
  have h := validateV_adds (Spec.silent reg) m env
  rw [coreC_silent] at h
  have h1 := h.1
  have h2 := h.2
  simp only [answers_silent] at h1 h2
  have e1 : ∀ qs : List Spec.Question, (qs.flatMap fun _ => ([] : List Err)) = [] := fun qs => by simp
  have e2 : ∀ qs : List Spec.Question, (qs.any fun _ => false) = false := fun qs => by simp
  refine ⟨by simpa [e1] using h1, by simpa [e2] using h2⟩

/-! ## The property -/

/-- The errors that `Validate` reports are those that it reports if no extension has a validator, and all those that the
declared extensions answer when they are asked about the model and about each asset and object of each part, each as often
as it was answered, with the place of the element. -/
theorem C83_reports (env : Env) (reg : Registered) (m : Model) (hwf : m.WF) :
    (Spec.contrib (m.validateV env reg)).Perm (Spec.contrib (m.validateV env (Spec.silent reg)) ++
      (Spec.questions m).flatMap fun q => ((Spec.answers reg m q.path q.target).flatMap Spec.contrib).map q.place) := by
  refine (validateV_adds reg m env).1.trans ?_
  exact (silent_adds reg m env).1.symm.append (List.Perm.flatMap_right _ (codeQ_perm m hwf))

/-- `Validate` returns nil exactly if it does so without the validators and every answer is nil. -/
theorem C83_nil (env : Env) (reg : Registered) (m : Model) (hwf : m.WF) :
    m.validateV env reg = .nil ↔ m.validateV env (Spec.silent reg) = .nil ∧
      ∀ q ∈ Spec.questions m, ∀ v ∈ Spec.answers reg m q.path q.target, v = .nil := by
  have hn : ∀ v : ErrVal, v = .nil ↔ v.nonNil = false := fun v => by cases v <;> simp [ErrVal.nonNil]
  rw [hn, hn, (validateV_adds reg m env).2, (silent_adds reg m env).2, (codeQ_perm m hwf).any_eq]
  simp only [hn, Bool.or_eq_false_iff, List.any_eq_false]
  simp

/-- The result is nil or a list of errors, never a nil list. -/
theorem C83_list (env : Env) (reg : Registered) (m : Model) :
    m.validateV env reg = .nil ∨ m.validateV env reg = .err (.list (Spec.contrib (m.validateV env reg))) := by
  have : IsAcc (m.validateV env reg) := by
    obtain ⟨b, l, h⟩ : IsAcc (childsV reg m m.sortedChilds (extV reg m m.path .model (((((ErrVal.nil.append
        [.ofErrs (validateRelationship env m m.rootRelationships [])]).append [.ofErrs (namespacesV reg m)]).append
        [.ofErrs (childRelErrs env m m.sortedChilds)]).append [.ofErrs (validateRelationship env m m.relationships m.pathOrDefault)]).append
        [.ofErrs (checkMetadata m m.metadata)]))) := by
      have h1 := VAcc.start.append (.ofErrs (validateRelationship env m m.rootRelationships []))
      have h2 := h1.append (.ofErrs (namespacesV reg m))
      have h3 := h2.append (.ofErrs (childRelErrs env m m.sortedChilds))
      have h4 := h3.append (.ofErrs (validateRelationship env m m.relationships m.pathOrDefault))
      have h5 := h4.append (.ofErrs (checkMetadata m m.metadata))
      have h6 := extV_acc reg m m.path .model h5
      have h7 : ∀ (ps : List Str) (v : ErrVal), IsAcc v → IsAcc (childsV reg m ps v) := by
        intro ps
        induction ps with
        | nil => exact fun v hv => hv
        | cons p ps ih =>
          rintro v ⟨b, l, hv⟩
          simp only [childsV, List.foldl_cons] at ih ⊢
          apply ih
          cases lookupChild m.childs p with
          | none => exact ⟨b, l, hv⟩
          | some c => exact ⟨_, _, hv.append _⟩
      exact h7 _ _ ⟨_, _, h6⟩
    exact ⟨_, _, ((h.append _).append _).map (onMembers_wrap b!"model")⟩
  obtain ⟨b, l, h⟩ := this
  rw [h.contrib]
  cases b with
  | true => exact .inr h.eq
  | false => exact .inl h.eq

/-! ## The built-in extensions -/

theorem mapErr_ofErrs {f : Err → Err} (hf : OnMembers f) (l : List Err) : (ErrVal.ofErrs l).mapErr f = .ofErrs (l.map f) := by
  cases l with
  | nil => rfl
  | cons e l => simp [ErrVal.ofErrs, ErrVal.mapErr, hf (e :: l)]

theorem ofErrs_append (a b : List Err) : (ErrVal.ofErrs a).append [.ofErrs b] = .ofErrs (a ++ b) :=
  (C14_validators a b (.list [])).1

variable (env : Env) (fuel : Nat)

theorem ext_builtin (path : Str) (x : ValTarget) (f : Extension → List Err)
    (hf : ∀ e, (match builtinV env fuel e.ns with | some (some v) => v m path x | _ => .nil) = .ofErrs (f e)) (l : List Err) :
    extV (builtinV env fuel) m path x (.ofErrs l) = .ofErrs (l ++ m.extensions.flatMap f) := by
  unfold extV
  generalize m.extensions = es
  induction es generalizing l with
  | nil => simp
  | cons e es ih =>
    rw [List.foldl_cons, List.flatMap_cons, ← List.append_assoc, ← ih]
    congr 1
    have := hf e
    cases h : builtinV env fuel e.ns with
    | none =>
      rw [h] at this
      have h2 := ofErrs_append l (f e)
      rw [← this] at h2
      rw [← h2]
      simp only
      rw [show (ErrVal.nil) = .ofErrs [] from rfl, ofErrs_append]
      simp
    | some o =>
      cases o with
      | none => simp [builtinV] at h
      | some v =>
        rw [h] at this
        simp only at this ⊢
        rw [this, ofErrs_append]

theorem extModel_builtin (l : List Err) :
    extV (builtinV env fuel) m m.path .model (.ofErrs l) = .ofErrs (l ++ extModelErrs env m) := by
  refine ext_builtin m env fuel _ _ _ (fun e => ?_) l
  simp only [builtinV]
  cases env.load e.ns with
  | none => rfl
  | some x => cases x <;> rfl

theorem extAsset_builtin (path : Str) (a : Asset) (l : List Err) :
    extV (builtinV env fuel) m path (.asset a) (.ofErrs l) = .ofErrs (l ++ extAssetErrs env m path a) := by
  refine ext_builtin m env fuel _ _ _ (fun e => ?_) l
  simp only [builtinV]
  cases env.load e.ns with
  | none => rfl
  | some x =>
    cases x with
    | slices =>
      cases a with
      | res r => cases r <;> rfl
      | _ => rfl
    | _ => rfl

theorem mapM_flatten {α : Type} (f : α → Option (List Err)) : ∀ (l : List α) (r : List Err), (l.mapM f).map List.flatten = some r →
    r = l.flatMap fun x => (f x).getD [] := by
  intro l
  induction l with
  | nil => intro r h; simp at h; simp [h]
  | cons x l ih =>
    intro r h
    rw [List.mapM_cons] at h
    cases hx : f x with
    | none => rw [hx] at h; simp at h
    | some y =>
      rw [hx] at h
      cases hl : l.mapM f with
      | none => rw [hl] at h; simp at h
      | some ys =>
        rw [hl] at h
        simp at h
        have := ih ys.flatten (by rw [hl]; rfl)
        rw [← h, List.flatMap_cons, ← this, hx]
        simp

theorem mapM_flatten_some {α : Type} (f : α → Option (List Err)) : ∀ (l : List α) (r : List Err), (l.mapM f).map List.flatten = some r →
    ∀ x ∈ l, ∃ y, f x = some y := by
  intro l
  induction l with
  | nil => intro r _ x hx; simp at hx
  | cons z l ih =>
    intro r h x hx
    rw [List.mapM_cons] at h
    cases hz : f z with
    | none => rw [hz] at h; simp at h
    | some y =>
      rw [hz] at h
      cases hl : l.mapM f with
      | none => rw [hl] at h; simp at h
      | some ys =>
        rcases List.mem_cons.1 hx with rfl | hx
        · exact ⟨y, hz⟩
        · exact ih ys.flatten (by rw [hl]; rfl) x hx

theorem extObject_builtin (path : Str) (o : Object) (l es : List Err) (h : extObjectErrs env m fuel path o = some es) :
    extV (builtinV env fuel) m path (.object o) (.ofErrs l) = .ofErrs (l ++ es) := by
  rw [mapM_flatten _ _ _ h]
  refine ext_builtin m env fuel _ _ _ (fun e => ?_) l
  simp only [builtinV]
  cases env.load e.ns with
  | none => rfl
  | some x => cases x <;> rfl

theorem assets_builtin (path : Str) (as : List Asset) : ∀ (i : Nat) (seen : List UInt32) (l : List Err),
    assetsV (builtinV env fuel) m path i seen as (.ofErrs l) = .ofErrs (l ++ assetsErrs env m path i seen as) := by
  induction as with
  | nil => intro i seen l; simp [assetsV, assetsErrs]
  | cons a as ih =>
    intro i seen l
    have h1 : assetV (builtinV env fuel) m path seen a = .ofErrs ((if a.identify ≠ 0 ∧ a.identify ∈ seen then [Err.of .duplicatedID] else []) ++
        a.validate ++ extAssetErrs env m path a) := by
      unfold assetV
      rw [show ErrVal.nil = .ofErrs [] from rfl, ofErrs_append, ofErrs_append, extAsset_builtin]
      simp
    simp only [assetsV, assetsErrs]
    rw [h1, mapErr_ofErrs (onMembers_index _ _), ofErrs_append, ih, List.append_assoc]

theorem objects_builtin (path : Str) (os : List Object) : ∀ (i : Nat) (seen : List UInt32) (l es : List Err),
    objectsErrs env m fuel path i seen os = some es →
    objectsV (builtinV env fuel) m path i seen os (.ofErrs l) = .ofErrs (l ++ es) := by
  induction os with
  | nil => intro i seen l es h; cases h; simp [objectsV]
  | cons o os ih =>
    intro i seen l es h
    simp only [objectsErrs] at h
    cases h1 : o.validate env m fuel path with
    | none => rw [h1] at h; simp at h
    | some e =>
      cases h2 : objectsErrs env m fuel path (i + 1) (o.id :: seen) os with
      | none => rw [h1, h2] at h; simp at h
      | some es2 =>
        rw [h1, h2] at h
        cases h
        cases h3 : extObjectErrs env m fuel path o with
        | none => simp [Object.validate, h3] at h1
        | some e3 =>
          have h4 : e = o.validateCore m path ++ e3 := by simpa [Object.validate, h3] using h1.symm
          subst h4
          simp only [objectsV, objectV]
          rw [extObject_builtin m env fuel path o _ _ h3, mapErr_ofErrs (onMembers_index _ _), ofErrs_append, ofErrs_append, ih _ _ _ _ h2]
          simp

theorem resources_builtin (path : Str) (rs : Resources) (es : List Err) (h : rs.validate env m fuel path = some es) :
    resourcesV (builtinV env fuel) m path rs = .ofErrs es := by
  unfold Resources.validate at h
  cases h1 : objectsErrs env m fuel path 0 (rs.assets.map Asset.identify) rs.objects with
  | none => rw [h1] at h; simp at h
  | some e1 =>
    rw [h1] at h
    simp only [Option.map_some, Option.some.injEq] at h
    subst h
    unfold resourcesV
    rw [show ErrVal.nil = .ofErrs [] from rfl, assets_builtin, objects_builtin m env fuel path _ _ _ _ _ h1]
    simp

theorem childs_builtin (paths : List Str) : ∀ (l es : List Err), childsErrs env m fuel paths = some es →
    childsV (builtinV env fuel) m paths (.ofErrs l) = .ofErrs (l ++ es) := by
  intro l es h
  have h0 := mapM_flatten _ _ _ h
  have hs : ∀ p ∈ paths, ∀ c, lookupChild m.childs p = some c → ∃ e, c.resources.validate env m fuel p = some e := by
    intro p hp c hc
    obtain ⟨y, hy⟩ := mapM_flatten_some _ _ _ h p hp
    rw [hc] at hy
    simp only at hy
    cases he : c.resources.validate env m fuel p with
    | none => rw [he] at hy; simp at hy
    | some e => exact ⟨e, rfl⟩
  subst h0
  clear h
  unfold childsV
  induction paths generalizing l with
  | nil => simp
  | cons p ps ih =>
    rw [List.foldl_cons, List.flatMap_cons, ← List.append_assoc, ← ih _ fun q hq => hs q (by simp [hq])]
    congr 1
    cases hc : lookupChild m.childs p with
    | none => simp
    | some c =>
      obtain ⟨e, he⟩ := hs p (by simp) c hc
      simp only
      rw [resources_builtin m env fuel p _ _ he, mapErr_ofErrs (onMembers_path _ _), ofErrs_append, he]
      rfl

/-- With the built-in extensions this is the `Validate` of the other properties. -/
theorem C83_builtin (env : Env) (m : Model) (fuel : Nat) (errs : List Err) (h : m.validateFuel env fuel = some errs) :
    m.validateV env (builtinV env fuel) = .ofErrs errs := by
  unfold Model.validateFuel at h
  cases h1 : childsErrs env m fuel m.sortedChilds with
  | none => rw [h1] at h; cases h
  | some ce =>
    cases h2 : m.resources.validate env m fuel m.pathOrDefault with
    | none => rw [h1, h2] at h; cases h
    | some re =>
      rw [h1, h2] at h
      cases h
      have hn : namespacesV (builtinV env fuel) m = m.validateNamespaces env := by
        unfold namespacesV Model.validateNamespaces builtinV
        simp
      unfold Model.validateV
      simp only [show ErrVal.nil = .ofErrs [] from rfl, ofErrs_append, extModel_builtin, childs_builtin m env fuel _ _ _ h1,
        resources_builtin m env fuel _ _ _ h2, mapErr_ofErrs (onMembers_wrap _), hn]
      simp

/-! ## Where the code differs from its documentation -/

/-- A private name space. -/
def Spec.privateNs : Str := b!"http://example.com/private"

/-- An extension with a validator that rejects everything. -/
def Spec.rejectsAll : Registered := fun ns =>
  if ns = Spec.privateNs then some (some fun _ _ _ => .err (.leaf (.other b!"rejected"))) else none

/-- spec/spec.go:51-52 says that `Validate` calls the validator of a `Spec` that has one.  It does not unless the model
declares the name space: here one is registered that rejects everything, the model has an attribute of its name space, and
`Validate` returns nil. -/
theorem C83_undeclared_false (env : Env) : ∃ (reg : Registered) (m : Model) (ns : Str) (v : Validator),
    reg ns = some (some v) ∧ (∀ p x, v m p x ≠ .nil) ∧ (∃ as ∈ m.anyAttr, ∃ l, as = .unknown ns l ∧ l ≠ []) ∧ m.validateV env reg = .nil := by
  refine ⟨Spec.rejectsAll, { Model.zero with anyAttr := [.unknown Spec.privateNs [⟨⟨Spec.privateNs, b!"a"⟩, b!"1"⟩]] }, Spec.privateNs, _,
    if_pos rfl, fun _ _ => by simp, ⟨_, List.mem_singleton.2 rfl, _, rfl, List.cons_ne_nil _ _⟩, rfl⟩

/-- A validator that returns a nil `*List`, which is what a function with the result type `*errors.List` returns if it finds
nothing, makes `Validate` return an error, the empty list. -/
theorem C83_typedNil_false (env : Env) : ∃ (reg : Registered) (m : Model), m.validateV env (Spec.silent reg) = .nil ∧
    (∀ q ∈ Spec.questions m, ∀ v ∈ Spec.answers reg m q.path q.target, Spec.contrib v = []) ∧
    m.validateV env reg = .err (.list []) := by
  refine ⟨fun _ => some (some fun _ _ _ => .nilList), { Model.zero with extensions := [⟨Spec.privateNs, b!"p", false⟩] }, rfl, ?_, rfl⟩
  intro q _ v hv
  simp only [Spec.answers, List.filterMap_cons, List.filterMap_nil, List.mem_singleton] at hv
  rw [hv]
  rfl

/- A private extension that is declared and rejects the model and an object of a child model, which is fine otherwise. -/
example (env : Env) : ({ Model.zero with
      extensions := [⟨Spec.privateNs, b!"p", true⟩],
      childs := [(b!"/3D/a.model", { ChildModel.zero with
        resources := { Resources.zero with objects := [{ Object.zero with id := 1, components := some ⟨[], []⟩ }] } })] } : Model).validateV
      env Spec.rejectsAll = .err (.list [
    .wrapped [⟨b!"model", -1⟩] (.leaf (.other b!"rejected")) [],
    .wrapped [⟨b!"object", 0⟩, ⟨b!"resources", -1⟩, ⟨b!"model", -1⟩] (.leaf (.other b!"rejected")) b!"/3D/a.model"]) := rfl

end Go3mf
