import Verif.Model.Validate

/-!
# The answer of `Validate` is determined

More fuel does not change the answer of `validateFuel`, so there is at most one list of errors with which `Validate` returns.
-/

namespace Go3mf

theorem mapM_mono {α β : Type} {f g : α → Option β} (h : ∀ x b, f x = some b → g x = some b) : ∀ (xs : List α) (bs : List β),
    xs.mapM f = some bs → xs.mapM g = some bs
  | [], bs, hb => by simpa using hb
  | x :: xs, bs, hb => by
    simp only [List.mapM_cons, Option.bind_eq_bind, Option.bind_eq_some_iff, Option.pure_def] at hb ⊢
    obtain ⟨b, h1, cs, h2, h3⟩ := hb
    exact ⟨b, h x b h1, cs, mapM_mono h xs cs h2, h3⟩

theorem componentsPlanar_mono {r r' : Object → Option Bool} (h : ∀ o b, r o = some b → r' o = some b) (m : Model) (o : Object)
    (p : Str) (id : UInt32) : ∀ (cs : List Component) (b : Bool), componentsPlanar r m o p id cs = some b →
      componentsPlanar r' m o p id cs = some b
  | [], b, hb => hb
  | c :: cs, b, hb => by
    rw [componentsPlanar] at hb ⊢
    split
    · next h1 => rwa [if_pos h1] at hb
    · next h1 =>
      rw [if_neg h1] at hb
      split
      · next h2 => rwa [if_pos h2] at hb
      · next h2 =>
        rw [if_neg h2] at hb
        cases ho : m.findObject (c.objectPath p) c.objectID with
        | none =>
          simp only [ho] at hb ⊢
          exact componentsPlanar_mono h m o p id cs b hb
        | some o1 =>
          simp only [ho] at hb ⊢
          cases hr : r o1 with
          | none => simp [hr] at hb
          | some x =>
            rw [h _ _ hr]
            cases x with
            | false => simpa [hr] using hb
            | true =>
              simp only [hr] at hb ⊢
              exact componentsPlanar_mono h m o p id cs b hb

theorem objectPlanar_succ (m : Model) (p : Str) (id : UInt32) : ∀ (n : Nat) (o : Object) (b : Bool), objectPlanar m p id n o = some b →
    objectPlanar m p id (n + 1) o = some b := by
  intro n
  induction n with
  | zero => intro o b h; cases h
  | succ n ih =>
    intro o b h
    rw [objectPlanar] at h ⊢
    cases hc : o.components with
    | none => simpa [hc] using h
    | some cs =>
      simp only [hc] at h ⊢
      exact componentsPlanar_mono ih m o p id _ _ h

theorem buildPlanar_succ (m : Model) (n : Nat) (p : Str) (id : UInt32) : ∀ (is : List Item) (b : Bool), buildPlanar m n p id is = some b →
    buildPlanar m (n + 1) p id is = some b
  | [], b, hb => hb
  | i :: is, b, hb => by
    rw [buildPlanar] at hb ⊢
    generalize (if i.objectPath = [] then p else i.objectPath) = q at hb ⊢
    split
    · next h1 => rwa [if_pos h1] at hb
    · next h1 =>
      rw [if_neg h1] at hb
      cases ho : m.findObject q i.objectID with
      | none =>
        simp only [ho] at hb ⊢
        exact buildPlanar_succ m n p id is b hb
      | some o =>
        simp only [ho] at hb ⊢
        cases hr : objectPlanar m p id n o with
        | none => simp [hr] at hb
        | some x =>
          rw [objectPlanar_succ m p id n o x hr]
          cases x with
          | false => simpa [hr] using hb
          | true =>
            simp only [hr] at hb ⊢
            exact buildPlanar_succ m n p id is b hb

theorem slicesValidateObject_succ (m : Model) (n : Nat) (p : Str) (o : Object) (es : List Err)
    (h : slicesValidateObject m n p o = some es) : slicesValidateObject m (n + 1) p o = some es := by
  rw [slicesValidateObject] at h ⊢
  cases hb : buildPlanar m n p o.id m.build.items with
  | some b => rw [buildPlanar_succ m n p o.id _ b hb]; rwa [hb] at h
  | none =>
    rw [hb] at h
    revert h
    repeat' split
    all_goals first | exact fun h => h | (intro h; simp_all)

theorem objectValidate_succ (env : Env) (m : Model) (n : Nat) (p : Str) (o : Object) (es : List Err)
    (h : o.validate env m n p = some es) : o.validate env m (n + 1) p = some es := by
  simp only [Object.validate, extObjectErrs, Option.map_map, Option.map_eq_some_iff] at h ⊢
  obtain ⟨x, h1, h2⟩ := h
  refine ⟨x, mapM_mono (fun e b hb => ?_) _ _ h1, h2⟩
  cases hl : env.load e.ns with
  | none => simpa [hl] using hb
  | some k =>
    simp only [hl] at hb ⊢
    cases k with
    | slices => exact slicesValidateObject_succ m n p o b hb
    | _ => exact hb

theorem objectsErrs_succ (env : Env) (m : Model) (n : Nat) (p : Str) : ∀ (os : List Object) (i : Nat) (seen : List UInt32) (es : List Err),
    objectsErrs env m n p i seen os = some es → objectsErrs env m (n + 1) p i seen os = some es
  | [], _, _, _, h => by simpa [objectsErrs] using h
  | o :: os, i, seen, es, h => by
    rw [objectsErrs] at h ⊢
    cases h1 : o.validate env m n p with
    | none => simp [h1] at h
    | some e =>
      cases h2 : objectsErrs env m n p (i + 1) (o.id :: seen) os with
      | none => simp [h1, h2] at h
      | some e2 =>
        rw [objectValidate_succ env m n p o e h1, objectsErrs_succ env m n p os _ _ e2 h2]
        rwa [h1, h2] at h

theorem resourcesValidate_succ (env : Env) (m : Model) (n : Nat) (p : Str) (rs : Resources) (es : List Err)
    (h : rs.validate env m n p = some es) : rs.validate env m (n + 1) p = some es := by
  simp only [Resources.validate, Option.map_eq_some_iff] at h ⊢
  obtain ⟨x, h1, h2⟩ := h
  exact ⟨x, objectsErrs_succ env m n p _ _ _ x h1, h2⟩

theorem validateFuel_succ (env : Env) (m : Model) (n : Nat) (es : List Err) (h : m.validateFuel env n = some es) :
    m.validateFuel env (n + 1) = some es := by
  rw [Model.validateFuel] at h ⊢
  cases h1 : childsErrs env m n m.sortedChilds with
  | none => simp [h1] at h
  | some e =>
    cases h2 : m.resources.validate env m n m.pathOrDefault with
    | none => simp [h1, h2] at h
    | some e2 =>
      have h3 : childsErrs env m (n + 1) m.sortedChilds = some e := by
        simp only [childsErrs, Option.map_eq_some_iff] at h1 ⊢
        obtain ⟨x, h1, h2⟩ := h1
        refine ⟨x, mapM_mono (fun q b hb => ?_) _ _ h1, h2⟩
        cases hl : lookupChild m.childs q with
        | none => simpa [hl] using hb
        | some c =>
          simp only [hl, Option.map_eq_some_iff] at hb ⊢
          obtain ⟨y, h4, h5⟩ := hb
          exact ⟨y, resourcesValidate_succ env m n q _ y h4, h5⟩
      rw [h3, resourcesValidate_succ env m n _ _ e2 h2]
      rwa [h1, h2] at h

theorem validateFuel_mono (env : Env) (m : Model) {n k : Nat} (hk : n ≤ k) {es : List Err} (h : m.validateFuel env n = some es) :
    m.validateFuel env k = some es := by
  induction hk with
  | refl => exact h
  | step _ ih => exact validateFuel_succ env m _ _ ih

/-- `Validate` returns at most one list of errors. -/
theorem Validate_unique {env : Env} {m : Model} {es es' : List Err} (h : m.Validate env es) (h' : m.Validate env es') : es = es' := by
  obtain ⟨n, h⟩ := h
  obtain ⟨k, h'⟩ := h'
  have h1 := validateFuel_mono env m (Nat.le_max_left n k) h
  have h2 := validateFuel_mono env m (Nat.le_max_right n k) h'
  rw [h1] at h2
  exact Option.some.inj h2

end Go3mf
