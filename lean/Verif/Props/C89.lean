import Verif.Model.Cost
import Verif.Props.C38

/-!
# C89: the time for a bounding box and for the validation of slices
-/

namespace Go3mf

/-! ## The counters change nothing -/

theorem componentsBoxCalls_fst {rec : Object → Str → Option (Box × Nat)} {rec' : Object → Str → Option Box} {m : Model}
    (h : ∀ o p, (rec o p).map (·.1) = rec' o p) {path : Str} : ∀ (cs : List Component) (b : Box) (n : Nat),
    (componentsBoxCalls rec m path cs b n).map (·.1) = componentsBox rec' m path cs b
  | [], _, _ => rfl
  | c :: cs, b, n => by
    simp only [componentsBoxCalls, componentsBox]
    cases m.findObject (c.objectPath path) c.objectID with
    | none => exact componentsBoxCalls_fst h cs b n
    | some obj =>
      have := h obj path
      simp only
      cases hr : rec obj path with
      | none => rw [hr] at this; rw [← this]; rfl
      | some x =>
        obtain ⟨cb, k⟩ := x
        rw [hr] at this
        rw [← this]
        exact componentsBoxCalls_fst h cs _ _

theorem boxCalls_fst (m : Model) : ∀ (fuel : Nat) (o : Object) (p : Str), (o.boxCalls m fuel p).map (·.1) = o.boxFuel m fuel p
  | 0, _, _ => rfl
  | fuel + 1, o, p => by
    simp only [Object.boxCalls, Object.boxFuel]
    cases o.mesh with
    | some mesh => rfl
    | none =>
      cases o.components with
      | none => rfl
      | some cs =>
        simp only
        split
        · rfl
        · exact componentsBoxCalls_fst (boxCalls_fst m fuel) _ _ _

theorem componentsPlanarCalls_fst {rec : Object → Option (Bool × Nat)} {rec' : Object → Option Bool} {m : Model}
    (h : ∀ o, (rec o).map (·.1) = rec' o) {o : Object} {path : Str} {id : UInt32} : ∀ (cs : List Component) (n : Nat),
    (componentsPlanarCalls rec m o path id cs n).map (·.1) = componentsPlanar rec' m o path id cs
  | [], _ => rfl
  | c :: cs, n => by
    simp only [componentsPlanarCalls, componentsPlanar]
    split
    · rfl
    · split
      · rfl
      · cases m.findObject (c.objectPath path) c.objectID with
        | none => exact componentsPlanarCalls_fst h cs n
        | some o1 =>
          have := h o1
          simp only
          cases hr : rec o1 with
          | none => rw [hr] at this; rw [← this]; rfl
          | some x =>
            obtain ⟨b, k⟩ := x
            rw [hr] at this
            rw [← this]
            cases b
            · rfl
            · exact componentsPlanarCalls_fst h cs _

theorem objectPlanarCalls_fst (m : Model) (p : Str) (id : UInt32) : ∀ (fuel : Nat) (o : Object),
    (objectPlanarCalls m p id fuel o).map (·.1) = objectPlanar m p id fuel o
  | 0, _ => rfl
  | fuel + 1, o => by
    simp only [objectPlanarCalls, objectPlanar]
    cases o.components with
    | none => rfl
    | some cs => exact componentsPlanarCalls_fst (objectPlanarCalls_fst m p id fuel) _ _

/-! ## An upper bound -/

/-- Every object has at most `w` components. -/
def Spec.AtMost (m : Model) (w : Nat) : Prop :=
  ∀ p id o cs, m.findObject p id = some o → o.components = some cs → cs.component.length ≤ w

/-- `1 + w + w^2 + …`, `d` terms. -/
def Spec.treeSize (w : Nat) : Nat → Nat
  | 0 => 0
  | d + 1 => 1 + w * treeSize w d

theorem componentsBoxCalls_le {rec : Object → Str → Option (Box × Nat)} {m : Model} {t : Nat} {path : Str}
    (h : ∀ id o b k p, m.findObject p id = some o → rec o path = some (b, k) → k ≤ t) : ∀ (cs : List Component) (b : Box) (n : Nat)
    (r : Box × Nat), componentsBoxCalls rec m path cs b n = some r → r.2 ≤ n + cs.length * t
  | [], b, n, r, hr => by
    simp only [componentsBoxCalls, Option.some.injEq] at hr
    subst hr
    simp
  | c :: cs, b, n, r, hr => by
    simp only [componentsBoxCalls] at hr
    rw [List.length_cons, Nat.succ_mul]
    cases hf : m.findObject (c.objectPath path) c.objectID with
    | none =>
      rw [hf] at hr
      have := componentsBoxCalls_le h cs b n r hr
      omega
    | some obj =>
      rw [hf] at hr
      simp only at hr
      cases hx : rec obj path with
      | none => rw [hx] at hr; cases hr
      | some x =>
        obtain ⟨cb, k⟩ := x
        rw [hx] at hr
        have h1 := componentsBoxCalls_le h cs _ _ r hr
        have h2 := h _ _ _ _ _ hf hx
        omega

theorem boxCalls_le {m : Model} {w : Nat} (hw : Spec.AtMost m w) : ∀ (fuel : Nat) (id : UInt32) (o : Object) (q p : Str) (b : Box) (k : Nat),
    m.findObject q id = some o → o.boxCalls m fuel p = some (b, k) → k ≤ Spec.treeSize w fuel
  | 0, _, _, _, _, _, _, _, h => by cases h
  | fuel + 1, id, o, q, p, b, k, ho, h => by
    simp only [Object.boxCalls] at h
    have h1 : 1 ≤ Spec.treeSize w (fuel + 1) := Nat.le_add_right _ _
    cases hm : o.mesh with
    | some mesh => rw [hm] at h; simp at h; omega
    | none =>
      rw [hm] at h
      cases hc : o.components with
      | none => rw [hc] at h; simp at h; omega
      | some cs =>
        rw [hc] at h
        simp only at h
        split at h
        · simp at h; omega
        · have h2 := componentsBoxCalls_le (t := Spec.treeSize w fuel)
            (fun id o b k p' hf hr => boxCalls_le hw fuel id o p' p b k hf hr) _ _ _ _ h
          have h3 := Nat.mul_le_mul_right (Spec.treeSize w fuel) (hw _ _ _ _ ho hc)
          simp only [Spec.treeSize] at h2 ⊢
          omega

/-! ## A chain of objects, each made of two copies of the next one -/

/-- A tetrahedron. -/
def corner : Mesh :=
  { Mesh.zero with
    vertices := [⟨.zero, .zero, .zero⟩, ⟨.one, .zero, .zero⟩, ⟨.zero, .one, .zero⟩, ⟨.zero, .zero, .one⟩]
    triangles := [⟨0, 1, 2, 0, 0, 0, 0, []⟩, ⟨0, 1, 3, 0, 0, 0, 0, []⟩, ⟨0, 2, 3, 0, 0, 0, 0, []⟩, ⟨1, 2, 3, 0, 0, 0, 0, []⟩] }

/-- The object number `k` of the chain. -/
def chainObject (n k : Nat) : Object :=
  if k < n then { Object.zero with
    id := UInt32.ofNat (k + 1), components := some { Components.zero with component := [
      { Component.zero with objectID := UInt32.ofNat (k + 2) }, { Component.zero with objectID := UInt32.ofNat (k + 2) }] } }
  else { Object.zero with id := UInt32.ofNat (k + 1), mesh := some corner }

/-- The chain: `n` objects made of components, and a mesh. -/
def chain (n : Nat) : Model :=
  { Model.zero with
    resources := { Resources.zero with objects := (List.range (n + 1)).map (chainObject n) },
    build := { Build.zero with items := [{ Item.zero with objectID := 1 }] } }

theorem chainObject_id (n k : Nat) : (chainObject n k).id = UInt32.ofNat (k + 1) := by
  unfold chainObject
  split <;> rfl

theorem ofNat_inj {a b : Nat} (ha : a < 2 ^ 32) (hb : b < 2 ^ 32) (h : UInt32.ofNat a = UInt32.ofNat b) : a = b := by
  have := congrArg UInt32.toNat h
  simp only [UInt32.toNat_ofNat'] at this
  omega

theorem find_chain {n : Nat} (hn : n + 1 < 2 ^ 32) : ∀ (l : List Nat) (k : Nat), k ∈ l → (∀ j ∈ l, j ≤ n) →
    findObjectIn (l.map (chainObject n)) (UInt32.ofNat (k + 1)) = some (chainObject n k)
  | [], _, h, _ => by cases h
  | j :: l, k, h, hl => by
    rw [List.map_cons, findObjectIn, chainObject_id]
    have hj := hl j (by simp)
    have hk := hl k h
    by_cases e : j = k
    · subst e
      simp
    · have : UInt32.ofNat (j + 1) ≠ UInt32.ofNat (k + 1) := fun h => e (by have := ofNat_inj (by omega) (by omega) h; omega)
      rw [if_neg (by simpa using this)]
      refine find_chain hn l k ?_ fun x hx => hl x (by simp [hx])
      rcases List.mem_cons.1 h with h | h
      · exact absurd h.symm e
      · exact h

theorem chain_found {n k : Nat} (hn : n + 1 < 2 ^ 32) (hk : k ≤ n) {p : Str} (hp : p = [] ∨ p = defaultModelPath) :
    (chain n).findObject p (UInt32.ofNat (k + 1)) = some (chainObject n k) := by
  have hr : (chain n).findResources p = some (chain n).resources := by
    rw [Model.findResources, if_pos]
    rcases hp with rfl | rfl
    · exact .inl rfl
    · exact .inr (.inr ⟨rfl, rfl⟩)
  rw [Model.findObject, hr]
  exact find_chain hn _ k (List.mem_range.2 (by omega)) fun j hj => by have := List.mem_range.1 hj; omega

theorem chain_calls {n : Nat} (hn : n + 1 < 2 ^ 32) : ∀ (j k : Nat), k + j = n → ∀ fuel, j < fuel →
    ∃ b, (chainObject n k).boxCalls (chain n) fuel [] = some (b, 2 ^ (j + 1) - 1)
  | _, _, _, 0, h => by omega
  | 0, k, hk, fuel + 1, _ => by
    refine ⟨corner.boundingBox, ?_⟩
    rw [chainObject, if_neg (by omega)]
    rfl
  | j + 1, k, hk, fuel + 1, hf => by
    obtain ⟨b, hb⟩ := chain_calls hn j (k + 1) (by omega) fuel (by omega)
    have hfound := chain_found hn (k := k + 1) (by omega) (p := []) (.inl rfl)
    have hp : 0 < 2 ^ (j + 1) := Nat.two_pow_pos _
    have e : 1 + (2 ^ (j + 1) - 1) + (2 ^ (j + 1) - 1) = 2 ^ (j + 1 + 1) - 1 := by rw [Nat.pow_succ 2 (j + 1)]; omega
    have hc : chainObject n k = { Object.zero with
        id := UInt32.ofNat (k + 1), components := some { Components.zero with component := [
          { Component.zero with objectID := UInt32.ofNat (k + 2) }, { Component.zero with objectID := UInt32.ofNat (k + 2) }] } } := by
      rw [chainObject, if_pos (by omega)]
    rw [hc]
    have hpath : ∀ id : UInt32, ({ Component.zero with objectID := id } : Component).objectPath [] = [] := fun _ => rfl
    simp only [Object.boxCalls, Object.zero, List.length_cons, List.length_nil, componentsBoxCalls, hpath]
    simp only [hfound, hb, e]
    exact ⟨_, rfl⟩

theorem chain_part {n : Nat} {p : Str} {rs : Resources} (h : Spec.IsPart (chain n) p rs) :
    p = defaultModelPath ∧ rs = (chain n).resources := by
  cases h with
  | root => exact ⟨rfl, rfl⟩
  | child h => cases h

theorem chain_at {n k : Nat} (hk : k ≤ n) {p : Str} (hp : p = [] ∨ p = defaultModelPath) :
    Spec.ObjectAt (chain n) p (UInt32.ofNat (k + 1)) (chainObject n k) := by
  refine ⟨(chain n).resources, .inl ⟨?_, rfl⟩, ?_, chainObject_id n k⟩
  · rcases hp with rfl | rfl
    · exact .inl rfl
    · exact .inr rfl
  · exact List.mem_map.2 ⟨k, List.mem_range.2 (by omega), rfl⟩

theorem ofNat_ne_zero {a : Nat} (h0 : 0 < a) (ha : a < 2 ^ 32) : UInt32.ofNat a ≠ 0 := fun h => by
  have := ofNat_inj ha (b := 0) (by decide) h
  omega

theorem chain_conforming (env : Env) {n : Nat} (hn : n + 2 < 2 ^ 32) : Spec.Conforming env (chain n) := by
  refine ⟨?_, ?_, ?_, ?_, ?_, ?_, ?_, ?_, ?_⟩
  · intro i r h; cases h
  · intro i r h; cases h
  · intro p c h; cases h
  · intro p c h; cases h
  · intro i r h; cases h
  · intro p rs h
    rw [(chain_part h).2]
    refine List.Nodup.filter _ ?_
    show ((List.range (n + 1)).map (chainObject n) |>.map Object.id).Nodup
    rw [List.map_map]
    refine (List.nodup_map_iff_inj_on List.nodup_range).2 fun a ha b hb e => ?_
    simp only [Function.comp_apply, chainObject_id, List.mem_range] at e ha hb
    have := ofNat_inj (by omega) (by omega) e
    omega
  · intro p rs r h hr
    rw [(chain_part h).2] at hr
    cases hr
  · intro p rs o h ho
    obtain ⟨rfl, rfl⟩ := chain_part h
    obtain ⟨k, hk, rfl⟩ := List.mem_map.1 ho
    have hk := List.mem_range.1 hk
    refine ⟨by rw [chainObject_id]; exact ofNat_ne_zero (by omega) (by omega), ?_, ?_⟩
    · unfold chainObject
      split <;> exact fun h => absurd rfl h
    · by_cases hkn : k < n
      · refine .inr ⟨_, by rw [chainObject, if_pos hkn]; rfl, by rw [chainObject, if_pos hkn], ?_⟩
        refine ⟨by rw [chainObject, if_pos hkn]; rfl, ?_, ?_, ?_⟩
        · intro c hc
          have : c.objectID = UInt32.ofNat (k + 2) := by
            simp only [List.mem_cons, List.not_mem_nil, or_false, or_self] at hc
            rw [hc]
          rw [this]
          exact ofNat_ne_zero (by omega) (by omega)
        · intro c hc
          have : c = { Component.zero with objectID := UInt32.ofNat (k + 2) } := by
            simpa using hc
          rw [this]
          exact ⟨_, chain_at (k := k + 1) (by omega) (.inr rfl)⟩
        · rintro c hc ⟨h1, -⟩
          have : c = { Component.zero with objectID := UInt32.ofNat (k + 2) } := by
            simpa using hc
          rw [this, chainObject_id] at h1
          have := ofNat_inj (by omega) (by omega) h1
          omega
      · refine .inl ⟨corner, by rw [chainObject, if_neg hkn], by rw [chainObject, if_neg hkn]; rfl, ?_⟩
        have e : chainObject n k = { Object.zero with id := UInt32.ofNat (k + 1), mesh := some corner } := by
          rw [chainObject, if_neg hkn]
        rw [e]
        refine ⟨fun h => absurd rfl h, fun _ => by decide, fun _ => .inl (by decide), fun t ht => ?_, fun t ht h0 => ?_⟩
        · unfold Spec.TriangleOk
          revert t
          decide
        · exfalso
          revert h0
          revert t
          decide
  · intro it hit
    rw [List.mem_singleton.1 hit]
    refine ⟨by decide, ⟨_, chain_at (k := 0) (by omega) (.inl rfl), ?_⟩, ?_⟩
    · unfold chainObject
      split <;> decide
    · intro i r h; cases h

theorem chain_accepted (env : Env) {n : Nat} (hn : n + 2 < 2 ^ 32) : (chain n).Accepts env := by
  refine C38_complete_partial env _ List.nodup_nil rfl ?_ (chain_conforming env hn)
  intro p rs o mesh hp ho hm
  obtain ⟨rfl, rfl⟩ := chain_part hp
  obtain ⟨k, hk, rfl⟩ := List.mem_map.1 ho
  unfold chainObject at hm
  split at hm
  · cases hm
  · injection hm with hm
    subst hm
    decide

/-- The sum of the numbers of components of the objects of the root part. -/
def Spec.components (m : Model) : Nat := (m.resources.objects.map fun o => match o.components with
  | some cs => cs.component.length
  | none => 0).sum

theorem chain_components (n : Nat) : Spec.components (chain n) = 2 * n := by
  have : ∀ (a : Nat) (l : List Nat), l.length = a → (∀ k ∈ l, k < n) → ((l.map (chainObject n)).map fun o => match o.components with
      | some cs => cs.component.length
      | none => 0).sum = 2 * a := by
    intro a l
    induction l generalizing a with
    | nil => intro h _; subst h; rfl
    | cons k l ih =>
      intro h hl
      subst h
      rw [List.map_cons, List.map_cons, List.sum_cons, ih _ rfl fun x hx => hl x (by simp [hx]), chainObject, if_pos (hl k (by simp))]
      simp only [List.length_cons, List.length_nil]
      omega
  show (((List.range (n + 1)).map (chainObject n)).map _).sum = _
  rw [List.range_succ, List.map_append, List.map_append, List.sum_append,
    this n (List.range n) List.length_range fun k hk => List.mem_range.1 hk]
  simp [chainObject]
  rfl

/-- **C89 does not hold for the bounding box**: for every `n` there is a model with `n + 1` objects, `2 n` components and one item, which
`Validate` accepts, for whose bounding box `2^(n+1) - 1` calls are made. -/
theorem C89_box_false (env : Env) (n : Nat) (hn : n + 2 < 2 ^ 32) : ∃ m : Model, m.WF ∧ m.Accepts env ∧
    m.resources.objects.length = n + 1 ∧ Spec.components m = 2 * n ∧ m.childs = [] ∧
    ∃ it o, m.build.items = [it] ∧ m.findObject it.objectPath it.objectID = some o ∧
      ∀ fuel, n < fuel → ∃ b, o.boxCalls m fuel it.objectPath = some (b, 2 ^ (n + 1) - 1) := by
  refine ⟨chain n, List.nodup_nil, chain_accepted env hn, by simp [chain], chain_components n, rfl, _, chainObject n 0, rfl, ?_, ?_⟩
  · exact chain_found (k := 0) (by omega) (by omega) (.inl rfl)
  · intro fuel hf
    exact chain_calls (by omega) n 0 (by omega) fuel hf

/-- The bound that holds: with at most `w` components per object, a recursion of depth `d` makes at most `1 + w + … + w^(d-1)` calls. -/
theorem C89_box_partial (m : Model) (w d : Nat) (hw : Spec.AtMost m w) (it : Item) (o : Object)
    (ho : m.findObject it.objectPath it.objectID = some o) (b : Box) (k : Nat)
    (h : o.boxCalls m d it.objectPath = some (b, k)) : k ≤ Spec.treeSize w d ∧ o.BoundingBox m it.objectPath b :=
  ⟨boxCalls_le hw d _ o _ _ b k ho h, d, by rw [← boxCalls_fst, h]; rfl⟩

theorem chain_planar {n : Nat} (hn : n + 2 < 2 ^ 32) (id : UInt32) : ∀ (j k : Nat), k + j = n → ∀ fuel, j < fuel →
    objectPlanarCalls (chain n) defaultModelPath id fuel (chainObject n k) = some (true, 2 ^ (j + 1) - 1)
  | _, _, _, 0, h => by omega
  | 0, k, hk, fuel + 1, _ => by
    rw [chainObject, if_neg (by omega)]
    rfl
  | j + 1, k, hk, fuel + 1, hf => by
    have hb := chain_planar hn id j (k + 1) (by omega) fuel (by omega)
    have hfound := chain_found (n := n) (by omega) (k := k + 1) (by omega) (p := defaultModelPath) (.inr rfl)
    have hp : 0 < 2 ^ (j + 1) := Nat.two_pow_pos _
    have e : 1 + (2 ^ (j + 1) - 1) + (2 ^ (j + 1) - 1) = 2 ^ (j + 1 + 1) - 1 := by rw [Nat.pow_succ 2 (j + 1)]; omega
    have hc : chainObject n k = { Object.zero with
        id := UInt32.ofNat (k + 1), components := some { Components.zero with component := [
          { Component.zero with objectID := UInt32.ofNat (k + 2) }, { Component.zero with objectID := UInt32.ofNat (k + 2) }] } } := by
      rw [chainObject, if_pos (by omega)]
    rw [hc]
    have hpath : ∀ i : UInt32, ({ Component.zero with objectID := i } : Component).objectPath defaultModelPath = defaultModelPath :=
      fun _ => rfl
    have ht : (Component.zero.transform).isTransform = false := by decide
    have hne : UInt32.ofNat (k + 2) ≠ UInt32.ofNat (k + 1) := fun h => by have := ofNat_inj (by omega) (by omega) h; omega
    simp only [objectPlanarCalls, componentsPlanarCalls, hpath, ht]
    simp only [hfound, hb, e, hne, Bool.false_eq_true, false_and, and_false, if_false]

/-- **Nor for the validation of slices**: for the object at the end of the chain `validateObjectTransforms` is called `2^(n+1) - 1` times,
and finds nothing. -/
theorem C89_slices_false (n : Nat) (hn : n + 2 < 2 ^ 32) : ∃ m : Model, m.WF ∧ m.resources.objects.length = n + 1 ∧
    Spec.components m = 2 * n ∧ m.childs = [] ∧
    ∃ it o, m.build.items = [it] ∧ m.findObject b!"/3D/3dmodel.model" it.objectID = some o ∧ ∀ id fuel, n < fuel →
      objectPlanarCalls m b!"/3D/3dmodel.model" id fuel o = some (true, 2 ^ (n + 1) - 1) ∧
      objectPlanar m b!"/3D/3dmodel.model" id fuel o = some true := by
  refine ⟨chain n, List.nodup_nil, by simp [chain], chain_components n, rfl, _, chainObject n 0, rfl, ?_, ?_⟩
  · exact chain_found (k := 0) (by omega) (by omega) (.inr rfl)
  · intro id fuel hf
    have := chain_planar hn id n 0 (by omega) fuel hf
    refine ⟨this, ?_⟩
    rw [← objectPlanarCalls_fst]
    show Option.map _ (objectPlanarCalls (chain n) defaultModelPath id fuel (chainObject n 0)) = _
    rw [this]
    rfl

/-- A chain of 40 links: more than 2·10¹² calls for 41 objects. -/
example (env : Env) : ∃ m : Model, m.Accepts env ∧ m.resources.objects.length = 41 ∧ Spec.components m = 80 ∧ ∃ it o b, m.build.items = [it] ∧
    m.findObject it.objectPath it.objectID = some o ∧ o.boxCalls m 41 it.objectPath = some (b, 2199023255551) := by
  obtain ⟨m, -, h1, h2, h3, -, it, o, h4, h5, h6⟩ := C89_box_false env 40 (by decide)
  obtain ⟨b, hb⟩ := h6 41 (by decide)
  exact ⟨m, h1, h2, h3, it, o, b, h4, h5, hb⟩

theorem findObject_mem_of : ∀ {l : List Object} {id : UInt32} {o : Object}, findObjectIn l id = some o → o ∈ l
  | a :: l, id, o, h => by
    rw [findObjectIn] at h
    split at h
    · injection h with h
      simp [h]
    · exact List.mem_cons_of_mem _ (findObject_mem_of h)

/-- Each object of the chain has at most two components. -/
example : Spec.AtMost (chain 3) 2 := by
  intro p id o cs ho hc
  have : o ∈ (chain 3).resources.objects := by
    unfold Model.findObject Model.findResources at ho
    split at ho
    · rename_i rs h
      split at h
      · injection h with h
        subst h
        exact (findObject_mem_of ho)
      · cases h
    · cases ho
  obtain ⟨k, -, rfl⟩ := List.mem_map.1 this
  unfold chainObject at hc
  split at hc
  · injection hc with hc
    subst hc
    simp
  · cases hc

end Go3mf
