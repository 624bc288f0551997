import Verif.Lemmas.RtWritable
import Verif.Model.Production
import Verif.Props.C33

/-!
# C36: production attributes
-/

namespace Go3mf

open Spec

/-! ## Encode then decode -/

/-- The production groups among the attributes of an element. -/
def Spec.production (any : AnyAttr) : List AttrGroup := any.filter fun g => match g with
  | .prodBuild _ => true
  | .prodItem _ _ => true
  | .prodObject _ => true
  | .prodComponent _ _ => true
  | _ => false

/-- The production groups of a model: of the build, the items, the objects, and the components of each object without mesh
(the components of an object with a mesh are not written, see C28). -/
def Spec.productions (m : Model) : List AttrGroup × List (List AttrGroup) × List (List AttrGroup × List (List AttrGroup)) :=
  (production m.build.anyAttr, m.build.items.map fun it => production it.anyAttr,
    m.resources.objects.map fun o => (production o.anyAttr,
      match o.mesh, o.components with
      | none, some cs => cs.component.map fun c => production c.anyAttr
      | _, _ => []))

/-- **C36** (encode then decode): the UUID and path attributes of the build, of every item, object and component are the same
after encoding and decoding, if the UUIDs are valid and the texts are texts (`Writable`). -/
theorem C36_roundtrip_partial (env : Env) (mem : Nat → Str → Str) (prec : Int) (m : Model) (hw : Writable env m) :
    ∃ m', unmarshalModel env mem (printOps (fun _ => []) (m.ops prec)) .zero = some (m', .ok) ∧ productions m' = productions m := by
  refine ⟨m.back prec, decode_marshal (writable_dom hw) False.elim, ?_⟩
  simp only [productions, Model.back, Build.back, Resources.back, List.map_map]
  refine Prod.ext rfl (Prod.ext ?_ ?_)
  · apply List.map_congr_left
    intro it _
    rfl
  · apply List.map_congr_left
    intro o _
    simp only [Function.comp, Object.back]
    cases hm : o.mesh with
    | some x => rfl
    | none =>
      cases hc : o.components with
      | none => rfl
      | some cs =>
        refine Prod.ext rfl ?_
        simp [Components.back, Component.back]

/-- A model with production attributes. -/
def exProd : Model :=
  { Model.zero with
    extensions := [⟨nsProduction, b!"p", true⟩]
    build :=
      { items := [⟨1, .zero, [], ⟨[], []⟩, [.prodItem b!"f81d4fae-7dec-11d0-a765-00a0c91e6bf6" b!"/3D/a.model"]⟩]
        anyAttr := [.prodBuild b!"f81d4fae-7dec-11d0-a765-00a0c91e6bf6"] } }

/-- What is read back from a model. -/
def prodBack (m : Model) : Option (List AttrGroup × List (List AttrGroup) × List (List AttrGroup × List (List AttrGroup))) :=
  match unmarshalModel exEnv (fun _ t => t) (printOps (fun _ => []) (m.ops 4)) .zero with
  | some (m', .ok) => some (productions m')
  | _ => none

example : Writable exEnv exProd := by
  have hd : Declared exProd.extensions nsProduction :=
    ⟨by decide +kernel, ⟨nsProduction, b!"p", true⟩, by simp [exProd], rfl⟩
  have hu : IsUUID b!"f81d4fae-7dec-11d0-a765-00a0c91e6bf6" := (C19_rejects_partial _ (by decide)).1 (by decide +kernel)
  refine ⟨?_, by decide +kernel, text_closed (by decide +kernel), text_closed (by decide +kernel), attrsOk_nil,
    by simp [exProd, Model.zero], by simp [exProd, Model.zero], by simp [exProd, Model.zero, Resources.zero],
    by simp [exProd, Model.zero, Resources.zero], attrsOk_nil, ?_, ?_, by simp [exProd, Model.zero]⟩
  · intro x hx
    simp only [exProd, List.mem_singleton] at hx
    subst hx
    exact letter_writable (by decide +kernel) (by decide +kernel)
  · intro it hit
    simp only [exProd, List.mem_singleton] at hit
    subst hit
    refine ⟨text_closed (by decide), groupWritable_nil, by simp, ?_⟩
    intro g hg
    simp only [List.mem_singleton] at hg
    subst hg
    exact ⟨rfl, hd, rfl, hu, text_closed (by decide +kernel)⟩
  · refine ⟨by simp [exProd], ?_⟩
    intro g hg
    simp only [exProd, List.mem_singleton] at hg
    subst hg
    exact ⟨rfl, hd, rfl, hu⟩

example : prodBack exProd = some (productions exProd) ∧ (productions exProd).1 ≠ [] := by decide +kernel

/-- An item that has a path and no UUID.  It is decoded from a file without error. -/
def exPath : Model :=
  { Model.zero with
    extensions := [⟨nsProduction, b!"p", true⟩]
    build := { items := [⟨1, .zero, [], ⟨[], []⟩, [.prodItem [] b!"/3D/a.model"]⟩], anyAttr := [] } }

def pathBack : Option (List (List AttrGroup)) :=
  match unmarshalModel exEnv (fun _ t => t)
    b!"<model xmlns=\"http://schemas.microsoft.com/3dmanufacturing/core/2015/02\" xmlns:p=\"http://schemas.microsoft.com/3dmanufacturing/production/2015/06\"><build><item objectid=\"1\" p:path=\"/3D/a.model\"/></build></model>"
    .zero with
  | some (m', .ok) => some (m'.build.items.map (·.anyAttr))
  | _ => none

/-- An item with a path and without UUID is decoded without error, but it is written with an empty UUID, which is not
accepted: decoding fails. -/
theorem C36_empty_false : pathBack = some (exPath.build.items.map (·.anyAttr)) ∧ prodBack exPath = none := by decide +kernel

/-! ## SetMissingUUIDs -/

/-- The places of production attributes. -/
inductive Spec.Place
  | build | item | object | component

/-- The production attributes of a place. -/
def Spec.Place.group : Place → Str → Str → AttrGroup
  | .build, u, _ => .prodBuild u
  | .item, u, p => .prodItem u p
  | .object, u, _ => .prodObject u
  | .component, u, p => .prodComponent u p

/-- No attributes of this place. -/
def Spec.Place.none (k : Place) (any : AnyAttr) : Prop := ∀ g ∈ any, ∀ u p, g ≠ k.group u p

/-- The first production attributes are `g`. -/
def Spec.Place.first (k : Place) (any pre : AnyAttr) (u p : Str) (post : AnyAttr) : Prop :=
  any = pre ++ k.group u p :: post ∧ k.none pre

/-- A UUID is there. -/
def Spec.Place.has (k : Place) (any : AnyAttr) : Prop := ∃ pre u p post, k.first any pre u p post ∧ u ≠ []

/-- What the attributes become: those with a UUID are the same; otherwise a valid UUID is put into the production attributes,
and into new ones if there are none. -/
structure Spec.Given (k : Place) (any any' : AnyAttr) : Prop where
  keep : k.has any → any' = any
  fill : ∀ pre p post, k.first any pre [] p post → ∃ u, IsUUID u ∧ any' = pre ++ k.group u p :: post
  new : k.none any → ∃ u, IsUUID u ∧ any' = any ++ [k.group u []]

/-- For components. -/
structure Spec.GivenComponent (c c' : Component) : Prop where
  attrs : Given .component c.anyAttr c'.anyAttr
  same : c' = { c with anyAttr := c'.anyAttr }

structure Spec.GivenItem (i i' : Item) : Prop where
  attrs : Given .item i.anyAttr i'.anyAttr
  same : i' = { i with anyAttr := i'.anyAttr }

structure Spec.GivenComponents (cs cs' : Components) : Prop where
  component : List.Forall₂ GivenComponent cs.component cs'.component
  same : cs' = { cs with component := cs'.component }

structure Spec.GivenObject (o o' : Object) : Prop where
  attrs : Given .object o.anyAttr o'.anyAttr
  components : Option.Rel GivenComponents o.components o'.components
  same : o' = { o with anyAttr := o'.anyAttr, components := o'.components }

structure Spec.GivenResources (r r' : Resources) : Prop where
  objects : List.Forall₂ GivenObject r.objects r'.objects
  same : r' = { r with objects := r'.objects }

structure Spec.GivenChild (c c' : Str × ChildModel) : Prop where
  resources : GivenResources c.2.resources c'.2.resources
  same : c' = (c.1, { c.2 with resources := c'.2.resources })

section
variable {rnd : Nat → UUIDBytes}

theorem fill_given {k : Place} {sel : AttrGroup → Option Str} {u : Str} (hu : IsUUID u)
    (hsel : ∀ g, (∃ v p, g = k.group v p ∧ sel g = some v) ∨ ((∀ v p, g ≠ k.group v p) ∧ sel g = none))
    (hput : ∀ v p, AttrGroup.setUUID u (k.group v p) = k.group u p) (hinj : ∀ v p v' p', k.group v p = k.group v' p' → v = v')
    (any : AnyAttr) : Given k any (fillAttr sel AttrGroup.setUUID (fun u => k.group u []) u [] any).1 := by
  have key : ∀ (rest all : AnyAttr), k.none all → Given k (all ++ rest) (fillAttr sel AttrGroup.setUUID (fun u => k.group u []) u all rest).1 := by
    intro rest
    induction rest with
    | nil =>
      intro all hall
      rw [List.append_nil, fillAttr]
      refine ⟨?_, ?_, fun _ => ⟨u, hu, rfl⟩⟩
      · rintro ⟨pre, v, p, post, ⟨rfl, -⟩, -⟩
        exact absurd rfl (hall (k.group v p) (by simp) v p)
      · rintro pre p post ⟨rfl, -⟩
        exact absurd rfl (hall (k.group [] p) (by simp) [] p)
    | cons g gs ih =>
      intro all hall
      rw [fillAttr]
      rcases hsel g with ⟨v, p, rfl, hs⟩ | ⟨hno, hs⟩
      · rw [hs]
        -- the first production attributes are the ones at hand
        have huniq : ∀ {pre v' p' post}, k.first (all ++ k.group v p :: gs) pre v' p' post →
            pre = all ∧ k.group v p = k.group v' p' ∧ gs = post := by
          rintro pre v' p' post ⟨he, hpre⟩
          rcases List.append_eq_append_iff.1 he with ⟨a, h1, h2⟩ | ⟨a, h1, h2⟩
          · cases a with
            | nil =>
              simp only [List.append_nil, List.nil_append, List.cons.injEq] at h1 h2
              exact ⟨h1, h2.1, h2.2⟩
            | cons x a =>
              simp only [List.cons_append, List.cons.injEq] at h2
              exact absurd rfl (hpre (k.group v p) (by rw [h1, ← h2.1]; simp) v p)
          · cases a with
            | nil =>
              simp only [List.append_nil, List.nil_append, List.cons.injEq] at h1 h2
              exact ⟨h1.symm, h2.1.symm, h2.2.symm⟩
            | cons x a =>
              simp only [List.cons_append, List.cons.injEq] at h2
              exact absurd rfl (hall (k.group v' p') (by rw [h1, ← h2.1]; simp) v' p')
        by_cases hv : v = []
        · subst hv
          simp only [if_true]
          refine ⟨?_, ?_, ?_⟩
          · rintro ⟨pre, v', p', post, hf, hne⟩
            exact absurd (hinj _ _ _ _ (huniq hf).2.1).symm hne
          · intro pre p' post hf
            obtain ⟨rfl, e, rfl⟩ := huniq hf
            refine ⟨u, hu, ?_⟩
            rw [e, hput]
          · intro hn
            exact absurd rfl (hn (k.group [] p) (by simp) [] p)
        · simp only [hv, if_false]
          refine ⟨fun _ => rfl, ?_, ?_⟩
          · intro pre p' post hf
            exact absurd (hinj _ _ _ _ (huniq hf).2.1) hv
          · intro hn
            exact absurd rfl (hn (k.group v p) (by simp) v p)
      · rw [hs]
        have hall' : k.none (all ++ [g]) := by
          intro x hx v p
          rcases List.mem_append.1 hx with hx | hx
          · exact hall x hx v p
          · simp only [List.mem_singleton] at hx
            subst hx
            exact hno v p
        have := ih (all ++ [g]) hall'
        simpa using this
  exact key any [] (by intro g hg; simp at hg)

theorem uuid_new (h : ∀ k, (rnd k).length = 16) (k : Nat) : IsUUID (uuidNew (rnd k)) := .inl (C18_canonical _ (h k))

theorem setAll_forall {α : Type} {R : α → α → Prop} {f : α → Nat → α × Nat} (h : ∀ a k, R a (f a k).1) :
    ∀ (l : List α) (k : Nat), List.Forall₂ R l (setAll f l k).1
  | [], _ => .nil
  | a :: as, k => .cons (h a k) (setAll_forall h as _)

theorem item_given (h : ∀ k, (rnd k).length = 16) (it : Item) (k : Nat) : GivenItem it (it.setUUID rnd k).1 := by
  refine ⟨fill_given (k := .item) (uuid_new h k) ?_ (fun _ _ => rfl) (by simp [Place.group]) it.anyAttr, rfl⟩
  intro g
  cases g <;> simp [AttrGroup.itemUUID, Place.group]

theorem component_given (h : ∀ k, (rnd k).length = 16) (c : Component) (k : Nat) : GivenComponent c (c.setUUID rnd k).1 := by
  refine ⟨fill_given (k := .component) (uuid_new h k) ?_ (fun _ _ => rfl) (by simp [Place.group]) c.anyAttr, rfl⟩
  intro g
  cases g <;> simp [AttrGroup.componentUUID, Place.group]

theorem object_given (h : ∀ k, (rnd k).length = 16) (o : Object) (k : Nat) : GivenObject o (o.setUUID rnd k).1 := by
  have ha := fill_given (k := .object) (sel := AttrGroup.objectUUID) (uuid_new h k)
    (by intro g; cases g <;> simp [AttrGroup.objectUUID, Place.group]) (fun _ _ => rfl) (by simp [Place.group]) o.anyAttr
  unfold Object.setUUID
  cases hc : o.components with
  | none => exact ⟨ha, by rw [hc]; exact .none, by simp [hc]⟩
  | some cs =>
    exact ⟨ha, by rw [hc]; exact .some ⟨setAll_forall (component_given h) _ _, rfl⟩, rfl⟩

theorem child_given (h : ∀ k, (rnd k).length = 16) (c : Str × ChildModel) (k : Nat) : GivenChild c (setChild rnd c k).1 :=
  ⟨⟨setAll_forall (object_given h) _ _, rfl⟩, rfl⟩

/-- **C36** (`SetMissingUUIDs`): every item, object and component of the root model and of the child models that has a UUID is
left alone, and every one without gets a valid UUID; a build without production attributes gets one.  Nothing else
changes.  What is missing: a build whose production attributes have an empty UUID (`C36_build_false`). -/
theorem C36_missing_partial (h : ∀ k, (rnd k).length = 16) (m : Model) :
    let m' := m.setMissingUUIDs rnd
    (¬ Place.build.none m.build.anyAttr → m'.build.anyAttr = m.build.anyAttr) ∧
    (Place.build.none m.build.anyAttr → ∃ u, IsUUID u ∧ m'.build.anyAttr = m.build.anyAttr ++ [.prodBuild u]) ∧
    List.Forall₂ GivenItem m.build.items m'.build.items ∧
    GivenResources m.resources m'.resources ∧
    List.Forall₂ GivenChild m.childs m'.childs ∧
    m' = { m with
      build := { m.build with anyAttr := m'.build.anyAttr, items := m'.build.items }, resources := m'.resources
      childs := m'.childs } := by
  have hget : ∀ any : AnyAttr, getBuildAttr any = none ↔ Place.build.none any := by
    intro any
    induction any with
    | nil => simp [getBuildAttr, Place.none]
    | cons g gs ih =>
      cases g <;> simp [getBuildAttr, Place.none, Place.group] at ih ⊢ <;> exact ih
  have hitems : (m.build.setUUID rnd 0).1.items = m.build.items := by
    unfold Build.setUUID
    cases getBuildAttr m.build.anyAttr <;> rfl
  refine ⟨?_, ?_, ?_, ⟨setAll_forall (object_given h) _ _, rfl⟩, setAll_forall (child_given h) _ _, rfl⟩
  · intro hb
    rw [← hget] at hb
    simp only [Model.setMissingUUIDs, Build.setUUID]
    cases hg : getBuildAttr m.build.anyAttr with
    | none => exact absurd hg hb
    | some u => rfl
  · intro hb
    rw [← hget] at hb
    simp only [Model.setMissingUUIDs, Build.setUUID, hb]
    exact ⟨_, uuid_new h 0, rfl⟩
  · simp only [Model.setMissingUUIDs]
    rw [hitems]
    exact setAll_forall (item_given h) _ _

end

/-! ## The UUIDs given are different -/

/-- The UUID in the first production attributes of a place; empty if there are none. -/
def Spec.Place.uuid (k : Place) : AnyAttr → Str
  | [] => []
  | g :: gs =>
    match k, g with
    | .build, .prodBuild u => u
    | .item, .prodItem u _ => u
    | .object, .prodObject u => u
    | .component, .prodComponent u _ => u
    | k, _ => Spec.Place.uuid k gs

/-- The UUIDs of an object and its components. -/
def Spec.objectUUIDs (o : Object) : List Str :=
  Place.object.uuid o.anyAttr ::
    match o.components with
    | none => []
    | some cs => cs.component.map fun c => Place.component.uuid c.anyAttr

/-- The UUIDs of all places of a model, empty where there is none. -/
def Spec.allUUIDs (m : Model) : List Str :=
  Place.build.uuid m.build.anyAttr :: ((m.build.items.map fun i => Place.item.uuid i.anyAttr) ++
    ((m.childs.flatMap fun c => c.2.resources.objects.flatMap objectUUIDs) ++ m.resources.objects.flatMap objectUUIDs))

/-- Replace the empty texts by the values of a sequence. -/
def fillFrom (f : Nat → Str) : Nat → List Str → List Str
  | _, [] => []
  | k, x :: xs => if x = [] then f k :: fillFrom f (k + 1) xs else x :: fillFrom f k xs

theorem fillFrom_append (f : Nat → Str) : ∀ (k : Nat) (xs ys : List Str),
    fillFrom f k (xs ++ ys) = fillFrom f k xs ++ fillFrom f (k + xs.count []) ys
  | k, [], ys => by simp [fillFrom]
  | k, x :: xs, ys => by
    by_cases hx : x = []
    · subst hx
      simp only [List.cons_append, fillFrom, if_true, fillFrom_append f (k + 1) xs ys, List.count_cons_self]
      rw [show k + 1 + xs.count [] = k + (xs.count [] + 1) by omega]
    · simp only [List.cons_append, fillFrom, hx, if_false, fillFrom_append f k xs ys]
      rw [List.count_cons_of_ne (by simpa using hx)]

theorem fillFrom_mem {f : Nat → Str} : ∀ {k : Nat} {xs : List Str} {y : Str}, y ∈ fillFrom f k xs →
    (y ∈ xs ∧ y ≠ []) ∨ ∃ j, k ≤ j ∧ j < k + xs.count [] ∧ y = f j
  | k, [], y, h => by simp [fillFrom] at h
  | k, x :: xs, y, h => by
    by_cases hx : x = []
    · subst hx
      simp only [fillFrom, if_true, List.mem_cons] at h
      rw [List.count_cons_self]
      rcases h with rfl | h
      · exact Or.inr ⟨k, le_refl _, by omega, rfl⟩
      · rcases fillFrom_mem h with h | ⟨j, hj, hj', h⟩
        · exact Or.inl ⟨by simp [h.1], h.2⟩
        · exact Or.inr ⟨j, by omega, by omega, h⟩
    · simp only [fillFrom, hx, if_false, List.mem_cons] at h
      rw [List.count_cons_of_ne (by simpa using hx)]
      rcases h with rfl | h
      · exact Or.inl ⟨by simp, hx⟩
      · rcases fillFrom_mem h with h | ⟨j, hj, hj', h⟩
        · exact Or.inl ⟨by simp [h.1], h.2⟩
        · exact Or.inr ⟨j, hj, hj', h⟩

theorem fillFrom_nodup {f : Nat → Str} : ∀ {k : Nat} {xs : List Str},
    (∀ i j, i < k + xs.count [] → j < k + xs.count [] → f i = f j → i = j) → (xs.filter (· ≠ [])).Nodup →
    (∀ x ∈ xs, ∀ j < k + xs.count [], x ≠ f j) → (fillFrom f k xs).Nodup
  | k, [], _, _, _ => by simp [fillFrom]
  | k, x :: xs, hf, h1, h2 => by
    by_cases hx : x = []
    · subst hx
      have h1' : (xs.filter (· ≠ [])).Nodup := by simpa using h1
      rw [List.count_cons_self] at hf h2
      have h2' : ∀ y ∈ xs, ∀ j < k + 1 + xs.count [], y ≠ f j := fun y hy j hj => h2 y (by simp [hy]) j (by omega)
      simp only [fillFrom, if_true, List.nodup_cons]
      refine ⟨fun hm => ?_, fillFrom_nodup (fun i j hi hj => hf i j (by omega) (by omega)) h1' h2'⟩
      rcases fillFrom_mem hm with h | ⟨j, hj, hj', h⟩
      · exact h2' _ h.1 k (by omega) rfl
      · have := hf _ _ (by omega) (by omega) h
        omega
    · have h1' : x ∉ xs.filter (· ≠ []) ∧ (xs.filter (· ≠ [])).Nodup := by
        rw [List.filter_cons_of_pos (by simpa using hx), List.nodup_cons] at h1
        exact h1
      rw [List.count_cons_of_ne (by simpa using hx)] at hf h2
      have h2' : ∀ y ∈ xs, ∀ j < k + xs.count [], y ≠ f j := fun y hy => h2 y (by simp [hy])
      simp only [fillFrom, hx, if_false, List.nodup_cons]
      refine ⟨fun hm => ?_, fillFrom_nodup hf h1'.2 h2'⟩
      rcases fillFrom_mem hm with h | ⟨j, _, hj, h⟩
      · exact h1'.1 (by simpa [hx] using h.1)
      · exact h2 x (by simp) j hj h

section
variable {rnd : Nat → UUIDBytes}

/-- The function `step` fills the UUIDs `us` of what it is applied to. -/
def Fills {α : Type} (rnd : Nat → UUIDBytes) (us : α → List Str) (step : α → Nat → α × Nat) : Prop :=
  ∀ a k, us (step a k).1 = fillFrom (fun k => uuidNew (rnd k)) k (us a) ∧ (step a k).2 = k + (us a).count []

theorem fills_all {α : Type} {us : α → List Str} {step : α → Nat → α × Nat} (h : Fills rnd us step) :
    Fills rnd (fun l : List α => l.flatMap us) (setAll step) := by
  intro l
  induction l with
  | nil => intro k; simp [setAll, fillFrom]
  | cons a as ih =>
    intro k
    obtain ⟨h1, h2⟩ := h a k
    obtain ⟨h3, h4⟩ := ih (step a k).2
    simp only at h3 h4
    simp only [setAll, List.flatMap_cons]
    rw [fillFrom_append, h1, h3, h4, h2, List.count_append]
    exact ⟨rfl, by omega⟩

theorem uuidNew_ne_nil (h : ∀ k, (rnd k).length = 16) (k : Nat) : uuidNew (rnd k) ≠ [] := by
  intro he
  have := canonical_length (C18_canonical _ (h k))
  rw [he] at this
  simp at this

theorem fill_uuid {k : Place} {sel : AttrGroup → Option Str} {u : Str} {j : Nat}
    (hsel : ∀ g gs, k.uuid (g :: gs) = (sel g).getD (k.uuid gs))
    (hput : ∀ g v, sel g = some v → sel (AttrGroup.setUUID u g) = some u) {new : Str → AttrGroup}
    (hnew : sel (new u) = some u) : ∀ (any all : AnyAttr), (∀ g ∈ all, sel g = none) →
    k.uuid (fillAttr sel AttrGroup.setUUID new u all any).1 = (if k.uuid any = [] then u else k.uuid any) ∧
      after j (fillAttr sel AttrGroup.setUUID new u all any).2 = j + [k.uuid any].count [] := by
  have skip : ∀ (all rest : AnyAttr), (∀ g ∈ all, sel g = none) → k.uuid (all ++ rest) = k.uuid rest := by
    intro all rest
    induction all with
    | nil => intro _; rfl
    | cons g gs ih =>
      intro hall
      rw [List.cons_append, hsel, hall g (by simp), ih (fun x hx => hall x (by simp [hx]))]
      rfl
  have hnil : k.uuid [] = [] := by cases k <;> rfl
  intro any
  induction any with
  | nil =>
    intro all hall
    simp [fillAttr, skip all _ hall, hsel, hnew, hnil, after]
  | cons g gs ih =>
    intro all hall
    rw [fillAttr, hsel g gs]
    cases hs : sel g with
    | none =>
      simp only [Option.getD_none]
      exact ih (all ++ [g]) (by
        intro x hx
        simp only [List.mem_append, List.mem_singleton] at hx
        rcases hx with hx | rfl
        · exact hall x hx
        · exact hs)
    | some v =>
      simp only [Option.getD_some]
      by_cases hv : v = []
      · simp [hv, skip all _ hall, hsel, hput g v hs, after]
      · simp [hv, skip all _ hall, hsel, hs, after]

theorem item_fills : Fills rnd (fun i : Item => [Place.item.uuid i.anyAttr]) (Item.setUUID rnd) := by
  intro it k
  obtain ⟨h1, h2⟩ := fill_uuid (k := .item) (sel := AttrGroup.itemUUID) (u := uuidNew (rnd k)) (j := k)
    (by intro g gs; cases g <;> rfl) (by intro g v h; cases g <;> simp [AttrGroup.itemUUID, AttrGroup.setUUID] at h ⊢)
    (new := fun u => .prodItem u []) rfl it.anyAttr [] (by simp)
  simp only [Item.setUUID, h1, h2, fillFrom, and_true]
  split <;> rfl

theorem component_fills : Fills rnd (fun c : Component => [Place.component.uuid c.anyAttr]) (Component.setUUID rnd) := by
  intro c k
  obtain ⟨h1, h2⟩ := fill_uuid (k := .component) (sel := AttrGroup.componentUUID) (u := uuidNew (rnd k)) (j := k)
    (by intro g gs; cases g <;> rfl)
    (by intro g v h; cases g <;> simp [AttrGroup.componentUUID, AttrGroup.setUUID] at h ⊢)
    (new := fun u => .prodComponent u []) rfl c.anyAttr [] (by simp)
  simp only [Component.setUUID, h1, h2, fillFrom, and_true]
  split <;> rfl

theorem flatMap_single {α : Type} (g : α → Str) (l : List α) : l.flatMap (fun a => [g a]) = l.map g := by
  induction l <;> simp_all

theorem object_fills : Fills rnd objectUUIDs (Object.setUUID rnd) := by
  intro o k
  obtain ⟨h1, h2⟩ := fill_uuid (k := .object) (sel := AttrGroup.objectUUID) (u := uuidNew (rnd k)) (j := k)
    (by intro g gs; cases g <;> rfl)
    (by intro g v h; cases g <;> simp [AttrGroup.objectUUID, AttrGroup.setUUID] at h ⊢)
    (new := .prodObject) rfl o.anyAttr [] (by simp)
  have hsplit : ∀ xs : List Str, fillFrom (fun k => uuidNew (rnd k)) k (Place.object.uuid o.anyAttr :: xs) =
      (if Place.object.uuid o.anyAttr = [] then uuidNew (rnd k) else Place.object.uuid o.anyAttr) ::
        fillFrom (fun k => uuidNew (rnd k)) (k + [Place.object.uuid o.anyAttr].count []) xs := by
    intro xs
    by_cases h : Place.object.uuid o.anyAttr = []
    · simp [fillFrom, h]
    · simp [fillFrom, h]
  have hcount : ∀ xs : List Str, (Place.object.uuid o.anyAttr :: xs).count [] =
      [Place.object.uuid o.anyAttr].count [] + xs.count [] := by
    intro xs
    rw [← List.count_append]
    rfl
  unfold Object.setUUID objectUUIDs
  cases hc : o.components with
  | none =>
    simp only
    rw [hsplit, h1, h2]
    simp [fillFrom]
  | some cs =>
    obtain ⟨h3, h4⟩ := fills_all (component_fills (rnd := rnd)) cs.component (k + [Place.object.uuid o.anyAttr].count [])
    simp only [flatMap_single] at h3 h4
    simp only
    exact ⟨by rw [hsplit, h1, h2, h3], by rw [h2, h4, hcount (cs.component.map _), Nat.add_assoc]⟩

theorem child_fills : Fills rnd (fun c : Str × ChildModel => c.2.resources.objects.flatMap objectUUIDs) (setChild rnd) := by
  intro c k
  exact fills_all object_fills c.2.resources.objects k

/-- **C36** (`SetMissingUUIDs`, the UUIDs are unique): if the UUIDs of the model are different from each other, and those
that `uuid.New` returns, as often as there are places without UUID, are different from each other and from those of the
model, then afterwards no two places of the model have the same UUID, and none is empty. -/
theorem C36_unique (h : ∀ k, (rnd k).length = 16) (m : Model)
    (hinj : ∀ i j, i < (allUUIDs m).count [] → j < (allUUIDs m).count [] → uuidNew (rnd i) = uuidNew (rnd j) → i = j)
    (hb : Place.build.none m.build.anyAttr ∨ Place.build.uuid m.build.anyAttr ≠ [])
    (hm : ((allUUIDs m).filter (· ≠ [])).Nodup)
    (hnew : ∀ u ∈ allUUIDs m, ∀ k < (allUUIDs m).count [], u ≠ uuidNew (rnd k)) :
    (allUUIDs (m.setMissingUUIDs rnd)).Nodup ∧ [] ∉ allUUIDs (m.setMissingUUIDs rnd) := by
  have hbuild : Place.build.uuid (m.build.setUUID rnd 0).1.anyAttr =
        (if Place.build.uuid m.build.anyAttr = [] then uuidNew (rnd 0) else Place.build.uuid m.build.anyAttr) ∧
      (m.build.setUUID rnd 0).2 = 0 + [Place.build.uuid m.build.anyAttr].count [] ∧
      (m.build.setUUID rnd 0).1.items = m.build.items := by
    have hget : ∀ any : AnyAttr, Place.build.uuid any = (getBuildAttr any).getD [] := by
      intro any
      induction any with
      | nil => rfl
      | cons g gs ih => cases g <;> simp [Place.uuid, getBuildAttr, ih]
    have happ : ∀ any : AnyAttr, getBuildAttr any = none → ∀ u, Place.build.uuid (any ++ [.prodBuild u]) = u := by
      intro any
      induction any with
      | nil => intro _ u; rfl
      | cons g gs ih =>
        intro hg u
        cases g <;> simp [Place.uuid, getBuildAttr] at hg ⊢ <;> exact ih hg u
    unfold Build.setUUID
    cases hg : getBuildAttr m.build.anyAttr with
    | none =>
      have : Place.build.uuid m.build.anyAttr = [] := by rw [hget, hg]; rfl
      simp [this, happ _ hg]
    | some u =>
      have hu : Place.build.uuid m.build.anyAttr ≠ [] := by
        rcases hb with hb | hb
        · exfalso
          have : ∀ any : AnyAttr, Place.build.none any → getBuildAttr any = none := by
            intro any
            induction any with
            | nil => simp [getBuildAttr]
            | cons g gs ih =>
              cases g <;> simp [getBuildAttr, Place.none, Place.group] at ih ⊢ <;> exact ih
          rw [this _ hb] at hg
          simp at hg
        · exact hb
      simp [hu]
  obtain ⟨hb1, hb2, hb3⟩ := hbuild
  have hall : allUUIDs (m.setMissingUUIDs rnd) = fillFrom (fun k => uuidNew (rnd k)) 0 (allUUIDs m) := by
    obtain ⟨i1, i2⟩ := fills_all (item_fills (rnd := rnd)) m.build.items (m.build.setUUID rnd 0).2
    simp only [flatMap_single] at i1 i2
    obtain ⟨c1, c2⟩ := fills_all (child_fills (rnd := rnd)) m.childs
      (setAll (Item.setUUID rnd) m.build.items (m.build.setUUID rnd 0).2).2
    obtain ⟨o1, _⟩ := fills_all (object_fills (rnd := rnd)) m.resources.objects
      (setAll (setChild rnd) m.childs (setAll (Item.setUUID rnd) m.build.items (m.build.setUUID rnd 0).2).2).2
    simp only at c1 c2 o1
    have hcons : ∀ xs : List Str, fillFrom (fun k => uuidNew (rnd k)) 0 (Place.build.uuid m.build.anyAttr :: xs) =
        (if Place.build.uuid m.build.anyAttr = [] then uuidNew (rnd 0) else Place.build.uuid m.build.anyAttr) ::
          fillFrom (fun k => uuidNew (rnd k)) (0 + [Place.build.uuid m.build.anyAttr].count []) xs := by
      intro xs
      by_cases h : Place.build.uuid m.build.anyAttr = []
      · simp [fillFrom, h]
      · simp [fillFrom, h]
    unfold allUUIDs Model.setMissingUUIDs
    simp only
    rw [hb3, hb1, hcons, i1, c1, o1, c2, i2, hb2, fillFrom_append, fillFrom_append]
  rw [hall]
  refine ⟨fillFrom_nodup (by simpa using hinj) hm (by simpa using hnew), fun hmem => ?_⟩
  rcases fillFrom_mem hmem with h1 | ⟨j, _, _, h1⟩
  · exact h1.2 rfl
  · exact uuidNew_ne_nil h j h1.symm

end

/-- Bytes of a random source. -/
def exRnd (k : Nat) : UUIDBytes := List.replicate 16 (UInt8.ofNat k)

/-- A build without UUID, an item with one, an item with a path only. -/
def exMissing : Model :=
  { Model.zero with
    build :=
      { items := [⟨1, .zero, [], ⟨[], []⟩, [.prodItem b!"f81d4fae-7dec-11d0-a765-00a0c91e6bf6" b!"/3D/a.model"]⟩,
          ⟨1, .zero, [], ⟨[], []⟩, [.prodItem [] b!"/3D/a.model"]⟩]
        anyAttr := [] } }

example : (∀ k, (exRnd k).length = 16) ∧
    (exMissing.setMissingUUIDs exRnd).build.anyAttr = [.prodBuild b!"00000000-0000-4000-8000-000000000000"] ∧
    (exMissing.setMissingUUIDs exRnd).build.items.map (·.anyAttr) =
      [[.prodItem b!"f81d4fae-7dec-11d0-a765-00a0c91e6bf6" b!"/3D/a.model"],
        [.prodItem b!"01010101-0101-4101-8101-010101010101" b!"/3D/a.model"]] :=
  ⟨fun k => by simp [exRnd], by decide +kernel, by decide +kernel⟩

example : (allUUIDs exMissing).count [] = 2 ∧
    (∀ i j, i < (allUUIDs exMissing).count [] → j < (allUUIDs exMissing).count [] →
      uuidNew (exRnd i) = uuidNew (exRnd j) → i = j) ∧
    (Place.build.none exMissing.build.anyAttr ∨ Place.build.uuid exMissing.build.anyAttr ≠ []) ∧
    ((allUUIDs exMissing).filter (· ≠ [])).Nodup ∧
    (∀ u ∈ allUUIDs exMissing, ∀ k < (allUUIDs exMissing).count [], u ≠ uuidNew (exRnd k)) := by
  have h2 : (allUUIDs exMissing).count [] = 2 := by decide +kernel
  rw [h2]
  refine ⟨rfl, fun i j hi hj => ?_, Or.inl ?_, by decide +kernel, by decide +kernel⟩
  · have key : ∀ i j : Fin 2, uuidNew (exRnd i.val) = uuidNew (exRnd j.val) → i = j := by decide +kernel
    intro he
    exact congrArg Fin.val (key ⟨i, hi⟩ ⟨j, hj⟩ he)
  · intro g hg
    simp [exMissing] at hg

/-- A build with production attributes and without UUID gets none. -/
theorem C36_build_false (rnd : Nat → UUIDBytes) :
    ({ Model.zero with build := ⟨[], [.prodBuild []]⟩ }.setMissingUUIDs rnd).build.anyAttr = [.prodBuild []] := rfl

end Go3mf
