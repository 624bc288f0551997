import Verif.Spec.Exact
import Verif.Lemmas.AlikeModel
import Verif.Lemmas.StableNum
import Verif.Props.C34

/-!
# C28: what is written without any loss

For models of which every number survives (`Spec.ExactModel`), among them all models without transforms at the precision −1, the
model that is read is equal to the one that was written.
-/

namespace Go3mf
open Spec

theorem forall2_eq {α : Type} {R : α → α → Prop} {l l' : List α} (h : List.Forall₂ R l l') (he : ∀ a ∈ l, ∀ b, R a b → b = a) :
    l' = l := by
  induction h with
  | nil => rfl
  | cons h1 _ ih =>
    rw [he _ List.mem_cons_self _ h1, ih fun a ha => he a (List.mem_cons_of_mem _ ha)]

theorem optionRel_eq {α : Type} {R : α → α → Prop} {l l' : Option α} (h : Option.Rel R l l') (he : ∀ a, l = some a → ∀ b, R a b → b = a) :
    l' = l := by
  cases h with
  | none => rfl
  | some h1 => rw [he _ rfl _ h1]

section
variable {prec : Int}

theorem exact_point2 {p q : Point2D} (h : NearPoint2 prec p q) (he : ExactPoint2 prec p) : q = p := by
  cases p; cases q
  have h1 := near_stable h.x he.x
  have h2 := near_stable h.y he.y
  simp only at h1 h2
  subst h1 h2
  rfl

theorem exact_point3 {p q : Point3D} (h : NearPoint3 prec p q) (he : ExactPoint3 prec p) : q = p := by
  cases p; cases q
  have h1 := near_stable h.x he.x
  have h2 := near_stable h.y he.y
  have h3 := near_stable h.z he.z
  simp only at h1 h2 h3
  subst h1 h2 h3
  rfl

theorem exact_transform {t t' : Matrix} (h : NearTransform t t') (he : ExactTransform t) : t' = t := by
  rcases h with ⟨h1, rfl⟩ | ⟨h1, h2, h3, h4, h5, h6⟩
  · rcases he with rfl | ⟨h, -⟩
    · rfl
    · exact absurd h1 h
  · rcases he with rfl | ⟨-, g2, g3, g4, g5, g6⟩
    · refine absurd (Or.inl ?_) h1
      exact List.forall₂_same.2 fun x hx => by
        have : x = .zero := by simpa [entries, Matrix.zero] using hx
        rw [this]
        exact ⟨rfl, rfl, rfl⟩
    · have h7 := forall2_eq h2 fun x hx y hy => near_stable hy (g2 x hx)
      cases t; cases t'
      simp only [cells, List.cons.injEq, and_true] at h7 h3 h4 h5 h6 g3 g4 g5 g6
      simp only [Matrix.mk.injEq]
      refine ⟨?_, ?_, ?_, ?_, ?_, ?_, ?_, ?_, ?_, ?_, ?_, ?_, ?_, ?_, ?_, ?_⟩ <;> simp [*]

theorem exact_slice {s s' : Slice} (h : NearSlice prec s s') (he : ExactSlice prec s) : s' = s := by
  have h1 := near_stable h.topZ he.topZ
  have h2 := forall2_eq h.vertices fun p hp q hq => exact_point2 hq (he.vertices p hp)
  have h3 := h.polygons
  cases s; cases s'
  simp only at h1 h2 h3
  rw [h1, h2, h3]

theorem exact_stack {s s' : SliceStack} (h : NearStack prec s s') (he : ExactStack prec s) : s' = s := by
  have h1 : s'.bottomZ = s.bottomZ := by
    rcases h.bottomZ with ⟨h1, h2⟩ | ⟨h1, h2⟩
    · rcases he.bottomZ with h | h
      · rw [h2, h]
      · exact absurd h1 h.1
    · rcases he.bottomZ with h | h
      · rw [h] at h1
        exact absurd ⟨rfl, rfl, rfl⟩ h1
      · exact near_stable h2 h.2
  have h2 := forall2_eq h.slices fun p hp q hq => exact_slice hq (he.slices p hp)
  have h3 := h.refs
  have h4 := h.id
  cases s; cases s'
  simp only at h1 h2 h3 h4
  rw [h1, h2, h3, h4]

theorem exact_res {x x' : ExtRes} (h : NearRes prec x x') (he : ExactRes prec x) : x' = x := by
  cases h with
  | colorGroup | texture2D | multi => rfl
  | texture2DGroup h1 h2 h3 =>
    have h4 := forall2_eq h3 fun p hp q hq => exact_point2 hq (he p hp)
    rename_i g g'
    cases g; cases g'
    simp only at h1 h2 h4
    rw [h1, h2, h4]
  | composite h1 h2 h3 h4 =>
    have h5 := forall2_eq h4 fun p hp q hq => forall2_eq hq fun x hx y hy => near_stable hy (he p hp x hx)
    rename_i g g'
    cases g; cases g'
    simp only at h1 h2 h3 h5
    rw [h1, h2, h3, h5]
  | sliceStack h => rw [exact_stack h he]

theorem exact_beam {b b' : Beam} (h : NearBeam prec b b') (h1 : Stable prec b.r1) (h2 : Stable prec b.r2) : b' = b := by
  obtain ⟨g1, g2, g3, g4, g5, g6⟩ := h
  have g3 := near_stable g3 h1
  have g4 := near_stable g4 h2
  cases b; cases b'
  simp only at g1 g2 g3 g4 g5 g6
  rw [g1, g2, g3, g4, g5, g6]

theorem exact_lattice {b b' : BeamLattice} (h : NearLattice prec b b') (he : StableLattice prec b) : b' = b := by
  obtain ⟨g1, g2, g3, g4, g5, g6, g7, g8⟩ := h
  have g4 := forall2_eq g4 fun x hx y hy => exact_beam hy (he.beams x hx).1 (he.beams x hx).2
  have g6 := near_stable g6 he.minLength
  have g7 := near_stable g7 he.radius
  cases b; cases b'
  simp only at g1 g2 g3 g4 g5 g6 g7 g8
  rw [g1, g2, g3, g4, g5, g6, g7, g8]

theorem exact_elem {x x' : AnyElem} (h : NearElem prec x x') (he : ExactElem prec x) : x' = x := by
  cases h with
  | tokens => rfl
  | res h => rw [exact_res h he]
  | beamLattice h => rw [exact_lattice h he]

theorem exact_asset {x x' : Asset} (h : NearAsset prec x x') (he : ExactAsset prec x) : x' = x := by
  cases h with
  | base | unknown => rfl
  | res h => rw [exact_res h he]

theorem exact_triangle {pid pindex : UInt32} {t t' : Triangle} (h : NearTriangle pid pindex t t')
    (he : (t.pid, t.p1, t.p2, t.p3) = effective pid pindex t) : t' = t := by
  obtain ⟨g1, g2, g3, g4, g5⟩ := h
  rw [← he] at g4
  cases t; cases t'
  simp only [Prod.mk.injEq] at g1 g2 g3 g4 g5
  rw [g1, g2, g3, g4.1, g4.2.1, g4.2.2.1, g4.2.2.2, g5]

theorem exact_mesh {pid pindex : UInt32} {m m' : Mesh} (h : NearMesh prec pid pindex m m') (he : ExactMesh prec pid pindex m) : m' = m := by
  obtain ⟨g1, g2, g3, g4, g5, g6⟩ := h
  have g1 := forall2_eq g1 fun x hx y hy => exact_point3 hy (he.vertices x hx)
  have g3 := forall2_eq g3 fun x hx y hy => exact_triangle hy (he.triangles x hx)
  have g6 := forall2_eq g6 fun x hx y hy => exact_elem hy (he.any x hx)
  cases m; cases m'
  simp only at g1 g2 g3 g4 g5 g6
  rw [g1, g2, g3, g4, g5, g6]

theorem exact_components {c c' : Components} (h : NearComponents c c') (he : ∀ x ∈ c.component, ExactTransform x.transform) : c' = c := by
  obtain ⟨g1, g2⟩ := h
  have g1 := forall2_eq g1 fun x hx y hy => (by
    obtain ⟨k1, k2, k3⟩ := hy
    have k2 := exact_transform k2 (he x hx)
    cases x; cases y
    simp only at k1 k2 k3
    rw [k1, k2, k3] : y = x)
  cases c; cases c'
  simp only at g1 g2
  rw [g1, g2]

theorem exact_object {o o' : Object} (h : NearObject prec o o') (he : ExactObject prec o) : o' = o := by
  obtain ⟨g1, g2, g3, g4, g5, g6, g7, g8, g9, g10, g11⟩ := h
  have g9 := optionRel_eq g9 fun x hx y hy => exact_mesh hy (he.mesh x hx)
  have g10 := optionRel_eq g10 fun x hx y hy => exact_components hy (he.components x hx)
  cases o; cases o'
  simp only at g1 g2 g3 g4 g5 g6 g7 g8 g9 g10 g11
  rw [g1, g2, g3, g4, g5, g6, g7, g8, g9, g10, g11]

theorem exact_resources {rs rs' : Resources} (h : NearResources prec rs rs') (he : ExactResources prec rs) : rs' = rs := by
  obtain ⟨g1, g2, g3⟩ := h
  have g1 := forall2_eq g1 fun x hx y hy => exact_asset hy (he.assets x hx)
  have g2 := forall2_eq g2 fun x hx y hy => exact_object hy (he.objects x hx)
  cases rs; cases rs'
  simp only at g1 g2 g3
  rw [g1, g2, g3]

theorem exact_build {b b' : Build} (h : NearBuild b b') (he : ∀ x ∈ b.items, ExactTransform x.transform) : b' = b := by
  obtain ⟨g1, g2⟩ := h
  have g1 := forall2_eq g1 fun x hx y hy => (by
    obtain ⟨k1, k2, k3, k4, k5⟩ := hy
    have k2 := exact_transform k2 (he x hx)
    cases x; cases y
    simp only at k1 k2 k3 k4 k5
    rw [k1, k2, k3, k4, k5] : y = x)
  cases b; cases b'
  simp only at g1 g2
  rw [g1, g2]

/-- What is near to a model all of whose numbers survive has the same content. -/
theorem exact_model {m m' : Model} (h : NearModel prec m m') (he : ExactModel prec m) :
    m' = { m with
      path := m'.path
      attachments := m'.attachments
      childs := m'.childs
      rootRelationships := m'.rootRelationships
      relationships := m'.relationships } := by
  obtain ⟨g1, g2, g3, g4, g5, g6, g7, g8, g9⟩ := h
  have g6 := exact_resources g6 he.resources
  have g7 := exact_build g7 he.items
  have g8 := forall2_eq g8 fun x hx y hy => exact_elem hy (he.any x hx)
  cases m; cases m'
  simp only at g1 g2 g3 g4 g5 g6 g7 g8 g9
  rw [g1, g2, g3, g4, g5, g6, g7, g8, g9]

end

/-- **C28**: if every number survives, what is read from the part that `Encode` writes is what was written; the path, the other parts
and the relationships are those of the model into which it is read. -/
theorem C28_exact (env : Env) (mem : Nat → Str → Str) (strict : Bool) (prec : Int) (m m0 : Model) (path : Str)
    (hw : Writable env m) (hk : ModelOk prec m) (he : ExactModel prec m)
    (h0 : m0 = { Model.zero with
      path := m0.path, attachments := m0.attachments, childs := m0.childs, rootRelationships := m0.rootRelationships
      relationships := m0.relationships })
    (hpath : path = m0.path) :
    decodeEvents ⟨env, true, mem⟩ strict (fun _ => false) m0 path (lex .eof (.new (m.partBytes prec))).1
        (lex .eof (.new (m.partBytes prec))).2 = some ({ m with
          path := m0.path
          attachments := m0.attachments
          childs := m0.childs
          rootRelationships := m0.rootRelationships
          relationships := m0.relationships }, .ok) := by
  obtain ⟨m', h1, h2, h3, h4, h5, h6, h7⟩ := C28_part env mem strict prec m m0 path hw hk h0 hpath
  rw [h1, exact_model h2 he, h3, h4, h5, h6, h7]

/-! ## Precision −1 -/

/-- What is left of the conditions at a negative precision: transforms that survive with three decimals, triangles with the property that
applies to them, and no slice stack that begins at −0. -/
structure Spec.ShortestOk (m : Model) : Prop where
  components : ∀ o ∈ m.resources.objects, ∀ cs, o.components = some cs → ∀ c ∈ cs.component, ExactTransform c.transform
  items : ∀ i ∈ m.build.items, ExactTransform i.transform
  triangles : ∀ o ∈ m.resources.objects, ∀ x, o.mesh = some x → ∀ t ∈ x.triangles, (t.pid, t.p1, t.p2, t.p3) = effective o.pid o.pindex t
  bottoms : ∀ s, Asset.res (.sliceStack s) ∈ m.resources.assets ∨ AnyElem.res (.sliceStack s) ∈ m.any ∨
    (∃ o ∈ m.resources.objects, ∃ x, o.mesh = some x ∧ AnyElem.res (.sliceStack s) ∈ x.any) →
    SameValue s.bottomZ .zero → s.bottomZ = .zero

theorem shortest_exact {prec : Int} (hp : prec < 0) {m : Model} (h : ShortestOk m) : ExactModel prec m := by
  have hs : ∀ x, Stable prec x := fun _ => .inl hp
  have h2 : ∀ p, ExactPoint2 prec p := fun _ => ⟨hs _, hs _⟩
  have hres : ∀ x : ExtRes, (∀ s, x = .sliceStack s → SameValue s.bottomZ .zero → s.bottomZ = .zero) → ExactRes prec x := by
    intro x hx
    cases x with
    | texture2DGroup g => exact fun p _ => h2 p
    | composite g => exact fun _ _ x _ => hs x
    | sliceStack s =>
      refine ⟨?_, fun l _ => ⟨hs _, fun p _ => h2 p⟩⟩
      by_cases h0 : SameValue s.bottomZ .zero
      · exact .inl (hx s rfl h0)
      · exact .inr ⟨h0, hs _⟩
    | _ => trivial
  have helem : ∀ x : AnyElem, (∀ s, x = .res (.sliceStack s) → SameValue s.bottomZ .zero → s.bottomZ = .zero) → ExactElem prec x := by
    intro x hx
    cases x with
    | tokens => trivial
    | res x => exact hres x fun s e => hx s (by rw [e])
    | beamLattice b => exact ⟨hs _, hs _, fun x _ => ⟨hs _, hs _⟩⟩
  refine ⟨⟨fun a ha => ?_, fun o ho => ⟨fun x hx => ⟨fun p _ => ⟨hs _, hs _, hs _⟩, h.triangles o ho x hx, fun e he =>
    helem e fun s e' => h.bottoms s (.inr (.inr ⟨o, ho, x, hx, e' ▸ he⟩))⟩, h.components o ho⟩⟩, h.items, fun e he =>
    helem e fun s e' => h.bottoms s (.inr (.inl (e' ▸ he)))⟩
  cases a with
  | res x => exact hres x fun s e => h.bottoms s (.inl (e ▸ ha))
  | _ => trivial

/-- **C28**: with the precision −1 of `strconv.FormatFloat` nothing is lost but what `ShortestOk` names. -/
theorem C28_shortest (env : Env) (mem : Nat → Str → Str) (prec : Int) (hp : prec < 0) (m : Model) (hw : Writable env m)
    (hk : ModelOk prec m) (hs : ShortestOk m) :
    unmarshalModel env mem (printOps (fun _ => []) (m.ops prec)) .zero = some ({ m with
      path := []
      attachments := []
      childs := []
      rootRelationships := []
      relationships := [] }, .ok) := by
  rw [decode_marshal (writable_dom hw) False.elim, exact_model (near_model hk) (shortest_exact hp hs)]
  rfl

/-! ## Models that meet the conditions -/

/-- `exModel` with the property of the object at its first triangle. -/
def exExact : Model :=
  { exModel with
    resources := { exModel.resources with
      objects := exModel.resources.objects.map fun o => { o with
        mesh := o.mesh.map fun x => { x with
          triangles := [⟨0, 1, 2, 1, 1, 1, 1, []⟩, ⟨0, 1, 3, 1, 0, 1, 0, []⟩] } } } }

theorem exExact_ok : ShortestOk exExact := by
  refine ⟨?_, ?_, ?_, ?_⟩
  · intro o ho cs hcs c hc
    simp only [exExact, exModel, List.map_cons, List.map_nil, List.mem_cons, List.not_mem_nil, or_false] at ho
    rcases ho with rfl | rfl
    · cases hcs
    · cases hcs
      simp only [List.mem_singleton] at hc
      subst hc
      refine .inr ⟨?_, ?_, rfl, rfl, rfl, rfl⟩
      · rintro (h | h)
        · simp only [entries, Matrix.zero, Matrix.identity, List.forall₂_cons] at h
          exact absurd h.1.2.2 (by decide +kernel)
        · simp only [entries, Matrix.zero, Matrix.identity, List.forall₂_cons] at h
          exact absurd h.2.2.2.2.2.2.2.2.2.2.2.2.1.2.2 (by decide +kernel)
      · intro x hx
        refine stable_of_survives (prec := 3) ?_
        revert x
        decide +kernel
  · intro i hi
    simp only [exExact, exModel, List.mem_singleton] at hi
    subst hi
    exact .inl rfl
  · intro o ho x hx t ht
    simp only [exExact, exModel, List.map_cons, List.map_nil, List.mem_cons, List.not_mem_nil, or_false] at ho
    rcases ho with rfl | rfl
    · cases hx
      simp only [List.mem_cons, List.not_mem_nil, or_false] at ht
      rcases ht with rfl | rfl <;> rfl
    · cases hx
  · rintro s (h | h | ⟨o, ho, x, hx, h⟩)
    · simp [exExact, exModel] at h
    · simp [exExact, exModel, Model.zero] at h
    · simp only [exExact, exModel, List.map_cons, List.map_nil, List.mem_cons, List.not_mem_nil, or_false] at ho
      rcases ho with rfl | rfl
      · cases hx
        simp [exMesh] at h
      · cases hx

theorem exExact_writable : Writable exEnv exExact := by
  have h := exWritable
  refine ⟨h.extensions, h.distinct, h.language, h.thumbnail, h.attrs, h.noXml, h.metadata, h.assets, ?_, h.resourcesAttrs, h.items,
    h.buildAttrs, h.any⟩
  intro o ho
  obtain ⟨o', ho', rfl⟩ := List.mem_map.1 ho
  obtain ⟨h1, h2, h3, h4, h5, h6, h7, -⟩ := h.objects o' ho'
  refine ⟨h1, h2, h3, h4, ?_, h6, h7, ?_⟩
  swap
  · intro x hx
    obtain ⟨x', hx', rfl⟩ := Option.map_eq_some_iff.1 hx
    exact undisturbed_plain (by simp)
  intro x hx
  obtain ⟨x', hx', rfl⟩ := Option.map_eq_some_iff.1 hx
  obtain ⟨g1, g2, g3, -, g5⟩ := h5 x' hx'
  refine ⟨g1, g2, g3, ?_, g5⟩
  intro t ht
  simp only [List.mem_cons, List.not_mem_nil, or_false] at ht
  rcases ht with rfl | rfl <;> exact ⟨attrsOk_nil, by simp [unknownValues]⟩

theorem exExact_modelOk (prec : Int) : ModelOk prec exExact := by
  have h := exOk prec
  refine ⟨h.assets, ?_, h.any⟩
  intro o ho
  obtain ⟨o', ho', rfl⟩ := List.mem_map.1 ho
  obtain ⟨h1, h2, h3⟩ := h.objects o' ho'
  refine ⟨h1.imp (fun e => by rw [e]; rfl) id, fun e => h2 (by simpa using e), ?_⟩
  intro x hx
  obtain ⟨x', hx', rfl⟩ := Option.map_eq_some_iff.1 hx
  exact h3 x' hx'

/-- The model, with 0.1 among its coordinates, a transform, metadata and unknown attributes, comes back as it was. -/
example (mem : Nat → Str → Str) : unmarshalModel exEnv mem (printOps (fun _ => []) (exExact.ops (-1))) .zero = some (exExact, .ok) :=
  C28_shortest exEnv mem (-1) (by decide) exExact exExact_writable (exExact_modelOk _) exExact_ok

/-! ## What is lost at every precision -/

/-- A slice stack from −0 on. -/
def exBottom : SliceStack := ⟨1, .fin true 0 (by decide), [], []⟩

@[inherit_doc exBottom] def exBottomModel : Model :=
  { Model.zero with
    extensions := [⟨nsSlices, b!"s", true⟩]
    resources := { assets := [.res (.sliceStack exBottom)], objects := [], anyAttr := [] } }

/-- The sign of a zero at the bottom of a slice stack is lost. -/
theorem C28_bottom_false (prec : Int) (mem : Nat → Str → Str) : ∃ m s m' s', Writable exEnv m ∧ ModelOk prec m ∧
    unmarshalModel exEnv mem (printOps (fun _ => []) (m.ops prec)) .zero = some (m', .ok) ∧
    m.resources.assets = [.res (.sliceStack s)] ∧ m'.resources.assets = [.res (.sliceStack s')] ∧
    s.bottomZ.signBit = true ∧ s'.bottomZ.signBit = false := by
  have hd : Declared exBottomModel.extensions nsSlices := ⟨by decide +kernel, ⟨nsSlices, b!"s", true⟩, by simp [exBottomModel], rfl⟩
  have hw : Writable exEnv exBottomModel := by
    refine ⟨?_, by decide +kernel, text_closed (by decide +kernel), text_closed (by decide +kernel), attrsOk_nil,
      by simp [exBottomModel, Model.zero], by simp [exBottomModel, Model.zero], ?_, by simp [exBottomModel], attrsOk_nil,
      by simp [exBottomModel, Model.zero, Build.zero], attrsOk_nil, by simp [exBottomModel, Model.zero]⟩
    · intro x hx
      simp only [exBottomModel, List.mem_singleton] at hx
      subst hx
      exact letter_writable (by decide +kernel) (by decide +kernel)
    · intro a ha
      simp only [exBottomModel, List.mem_singleton] at ha
      subst ha
      exact ⟨rfl, hd, by simp [exBottom]⟩
  have hk : ModelOk prec exBottomModel := by
    refine ⟨?_, by simp [exBottomModel], ⟨by simp [exBottomModel, Model.zero], by simp [exBottomModel, Model.zero]⟩⟩
    intro a ha
    simp only [exBottomModel, List.mem_singleton] at ha
    subst ha
    exact fun l hl => absurd hl (by simp [exBottom])
  obtain ⟨m', h1, h2⟩ := C28_marshal exEnv mem prec exBottomModel hw hk
  have h3 := h2.resources.assets
  obtain ⟨s', h4, h5⟩ : ∃ s', m'.resources.assets = [.res (.sliceStack s')] ∧ NearStack prec exBottom s' := by
    revert h3
    generalize m'.resources.assets = l
    rintro h3
    change List.Forall₂ (NearAsset prec) [.res (.sliceStack exBottom)] l at h3
    cases h3 with
    | cons h h' =>
      cases h'
      cases h with
      | res h =>
        cases h with
        | sliceStack h => exact ⟨_, rfl, h⟩
  refine ⟨_, _, m', s', hw, hk, h1, rfl, h4, rfl, ?_⟩
  rcases h5.bottomZ with ⟨-, h⟩ | ⟨h, -⟩
  · rw [h]; rfl
  · exact absurd ⟨rfl, rfl, by simp [floatVal, exBottom, F32.zero, F32.key]⟩ h

/-- Transforms have three decimals at every precision: a translation by 0.0004 is lost. -/
theorem C28_transform_false (prec : Int) (mem : Nat → Str → Str) : ∃ m m' t t', Writable exEnv m ∧ ModelOk prec m ∧
    unmarshalModel exEnv mem (printOps (fun _ => []) (m.ops prec)) .zero = some (m', .ok) ∧
    m.build.items.map (·.transform) = [t] ∧ m'.build.items.map (·.transform) = [t'] ∧
    0.0003 < floatVal t.m12 ∧ floatVal t'.m12 = 0 := by
  let m : Model := { Model.zero with
    build := ⟨[{ Item.zero with
      transform := { Matrix.identity with
        m12 := .ofBits 0x39d1b717 } }], []⟩ }
  have hw : Writable exEnv m :=
    ⟨by rintro x ⟨⟩, by decide, Text.nil, Text.nil, attrsOk_nil, by rintro g ⟨⟩, by rintro g ⟨⟩, by rintro g ⟨⟩, by rintro g ⟨⟩,
      attrsOk_nil, by
        intro i hi
        simp only [m, List.mem_singleton] at hi
        subst hi
        exact ⟨Text.nil, groupWritable_nil, attrsOk_nil⟩, attrsOk_nil, by rintro g ⟨⟩⟩
  have hk : ModelOk prec m := ⟨by rintro g ⟨⟩, by rintro g ⟨⟩, ⟨by decide, by rintro g ⟨⟩⟩⟩
  refine ⟨m, _, _, ((m.back prec).build.items.map (·.transform)).headD .zero, hw, hk, decode_marshal (writable_dom hw) False.elim, rfl, rfl, ?_, ?_⟩
  · have h : (3 * scale : ℤ) < 10000 * (F32.ofBits 0x39d1b717).key := by decide +kernel
    have h' : (3 * scale : ℚ) < 10000 * (F32.ofBits 0x39d1b717).key := by exact_mod_cast h
    show (0.0003 : ℚ) < floatVal (.ofBits 0x39d1b717)
    unfold floatVal
    rw [lt_div_iff₀ (by exact_mod_cast scale_pos)]
    norm_num
    linarith
  · have h : ({ Matrix.identity with
        m12 := .ofBits 0x39d1b717 } : Matrix).written.m12.key = 0 := by decide +kernel
    show floatVal ({ Matrix.identity with
        m12 := .ofBits 0x39d1b717 } : Matrix).written.m12 = 0
    unfold floatVal
    rw [h]
    simp

end Go3mf
