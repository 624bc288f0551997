import Verif.Lemmas.NumOrder
import Verif.Spec.Number
import Verif.Props.C43

/-!
# C44: validation of slice stacks
-/

namespace Go3mf

open F32

theorem accepted_stack {env : Env} {m : Model} (hwf : m.WF) (h : m.Accepts env) (hreg : env.slices = true)
    (hd : Spec.Declares m nsSlices) {p : Str} {rs : Resources} (hp : Spec.IsPart m p rs) {r : SliceStack}
    (ha : Asset.res (.sliceStack r) ∈ rs.assets) : r.validate m p = [] := by
  obtain ⟨fuel, h⟩ := isPart_accepts hwf h hp
  rw [resources_nil] at h
  have h1 := (h.2.1 _ ha).2
  unfold extAssetErrs at h1
  rw [List.flatMap_eq_nil_iff] at h1
  obtain ⟨e, he, hns⟩ := hd
  have h2 := h1 e he
  rw [hns, load_slices env hreg] at h2
  exact h2

/-- The order of two floats that are not NaN (infinities included). -/
theorem not_le_iff {x y : F32} (hx : x.isNaN = false) (hy : y.isNaN = false) : x.le y = false ↔ y.key < x.key := by
  rw [← Bool.not_eq_true, F32.le_iff]
  simp [hx, hy]

theorem slicesErrs_nil {bottom : F32} : ∀ (ss : List Slice) (j : Nat) (last : F32), slicesErrs bottom j last ss = [] →
    (∀ s ∈ ss, s.topZ.eq .zero = false ∧ s.topZ.lt bottom = false ∧
      (s.polygons.length = 0 ∧ s.vertices.length = 0 ∨ 2 ≤ s.vertices.length ∧ s.polygons.length ≠ 0 ∧
        ∀ p ∈ s.polygons, 1 ≤ p.segments.length)) ∧
    List.IsChain (fun x y : F32 => y.le x = false) (last :: ss.map Slice.topZ) := by
  intro ss
  induction ss with
  | nil => intro j last _; exact ⟨by simp, by simp⟩
  | cons s ss ih =>
    intro j last h
    rw [slicesErrs] at h
    simp only [List.append_eq_nil_iff] at h
    obtain ⟨⟨⟨h1, h2⟩, h3⟩, h4⟩ := h
    obtain ⟨h5, h6⟩ := ih (j + 1) s.topZ h4
    refine ⟨?_, ?_⟩
    · intro x hx
      rcases List.mem_cons.1 hx with rfl | hx
      · refine ⟨?_, ?_, ?_⟩
        · by_cases hz : x.topZ.eq .zero = true
          · simp [hz] at h1
          · simpa using hz
        · by_cases hz : x.topZ.eq .zero = true
          · simp [hz] at h1
          · rw [if_neg hz, ite_nil] at h1
            simpa using h1
        · by_cases he : x.polygons.length = 0 ∧ x.vertices.length = 0
          · exact .inl he
          · rw [if_neg he] at h3
            simp only [List.append_eq_nil_iff, ite_nil, errsIdx_nil, not_lt] at h3
            refine .inr ⟨h3.1.1, h3.1.2, fun p hp => ?_⟩
            obtain ⟨i, hi⟩ := List.getElem?_of_mem hp
            exact h3.2 i p hi
      · exact h5 x hx
    · rw [List.map_cons, List.isChain_cons_cons]
      refine ⟨?_, h6⟩
      rw [ite_nil] at h2
      simpa using h2

theorem chain_get {l : List F32} (h : List.IsChain (fun x y : F32 => y.le x = false) l) (i : Nat) (a b : F32) (ha : l[i]? = some a)
    (hb : l[i + 1]? = some b) : b.le a = false := by
  induction l generalizing i with
  | nil => simp at ha
  | cons x l ih =>
    cases l with
    | nil => simp at hb
    | cons y l =>
      rw [List.isChain_cons_cons] at h
      cases i with
      | zero =>
        simp at ha hb
        subst ha hb
        exact h.1
      | succ i => exact ih h.2 i (by simpa using ha) (by simpa using hb)

/-- **C44**, as far as it goes: if no height is NaN, the tops increase strictly and are not below the bottom; every
polygon has a segment.  Missing: a top above the bottom (`C44_bottom_false`), heights that are NaN (`C44_nan_false`), and
the vertices of polygons (`C44_vertices_false`, `C44_repeat_false`), none of which is checked. -/
theorem C44_tops_partial (env : Env) (m : Model) (hwf : m.WF) (h : m.Accepts env) (hreg : env.slices = true)
    (hd : Spec.Declares m nsSlices) (p : Str) (rs : Resources) (hp : Spec.IsPart m p rs) (r : SliceStack)
    (hr : Asset.res (.sliceStack r) ∈ rs.assets) (hb : r.bottomZ.isNaN = false) (hn : ∀ s ∈ r.slices, s.topZ.isNaN = false) :
    (∀ s ∈ r.slices, Spec.floatVal r.bottomZ ≤ Spec.floatVal s.topZ) ∧
    (∀ (i : Nat) (s t : Slice), r.slices[i]? = some s → r.slices[i + 1]? = some t →
      Spec.floatVal s.topZ < Spec.floatVal t.topZ) ∧
    ∀ s ∈ r.slices, ∀ q ∈ s.polygons, q.segments ≠ [] := by
  have h1 := accepted_stack hwf h hreg hd hp hr
  unfold SliceStack.validate at h1
  rw [List.append_eq_nil_iff] at h1
  obtain ⟨h2, h3⟩ := slicesErrs_nil _ _ _ h1.2
  have hsc : (0 : ℚ) < scale := by exact_mod_cast scale_pos
  refine ⟨fun s hs => ?_, fun i s t hi ht => ?_, fun s hs q hq => ?_⟩
  · have h4 := (h2 s hs).2.1
    have : r.bottomZ.key ≤ s.topZ.key := by
      by_contra hlt
      rw [not_le] at hlt
      have : s.topZ.lt r.bottomZ = true := (F32.lt_iff _ _).2 ⟨hn s hs, hb, hlt⟩
      rw [this] at h4
      cases h4
    unfold Spec.floatVal
    exact (div_le_div_iff_of_pos_right hsc).2 (by exact_mod_cast this)
  · have h4 : t.topZ.le s.topZ = false := by
      refine chain_get h3 (i + 1) s.topZ t.topZ ?_ ?_
      · simp [hi]
      · simp [ht]
    have := (not_le_iff (hn t (List.mem_of_getElem? ht)) (hn s (List.mem_of_getElem? hi))).1 h4
    unfold Spec.floatVal
    exact (div_lt_div_iff_of_pos_right hsc).2 (by exact_mod_cast this)
  · rintro he
    rcases (h2 s hs).2.2 with ⟨h4, -⟩ | ⟨-, -, h4⟩
    · rw [List.length_eq_zero_iff.1 h4] at hq; cases hq
    · have := h4 q hq
      rw [he] at this
      simp at this

/-- The references of an accepted stack lead to stacks of other parts without references, and a stack has either slices or
references. -/
theorem C44_refs (env : Env) (m : Model) (hwf : m.WF) (h : m.Accepts env) (hreg : env.slices = true)
    (hd : Spec.Declares m nsSlices) (p : Str) (rs : Resources) (hp : Spec.IsPart m p rs) (r : SliceStack)
    (hr : Asset.res (.sliceStack r) ∈ rs.assets) :
    ((r.slices = [] ∧ r.refs ≠ []) ∨ (r.slices ≠ [] ∧ r.refs = [])) ∧
    ∀ ref ∈ r.refs, ref.path ≠ p ∧ ∃ rs' st, Spec.PartAt m ref.path rs' ∧ Asset.res (.sliceStack st) ∈ rs'.assets ∧
      st.id = ref.sliceStackID ∧ st.refs = [] := by
  have h1 := accepted_stack hwf h hreg hd hp hr
  unfold SliceStack.validate at h1
  rw [List.append_eq_nil_iff, List.append_eq_nil_iff, ite_nil] at h1
  obtain ⟨⟨h2, h3⟩, -⟩ := h1
  refine ⟨?_, ?_⟩
  · by_cases h4 : r.slices = [] <;> by_cases h5 : r.refs = [] <;> simp_all
  · have gen : ∀ (l : List SliceRef) (i : Nat) (last : F32), refsErrs m p i last l = [] → ∀ ref ∈ l,
        ref.path ≠ p ∧ ∃ rs' st, Spec.PartAt m ref.path rs' ∧ Asset.res (.sliceStack st) ∈ rs'.assets ∧
          st.id = ref.sliceStackID ∧ st.refs = [] := by
      intro l
      induction l with
      | nil => intro i last _ ref hm; cases hm
      | cons x l ih =>
        intro i last h ref hm
        rw [refsErrs] at h
        by_cases hbad : x.path = [] ∨ x.path = p ∨ x.sliceStackID = 0
        · simp only [hbad, if_true, List.append_eq_nil_iff] at h
          exfalso
          obtain ⟨⟨a1, a2⟩, -⟩ := h
          rcases hbad with hb | hb | hb
          · simp [hb] at a1
          · by_cases he : x.path = []
            · simp [he] at a1
            · rw [if_neg he, ite_nil] at a1; exact a1 hb
          · simp [hb] at a2
        · rw [if_neg hbad] at h
          simp only [not_or] at hbad
          cases hf : m.findAsset x.path x.sliceStackID with
          | none => rw [hf] at h; cases h
          | some a =>
            rw [hf] at h
            cases a with
            | base _ => cases h
            | unknown _ _ => cases h
            | res q =>
              cases q with
              | sliceStack st =>
                simp only [List.append_eq_nil_iff, ite_nil, not_not, ne_eq] at h
                obtain ⟨⟨b1, -⟩, b3⟩ := h
                rcases List.mem_cons.1 hm with rfl | hm
                · refine ⟨hbad.2.1, ?_⟩
                  obtain ⟨rs', c1, c2⟩ := (C03_findAsset m _ _ _).1 hf
                  obtain ⟨c3, c4⟩ := isFirst_mem c2
                  exact ⟨rs', st, (partAt_iff m hwf _ _).1 c1, c3, c4, List.length_eq_zero_iff.1 b1⟩
                · exact ih _ _ b3 ref hm
              | _ => cases h
    exact gen r.refs 0 negMaxFloat h3

/-! ### Counterexamples -/

/-- A model with one slice stack. -/
def Spec.stackModel (r : SliceStack) : Model :=
  { Model.zero with
    extensions := [⟨nsSlices, b!"s", true⟩]
    resources := { Resources.zero with assets := [.res (.sliceStack r)] } }

/-- **C44** fails: the first slice may have no height. -/
theorem C44_bottom_false : ∃ (env : Env) (m : Model) (r : SliceStack) (s : Slice), m.WF ∧ m.Accepts env ∧ env.slices = true ∧
    Spec.Declares m nsSlices ∧ Asset.res (.sliceStack r) ∈ m.resources.assets ∧ s ∈ r.slices ∧ s.topZ = r.bottomZ := by
  refine ⟨.ascii true true true true, Spec.stackModel ⟨1, .one, [⟨.one, [], []⟩], []⟩, _, _, by decide, accepts_of 1 (by decide +kernel), rfl,
    ⟨_, List.mem_singleton.2 rfl, rfl⟩, List.mem_singleton.2 rfl, List.mem_singleton.2 rfl, rfl⟩

/-- **C44** fails: heights that are NaN are accepted. -/
theorem C44_nan_false : ∃ (env : Env) (m : Model) (r : SliceStack) (s : Slice), m.WF ∧ m.Accepts env ∧ env.slices = true ∧
    Spec.Declares m nsSlices ∧ Asset.res (.sliceStack r) ∈ m.resources.assets ∧ s ∈ r.slices ∧ s.topZ.isNaN = true := by
  refine ⟨.ascii true true true true, Spec.stackModel ⟨1, .one, [⟨.nan, [], []⟩], []⟩, _, _, by decide, accepts_of 1 (by decide +kernel), rfl,
    ⟨_, List.mem_singleton.2 rfl, rfl⟩, List.mem_singleton.2 rfl, List.mem_singleton.2 rfl, rfl⟩

/-- **C44** fails: a polygon may use vertices that do not exist. -/
theorem C44_vertices_false : ∃ (env : Env) (m : Model) (r : SliceStack) (s : Slice) (q : Polygon), m.WF ∧ m.Accepts env ∧
    env.slices = true ∧ Spec.Declares m nsSlices ∧ Asset.res (.sliceStack r) ∈ m.resources.assets ∧ s ∈ r.slices ∧
    q ∈ s.polygons ∧ ¬ q.startV.toNat < s.vertices.length := by
  refine ⟨.ascii true true true true, Spec.stackModel ⟨1, .zero, [⟨.one, [⟨.zero, .zero⟩, ⟨.one, .one⟩], [⟨9, [⟨9, 0, 0, 0⟩]⟩]⟩], []⟩, _, _, _,
    by decide, accepts_of 1 (by decide +kernel), rfl, ⟨_, List.mem_singleton.2 rfl, rfl⟩, List.mem_singleton.2 rfl,
    List.mem_singleton.2 rfl, List.mem_singleton.2 rfl, by decide⟩

/-- **C44** fails: a segment may lead from a vertex to itself. -/
theorem C44_repeat_false : ∃ (env : Env) (m : Model) (r : SliceStack) (s : Slice) (q : Polygon) (g : Segment), m.WF ∧ m.Accepts env ∧
    env.slices = true ∧ Spec.Declares m nsSlices ∧ Asset.res (.sliceStack r) ∈ m.resources.assets ∧ s ∈ r.slices ∧
    q ∈ s.polygons ∧ q.segments[0]? = some g ∧ g.v2 = q.startV := by
  refine ⟨.ascii true true true true, Spec.stackModel ⟨1, .zero, [⟨.one, [⟨.zero, .zero⟩, ⟨.one, .one⟩], [⟨1, [⟨1, 0, 0, 0⟩]⟩]⟩], []⟩, _, _, _,
    ⟨1, 0, 0, 0⟩, by decide, accepts_of 1 (by decide +kernel), rfl, ⟨_, List.mem_singleton.2 rfl, rfl⟩, List.mem_singleton.2 rfl,
    List.mem_singleton.2 rfl, List.mem_singleton.2 rfl, rfl, rfl⟩

/- The hypotheses of `C44_tops_partial` can be met. -/
example : (Spec.stackModel ⟨1, .zero, [⟨.one, [⟨.zero, .zero⟩, ⟨.one, .one⟩], [⟨0, [⟨1, 0, 0, 0⟩, ⟨0, 0, 0, 0⟩]⟩]⟩,
    ⟨F32.one.add .one, [], []⟩], []⟩).Accepts (.ascii true true true true) := accepts_of 1 (by decide +kernel)

end Go3mf
