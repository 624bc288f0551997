import Verif.Model.Box
import Verif.Lemmas.NumOrder
import Verif.Lemmas.Par
import Verif.Lemmas.NumRat

/-!
# C10: `Mesh.BoundingBox` is the tightest box
-/

namespace Go3mf

open F32

/-- All three coordinates are finite. -/
def Spec.FinitePoint (p : Point3D) : Prop := p.x.isFinite = true ∧ p.y.isFinite = true ∧ p.z.isFinite = true

/-- `p` lies in the box: between its corners in each coordinate, as rational numbers. -/
def Spec.Inside (b : Box) (p : Point3D) : Prop :=
  (Spec.floatVal b.min.x ≤ Spec.floatVal p.x ∧ Spec.floatVal p.x ≤ Spec.floatVal b.max.x) ∧
  (Spec.floatVal b.min.y ≤ Spec.floatVal p.y ∧ Spec.floatVal p.y ≤ Spec.floatVal b.max.y) ∧
  (Spec.floatVal b.min.z ≤ Spec.floatVal p.z ∧ Spec.floatVal p.z ≤ Spec.floatVal b.max.z)

theorem floatVal_le (x y : F32) : Spec.floatVal x ≤ Spec.floatVal y ↔ x.key ≤ y.key := by
  unfold Spec.floatVal
  have : (0 : ℚ) < scale := by exact_mod_cast scale_pos
  rw [div_le_div_iff_of_pos_right this]
  exact_mod_cast Iff.rfl

theorem inside_iff (b : Box) (p : Point3D) : Spec.Inside b p ↔
    (b.min.x.key ≤ p.x.key ∧ p.x.key ≤ b.max.x.key) ∧ (b.min.y.key ≤ p.y.key ∧ p.y.key ≤ b.max.y.key) ∧
    (b.min.z.key ≤ p.z.key ∧ p.z.key ≤ b.max.z.key) := by
  simp only [Spec.Inside, floatVal_le]

theorem min_key {x y : F32} (hx : x.isNaN = false) (hy : y.isNaN = false) :
    (x.min y).key = Min.min x.key y.key ∧ (x.min y).isNaN = false := by
  unfold F32.min
  by_cases h : x.lt y = true
  · rw [if_pos h]
    rw [lt_iff] at h
    exact ⟨by omega, hx⟩
  · rw [if_neg h]
    rw [lt_iff] at h
    refine ⟨?_, hy⟩
    have : ¬ x.key < y.key := fun h' => h ⟨hx, hy, h'⟩
    omega

theorem max_key {x y : F32} (hx : x.isNaN = false) (hy : y.isNaN = false) :
    (x.max y).key = Max.max x.key y.key ∧ (x.max y).isNaN = false := by
  unfold F32.max
  by_cases h : y.lt x = true
  · rw [if_pos h]
    rw [lt_iff] at h
    exact ⟨by omega, hx⟩
  · rw [if_neg h]
    rw [lt_iff] at h
    refine ⟨?_, hy⟩
    have : ¬ y.key < x.key := fun h' => h ⟨hy, hx, h'⟩
    omega

theorem min_cases (x y : F32) : x.min y = x ∨ x.min y = y := by unfold F32.min; split <;> simp
theorem max_cases (x y : F32) : x.max y = x ∨ x.max y = y := by unfold F32.max; split <;> simp

theorem maxVal_eq : F32.maxVal = .fin false maxMag rep_maxMag := mk_of_rep _ _ _

/-- Negation turns the order round, also of the infinities. -/
theorem neg_key (x : F32) : x.neg.key = -x.key := by
  cases x with
  | fin s m h => cases s <;> simp [F32.neg, F32.key]
  | inf s => cases s <;> simp [F32.neg, F32.key]
  | nan => rfl

theorem maxVal_key : F32.maxVal.key = maxMag ∧ F32.maxVal.neg.key = -maxMag ∧ F32.maxVal.isNaN = false ∧
    F32.maxVal.neg.isNaN = false ∧ F32.maxVal.isFinite = true ∧ F32.maxVal.neg.isFinite = true := by
  rw [maxVal_eq]
  simp [F32.neg, key, isNaN, isFinite]

/-- Folding `min` from the largest float. -/
theorem fold_min (xs : List F32) (hx : ∀ x ∈ xs, x.isFinite = true) (hne : xs ≠ []) :
    (∀ x ∈ xs, (xs.foldl F32.min F32.maxVal).key ≤ x.key) ∧ xs.foldl F32.min F32.maxVal ∈ xs := by
  have gen : ∀ (l : List F32) (acc : F32), acc.isNaN = false → (∀ x ∈ l, x.isFinite = true) →
      (∀ x ∈ acc :: l, (l.foldl F32.min acc).key ≤ x.key) ∧ l.foldl F32.min acc ∈ acc :: l := by
    intro l
    induction l with
    | nil => intro acc _ _; simp
    | cons a l ih =>
      intro acc hacc hl
      rw [List.foldl_cons]
      have ha := not_nan_of_finite (hl a (by simp))
      obtain ⟨hk, hn⟩ := min_key hacc ha
      obtain ⟨h1, h2⟩ := ih _ hn (fun x hx => hl x (by simp [hx]))
      constructor
      · intro x hx
        have h3 := h1 (acc.min a) (by simp)
        rw [hk] at h3
        rw [List.mem_cons, List.mem_cons] at hx
        rcases hx with rfl | rfl | hx
        · omega
        · omega
        · exact h1 x (by simp [hx])
      · rw [List.mem_cons] at h2
        rcases h2 with h2 | h2
        · rcases min_cases acc a with h | h <;> rw [h2, h] <;> simp
        · simp [h2]
  cases xs with
  | nil => exact absurd rfl hne
  | cons a l =>
    have ha := hx a (by simp)
    have h0 : F32.maxVal.min a = a := by
      unfold F32.min
      rw [if_neg]
      rw [lt_iff]
      rintro ⟨-, -, h⟩
      have := key_abs_le ha
      rw [maxVal_key.1] at h
      rw [abs_le] at this
      omega
    rw [List.foldl_cons, h0]
    exact gen l a (not_nan_of_finite ha) (fun x h => hx x (by simp [h]))

theorem fold_max (xs : List F32) (hx : ∀ x ∈ xs, x.isFinite = true) (hne : xs ≠ []) :
    (∀ x ∈ xs, x.key ≤ (xs.foldl F32.max F32.maxVal.neg).key) ∧ xs.foldl F32.max F32.maxVal.neg ∈ xs := by
  have gen : ∀ (l : List F32) (acc : F32), acc.isNaN = false → (∀ x ∈ l, x.isFinite = true) →
      (∀ x ∈ acc :: l, x.key ≤ (l.foldl F32.max acc).key) ∧ l.foldl F32.max acc ∈ acc :: l := by
    intro l
    induction l with
    | nil => intro acc _ _; simp
    | cons a l ih =>
      intro acc hacc hl
      rw [List.foldl_cons]
      have ha := not_nan_of_finite (hl a (by simp))
      obtain ⟨hk, hn⟩ := max_key hacc ha
      obtain ⟨h1, h2⟩ := ih _ hn (fun x hx => hl x (by simp [hx]))
      constructor
      · intro x hx
        have h3 := h1 (acc.max a) (by simp)
        rw [hk] at h3
        rw [List.mem_cons, List.mem_cons] at hx
        rcases hx with rfl | rfl | hx
        · omega
        · omega
        · exact h1 x (by simp [hx])
      · rw [List.mem_cons] at h2
        rcases h2 with h2 | h2
        · rcases max_cases acc a with h | h <;> rw [h2, h] <;> simp
        · simp [h2]
  cases xs with
  | nil => exact absurd rfl hne
  | cons a l =>
    have ha := hx a (by simp)
    have h0 : F32.maxVal.neg.max a = a := by
      unfold F32.max
      rw [if_neg]
      rw [lt_iff]
      rintro ⟨-, -, h⟩
      have := key_abs_le ha
      rw [maxVal_key.2.1] at h
      rw [abs_le] at this
      omega
    rw [List.foldl_cons, h0]
    exact gen l a (not_nan_of_finite ha) (fun x h => hx x (by simp [h]))

theorem foldl_extendPoint (vs : List Point3D) (b : Box) : vs.foldl Box.extendPoint b =
    ⟨⟨(vs.map (·.x)).foldl F32.min b.min.x, (vs.map (·.y)).foldl F32.min b.min.y, (vs.map (·.z)).foldl F32.min b.min.z⟩,
     ⟨(vs.map (·.x)).foldl F32.max b.max.x, (vs.map (·.y)).foldl F32.max b.max.y, (vs.map (·.z)).foldl F32.max b.max.z⟩⟩ := by
  induction vs generalizing b with
  | nil => rfl
  | cons v vs ih => rw [List.foldl_cons, ih]; rfl

/-- **C10**: the box of a non-empty mesh with finite coordinates contains every vertex, and each of its six faces
touches a vertex. -/
theorem C10_touches (m : Mesh) (hne : m.vertices ≠ []) (hf : ∀ v ∈ m.vertices, Spec.FinitePoint v) :
    (∀ v ∈ m.vertices, Spec.Inside m.boundingBox v) ∧
    (∃ v ∈ m.vertices, v.x = m.boundingBox.min.x) ∧ (∃ v ∈ m.vertices, v.y = m.boundingBox.min.y) ∧
    (∃ v ∈ m.vertices, v.z = m.boundingBox.min.z) ∧ (∃ v ∈ m.vertices, v.x = m.boundingBox.max.x) ∧
    (∃ v ∈ m.vertices, v.y = m.boundingBox.max.y) ∧ (∃ v ∈ m.vertices, v.z = m.boundingBox.max.z) := by
  have hl : ¬ m.vertices.length = 0 := by simpa using hne
  rw [Mesh.boundingBox, if_neg hl, foldl_extendPoint]
  have hm : ∀ f : Point3D → F32, m.vertices.map f ≠ [] := by intro f; simpa using hne
  have fx : ∀ x ∈ m.vertices.map (·.x), x.isFinite = true := by
    intro x hx; obtain ⟨v, hv, rfl⟩ := List.mem_map.1 hx; exact (hf v hv).1
  have fy : ∀ x ∈ m.vertices.map (·.y), x.isFinite = true := by
    intro x hx; obtain ⟨v, hv, rfl⟩ := List.mem_map.1 hx; exact (hf v hv).2.1
  have fz : ∀ x ∈ m.vertices.map (·.z), x.isFinite = true := by
    intro x hx; obtain ⟨v, hv, rfl⟩ := List.mem_map.1 hx; exact (hf v hv).2.2
  obtain ⟨a1, a2⟩ := fold_min _ fx (hm _)
  obtain ⟨b1, b2⟩ := fold_min _ fy (hm _)
  obtain ⟨c1, c2⟩ := fold_min _ fz (hm _)
  obtain ⟨d1, d2⟩ := fold_max _ fx (hm _)
  obtain ⟨e1, e2⟩ := fold_max _ fy (hm _)
  obtain ⟨f1, f2⟩ := fold_max _ fz (hm _)
  refine ⟨?_, ?_, ?_, ?_, ?_, ?_, ?_⟩
  · intro v hv
    rw [inside_iff]
    exact ⟨⟨a1 _ (List.mem_map_of_mem hv), d1 _ (List.mem_map_of_mem hv)⟩,
      ⟨b1 _ (List.mem_map_of_mem hv), e1 _ (List.mem_map_of_mem hv)⟩,
      ⟨c1 _ (List.mem_map_of_mem hv), f1 _ (List.mem_map_of_mem hv)⟩⟩
  · exact List.mem_map.1 a2
  · exact List.mem_map.1 b2
  · exact List.mem_map.1 c2
  · exact List.mem_map.1 d2
  · exact List.mem_map.1 e2
  · exact List.mem_map.1 f2

/-- **C10**: it is contained in every box that contains every vertex. -/
theorem C10_tightest (m : Mesh) (hne : m.vertices ≠ []) (hf : ∀ v ∈ m.vertices, Spec.FinitePoint v) (b : Box)
    (hb : ∀ v ∈ m.vertices, Spec.Inside b v) :
    ∀ p, Spec.Inside m.boundingBox p → Spec.Inside b p := by
  obtain ⟨-, ⟨v1, m1, e1⟩, ⟨v2, m2, e2⟩, ⟨v3, m3, e3⟩, ⟨v4, m4, e4⟩, ⟨v5, m5, e5⟩, ⟨v6, m6, e6⟩⟩ := C10_touches m hne hf
  intro p hp
  obtain ⟨⟨p1, p2⟩, ⟨p3, p4⟩, ⟨p5, p6⟩⟩ := hp
  rw [← e1] at p1
  rw [← e2] at p3
  rw [← e3] at p5
  rw [← e4] at p2
  rw [← e5] at p4
  rw [← e6] at p6
  exact ⟨⟨(hb v1 m1).1.1.trans p1, p2.trans (hb v4 m4).1.2⟩, ⟨(hb v2 m2).2.1.1.trans p3, p4.trans (hb v5 m5).2.1.2⟩,
    ⟨(hb v3 m3).2.2.1.trans p5, p6.trans (hb v6 m6).2.2.2⟩⟩

/-- **C10**: with no vertices it is the zero box. -/
theorem C10_empty (m : Mesh) (h : m.vertices = []) : m.boundingBox = ⟨⟨.zero, .zero, .zero⟩, ⟨.zero, .zero, .zero⟩⟩ := by
  simp [Mesh.boundingBox, h, Box.zero]

/- The box of (1,-2,0.5) and (-1,4,0.5). -/
example : { Mesh.zero with vertices := [⟨.one, ofBits 0xc0000000, ofBits 0x3f000000⟩, ⟨F32.one.neg, ofBits 0x40800000, ofBits 0x3f000000⟩] }.boundingBox =
    ⟨⟨F32.one.neg, ofBits 0xc0000000, ofBits 0x3f000000⟩, ⟨.one, ofBits 0x40800000, ofBits 0x3f000000⟩⟩ := by decide +kernel

end Go3mf
