import Verif.Model.Quant
import Verif.Lemmas.NumRat
import Verif.Lemmas.NumOrder
import Verif.Props.C05
import Mathlib.Tactic.Linarith
import Mathlib.Tactic.FieldSimp
import Mathlib.Tactic.Ring

/-!
# C54: vertices are merged only if they are close

Below 2147 units the points of a cell are a millionth of a unit apart, up to the precision of float32.
-/

namespace Go3mf

open F32

/-- The magnitude of `micron`. -/
def micronMag : Nat := micron.key.toNat

theorem micron_eq : ∃ h, micron = .fin false micronMag h := by
  have h : Rep micronMag := by decide +kernel
  refine ⟨h, ?_⟩
  have : micron = mk false micronMag := by decide +kernel
  rw [this, mk_of_rep]

theorem micron_pos : 0 < micronMag := by decide +kernel

/-- 2³¹ − 128. -/
def topMag : Nat := (2 ^ 31 - 128) * scale

theorem top_dvd : ulp topMag ∣ topMag := by decide +kernel

theorem top_max : topMag ≤ maxMag := by decide +kernel

theorem top_range : 2147 * scale * scale ≤ topMag * micronMag := by decide +kernel

theorem micron_small : 10 ^ 6 * micronMag * (scale + 1) ≤ scale * scale := by decide +kernel

theorem top_lt : topMag < 2 ^ 31 * scale := by decide +kernel

attribute [irreducible] micronMag topMag

/-- The quotient rounded to float32 is near the exact one. -/
theorem roundMag_close (a b : Nat) (hb : 0 < b) :
    2 ^ 24 * |(a : Int) - (b * roundMag a b : Nat)| ≤ 2 ^ 23 * b + a := by
  obtain ⟨h1, h2, -, -⟩ := rhe_spec a (b * ulp (a / b)) (Nat.mul_pos hb (ulp_pos _))
  have hu : 2 ^ 23 * ulp (a / b) ≤ 2 ^ 23 + a / b := by
    by_cases h1 : ulp (a / b) = 1
    · rw [h1]; exact Nat.le_add_right _ _
    · exact le_trans (ulp_le h1) (Nat.le_add_left _ _)
  have h3 : b * (a / b) ≤ a := Nat.mul_div_le a b
  have hr : b * roundMag a b = b * ulp (a / b) * rhe a (b * ulp (a / b)) := by
    unfold roundMag
    ring
  rw [hr]
  generalize rhe a (b * ulp (a / b)) = k at *
  generalize ulp (a / b) = u at *
  generalize a / b = q at *
  have hu2 : 2 ^ 23 * (b * u) ≤ 2 ^ 23 * b + a := by nlinarith
  generalize b * u = w at *
  have h1 : (2 * a : Int) ≤ w * (2 * k + 1) := by exact_mod_cast h1
  have h2 : (2 * w * k : Int) ≤ 2 * a + w := by exact_mod_cast h2
  have hu2 : (2 ^ 23 * w : Int) ≤ 2 ^ 23 * b + a := by exact_mod_cast hu2
  push_cast
  rcases abs_cases ((a : Int) - w * k) with ⟨h, -⟩ | ⟨h, -⟩ <;> rw [h] <;> nlinarith

/-- The scaled coordinate. -/
theorem div_micron (x : F32) (hx : x.isFinite = true) (hr : |x.key| ≤ 2147 * (scale : Int)) :
    ∃ z : F32, x.div micron = z ∧ z.isFinite = true ∧ |z.key| ≤ topMag ∧
      2 ^ 24 * |x.key * scale - micronMag * z.key| ≤ 2 ^ 23 * micronMag + |x.key| * scale := by
  obtain ⟨hm, hmic⟩ := micron_eq
  have hpos := micron_pos
  obtain ⟨n, mag, hrep, rfl⟩ := (isFinite_iff x).1 hx
  have hmag : mag ≤ 2147 * scale := by
    cases n <;> simp only [F32.key, if_true, if_false, Bool.false_eq_true, abs_neg, Nat.abs_cast] at hr <;>
      exact_mod_cast hr
  have hle : roundMag (mag * scale) micronMag ≤ topMag :=
    roundMag_le hpos top_dvd (le_trans (Nat.mul_le_mul_right _ hmag) top_range)
  have hmax : roundMag (mag * scale) micronMag ≤ maxMag := le_trans hle top_max
  have hdiv : F32.div (.fin n mag hrep) micron = F32.ofRat n (mag * scale) micronMag := by
    rw [hmic]
    simp only [F32.div]
    rw [if_neg (Nat.pos_iff_ne_zero.1 hpos), Bool.bne_false]
  refine ⟨_, hdiv, (ofRat_finite n (mag * scale) micronMag hpos).2 hmax, ?_⟩
  rw [ofRat_key n (mag * scale) micronMag hpos hmax]
  have hc := roundMag_close (mag * scale) micronMag hpos
  generalize roundMag (mag * scale) micronMag = r at *
  have hle : (r : Int) ≤ topMag := by exact_mod_cast hle
  push_cast at hc
  cases n with
  | false =>
    simp only [Bool.false_eq_true, if_false, F32.key, Nat.abs_cast]
    exact ⟨hle, hc⟩
  | true =>
    simp only [if_true, F32.key, abs_neg, Nat.abs_cast]
    refine ⟨hle, ?_⟩
    rw [show -(mag : Int) * scale - micronMag * -(r : Int) = -((mag : Int) * scale - micronMag * (r : Int)) by ring,
      abs_neg]
    exact hc

theorem floorInt32_range (z : F32) (hz : z.isFinite = true) (hr : |z.key| ≤ topMag) :
    floorInt32 z = z.key / (scale : Int) := by
  have hS : (0 : Int) < scale := by exact_mod_cast scale_pos
  have ht : (topMag : Int) < 2 ^ 31 * scale := by exact_mod_cast top_lt
  obtain ⟨n, mag, hrep, rfl⟩ := (isFinite_iff z).1 hz
  simp only [floorInt32]
  generalize F32.key (.fin n mag hrep) = K at *
  rw [abs_le] at hr
  rw [if_pos]
  constructor
  · apply Int.le_ediv_of_mul_le hS
    linarith
  · apply Int.ediv_lt_of_lt_mul hS
    linarith

/-- Two coordinates of at most 2147 that are quantised alike differ by at most a millionth and the rounding errors. -/
theorem floor_near (x y : F32) (hx : x.isFinite = true) (hy : y.isFinite = true)
    (hrx : |Spec.floatVal x| ≤ 2147) (hry : |Spec.floatVal y| ≤ 2147)
    (h : floorInt32 (x.div micron) = floorInt32 (y.div micron)) :
    |Spec.floatVal x - Spec.floatVal y| ≤ 1 / 10 ^ 6 + (|Spec.floatVal x| + |Spec.floatVal y|) / 2 ^ 24 := by
  have hS : (0 : ℚ) < scale := by exact_mod_cast scale_pos
  have hSi : (0 : Int) < scale := by exact_mod_cast scale_pos
  have hk : ∀ z : F32, |Spec.floatVal z| ≤ 2147 → |z.key| ≤ 2147 * (scale : Int) := by
    intro z hz
    rw [Spec.floatVal, abs_div, abs_of_pos hS, div_le_iff₀ hS] at hz
    exact_mod_cast hz
  obtain ⟨z, e1, f1, r1, c1⟩ := div_micron x hx (hk x hrx)
  obtain ⟨w, e2, f2, r2, c2⟩ := div_micron y hy (hk y hry)
  rw [e1, e2, floorInt32_range z f1 r1, floorInt32_range w f2 r2] at h
  have hzw : |z.key - w.key| ≤ scale := by
    have a1 := Int.emod_add_mul_ediv z.key scale
    have a2 := Int.emod_add_mul_ediv w.key scale
    have b1 := Int.emod_nonneg z.key hSi.ne'
    have b2 := Int.emod_lt_of_pos z.key hSi
    have b3 := Int.emod_nonneg w.key hSi.ne'
    have b4 := Int.emod_lt_of_pos w.key hSi
    rw [h] at a1
    rw [abs_le]
    constructor <;> linarith
  have hms : (10 ^ 6 * micronMag * (scale + 1) : ℚ) ≤ scale * scale := by exact_mod_cast micron_small
  have c1 : (2 ^ 24 * |(x.key * scale - micronMag * z.key : ℚ)|) ≤ 2 ^ 23 * micronMag + |(x.key : ℚ)| * scale := by
    exact_mod_cast c1
  have c2 : (2 ^ 24 * |(y.key * scale - micronMag * w.key : ℚ)|) ≤ 2 ^ 23 * micronMag + |(y.key : ℚ)| * scale := by
    exact_mod_cast c2
  have hzw : |(z.key - w.key : ℚ)| ≤ scale := by exact_mod_cast hzw
  unfold Spec.floatVal
  generalize (x.key : ℚ) = X at *
  generalize (y.key : ℚ) = Y at *
  generalize (z.key : ℚ) = Z at *
  generalize (w.key : ℚ) = W at *
  have hM : (0 : ℚ) ≤ micronMag := by positivity
  generalize (micronMag : ℚ) = M at *
  generalize (scale : ℚ) = S at *
  clear hk hrx hry h e1 e2 f1 f2 r1 r2 hx hy hSi
  have key : 2 ^ 24 * 10 ^ 6 * (|X - Y| * S) ≤ 2 ^ 24 * (S * S) + 10 ^ 6 * (|X| + |Y|) * S := by
    have t : |X - Y| * S ≤ |X * S - M * Z| + |Y * S - M * W| + M * |Z - W| := by
      have e : (X - Y) * S = (X * S - M * Z) - (Y * S - M * W) + M * (Z - W) := by ring
      have h1 : |X - Y| * S = |(X - Y) * S| := by rw [abs_mul, abs_of_pos hS]
      rw [h1, e]
      refine le_trans (abs_add_le _ _) ?_
      rw [abs_mul, abs_of_nonneg hM]
      have := abs_sub (X * S - M * Z) (Y * S - M * W)
      linarith
    have t2 : M * |Z - W| ≤ M * S := mul_le_mul_of_nonneg_left hzw hM
    nlinarith
  rw [← sub_div, abs_div, abs_div, abs_div, abs_of_pos hS]
  rw [div_le_iff₀ hS]
  have : (1 / 10 ^ 6 + (|X| / S + |Y| / S) / 2 ^ 24) * S = S / 10 ^ 6 + (|X| + |Y|) / 2 ^ 24 := by
    field_simp
  rw [this]
  have key2 : 2 ^ 24 * 10 ^ 6 * |X - Y| ≤ 2 ^ 24 * S + 10 ^ 6 * (|X| + |Y|) := by
    by_contra hc
    rw [not_le] at hc
    have := mul_lt_mul_of_pos_right hc hS
    nlinarith
  linarith

/-- Two points whose coordinates are at most 2147 get the same vertex only if each of their coordinates differs by at most
a millionth of a unit and a rounding error of float32. -/
theorem C54_near_partial (p q : Point3D)
    (hp : ∀ x ∈ [p.x, p.y, p.z, q.x, q.y, q.z], x.isFinite = true ∧ |Spec.floatVal x| ≤ 2147)
    (h : cellOf p = cellOf q) :
    ∀ d ∈ [(p.x, q.x), (p.y, q.y), (p.z, q.z)], |Spec.floatVal d.1 - Spec.floatVal d.2| ≤
      1 / 10 ^ 6 + (|Spec.floatVal d.1| + |Spec.floatVal d.2|) / 2 ^ 24 := by
  simp only [List.mem_cons, List.not_mem_nil, or_false, forall_eq_or_imp, forall_eq] at hp ⊢
  obtain ⟨h1, h2, h3, h4, h5, h6⟩ := hp
  simp only [cellOf, Vec3I.mk.injEq] at h
  exact ⟨floor_near _ _ h1.1 h4.1 h1.2 h4.2 h.1, floor_near _ _ h2.1 h5.1 h2.2 h5.2 h.2.1,
    floor_near _ _ h3.1 h6.1 h3.2 h6.2 h.2.2⟩

/-- What is missing: beyond 2147.48 units the quotient does not fit in an int32, all these coordinates fall together, and
points that are far apart become one vertex. -/
theorem C54_far_false :
    let r := Spec.runBuilder cellOf (Spec.adds [⟨parseFloatVal b!"3000", .zero, .zero⟩,
      ⟨parseFloatVal b!"4000", .zero, .zero⟩, ⟨parseFloatVal b!"-5000", .zero, .zero⟩]) (.new [])
    r.1.vertices.length = 1 ∧ r.2.map (·.2) = [0, 0, 0] := by decide +kernel

/- Points that meet the hypotheses, in one cell: 1 and the second float after 1. -/
example :
    let p : Point3D := ⟨.one, .zero, .one⟩
    let q : Point3D := ⟨F32.ofBits 0x3f800002, .zero, .one⟩
    cellOf p = cellOf q ∧ p ≠ q := by decide +kernel

end Go3mf
