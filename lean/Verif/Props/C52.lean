import Verif.Model.Bufio
import Verif.Lemmas.Xml

/-!
# C52: the name interning cache is transparent
-/

namespace Go3mf

theorem fixedName_eq {b s : Str} (h : fixedName b = some s) : s = b := by
  unfold fixedName at h
  repeat' split at h
  all_goals simp_all

/-- The cache maps the padded form of names without zero bytes to these names. -/
def CacheInv (m : NameCache) : Prop := ∀ k s, m k = some s → k = padName s ∧ s.length ≤ 8 ∧ (0 : Byte) ∉ s

theorem padName_injective : ∀ {n : Nat} {a b : Str}, a.length ≤ n → b.length ≤ n → (0 : Byte) ∉ a → (0 : Byte) ∉ b →
    (a ++ List.replicate n 0).take n = (b ++ List.replicate n 0).take n → a = b
  | 0, a, b, ha, hb, _, _, _ => by
    rw [List.eq_nil_of_length_eq_zero (Nat.le_zero.1 ha), List.eq_nil_of_length_eq_zero (Nat.le_zero.1 hb)]
  | n + 1, [], [], _, _, _, _, _ => rfl
  | n + 1, [], c :: b, _, _, _, hb, h => by
    simp [List.replicate_succ] at h
    exact absurd h.1 (fun h => hb (by simp [← h]))
  | n + 1, c :: a, [], _, _, ha, _, h => by
    simp [List.replicate_succ] at h
    exact absurd h.1 (fun h => ha (by simp [h]))
  | n + 1, c :: a, d :: b, hla, hlb, ha, hb, h => by
    simp only [List.length_cons] at hla hlb
    simp only [List.cons_append, List.take_succ_cons, List.cons.injEq] at h
    have e : ∀ x : Str, x.length ≤ n → (x ++ List.replicate (n + 1) 0).take n = (x ++ List.replicate n 0).take n := by
      intro x hx
      rw [List.take_append, List.take_append, List.take_replicate, List.take_replicate]
      congr 2
      omega
    have ih : a = b := padName_injective (n := n) (by omega) (by omega) (fun hh => ha (by simp [hh]))
      (fun hh => hb (by simp [hh])) (by rw [← e a (by omega), ← e b (by omega)]; exact h.2)
    rw [h.1, ih]

theorem internName_spec {m : NameCache} (hm : CacheInv m) {b : Str} (hb : b ≠ []) (h0 : (0 : Byte) ∉ b) :
    (internName m b).1 = some b ∧ CacheInv (internName m b).2 := by
  unfold internName
  cases hf : fixedName b with
  | some s => exact ⟨by rw [fixedName_eq hf], hm⟩
  | none =>
    simp only
    by_cases hl : b.length ≤ 8
    · rw [if_pos hl]
      cases hc : m (padName b) with
      | some s =>
        obtain ⟨h1, h2, h3⟩ := hm _ _ hc
        exact ⟨by rw [padName_injective hl h2 h0 h3 h1], hm⟩
      | none =>
        simp only
        rw [if_neg (by simpa using hb)]
        refine ⟨rfl, ?_⟩
        intro k s hk
        simp only [hl, if_true] at hk
        split at hk
        · simp only [Option.some.injEq] at hk
          subst hk
          exact ⟨‹_›, hl, h0⟩
        · exact hm k s hk
    · rw [if_neg hl]
      simp only
      rw [if_neg (by simpa using hb)]
      exact ⟨rfl, by simpa [hl] using hm⟩

theorem internNames_spec : ∀ (bs : List Str) {m : NameCache}, CacheInv m → (∀ b ∈ bs, b ≠ [] ∧ (0 : Byte) ∉ b) →
    internNames m bs = bs.map some
  | [], _, _, _ => rfl
  | b :: bs, m, hm, h => by
    obtain ⟨h1, h2⟩ := internName_spec hm (h b (by simp)).1 (h b (by simp)).2
    simp [internNames, h1, internNames_spec bs h2 (fun x hx => h x (by simp [hx]))]

/-- **C52**: whatever names have been read before, the name returned is the one read. -/
theorem C52_transparent (bs : List Str) (h : ∀ b ∈ bs, b ≠ [] ∧ ∀ c ∈ b, nameByte c = true) :
    internNames (fun _ => none) bs = bs.map some := by
  refine internNames_spec bs (by intro k s hk; simp at hk) fun b hb => ⟨(h b hb).1, fun h0 => ?_⟩
  exact absurd ((h b hb).2 0 h0) (by decide)

/-- **C52**: the hypothesis of `C52_transparent` holds of the bytes that the reader accepts as a name. -/
theorem C52_names {fin : LexErr} {s n r : Str} (h : readName fin s = .ok n r) :
    n ≠ [] ∧ ∀ c ∈ n, nameByte c = true :=
  ⟨(readName_ok h).2.1, (readName_ok h).2.2.1⟩

/-! ## Non-vacuity -/

example : internNames (fun _ => none) [b!"model", b!"v1", b!"model", b!"unit", b!"x", b!"basematerials", b!"unit"] =
    [some b!"model", some b!"v1", some b!"model", some b!"unit", some b!"x", some b!"basematerials", some b!"unit"] := by
  decide
/-- With zero bytes, which the reader does not accept in names, names could be confused. -/
example : internNames (fun _ => none) [b!"a", b!"a\x00"] = [some b!"a", some b!"a"] := by decide

end Go3mf
