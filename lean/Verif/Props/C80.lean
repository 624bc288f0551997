import Verif.Model.AttrPool
import Verif.Lemmas.Xml

/-!
# C80: the attributes of a start tag do not get in each other's way
-/

namespace Go3mf

/-- Different buffers have different arrays, and both pools are of the same length, which is not zero. -/
structure Spec.PoolOk (m : AttrPool) : Prop where
  len : m.attrs.length = m.bufs.length
  pos : 0 < m.bufs.length
  lt : ∀ (j p : Nat) (b : ByteSlice), m.bufs[j]? = some b → b.arr = some p → p < m.heap.length
  sep : ∀ (j k p : Nat) (b c : ByteSlice), m.bufs[j]? = some b → m.bufs[k]? = some c → b.arr = some p → c.arr = some p → j = k

/-- The first attributes of the pool are these. -/
def Spec.PoolHas (m : AttrPool) (as : List Attr) : Prop :=
  ∀ (j : Nat) (a : Attr), as[j]? = some a → ∃ b, m.bufs[j]? = some b ∧ m.attrs[j]? = some ⟨a.name, b⟩ ∧ b.read m.heap = a.value

theorem new_ok : Spec.PoolOk .new := by
  refine ⟨rfl, by decide, ?_, ?_⟩
  · intro j p b h1 h2
    simp only [AttrPool.new, List.getElem?_replicate] at h1
    split at h1 <;> cases h1
    cases h2
  · intro j k p b c h1 h2 h3 h4
    simp only [AttrPool.new, List.getElem?_replicate] at h1
    split at h1 <;> cases h1
    cases h3

theorem rewrite_read (grow : Nat → Nat) (heap : List Str) (b : ByteSlice) (data : Str) (h : ∀ p, b.arr = some p → p < heap.length) :
    (b.rewrite grow heap data).2.read (b.rewrite grow heap data).1 = data := by
  unfold ByteSlice.rewrite
  split
  · split
    · rename_i h; simp [ByteSlice.read, h]
    · simp [ByteSlice.read, List.getD]
  · rename_i p hp
    split
    · simp [ByteSlice.read, List.getD, h p hp]
    · simp [ByteSlice.read, List.getD]

theorem rewrite_other (grow : Nat → Nat) (heap : List Str) (b c : ByteSlice) (data : Str) (hb : ∀ p, c.arr = some p → p < heap.length)
    (hs : ∀ p, b.arr = some p → c.arr ≠ some p) : c.read (b.rewrite grow heap data).1 = c.read heap := by
  unfold ByteSlice.read
  cases hc : c.arr with
  | none => rfl
  | some q =>
    have hq := hb q hc
    simp only []
    congr 1
    unfold ByteSlice.rewrite
    split
    · split
      · rfl
      · simp [List.getD, List.getElem?_append_left hq]
    · rename_i p hp
      have hne : p ≠ q := by rintro rfl; exact hs p hp hc
      split
      · simp [List.getD, List.getElem?_set_ne hne]
      · simp [List.getD, List.getElem?_append_left hq]

theorem rewrite_arr (grow : Nat → Nat) (heap : List Str) (b : ByteSlice) (data : Str) (p : Nat) (h : (b.rewrite grow heap data).2.arr = some p) :
    (b.arr = some p ∨ p = heap.length) := by
  unfold ByteSlice.rewrite at h
  split at h
  · split at h
    · cases h
    · right; simpa using h.symm
  · rename_i q hq
    split at h
    · left; rw [hq]; simpa using h
    · right; simpa using h.symm

theorem rewrite_lt (grow : Nat → Nat) (heap : List Str) (b : ByteSlice) (data : Str) (hb : ∀ p, b.arr = some p → p < heap.length) :
    heap.length ≤ (b.rewrite grow heap data).1.length ∧ ∀ p, (b.rewrite grow heap data).2.arr = some p → p < (b.rewrite grow heap data).1.length := by
  unfold ByteSlice.rewrite
  split
  · split
    · exact ⟨Nat.le_refl _, by simp⟩
    · exact ⟨by simp, by simp⟩
  · rename_i q hq
    have := hb q hq
    split
    · refine ⟨by simp, ?_⟩
      intro p hp
      simp only [Option.some.injEq] at hp
      simp only [List.length_set]
      omega
    · exact ⟨by simp, by simp⟩

theorem reserve_ok {m : AttrPool} (h : Spec.PoolOk m) (i : Nat) : Spec.PoolOk (m.reserve i) := by
  have hl := h.len
  have hp := h.pos
  unfold AttrPool.reserve
  split
  · refine ⟨by simp [hl], by simp; omega, ?_, ?_⟩
    · intro j p b h1 h2
      simp only [List.getElem?_append] at h1
      split at h1
      · exact h.lt j p b h1 h2
      · simp only [List.getElem?_replicate] at h1
        split at h1 <;> cases h1
        cases h2
    · intro j k p b c h1 h2 h3 h4
      simp only [List.getElem?_append] at h1 h2
      split at h1
      · split at h2
        · exact h.sep j k p b c h1 h2 h3 h4
        · simp only [List.getElem?_replicate] at h2
          split at h2 <;> cases h2
          cases h4
      · simp only [List.getElem?_replicate] at h1
        split at h1 <;> cases h1
        cases h3
  · exact h

theorem reserve_has {m : AttrPool} {as : List Attr} (h : Spec.PoolHas m as) (i : Nat) : Spec.PoolHas (m.reserve i) as := by
  unfold AttrPool.reserve
  split
  · intro j a hj
    obtain ⟨b, h1, h2, h3⟩ := h j a hj
    refine ⟨b, ?_, ?_, h3⟩
    · simp only [List.getElem?_append_left (List.getElem?_eq_some_iff.1 h1).1, h1]
    · simp only [List.getElem?_append_left (List.getElem?_eq_some_iff.1 h2).1, h2]
  · exact h

theorem reserve_length {m : AttrPool} (h : Spec.PoolOk m) (i : Nat) (hi : i ≤ m.bufs.length) :
    i < (m.reserve (i + 1)).bufs.length ∧ (m.reserve (i + 1)).bufs.length = (if m.bufs.length = i then 2 * m.bufs.length else m.bufs.length) := by
  have hl := h.len
  have hp := h.pos
  unfold AttrPool.reserve
  split
  · have : m.bufs.length = i := by omega
    rw [if_pos this]
    simp only [List.length_append, List.length_replicate]
    omega
  · have : m.bufs.length ≠ i := by omega
    rw [if_neg this]
    omega

/-- An attribute is stored: it and all those before it are there. -/
theorem put_has (grow : Nat → Nat) {m : AttrPool} {as : List Attr} (h : Spec.PoolOk m) (hh : Spec.PoolHas m as) (a : Attr)
    (hi : as.length ≤ m.bufs.length) :
    ∃ m', m.put grow as.length a = some m' ∧ Spec.PoolOk m' ∧ Spec.PoolHas m' (as ++ [a]) ∧
      m'.bufs.length = (if m.bufs.length = as.length then 2 * m.bufs.length else m.bufs.length) ∧ as.length < m'.bufs.length := by
  obtain ⟨hlt, hlen⟩ := reserve_length h as.length hi
  have hok := reserve_ok h (as.length + 1)
  have hhas := reserve_has hh (as.length + 1)
  rw [← hlen]
  generalize hm : m.reserve (as.length + 1) = n at hlt hok hhas
  generalize hk : as.length = k at *
  obtain ⟨b, hb⟩ : ∃ b, n.bufs[k]? = some b := ⟨n.bufs[k], List.getElem?_eq_getElem hlt⟩
  have hbl : ∀ p, b.arr = some p → p < n.heap.length := fun p hp => hok.lt k p b hb hp
  have hrl := rewrite_lt grow n.heap b a.value hbl
  refine ⟨⟨(b.rewrite grow n.heap a.value).1, n.bufs.set k (b.rewrite grow n.heap a.value).2,
    n.attrs.set k ⟨a.name, (b.rewrite grow n.heap a.value).2⟩⟩, ?_, ⟨?_, ?_, ?_, ?_⟩, ?_, ?_, ?_⟩
  · have : k < n.attrs.length := by rw [hok.len]; exact hlt
    simp only [AttrPool.put, hm, hb, if_pos this]
  · simp [hok.len]
  · simp; omega
  · intro j p c h1 h2
    simp only [List.getElem?_set] at h1
    simp only []
    split at h1
    · cases h1; exact hrl.2 p h2
    · exact Nat.lt_of_lt_of_le (hok.lt j p c h1 h2) hrl.1
  · intro j j' p c c' h1 h2 h3 h4
    simp only [List.getElem?_set] at h1 h2
    have key : ∀ (i : Nat) (e : ByteSlice), i ≠ k → n.bufs[i]? = some e → e.arr = some p → (b.rewrite grow n.heap a.value).2.arr ≠ some p := by
      intro i e hik he hep hr
      rcases rewrite_arr grow n.heap b a.value p hr with hbp | hbp
      · exact hik (hok.sep i k p e b he hb hep hbp)
      · have := hok.lt i p e he hep; omega
    split at h1
    · rename_i hjk
      cases h1
      split at h2
      · omega
      · rename_i hjk'
        exact absurd h3 (key j' c' (Ne.symm hjk') h2 h4)
    · rename_i hjk
      split at h2
      · cases h2
        exact absurd h4 (key j c (Ne.symm hjk) h1 h3)
      · exact hok.sep j j' p c c' h1 h2 h3 h4
  · intro j x hj
    by_cases hjk : j = k
    · subst hjk
      rw [← hk] at hj
      simp only [List.getElem?_concat_length, Option.some.injEq] at hj
      subst hj
      refine ⟨(b.rewrite grow n.heap a.value).2, ?_, ?_, ?_⟩
      · simp [List.getElem?_set_self hlt]
      · simp [List.getElem?_set_self (show j < n.attrs.length by rw [hok.len]; exact hlt)]
      · exact rewrite_read grow n.heap b a.value hbl
    · have hj' : as[j]? = some x := by
        have := (List.getElem?_eq_some_iff.1 hj).1
        simp only [List.length_append, List.length_cons, List.length_nil] at this
        rw [List.getElem?_append_left (by omega)] at hj
        exact hj
      obtain ⟨c, h1, h2, h3⟩ := hhas j x hj'
      refine ⟨c, ?_, ?_, ?_⟩
      · simp only [List.getElem?_set_ne (Ne.symm hjk), h1]
      · simp only [List.getElem?_set_ne (Ne.symm hjk), h2]
      · rw [← h3]
        refine rewrite_other grow n.heap b c a.value (fun p hp => hok.lt j p c h1 hp) ?_
        intro p hp hc
        exact hjk (hok.sep j k p c b h1 hb hc hp)
  · simp
  · simpa using hlt

/-- The attributes of a tag are stored one after the other. -/
theorem fill_has (grow : Nat → Nat) (bs : List Attr) : ∀ (m : AttrPool) (as : List Attr), Spec.PoolOk m → Spec.PoolHas m as → as.length ≤ m.bufs.length →
    ∃ m', m.fill grow as.length bs = some m' ∧ Spec.PoolOk m' ∧ Spec.PoolHas m' (as ++ bs) ∧ (as ++ bs).length ≤ m'.bufs.length ∧
      m'.bufs.length ≤ max m.bufs.length (2 * (as ++ bs).length) ∧ m.bufs.length ≤ m'.bufs.length := by
  induction bs with
  | nil => intro m as h hh hi; exact ⟨m, rfl, h, by simpa using hh, by simpa using hi, by omega, Nat.le_refl _⟩
  | cons a bs ih =>
    intro m as h hh hi
    obtain ⟨m1, e1, ok1, has1, len1, lt1⟩ := put_has grow h hh a hi
    obtain ⟨m2, e2, ok2, has2, len2, le2, ge2⟩ := ih m1 (as ++ [a]) ok1 has1 (by simp; omega)
    refine ⟨m2, ?_, ok2, by simpa using has2, by simpa using len2, ?_, ?_⟩
    · simp only [AttrPool.fill, e1, Option.bind_some]
      simpa using e2
    · simp only [List.length_append, List.length_cons, List.length_nil] at le2 ⊢
      split at len1 <;> omega
    · split at len1 <;> omega

theorem rename_ok {m : AttrPool} (h : Spec.PoolOk m) (n : Nat) (tr : Name → Name) : Spec.PoolOk (m.rename n tr) := by
  refine ⟨?_, h.pos, h.lt, h.sep⟩
  rw [← show m.attrs.length = (m.rename n tr).bufs.length from h.len]
  simp only [AttrPool.rename, List.length_append, List.length_map, List.length_take, List.length_drop]
  omega

/-- A start tag: nothing is out of range, and the handler reads the attributes of the tag. -/
theorem tag_reads (grow : Nat → Nat) {m : AttrPool} (h : Spec.PoolOk m) (tr : Name → Name) (as : List Attr) :
    ∃ l m', m.tag grow tr as = some (l, m') ∧ Spec.PoolOk m' ∧ l.map (PoolAttr.read m'.heap) = as.map (fun a => { a with name := tr a.name }) ∧
      m'.bufs.length ≤ max m.bufs.length (2 * as.length) := by
  obtain ⟨m', e, ok, has, len, le, _⟩ := fill_has grow as m [] h (by intro j a hj; simp at hj) (by simp)
  simp only [List.nil_append, List.length_nil] at e has len le
  refine ⟨_, _, by simp only [AttrPool.tag, e, Option.map_some]; rfl, rename_ok ok _ _, ?_, le⟩
  have hl : as.length ≤ m'.attrs.length := by rw [ok.len]; exact len
  have htake : ((m'.rename as.length tr).attrs.take as.length) = (m'.attrs.take as.length).map (fun a => { a with name := tr a.name }) := by
    simp only [AttrPool.rename]
    rw [List.take_left' (by simp; omega)]
  rw [htake, List.map_map]
  refine List.ext_getElem? fun j => ?_
  simp only [List.getElem?_map, List.getElem?_take]
  by_cases hj : j < as.length
  · obtain ⟨b, h1, h2, h3⟩ := has j as[j] (List.getElem?_eq_getElem hj)
    rw [if_pos hj, h2, List.getElem?_eq_getElem hj]
    simp only [Option.map_some, Function.comp_apply, PoolAttr.read, AttrPool.rename, h3]
  · rw [if_neg hj, List.getElem?_eq_none (by omega)]
    rfl

/-- The longest list of attributes. -/
def Spec.mostAttrs (ts : List ((Name → Name) × List Attr)) : Nat := ts.foldr (fun t n => max t.2.length n) 0

theorem tags_reads (grow : Nat → Nat) (ts : List ((Name → Name) × List Attr)) : ∀ m : AttrPool, Spec.PoolOk m →
    ∃ m', m.tags grow ts = some (ts.map (fun t => t.2.map fun a => { a with name := t.1 a.name }), m') ∧
      m'.bufs.length ≤ max m.bufs.length (2 * Spec.mostAttrs ts) ∧ m'.attrs.length = m'.bufs.length := by
  induction ts with
  | nil => intro m h; exact ⟨m, rfl, by omega, h.len⟩
  | cons t ts ih =>
    intro m h
    obtain ⟨l, m1, e1, ok1, r1, le1⟩ := tag_reads grow h t.1 t.2
    obtain ⟨m2, e2, le2, eq2⟩ := ih m1 ok1
    refine ⟨m2, ?_, ?_, eq2⟩
    · simp only [AttrPool.tags, e1, Option.bind_some, e2, Option.map_some, r1, List.map_cons]
    · simp only [Spec.mostAttrs, List.foldr_cons] at le2 ⊢
      omega

/-- C80: whatever start tags were read before, with however many attributes of whatever lengths, no index of the pools is out of range, and the handler of
every start tag reads all the attributes of the tag, unmixed.  The pools have at most twice as many entries as the longest start tag, or ten. -/
theorem C80_attributes (grow : Nat → Nat) (ts : List ((Name → Name) × List Attr)) :
    ∃ m, AttrPool.new.tags grow ts = some (ts.map (fun t => t.2.map fun a => { a with name := t.1 a.name }), m) ∧
      m.bufs.length ≤ max 10 (2 * Spec.mostAttrs ts) ∧ m.attrs.length = m.bufs.length :=
  tags_reads grow ts .new new_ok

/-- C80: the values are only good while the handler is called: the next start tag overwrites them. -/
theorem C80_overwritten : ∃ (a b : Attr) (l l' : List PoolAttr) (m m' : AttrPool),
    AttrPool.new.tag id id [a] = some (l, m) ∧ m.tag id id [b] = some (l', m') ∧
      l.map (PoolAttr.read m.heap) = [a] ∧ l.map (PoolAttr.read m'.heap) ≠ [a] :=
  ⟨⟨⟨[], b!"id"⟩, b!"1"⟩, ⟨⟨[], b!"id"⟩, b!"2"⟩, _, _, _, _, rfl, rfl, by decide +kernel, by decide +kernel⟩

/-- The attributes of the example: twelve, of which one is longer than the first array of a buffer. -/
def c80Attrs : List Attr :=
  (List.range 12).map fun i => ⟨⟨[], natDigits i⟩, if i = 3 then List.replicate 70 65 else natDigits (i * i)⟩

/-- The pools are made longer once, and arrays are replaced and used again. -/
example : (AttrPool.new.tags (fun n => n) [(id, [⟨⟨[], b!"a"⟩, b!"b"⟩]), (id, c80Attrs), (id, c80Attrs.reverse), (id, [])]).map
      (fun p => (p.1, p.2.bufs.length)) =
    some ([[⟨⟨[], b!"a"⟩, b!"b"⟩], c80Attrs, c80Attrs.reverse, []], 20) := by
  decide +kernel

end Go3mf
