import Verif.Model.ErrText
import Verif.Lemmas.NumText
import Verif.Lemmas.StrOrder

/-!
# C58: the text of an error identifies it
-/

namespace Go3mf

/-! ## Specification -/

/-- A name of a level without the characters that structure a location: `/`, `[` and `:`. -/
def Spec.LevelName (n : Str) : Prop := n ≠ [] ∧ ∀ b ∈ n, b ≠ 47 ∧ b ≠ 91 ∧ b ≠ 58

/-- The location is made of plain names, with an index or without. -/
def Spec.PlainTarget (t : List Level) : Prop := ∀ l ∈ t, Spec.LevelName l.name

/-- A reason that is not free text, about a field without quotes in its name. -/
def Spec.KnownReason : Leaf → Prop
  | .sentinel _ => True
  | .missingField _ => True
  | .parseAttr _ _ => True
  | .other _ => False

/-! ## Splitting at a separator -/

theorem split_sep {c : Byte} : ∀ {x y r s : Str}, c ∉ x → c ∉ y → x ++ c :: r = y ++ c :: s → x = y ∧ r = s
  | [], [], _, _, _, _, h => ⟨rfl, by simpa using h⟩
  | [], b :: y, _, _, _, hy, h => by
    simp only [List.nil_append, List.cons_append, List.cons.injEq] at h
    exact absurd (by simp [h.1]) hy
  | a :: x, [], _, _, hx, _, h => by
    simp only [List.nil_append, List.cons_append, List.cons.injEq] at h
    exact absurd (by simp [h.1]) hx
  | a :: x, b :: y, _, _, hx, hy, h => by
    simp only [List.cons_append, List.cons.injEq] at h
    obtain ⟨h1, h2⟩ := split_sep (fun t => hx (List.mem_cons_of_mem _ t)) (fun t => hy (List.mem_cons_of_mem _ t)) h.2
    exact ⟨by rw [h.1, h1], h2⟩

theorem no_sep {c : Byte} {x y s : Str} (hx : c ∉ x) (h : x = y ++ c :: s) : False := by
  subst h; simp at hx

theorem natDigits_no {c : Byte} (hc : isDigit c = false) (n : Nat) : c ∉ natDigits n := fun h => by
  rw [natDigits_digits n c h] at hc; cases hc

theorem natDigits_inj {m n : Nat} (h : natDigits m = natDigits n) : m = n := by
  rw [← digitsVal_natDigits m, h, digitsVal_natDigits]

/-- Joining plain pieces is reversible. -/
theorem join_inj {c : Byte} : ∀ {x y : List Str}, (∀ s ∈ x, s ≠ [] ∧ c ∉ s) → (∀ s ∈ y, s ≠ [] ∧ c ∉ s) →
    Str.join [c] x = Str.join [c] y → x = y
  | [], [], _, _, _ => rfl
  | [], [b], _, hy, h => absurd h.symm (hy b (by simp)).1
  | [], b :: b' :: y, _, hy, h => by
    simp only [Str.join] at h
    exact absurd (congrArg List.length h) (by simp)
  | [a], [], hx, _, h => absurd h (hx a (by simp)).1
  | a :: a' :: x, [], _, _, h => by
    simp only [Str.join] at h
    exact absurd (congrArg List.length h) (by simp)
  | [a], [b], _, _, h => by simp only [Str.join] at h; rw [h]
  | [a], b :: b' :: y, hx, _, h => by
    simp only [Str.join, List.append_assoc, List.singleton_append] at h
    exact (no_sep (hx a (by simp)).2 h).elim
  | a :: a' :: x, [b], _, hy, h => by
    simp only [Str.join, List.append_assoc, List.singleton_append] at h
    exact (no_sep (hy b (by simp)).2 h.symm).elim
  | a :: a' :: x, b :: b' :: y, hx, hy, h => by
    simp only [Str.join, List.append_assoc, List.singleton_append] at h
    obtain ⟨h1, h2⟩ := split_sep (hx a (by simp)).2 (hy b (by simp)).2 h
    have := join_inj (fun s hs => hx s (List.mem_cons_of_mem _ hs)) (fun s hs => hy s (List.mem_cons_of_mem _ hs)) h2
    rw [h1, this]

/-! ## Locations -/

/-- A decimal number has a sign if and only if it is negative. -/
theorem intDigits_eq (i : Int) : (0 ≤ i ∧ intDigits i = natDigits i.natAbs) ∨ (i < 0 ∧ intDigits i = 45 :: natDigits i.natAbs) := by
  cases i with
  | ofNat n => exact .inl ⟨Int.natCast_nonneg n, rfl⟩
  | negSucc n => exact .inr ⟨Int.negSucc_lt_zero n, rfl⟩

theorem intDigits_inj {i j : Int} (h : intDigits i = intDigits j) : i = j := by
  have hd := natDigits_no (c := 45) (by decide)
  rcases intDigits_eq i with ⟨hi, e⟩ | ⟨hi, e⟩ <;> rcases intDigits_eq j with ⟨hj, f⟩ | ⟨hj, f⟩ <;> rw [e, f] at h
  · have := natDigits_inj h; omega
  · exact absurd (by rw [h]; simp) (hd i.natAbs)
  · exact absurd (by rw [← h]; simp) (hd j.natAbs)
  · have := natDigits_inj (List.cons.inj h).2; omega

theorem intDigits_no {c : Byte} (hc : isDigit c = false) (h : c ≠ 45) (i : Int) : c ∉ intDigits i := by
  rcases intDigits_eq i with ⟨-, e⟩ | ⟨-, e⟩ <;> rw [e]
  · exact natDigits_no hc _
  · simp [h, natDigits_no hc]

theorem levelStr_eq (l : Level) :
    (l.index = -1 ∧ l.str = l.name) ∨ l.str = l.name ++ 91 :: (intDigits l.index ++ [93]) := by
  by_cases h1 : l.index = -1
  · exact Or.inl ⟨h1, by unfold Level.str; rw [if_pos h1]⟩
  · right
    unfold Level.str
    rw [if_neg h1]
    change l.name ++ [91] ++ intDigits l.index ++ [93] = _
    simp

theorem levelStr_inj {l k : Level} (hl : Spec.LevelName l.name) (hk : Spec.LevelName k.name)
    (h : l.str = k.str) : l = k := by
  have nl : (91 : Byte) ∉ l.name := fun hb => (hl.2 _ hb).2.1 rfl
  have nk : (91 : Byte) ∉ k.name := fun hb => (hk.2 _ hb).2.1 rfl
  obtain ⟨ln, li⟩ := l
  obtain ⟨kn, ki⟩ := k
  rcases levelStr_eq ⟨ln, li⟩ with ⟨e1, e2⟩ | e2 <;> rcases levelStr_eq ⟨kn, ki⟩ with ⟨f1, f2⟩ | f2 <;>
    rw [e2, f2] at h <;> simp only at h nl nk
  · simp only at e1 f1
    rw [h, e1, f1]
  · exact (no_sep nl h).elim
  · exact (no_sep nk h.symm).elim
  · obtain ⟨h1, h2⟩ := split_sep nl nk h
    obtain ⟨h3, -⟩ := List.append_inj' h2 rfl
    rw [h1, intDigits_inj h3]

theorem levelStr_plain {l : Level} (h : Spec.LevelName l.name) :
    l.str ≠ [] ∧ (47 : Byte) ∉ l.str ∧ (58 : Byte) ∉ l.str := by
  have n1 : (47 : Byte) ∉ l.name := fun hb => (h.2 _ hb).1 rfl
  have n2 : (58 : Byte) ∉ l.name := fun hb => (h.2 _ hb).2.2 rfl
  rcases levelStr_eq l with ⟨-, e⟩ | e <;> rw [e]
  · exact ⟨h.1, n1, n2⟩
  · have d1 := intDigits_no (c := 47) (by decide) (by decide) l.index
    have d2 := intDigits_no (c := 58) (by decide) (by decide) l.index
    refine ⟨by simp, ?_, ?_⟩ <;> simp [n1, n2, d1, d2]

theorem join_no {c d : Byte} (hcd : c ≠ d) : ∀ {x : List Str}, (∀ s ∈ x, c ∉ s) → c ∉ Str.join [d] x
  | [], _ => by simp [Str.join]
  | [a], h => by simp only [Str.join]; exact h a (by simp)
  | a :: b :: x, h => by
    have ih := join_no hcd (x := b :: x) (fun s hs => h s (List.mem_cons_of_mem _ hs))
    simp only [Str.join, List.append_assoc, List.singleton_append, List.mem_append, List.mem_cons, not_or]
    exact ⟨h a (by simp), hcd, ih⟩

theorem xpath_no {t : List Level} (h : Spec.PlainTarget t) : (58 : Byte) ∉ xpath t := by
  unfold xpath
  have := join_no (c := 58) (d := 47) (by decide) (x := t.reverse.map Level.str) (by
    intro s hs
    obtain ⟨l, hl, rfl⟩ := List.mem_map.1 hs
    exact (levelStr_plain (h l (List.mem_reverse.1 hl))).2.2)
  change (58 : Byte) ∉ 47 :: Str.join [47] _
  simp only [List.mem_cons, not_or]
  exact ⟨by decide, this⟩

/-- C58: the reported location determines the names and indices. -/
theorem C58_xpath {t u : List Level} (ht : Spec.PlainTarget t) (hu : Spec.PlainTarget u) (h : xpath t = xpath u) : t = u := by
  have h' : Str.join [47] (t.reverse.map Level.str) = Str.join [47] (u.reverse.map Level.str) := by
    unfold xpath at h
    exact List.append_cancel_left h
  have pl : ∀ {t : List Level}, Spec.PlainTarget t → ∀ s ∈ t.reverse.map Level.str, s ≠ [] ∧ (47 : Byte) ∉ s := by
    intro t ht s hs
    obtain ⟨l, hl, rfl⟩ := List.mem_map.1 hs
    exact ⟨(levelStr_plain (ht l (List.mem_reverse.1 hl))).1, (levelStr_plain (ht l (List.mem_reverse.1 hl))).2.1⟩
  have h2 := join_inj (pl ht) (pl hu) h'
  have inj : ∀ {x y : List Level}, Spec.PlainTarget x → Spec.PlainTarget y → x.map Level.str = y.map Level.str → x = y := by
    intro x
    induction x with
    | nil => intro y _ _ h; simpa using h.symm
    | cons a x ih =>
      intro y hx hy h
      cases y with
      | nil => simp at h
      | cons b y =>
        simp only [List.map_cons, List.cons.injEq] at h
        rw [levelStr_inj (hx a (by simp)) (hy b (by simp)) h.1,
          ih (fun l hl => hx l (List.mem_cons_of_mem _ hl)) (fun l hl => hy l (List.mem_cons_of_mem _ hl)) h.2]
  have rev : ∀ {t : List Level}, Spec.PlainTarget t → Spec.PlainTarget t.reverse :=
    fun ht l hl => ht l (List.mem_reverse.1 hl)
  exact List.reverse_injective (inj (rev ht) (rev hu) h2)

/-! ## Reasons -/

/-- All the package-level error values. -/
def Spec.sentinels : List Sentinel :=
  [.missingID, .duplicatedID, .missingResource, .duplicatedIndices, .indexOutOfBounds, .insufficientVertices,
   .insufficientTriangles, .componentsPID, .opcPartName, .opcRelTarget, .opcDuplicatedRel, .opcContentType,
   .opcDuplicatedTicket, .opcDuplicatedModelName, .metadataName, .metadataNamespace, .metadataDuplicated, .otherItem,
   .nonObject, .requiredExt, .emptyResourceProps, .recursion, .invalidObject, .meshConsistency, .sliceExtRequired,
   .nonSliceStack, .slicesAndRefs, .sliceRefSamePart, .sliceRefRef, .sliceSmallTopZ, .sliceNoMonotonic,
   .sliceInsufficientVertices, .sliceInsufficientPolygons, .sliceInsufficientSegments, .slicePolygonNotClosed,
   .sliceInvalidTransform, .multiBlend, .materialMulti, .multiRefMulti, .multiColors, .textureReference, .compositeBase,
   .missingTexturePart, .latticeObjType, .latticeClippedNoMesh, .latticeInvalidMesh, .latticeSameVertex, .latticeBeamR2,
   .uuid, .prodRefInNonRoot]

theorem mem_sentinels (s : Sentinel) : s ∈ Spec.sentinels := by cases s <;> decide

theorem sentinels_msg : ∀ s ∈ Spec.sentinels, ∀ t ∈ Spec.sentinels, s.msg = t.msg → s = t := by decide +kernel

/-- No message begins like the text of a missing field or of a parse error, and none has a line break. -/
theorem sentinels_start : ∀ s ∈ Spec.sentinels, (s.msg.take 16 ≠ b!"required field '") ∧ (s.msg.take 14 ≠ b!"error parsing ") ∧
    (10 : Byte) ∉ s.msg := by decide +kernel

/-- C58: different package-level errors have different messages. -/
theorem C58_sentinel {s t : Sentinel} (h : s.msg = t.msg) : s = t := sentinels_msg s (mem_sentinels s) t (mem_sentinels t) h

theorem parseAttr_split (n : Str) (r : Bool) :
    (Leaf.parseAttr n r).text = b!"error parsing " ++ ((if r then b!"required" else b!"optional") ++ (b!" attribute '" ++ (n ++ b!"'"))) := by
  simp only [Leaf.text, List.append_assoc]

theorem missingField_split (n : Str) : (Leaf.missingField n).text = b!"required field '" ++ (n ++ b!"' is not set") := by
  simp only [Leaf.text, List.append_assoc]

/-- C58: the text of a reason determines the reason. -/
theorem C58_leaf {k l : Leaf} (hk : Spec.KnownReason k) (hl : Spec.KnownReason l) (h : k.text = l.text) : k = l := by
  have sm : ∀ {s : Sentinel} {n : Str}, s.msg ≠ (Leaf.missingField n).text := by
    intro s n h
    rw [missingField_split] at h
    exact (sentinels_start s (mem_sentinels s)).1 (by rw [h]; rfl)
  have sp : ∀ {s : Sentinel} {n : Str} {r : Bool}, s.msg ≠ (Leaf.parseAttr n r).text := by
    intro s n r h
    rw [parseAttr_split] at h
    exact (sentinels_start s (mem_sentinels s)).2.1 (by rw [h]; rfl)
  have mp : ∀ {n m : Str} {r : Bool}, (Leaf.missingField n).text ≠ (Leaf.parseAttr m r).text := by
    intro n m r h
    rw [parseAttr_split, missingField_split] at h
    exact absurd (congrArg List.head? h) (by simp)
  cases k with
  | other _ => cases hk
  | sentinel s =>
    cases l with
    | other _ => cases hl
    | sentinel t => rw [C58_sentinel h]
    | missingField n => exact (sm h).elim
    | parseAttr n r => exact (sp h).elim
  | missingField n =>
    cases l with
    | other _ => cases hl
    | sentinel t => exact (sm h.symm).elim
    | missingField m =>
      rw [missingField_split, missingField_split] at h
      obtain ⟨h1, -⟩ := List.append_inj' (List.append_cancel_left h) rfl
      rw [h1]
    | parseAttr m r => exact (mp h).elim
  | parseAttr n r =>
    cases l with
    | other _ => cases hl
    | sentinel t => exact (sp h.symm).elim
    | missingField m => exact (mp h.symm).elim
    | parseAttr m q =>
      rw [parseAttr_split, parseAttr_split] at h
      have h := List.append_cancel_left h
      have hlen : ∀ b : Bool, (if b then b!"required" else b!"optional").length = 8 := by decide
      obtain ⟨h1, h2⟩ := List.append_inj h (by rw [hlen, hlen])
      obtain ⟨h3, -⟩ := List.append_inj' (List.append_cancel_left h2) rfl
      have : r = q := by cases r <;> cases q <;> first | rfl | exact absurd h1 (by decide)
      rw [h3, this]

/-! ## Wrapped errors -/

/-- C58: the text of an error of a part without a space in its name determines the part, the location and the text of the
reason. -/
theorem C58_wrapped {t u : List Level} {x y p q : Str} (ht : Spec.PlainTarget t) (hu : Spec.PlainTarget u)
    (hp : (32 : Byte) ∉ p) (hq : (32 : Byte) ∉ q) (h : wrappedText t x p = wrappedText u y q) : t = u ∧ p = q ∧ x = y := by
  have tail : ∀ {x y : Str}, xpath t ++ (b!": " ++ x) = xpath u ++ (b!": " ++ y) → t = u ∧ x = y := by
    intro x y h
    have h' : xpath t ++ 58 :: (32 :: x) = xpath u ++ 58 :: (32 :: y) := h
    obtain ⟨h1, h2⟩ := split_sep (xpath_no ht) (xpath_no hu) h'
    exact ⟨C58_xpath ht hu h1, by simpa using h2⟩
  unfold wrappedText at h
  by_cases h1 : p = [] <;> by_cases h2 : q = []
  · rw [if_pos h1, if_pos h2] at h
    simp only [List.append_assoc] at h
    obtain ⟨a, b⟩ := tail (List.append_cancel_left h)
    exact ⟨a, by rw [h1, h2], b⟩
  · rw [if_pos h1, if_neg h2] at h
    simp only [List.append_assoc] at h
    have := congrArg (fun s => s[7]?) h
    revert this
    simp
  · rw [if_neg h1, if_pos h2] at h
    simp only [List.append_assoc] at h
    have := congrArg (fun s => s[7]?) h
    revert this
    simp
  · rw [if_neg h1, if_neg h2] at h
    simp only [List.append_assoc] at h
    have h3 := List.append_cancel_left h
    have h4 : p ++ 32 :: (b!"XPath: " ++ (xpath t ++ (b!": " ++ x))) = q ++ 32 :: (b!"XPath: " ++ (xpath u ++ (b!": " ++ y))) := h3
    obtain ⟨h5, h6⟩ := split_sep hp hq h4
    obtain ⟨a, b⟩ := tail (List.append_cancel_left h6)
    exact ⟨a, h5, b⟩

/-- C58: the text of an error at a location, with a reason that is not free text, determines the error. -/
theorem C58_error {t u : List Level} {k l : Leaf} {p q : Str} (ht : Spec.PlainTarget t) (hu : Spec.PlainTarget u)
    (hp : (32 : Byte) ∉ p) (hq : (32 : Byte) ∉ q) (hk : Spec.KnownReason k) (hl : Spec.KnownReason l)
    (h : (Err.wrapped t (.leaf k) p).text = (Err.wrapped u (.leaf l) q).text) :
    Err.wrapped t (.leaf k) p = Err.wrapped u (.leaf l) q := by
  simp only [Err.text] at h
  obtain ⟨rfl, rfl, h3⟩ := C58_wrapped ht hu hp hq h
  rw [C58_leaf hk hl h3]

/-! ## Lists of errors -/

theorem texts_eq (es : List Err) : Err.texts es = es.map Err.text := by
  induction es with
  | nil => rfl
  | cons e es ih => simp [Err.texts, ih]

theorem join_lines {x y : List Str} (hl : x.length = y.length) (hx : ∀ s ∈ x, (10 : Byte) ∉ s) (hy : ∀ s ∈ y, (10 : Byte) ∉ s)
    (h : Str.join [10, 9] x = Str.join [10, 9] y) : x = y := by
  induction x generalizing y with
  | nil => cases y with | nil => rfl | cons => simp at hl
  | cons a x ih =>
    cases y with
    | nil => simp at hl
    | cons b y =>
      cases x with
      | nil =>
        cases y with
        | nil => simp only [Str.join] at h; rw [h]
        | cons => simp at hl
      | cons a' x =>
        cases y with
        | nil => simp at hl
        | cons b' y =>
          simp only [Str.join, List.append_assoc, List.cons_append, List.nil_append] at h
          obtain ⟨h1, h2⟩ := split_sep (hx a (by simp)) (hy b (by simp)) h
          have := ih (y := b' :: y) (by simpa using hl) (fun s hs => hx s (List.mem_cons_of_mem _ hs))
            (fun s hs => hy s (List.mem_cons_of_mem _ hs)) (by simpa using h2)
          rw [h1, this]

theorem listFormat_ne {es : List Str} (h : es.length ≠ 1) : listFormat es =
    natDigits es.length ++ b!" errors occurred:\n\t" ++ Str.join b!"\n\t" (es.map fun e => b!"* " ++ e) ++ b!"\n" := by
  match es with
  | [] => rfl
  | [_] => simp at h
  | _ :: _ :: _ => rfl

/-- The text begins with the number of errors. -/
theorem listFormat_count (es : List Str) : ∃ rest, listFormat es = natDigits es.length ++ 32 :: rest := by
  by_cases h : es.length = 1
  · obtain ⟨e, rfl⟩ := List.length_eq_one_iff.1 h
    exact ⟨b!"error occurred:\n\t* " ++ e ++ b!"\n", rfl⟩
  · rw [listFormat_ne h]
    exact ⟨b!"errors occurred:\n\t" ++ Str.join b!"\n\t" (es.map fun e => b!"* " ++ e) ++ b!"\n", by simp⟩

/-- C58: the text of a list determines the texts of its elements, if these have no line breaks. -/
theorem C58_list {es fs : List Err} (he : ∀ e ∈ es, (10 : Byte) ∉ e.text) (hf : ∀ e ∈ fs, (10 : Byte) ∉ e.text)
    (h : (Err.list es).text = (Err.list fs).text) : es.map Err.text = fs.map Err.text := by
  simp only [Err.text, texts_eq] at h
  have he' : ∀ s ∈ es.map Err.text, (10 : Byte) ∉ s := fun s hs => by obtain ⟨e, h, rfl⟩ := List.mem_map.1 hs; exact he e h
  have hf' : ∀ s ∈ fs.map Err.text, (10 : Byte) ∉ s := fun s hs => by obtain ⟨e, h, rfl⟩ := List.mem_map.1 hs; exact hf e h
  generalize es.map Err.text = x at *
  generalize fs.map Err.text = y at *
  obtain ⟨r, hr⟩ := listFormat_count x
  obtain ⟨q, hq⟩ := listFormat_count y
  have hlen : x.length = y.length := by
    rw [hr, hq] at h
    exact natDigits_inj (split_sep (natDigits_no (by decide) _) (natDigits_no (by decide) _) h).1
  by_cases h1 : x.length = 1
  · obtain ⟨a, rfl⟩ := List.length_eq_one_iff.1 h1
    obtain ⟨b, rfl⟩ := List.length_eq_one_iff.1 (hlen.symm.trans h1)
    simp only [listFormat, List.append_assoc] at h
    obtain ⟨h2, -⟩ := List.append_inj' (List.append_cancel_left h) rfl
    rw [h2]
  · rw [listFormat_ne h1, listFormat_ne (hlen ▸ h1), hlen] at h
    simp only [List.append_assoc] at h
    have h2 := List.append_cancel_left (List.append_cancel_left h)
    obtain ⟨h3, -⟩ := List.append_inj' h2 rfl
    have hb : ∀ z : List Str, (∀ s ∈ z, (10 : Byte) ∉ s) → ∀ s ∈ z.map (fun e => b!"* " ++ e), (10 : Byte) ∉ s := by
      intro z hz s hs
      obtain ⟨e, h, rfl⟩ := List.mem_map.1 hs
      have := hz e h
      simp [this]
    have h4 := join_lines (by simpa using hlen) (hb x he') (hb y hf') h3
    exact (List.map_inj_right (by intro a b hab; exact List.append_cancel_left hab)).1 h4

theorem join_mem {sep : Str} : ∀ {x : List Str} {s : Str}, s ∈ x → ∃ a b, Str.join sep x = a ++ s ++ b
  | [c], s, h => ⟨[], [], by rw [List.mem_singleton.1 h]; simp [Str.join]⟩
  | c :: d :: x, s, h => by
    rcases List.mem_cons.1 h with rfl | h
    · exact ⟨[], sep ++ Str.join sep (d :: x), by simp [Str.join]⟩
    · obtain ⟨a, b, hab⟩ := join_mem (sep := sep) h
      exact ⟨c ++ sep ++ a, b, by simp only [Str.join, hab, List.append_assoc]⟩

/-- C58: the text of a list begins with the number of its elements and contains the text of each of them as an item. -/
theorem C58_items {es : List Err} : (∃ rest, (Err.list es).text = natDigits es.length ++ 32 :: rest) ∧
    ∀ e ∈ es, ∃ a b, (Err.list es).text = a ++ (b!"* " ++ e.text) ++ b := by
  simp only [Err.text, texts_eq]
  constructor
  · simpa using listFormat_count (es.map Err.text)
  · intro e he
    by_cases h1 : (es.map Err.text).length = 1
    · obtain ⟨x, hx⟩ := List.length_eq_one_iff.1 h1
      have : e.text = x := by
        have := List.mem_map_of_mem (f := Err.text) he
        rw [hx] at this
        exact List.mem_singleton.1 this
      rw [hx, this]
      exact ⟨b!"1 error occurred:\n\t", b!"\n", by simp [listFormat]⟩
    · rw [listFormat_ne h1]
      obtain ⟨a, b, hab⟩ := join_mem (sep := b!"\n\t") (List.mem_map_of_mem (f := fun e => b!"* " ++ e)
        (List.mem_map_of_mem (f := Err.text) he))
      rw [hab]
      exact ⟨natDigits (es.map Err.text).length ++ b!" errors occurred:\n\t" ++ a, b ++ b!"\n", by simp only [List.append_assoc]⟩

/-- C58: `Len`, `Less` and `Swap` sort by text: `Less` is the strict lexical order of the bytes and `Swap` exchanges two
elements. -/
theorem C58_sort (l : List Err) (i j : Nat) (hi : i < l.length) (hj : j < l.length) :
    errListLen (some l) = l.length ∧
    (errListLess (some l) i j = some true ↔ List.Lex (· < ·) l[i].text l[j].text) ∧
    ∃ l', errListSwap (some l) i j = some (some l') ∧ l'.length = l.length ∧
      ∀ k, l'[k]? = if k = i then some l[j] else if k = j then some l[i] else l[k]? := by
  refine ⟨rfl, ?_, ?_⟩
  · simp only [errListLess, List.getElem?_eq_getElem hi, List.getElem?_eq_getElem hj, Option.some.injEq, Str.lt_iff]
  · refine ⟨(l.set i l[j]).set j l[i], ?_, by simp, ?_⟩
    · simp only [errListSwap, List.getElem?_eq_getElem hi, List.getElem?_eq_getElem hj]
    · intro k
      simp only [List.getElem?_set, List.length_set]
      by_cases h1 : k = i <;> by_cases h2 : k = j
      · subst h1; subst h2; simp [hi]
      · subst h1; simp [hi, Ne.symm h2]
      · subst h2; simp [hj, h1]
      · simp [h1, h2, Ne.symm h1, Ne.symm h2]

/-- C58: a nil list has no elements, and no text. -/
theorem C58_nil (i j : Nat) : errListLen none = 0 ∧ errListLess none i j = some false ∧ errListSwap none i j = some none ∧
    ErrVal.nilList.text = some [] := ⟨rfl, rfl, rfl, rfl⟩

/-! ## Examples and violations -/

/-- An error as the validators report it. -/
def c58e : Err := wrapPath b!"model" b!"/3D/a.model" (wrap b!"resources" (wrapIndex b!"object" 3 (.leaf (.sentinel .recursion))))

example : c58e.text = b!"go3mf: Path: /3D/a.model XPath: /model/resources/object[3]: MUST NOT contain recursive references" := by
  decide +kernel

example : (Err.list [c58e, .leaf (.parseAttr b!"v1" true)]).text =
    b!"2 errors occurred:\n\t* go3mf: Path: /3D/a.model XPath: /model/resources/object[3]: MUST NOT contain recursive references\n\t* error parsing required attribute 'v1'\n" ∧
    (Err.list [.leaf (.missingField b!"id")]).text = b!"1 error occurred:\n\t* required field 'id' is not set\n" := by
  decide +kernel

instance (n : Str) : Decidable (Spec.LevelName n) := inferInstanceAs (Decidable (_ ∧ _))

/-- The hypotheses of the theorems are met. -/
example : Spec.PlainTarget [⟨b!"object", 3⟩, ⟨b!"resources", -1⟩, ⟨b!"model", -1⟩] ∧ (32 : Byte) ∉ b!"/3D/a.model" ∧
    Spec.KnownReason (.sentinel .recursion) ∧ ∀ e ∈ [c58e, .leaf (.parseAttr b!"v1" true)], (10 : Byte) ∉ e.text := by
  refine ⟨?_, by decide, trivial, by decide +kernel⟩
  unfold Spec.PlainTarget
  decide

/-- C58 fails for other names: a location does not tell an index from a name with brackets. -/
theorem C58_name_false : ∃ t u : List Level, t ≠ u ∧ (Err.wrapped t (.leaf (.sentinel .uuid)) []).text =
    (Err.wrapped u (.leaf (.sentinel .uuid)) []).text :=
  ⟨[⟨b!"a", 1⟩], [⟨b!"a[1]", -1⟩], by decide, by decide +kernel⟩

/-- C58 fails for part names with spaces. -/
theorem C58_space_false : ∃ (t u : List Level) (p q : Str), p ≠ q ∧ Spec.PlainTarget t ∧
    (Err.wrapped t (.leaf (.sentinel .uuid)) p).text = (Err.wrapped u (.leaf (.sentinel .uuid)) q).text :=
  ⟨[⟨b!"b", -1⟩], [⟨b!"b", -1⟩, ⟨b!"a XPath: ", -1⟩], b!"p XPath: /a", b!"p", by decide, by unfold Spec.PlainTarget; decide, by decide +kernel⟩

/-- C58 fails for elements with line breaks. -/
theorem C58_list_false : ∃ es fs : List Err, es.map Err.text ≠ fs.map Err.text ∧ (Err.list es).text = (Err.list fs).text :=
  ⟨[.leaf (.other b!"a\n\t* b"), .leaf (.other b!"c")], [.leaf (.other b!"a"), .leaf (.other b!"b\n\t* c")],
   by decide +kernel, by decide +kernel⟩

end Go3mf
