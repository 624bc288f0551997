import Verif.Lemmas.Xml
import Verif.Spec.Utf8
import Verif.Model.Decode

/-!
# C85: documents in the encodings of XML

The reader works on bytes and looks for single bytes below 0x80 (internal/xml/xml.go:87).
-/

namespace Go3mf

/-- The byte order mark of UTF-8. -/
def utf8Mark : Str := [0xEF, 0xBB, 0xBF]

/-- UTF-16 with the byte order mark, the high byte first or last, of code units. -/
def utf16 (highFirst : Bool) (us : List Nat) : Str :=
  (0xFEFF :: us).flatMap fun u =>
    if highFirst then [UInt8.ofNat (u / 256), UInt8.ofNat (u % 256)] else [UInt8.ofNat (u % 256), UInt8.ofNat (u / 256)]

/-! ## Lemmas -/

theorem textGo_before (fin : LexErr) (s : Str) : ∀ (p : Str) (b1 : Byte), (∀ b ∈ p, b ≠ 60 ∧ b ≠ 38) →
    ∃ t, textGo fin none 0 b1 (p ++ 60 :: s) = .ok (t, 60 :: s)
  | [], b1, _ => ⟨[], by simp [textGo]⟩
  | b :: p, b1, h => by
    obtain ⟨h1, h2⟩ := h b (by simp)
    have ih := textGo_before fin s p
    obtain ⟨t, ht⟩ := ih b fun x hx => h x (by simp [hx])
    rw [List.cons_append, textGo, if_neg h1, if_neg (by simp), if_neg h2]
    split
    · exact ⟨_, by rw [ht]; rfl⟩
    · split
      · exact ⟨t, ht⟩
      · exact ⟨_, by rw [ht]; rfl⟩

/-- A text before the first tag. -/
theorem lex_plain (fin : LexErr) (p s : Str) (hp : p ≠ []) (h : ∀ b ∈ p, b ≠ 60 ∧ b ≠ 38) :
    ∃ t, lex fin (.new (p ++ 60 :: s)) =
      (some (.chars t) :: (lex fin (.new (60 :: s))).1, (lex fin (.new (60 :: s))).2) := by
  obtain ⟨t, ht⟩ := textGo_before fin s p 0 h
  refine ⟨t, lex_ok ?_⟩
  cases p with
  | nil => exact absurd rfl hp
  | cons b p =>
    simp only [rawToken, Lexer.new, List.cons_append, lexText] at ht ⊢
    rw [if_pos (h b (by simp)).1, ht]

theorem step_mem (env : Env) (isRoot : Bool) (mem mem' : Nat → Str → Str) (s : DState) (i j : Nat) (ev : Option Event)
    (h : ∀ t, mem i t = mem' j t) : s.step ⟨env, isRoot, mem⟩ i ev = s.step ⟨env, isRoot, mem'⟩ j ev := by
  cases ev with
  | none => rfl
  | some ev =>
    cases ev with
    | start n attrs =>
      simp only [DState.step, DState.onStart]
      rw [show child ⟨env, isRoot, mem⟩ s.regs s.cur n = child ⟨env, isRoot, mem'⟩ s.regs s.cur n by
        cases s.cur <;> rfl]
      cases child ⟨env, isRoot, mem'⟩ s.regs s.cur n with
      | none => rfl
      | some x =>
        obtain ⟨r, o⟩ := x
        cases o with
        | none => rfl
        | some y =>
          obtain ⟨i, d⟩ := y
          simp only
          rw [show start ⟨env, isRoot, mem⟩ r d attrs = start ⟨env, isRoot, mem'⟩ r d attrs by cases d <;> rfl]
    | stop n => rfl
    | chars t =>
      simp only [DState.step, DState.onChar, h]

theorem runTokens_shift (env : Env) (isRoot : Bool) (mem : Nat → Str → Str) (strict : Bool) (fin : LexErr) :
    ∀ (evs : List (Option Event)) (i : Nat) (s : DState),
      runTokens ⟨env, isRoot, mem⟩ strict (fun _ => false) fin (i + 1) s evs =
        runTokens ⟨env, isRoot, fun j => mem (j + 1)⟩ strict (fun _ => false) fin i s evs
  | [], _, _ => rfl
  | ev :: evs, i, s => by
    simp only [runTokens]
    rw [step_mem env isRoot mem (fun j => mem (j + 1)) s (i + 1) i ev fun _ => rfl]
    cases s.step ⟨env, isRoot, fun j => mem (j + 1)⟩ i ev with
    | none => rfl
    | some s' =>
      simp only [Bool.and_false, Bool.false_eq_true, if_false]
      rw [runTokens_shift env isRoot mem strict fin evs (i + 1) s']

theorem skipPI_end (fin : LexErr) (r : Str) : ∀ (body : Str) (b0 : Byte), ¬ b!"?>" <:+: b0 :: body →
    skipPI fin b0 (body ++ 63 :: 62 :: r) = .ok r
  | [], b0, h => by
    rw [List.nil_append, skipPI]
    rw [if_neg (by simp), skipPI, if_pos ⟨rfl, rfl⟩]
  | b :: body, b0, h => by
    rw [List.cons_append, skipPI, if_neg, skipPI_end fin r body b fun h' => h (h'.trans (List.suffix_cons _ _).isInfix)]
    rintro ⟨rfl, rfl⟩
    exact h ⟨[], body, rfl⟩

theorem skipSpace_suffix (s : Str) : ∀ a : Str, ∃ a', a' <:+ a ∧ skipSpace (a ++ 63 :: s) = a' ++ 63 :: s
  | [] => ⟨[], List.suffix_rfl, by simp [skipSpace]⟩
  | b :: a => by
    obtain ⟨a', h1, h2⟩ := skipSpace_suffix s a
    rw [List.cons_append, skipSpace]
    split
    · exact ⟨a', h1.trans (List.suffix_cons _ _), h2⟩
    · exact ⟨b :: a, List.suffix_rfl, rfl⟩

theorem not_infix_cons_zero {a : Str} (h : ¬ b!"?>" <:+: a) : ¬ b!"?>" <:+: 0 :: a := by
  intro h'
  rw [List.infix_cons_iff] at h'
  rcases h' with h' | h'
  · obtain ⟨t, ht⟩ := h'
    simp at ht
  · exact h h'

theorem lex_declaration (fin : LexErr) (a s : Str) (h : ¬ b!"?>" <:+: a) :
    lex fin (.new (b!"<?xml " ++ a ++ b!"?>" ++ s)) = (none :: (lex fin (.new s)).1, (lex fin (.new s)).2) := by
  refine lex_ok ?_
  obtain ⟨a', h1, h2⟩ := skipSpace_suffix (62 :: s) a
  have h3 : ¬ b!"?>" <:+: 0 :: a' := not_infix_cons_zero fun h' => h (h'.trans h1.isInfix)
  have e : b!"<?xml " ++ a ++ b!"?>" ++ s = 60 :: 63 :: 120 :: 109 :: 108 :: 32 :: (a ++ 63 :: 62 :: s) := by simp
  rw [e]
  have hn : readName fin (120 :: 109 :: 108 :: 32 :: (a ++ 63 :: 62 :: s)) = .ok b!"xml" (32 :: (a ++ 63 :: 62 :: s)) := by
    simp [readName, readNameLoop, nameByte, isNameByte]
  simp only [rawToken, Lexer.new, lexPI, hn]
  rw [show skipSpace (32 :: (a ++ 63 :: 62 :: s)) = skipSpace (a ++ 63 :: 62 :: s) by simp [skipSpace], h2,
    skipPI_end fin s a' 0 h3]
  rfl

theorem childs_same {path : Str} {c : ChildModel} : ∀ {cs : List (Str × ChildModel)}, (cs.map (·.1)).Nodup →
    lookupChild cs path = some c → (cs.map fun x => if x.1 = path then (x.1, { x.2 with resources := c.resources }) else x) = cs
  | [], _, h => by simp [lookupChild] at h
  | (k, x) :: cs, hn, h => by
    rw [List.map_cons, List.nodup_cons] at hn
    rw [lookupChild] at h
    rw [List.map_cons]
    by_cases e : k = path
    · rw [if_pos e] at h
      injection h with h
      subst h
      rw [if_pos e]
      congr 1
      conv_rhs => rw [← List.map_id cs]
      refine List.map_congr_left fun y hy => ?_
      rw [if_neg]
      · rfl
      · intro e'
        exact hn.1 (List.mem_map.2 ⟨y, hy, e'.trans e.symm⟩)
    · rw [if_neg e] at h
      rw [if_neg e, childs_same hn.2 h]

/-! ## The theorems -/

variable (env : Env) (mem : Nat → Str → Str) (m : Model)

/-- **C85**: any text before the first tag of a part is ignored, in particular a byte order mark of UTF-8.  (`mem` is what the texts of
unknown elements read as in the end, by the number of the token.) -/
theorem C85_part (isRoot strict : Bool) (fin : LexErr) (path p s : Str) (hp : p ≠ []) (h : ∀ b ∈ p, b ≠ 60 ∧ b ≠ 38) :
    decodeEvents ⟨env, isRoot, mem⟩ strict (fun _ => false) m path (lex fin (.new (p ++ b!"<" ++ s))).1
        (lex fin (.new (p ++ b!"<" ++ s))).2 =
      decodeEvents ⟨env, isRoot, fun i => mem (i + 1)⟩ strict (fun _ => false) m path (lex fin (.new (b!"<" ++ s))).1
        (lex fin (.new (b!"<" ++ s))).2 := by
  obtain ⟨t, ht⟩ := lex_plain fin p s hp h
  rw [List.append_assoc]
  rw [show p ++ (b!"<" ++ s) = p ++ 60 :: s from rfl, show b!"<" ++ s = 60 :: s from rfl, ht]
  simp only [decodeEvents]
  rw [runTokens]
  simp only [DState.step, DState.init, DState.onChar, Regs.addToken, List.isEmpty_nil, Bool.not_true, Bool.and_false,
    Bool.false_eq_true, if_false]
  rw [runTokens_shift]

/-- **C85**: the same for `UnmarshalModel`. -/
theorem C85_mark (p s : Str) (hp : p ≠ []) (h : ∀ b ∈ p, b ≠ 60 ∧ b ≠ 38) :
    unmarshalModel env mem (p ++ b!"<" ++ s) m = unmarshalModel env (fun i => mem (i + 1)) (b!"<" ++ s) m := by
  exact C85_part env mem m true false .eof defaultModelPath p s hp h

/-- **C85**: what the XML declaration says has no effect, in particular the encoding that it names. -/
theorem C85_declaration (a a' s : Str) (h : ¬ b!"?>" <:+: a) (h' : ¬ b!"?>" <:+: a') :
    unmarshalModel env mem (b!"<?xml " ++ a ++ b!"?>" ++ s) m = unmarshalModel env mem (b!"<?xml " ++ a' ++ b!"?>" ++ s) m := by
  simp only [unmarshalModel, lex_declaration .eof a s h, lex_declaration .eof a' s h']

/-- **C85** is false of UTF-16: every document in UTF-16 that begins with `<` and a character below U+0100 is a syntax error, and nothing of it
is read. -/
theorem C85_utf16_false (hm : (m.childs.map (·.1)).Nodup) (highFirst : Bool) (u : Nat) (us : List Nat) (hu : u < 256) :
    unmarshalModel env mem (utf16 highFirst (60 :: u :: us)) m = some (m, .token .syntax) := by
  have key : ∀ (p s : Str), p ≠ [] → (∀ b ∈ p, b ≠ 60 ∧ b ≠ 38) →
      unmarshalModel env mem (p ++ 60 :: 0 :: s) m = some (m, .token .syntax) := by
    intro p s hp h
    obtain ⟨t, ht⟩ := lex_plain .eof p (0 :: s) hp h
    have he : lex .eof (.new (60 :: 0 :: s)) = ([], .syntax) := lex_error (by
      simp [rawToken, Lexer.new, lexStart, readName, nameByte, isNameByte])
    simp only [unmarshalModel, decodeEvents, ht, he, runTokens, DState.step, DState.init, DState.onChar, Regs.addToken,
      Bool.false_and, Bool.and_false, Bool.false_eq_true, if_false, Option.map_some, decodeResult, DState.result]
    have hs : ∀ rs, m.findResources defaultModelPath = some rs → m.setResources defaultModelPath rs = m := by
      intro rs h
      unfold Model.findResources at h
      unfold Model.setResources
      split
      · rename_i hc
        rw [if_pos hc] at h
        injection h with h
        rw [← h]
      · rename_i hc
        rw [if_neg hc] at h
        cases hl : lookupChild m.childs defaultModelPath with
        | none => rw [hl] at h; cases h
        | some c =>
          rw [hl] at h
          injection h with h
          subst h
          rw [childs_same hm hl]
    cases hf : m.findResources defaultModelPath with
    | none => rfl
    | some rs => simp only [hs rs hf]
  cases highFirst with
  | true =>
    have e : utf16 true (60 :: u :: us) = [0xFE, 0xFF, 0] ++ 60 :: 0 :: (UInt8.ofNat (u % 256) ::
        us.flatMap fun u => [UInt8.ofNat (u / 256), UInt8.ofNat (u % 256)]) := by
      simp [utf16, Nat.div_eq_of_lt hu]
    rw [e]
    exact key _ _ (by simp) (by decide)
  | false =>
    have e : utf16 false (60 :: u :: us) = [0xFF, 0xFE] ++ 60 :: 0 :: (
        (u :: us).flatMap fun u => [UInt8.ofNat (u % 256), UInt8.ofNat (u / 256)]) := by
      simp [utf16]
    rw [e]
    exact key _ _ (by simp) (by decide)

/-! ## Examples -/

section Examples

def c85Env : Env := ⟨id, true, true, true, true⟩

def c85Doc : Str :=
  b!"<model xmlns=\"http://schemas.microsoft.com/3dmanufacturing/core/2015/02\"><resources><object id=\"1\" name=\"" ++ [0xC3, 0xA9] ++
    b!"\"/></resources></model>"

/-- The names of the objects of the model of a document that is read without an error. -/
def c85Names (data : Str) : Option (List Str) :=
  match unmarshalModel c85Env (fun _ t => t) data .zero with
  | some (m, .ok) => some (m.resources.objects.map (·.name))
  | _ => none

/-- A document with a byte order mark. -/
example : c85Names (utf8Mark ++ c85Doc) = some [[0xC3, 0xA9]] := by decide +kernel

example : utf16 true [60, 109] = [0xFE, 0xFF, 0, 60, 0, 109] ∧ utf16 false [60, 109] = [0xFF, 0xFE, 60, 0, 109, 0] := by decide

/-- A document in ISO-8859-1, as its declaration says. -/
def c85Latin : Str :=
  b!"<?xml version=\"1.0\" encoding=\"ISO-8859-1\"?><model xmlns=\"http://schemas.microsoft.com/3dmanufacturing/core/2015/02\"><resources><object id=\"1\" name=\"" ++
    [0xE9] ++ b!"\"/></resources></model>"

/-- **C85** is false of other encodings: a document in an encoding that the reader does not know is read without an error, and the
names in the model are not texts in UTF-8. -/
theorem C85_latin_false : c85Names c85Latin = some [[0xE9]] ∧ ¬ ∃ cs, (∀ c ∈ cs, Spec.Scalar c) ∧ Spec.utf8s cs = [0xE9] := by
  refine ⟨by decide +kernel, ?_⟩
  rintro ⟨cs, hcs, h⟩
  cases cs with
  | nil => simp [Spec.utf8s] at h
  | cons c cs =>
    have hc := hcs c (by simp)
    simp only [Spec.utf8s, List.flatMap_cons, Spec.utf8, Spec.utf8Nat] at h
    have hlt : c < 0x110000 := by
      rcases hc with h | h <;> omega
    split at h
    · simp only [List.map_cons, List.map_nil, List.cons_append, List.nil_append, List.cons.injEq] at h
      have := congrArg UInt8.toNat h.1
      simp at this
      omega
    · split at h
      · simp at h
      · split at h <;> simp at h

end Examples

end Go3mf
