import Verif.Lemmas.Within

/-!
# Tokens that can be written
-/

namespace Go3mf

/-! ## Attributes -/

/-- An attribute that can be written and is read back as it is. -/
def AttrDom (D : List (Str × Str)) (skip : Bool) (a : Attr) : Prop := AttrOK D skip a ∧ cleanText a.value = a.value

/-- Attributes that can be written and are read back as they are. -/
def AttrsDom (D : List (Str × Str)) (skip : Bool) (as : List Attr) : Prop := ∀ a ∈ as, AttrDom D skip a

/-- A local name of an attribute or element without name space. -/
def locOK (l : Str) : Bool := decide (NCName l) && decide (l ≠ b!"xmlns")

theorem AttrsDom.clean {D : List (Str × Str)} {skip : Bool} {as : List Attr} (h : AttrsDom D skip as) : Clean as :=
  fun a ha => ⟨(h a ha).1.1.1, (h a ha).2⟩

theorem AttrsDom.read {D : List (Str × Str)} {skip : Bool} {as : List Attr} (h : AttrsDom D skip as) : readAttrs as = as :=
  readAttrs_clean h.clean

theorem AttrsDom.ok {D : List (Str × Str)} {skip : Bool} {as : List Attr} (h : AttrsDom D skip as) :
    ∀ a ∈ shown as, AttrOK D skip a := fun a ha => (h a (List.mem_filter.1 ha).1).1

theorem AttrsDom.nil {D : List (Str × Str)} {skip : Bool} : AttrsDom D skip [] := by intro a ha; simp at ha

theorem AttrsDom.append {D : List (Str × Str)} {skip : Bool} {as bs : List Attr} (h : AttrsDom D skip as)
    (h' : AttrsDom D skip bs) : AttrsDom D skip (as ++ bs) := by
  intro a ha
  rcases List.mem_append.1 ha with ha | ha
  · exact h a ha
  · exact h' a ha

theorem AttrsDom.cons {D : List (Str × Str)} {skip : Bool} {a : Attr} {as : List Attr} (h : AttrDom D skip a)
    (h' : AttrsDom D skip as) : AttrsDom D skip (a :: as) := by
  intro b hb
  rcases List.mem_cons.1 hb with rfl | hb
  · exact h
  · exact h' b hb

theorem AttrDom.plain {D : List (Str × Str)} {skip : Bool} {l v : Str} (hl : locOK l = true) (hv : Plain v) :
    AttrDom D skip (attr l v) := by
  simp only [locOK, Bool.and_eq_true, decide_eq_true_eq] at hl
  exact ⟨⟨hl.1, fun h => hl.2 h.2, Or.inl rfl, fun _ => hv.escape⟩, hv.clean⟩

theorem AttrDom.text {D : List (Str × Str)} {l v : Str} (hl : locOK l = true) (hv : cleanText v = v) :
    AttrDom D false (attr l v) := by
  simp only [locOK, Bool.and_eq_true, decide_eq_true_eq] at hl
  exact ⟨⟨hl.1, fun h => hl.2 h.2, Or.inl rfl, by simp⟩, hv⟩

theorem AttrsDom.one {D : List (Str × Str)} {skip : Bool} {a : Attr} (h : AttrDom D skip a) : AttrsDom D skip [a] :=
  .cons h .nil

theorem AttrsDom.ite {D : List (Str × Str)} {skip c : Bool} {l v : Str} (h : c = true → AttrDom D skip (attr l v)) :
    AttrsDom D skip (attrIf c l v) := by
  cases c with
  | false => exact .nil
  | true => exact .one (h rfl)

/-- Attribute groups that can be written in a document with the declarations `D` and that are read back as they are. -/
def AnyDom (env : Env) (D : List (Str × Str)) (parent : Str) (any : AnyAttr) : Prop :=
  AnyOK env parent any ∧ ∀ a ∈ encodeAnyAttr any, NCName a.name.loc ∧ (a.name.space = nsXML ∨ a.name.space ∈ D.map (·.2))

theorem AnyDom.attrs {env : Env} {D : List (Str × Str)} {parent : Str} {any : AnyAttr} (h : AnyDom env D parent any) :
    AttrsDom D false (encodeAnyAttr any) := by
  intro a ha
  obtain ⟨-, h1, -, h3⟩ := h.1.attrs a ha
  exact ⟨⟨(h.2 a ha).1, fun e => h1 e.1, Or.inr (h.2 a ha).2, by simp⟩, h3⟩

theorem AnyDom.nil {env : Env} {D : List (Str × Str)} {parent : Str} : AnyDom env D parent [] := by
  refine ⟨⟨by simp, by simp⟩, ?_⟩
  simp [encodeAnyAttr]

/-! ## Tokens -/

/-- A sequence of tokens that can be written below the root element of a document with the declarations `D`: complete
elements without text around. -/
structure Good (D : List (Str × Str)) (ops : List Op) : Prop where
  ok : ∀ op ∈ ops, OpOK D nsCore op
  nest : ∀ st rest, openOps st (ops ++ rest) = openOps st rest
  text : NoText ops

theorem Good.nil {D : List (Str × Str)} : Good D [] := ⟨by simp, fun _ _ => rfl, trivial⟩

theorem Good.append {D : List (Str × Str)} {ops ops' : List Op} (h : Good D ops) (h' : Good D ops') :
    Good D (ops ++ ops') := by
  refine ⟨?_, ?_, noText_append h.text h'.text⟩
  · intro op hop
    rcases List.mem_append.1 hop with hop | hop
    · exact h.ok op hop
    · exact h'.ok op hop
  · intro st rest
    rw [List.append_assoc, h.nest, h'.nest]

theorem Good.elem {D : List (Str × Str)} {n : Name} {as : List Attr} {skip : Bool} {ops : List Op}
    (hn : NameOK D nsCore n) (ha : AttrsDom D skip as) (h : Good D ops) :
    Good D (.start n as false skip :: ops ++ [.stop n]) := by
  refine ⟨?_, ?_, trivial⟩
  · intro op hop
    simp only [List.cons_append, List.mem_cons, List.mem_append, List.not_mem_nil, or_false] at hop
    rcases hop with rfl | hop | rfl
    · exact ⟨hn, ha.ok⟩
    · exact h.ok op hop
    · exact hn
  · intro st rest
    rw [List.cons_append, List.cons_append, List.append_assoc, openOps]
    simp only [Bool.false_eq_true, if_false]
    rw [h.nest, List.singleton_append, openOps, if_pos rfl]

theorem Good.textElem {D : List (Str × Str)} {n : Name} {as : List Attr} {skip : Bool} {s : Str}
    (hn : NameOK D nsCore n) (ha : AttrsDom D skip as) : Good D [.start n as false skip, .chars s, .stop n] := by
  refine ⟨?_, ?_, trivial⟩
  · intro op hop
    simp only [List.mem_cons, List.not_mem_nil, or_false] at hop
    rcases hop with rfl | rfl | rfl
    · exact ⟨hn, ha.ok⟩
    · exact trivial
    · exact hn
  · intro st rest
    simp [openOps]

theorem Good.auto {D : List (Str × Str)} {n : Name} {as : List Attr} {skip : Bool}
    (hn : NameOK D nsCore n) (ha : AttrsDom D skip as) : Good D [.start n as true skip] := by
  refine ⟨?_, ?_, trivial⟩
  · intro op hop
    simp only [List.mem_cons, List.not_mem_nil, or_false] at hop
    subst hop
    exact ⟨hn, ha.ok⟩
  · intro st rest
    simp [openOps]

theorem Good.flatMap {D : List (Str × Str)} {α : Type} {f : α → List Op} : ∀ {xs : List α}, (∀ x ∈ xs, Good D (f x)) →
    Good D (xs.flatMap f)
  | [], _ => .nil
  | x :: xs, h => by
    rw [List.flatMap_cons]
    exact (h x (by simp)).append (Good.flatMap fun y hy => h y (by simp [hy]))

theorem Good.map {D : List (Str × Str)} {α : Type} {f : α → Op} {xs : List α} (h : ∀ x ∈ xs, Good D [f x]) :
    Good D (xs.map f) := by
  rw [map_eq_flatMap]
  exact Good.flatMap h

theorem nameOK_core {D : List (Str × Str)} {l : Str} (h : locOK l = true) : NameOK D nsCore (coreName l) := by
  simp only [locOK, Bool.and_eq_true, decide_eq_true_eq] at h
  exact ⟨h.1, h.2, Or.inl rfl⟩

theorem nameOK_ext {D : List (Str × Str)} {s l : Str} (h : locOK l = true) (hs : s ∈ D.map (·.2)) :
    NameOK D nsCore ⟨s, l⟩ := by
  simp only [locOK, Bool.and_eq_true, decide_eq_true_eq] at h
  exact ⟨h.1, h.2, Or.inr (Or.inr hs)⟩

theorem fullName_core (l : Str) : fullName nsCore (coreName l) = ⟨nsCore, l⟩ := rfl

theorem fullName_ext {s : Str} (h : s ≠ []) (l : Str) : fullName nsCore ⟨s, l⟩ = ⟨s, l⟩ := by
  unfold fullName
  rw [if_neg h]

end Go3mf
