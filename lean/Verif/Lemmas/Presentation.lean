import Verif.Spec.Document
import Mathlib.Data.List.Forall2
import Mathlib.Data.List.Perm.Basic

/-!
# Documents that differ in their presentation only

The order of the attributes that have a meaning, texts between the elements, processing instructions, elements without a meaning, and the order of
elements with different names do not change what a document means.
-/

namespace Go3mf
open Spec

namespace Spec

/-- The attribute has a meaning of its own in elements of type `k`. -/
def OwnAttr (k : Kind) (a : Attr) : Prop := a.name.space = [] ∧ a.name.loc ∈ (attributes k).map (·.1)

instance (k : Kind) (a : Attr) : Decidable (OwnAttr k a) := inferInstanceAs (Decidable (_ ∧ _))

/-- The same attributes: those with a meaning of their own in any order, the others in the same order. -/
def SameAttrs (k : Kind) (as as' : List Attr) : Prop :=
  as = as' ∨ (as.map (·.name)).Nodup ∧ as.Perm as' ∧ (as.filter fun a => ¬ OwnAttr k a) = as'.filter fun a => ¬ OwnAttr k a

/-- A node without a meaning in an element of type `k`. -/
def Idle (env : Env) (k : Kind) : Node → Prop
  | .elem n _ _ => childKind env k n = none
  | .text _ => k ≠ .metadata
  | .other => True

/-- The name of an element. -/
def Node.named (n : Name) : Node → Prop
  | .elem m _ _ => m = n
  | _ => False

/-- The same content of an element of type `k`, presented in another way. -/
inductive SameContent (env : Env) : Kind → List Node → List Node → Prop
  | nil {k} : SameContent env k [] []
  | same {k x c c'} : SameContent env k c c' → SameContent env k (x :: c) (x :: c')
  | elem {k n k' mu as as' b b' c c'} : childKind env k n = some (k', mu) → k'.isForeign = false → SameAttrs k' as as' →
      SameContent env k' b b' → SameContent env k c c' → SameContent env k (.elem n as b :: c) (.elem n as' b' :: c')
  | drop {k x c c'} : Idle env k x → SameContent env k c c' → SameContent env k (x :: c) c'
  | insert {k x c c'} : Idle env k x → SameContent env k c c' → SameContent env k c (x :: c')
  | move {k n k' mu as b y c} : childKind env k n = some (k', mu) → mu = .single ∨ mu = .many → ¬ y.named n →
      SameContent env k (.elem n as b :: y :: c) (y :: .elem n as b :: c)
  | back {k n k' mu as b y c} : childKind env k n = some (k', mu) → mu = .single ∨ mu = .many → ¬ y.named n →
      SameContent env k (y :: .elem n as b :: c) (.elem n as b :: y :: c)
  | trans {k c c' c''} : SameContent env k c c' → SameContent env k c' c'' → SameContent env k c c''

/-- The same element of type `k`. -/
def SameElem (env : Env) (k : Kind) (e e' : List Attr × List Node) : Prop := SameAttrs k e.1 e'.1 ∧ SameContent env k e.2 e'.2

end Spec

theorem Spec.SameAttrs.refl {k : Kind} (as : List Attr) : SameAttrs k as as := .inl rfl

theorem Spec.SameContent.refl {env : Env} {k : Kind} : ∀ c : List Node, SameContent env k c c
  | [] => .nil
  | _ :: c => .same (SameContent.refl c)

theorem Spec.SameElem.refl {env : Env} {k : Kind} (e : List Attr × List Node) : SameElem env k e e := ⟨.inl rfl, .refl _⟩

theorem Spec.SameAttrs.trans {k : Kind} {a b c : List Attr} (h : SameAttrs k a b) (h' : SameAttrs k b c) : SameAttrs k a c := by
  rcases h with rfl | ⟨h1, h2, h3⟩
  · exact h'
  · rcases h' with rfl | ⟨k1, k2, k3⟩
    · exact .inr ⟨h1, h2, h3⟩
    · exact .inr ⟨h1, h2.trans k2, h3.trans k3⟩

theorem Spec.SameElem.trans {env : Env} {k : Kind} {a b c : List Attr × List Node} (h : SameElem env k a b) (h' : SameElem env k b c) :
    SameElem env k a c := ⟨h.1.trans h'.1, h.2.trans h'.2⟩

/-! ## Attributes -/

namespace Spec.SameAttrs

variable {k : Kind} {as as' : List Attr}

theorem find (h : SameAttrs k as as') (n : Name) : attr? as n = attr? as' n := by
  rcases h with rfl | ⟨h1, h2, -⟩
  · rfl
  have key : ∀ {l l' : List Attr}, (l.map (·.name)).Nodup → l.Perm l' → ∀ v, attr? l n = some v → attr? l' n = some v := by
    intro l l' hd hp v hv
    unfold attr? at hv ⊢
    obtain ⟨a, ha, rfl⟩ := Option.map_eq_some_iff.1 hv
    have hd' : (l'.map (·.name)).Nodup := (hp.map _).nodup_iff.1 hd
    have hm : a ∈ l' := hp.mem_iff.1 (List.mem_of_find?_eq_some ha)
    have hn : a.name = n := by simpa using List.find?_some ha
    obtain ⟨b, hb⟩ : ∃ b, l'.find? (fun a => a.name = n) = some b := by
      rw [← Option.isSome_iff_exists, List.find?_isSome]
      exact ⟨a, hm, by simpa using hn⟩
    have hbn : b.name = n := by simpa using List.find?_some hb
    have : b = a := List.inj_on_of_nodup_map hd' (List.mem_of_find?_eq_some hb) hm (hbn.trans hn.symm)
    rw [hb, this]; rfl
  have h1' : (as'.map (·.name)).Nodup := (h2.map _).nodup_iff.1 h1
  cases e : attr? as n with
  | some v => exact (key h1 h2 v e).symm
  | none =>
    cases e' : attr? as' n with
    | none => rfl
    | some v => rw [key h1' h2.symm v e'] at e; cases e

theorem plain (h : SameAttrs k as as') (l : Str) : plain? as l = plain? as' l := h.find _

theorem text (h : SameAttrs k as as') (l : Str) : textAt as l = textAt as' l := by rw [textAt, textAt, h.plain]

theorem uint (h : SameAttrs k as as') (l : Str) : uintAt as l = uintAt as' l := by rw [uintAt, uintAt, h.plain]

theorem float (h : SameAttrs k as as') (l : Str) : floatAt as l = floatAt as' l := by rw [floatAt, floatAt, h.plain]

theorem word (h : SameAttrs k as as') {α : Type} (w : Str → Option α) (d : α) (l : Str) : wordAt w d as l = wordAt w d as' l := by
  rw [wordAt, wordAt, h.plain]

theorem matrix (h : SameAttrs k as as') (l : Str) : matrixAt as l = matrixAt as' l := h.word _ _ _

theorem uints (h : SameAttrs k as as') (l : Str) : uintsAt as l = uintsAt as' l := by rw [uintsAt, uintsAt, h.text]

theorem floats (h : SameAttrs k as as') (l : Str) : floatsAt as l = floatsAt as' l := by rw [floatsAt, floatsAt, h.text]

/-- The attributes that are not known are the same. -/
theorem filter (h : SameAttrs k as as') (p : Attr → Bool) (hp : ∀ a, p a = true → ¬ OwnAttr k a) : as.filter p = as'.filter p := by
  rcases h with rfl | ⟨-, -, h⟩
  · rfl
  have : ∀ l : List Attr, l.filter p = (l.filter fun a => ¬ OwnAttr k a).filter p := by
    intro l
    rw [List.filter_filter]
    refine List.filter_congr fun a _ => ?_
    cases e : p a with
    | false => simp
    | true => simp [hp a e]
  rw [this as, this as', h]

/-- All are the same if none are known. -/
theorem eq_of_none (h : SameAttrs k as as') (hk : attributes k = []) : as = as' := by
  have := h.filter (fun _ => true) fun a _ hn => by simp [OwnAttr, hk] at hn
  simpa using this

theorem ext (h : SameAttrs k as as') (env : Env) (k' : Kind) : extAttrs env k' as = extAttrs env k' as' := by
  rw [extAttrs, extAttrs, h.filter _ fun a ha hn => by simp [hn.1] at ha]

theorem faults (h : SameAttrs k as as') (env : Env) (k' : Kind) : (attrFaults env k' as).Perm (attrFaults env k' as') := by
  rcases h with rfl | ⟨-, h, -⟩
  · exact .refl _
  · exact h.flatMap_right _

end Spec.SameAttrs

/-! ## Contents -/

theorem children_cons_elem (n m : Name) (as : List Attr) (b c : List Node) :
    children n (.elem m as b :: c) = if m = n then (as, b) :: children n c else children n c := by
  unfold children
  rw [List.filterMap_cons]
  by_cases h : m = n <;> simp [h]

theorem children_cons_not {n : Name} {x : Node} (h : ¬ x.named n) (c : List Node) : children n (x :: c) = children n c := by
  unfold children
  rw [List.filterMap_cons]
  cases x with
  | elem m as b => simp [show ¬ m = n from h]
  | text t => rfl
  | other => rfl

theorem idle_named {env : Env} {k : Kind} {x : Node} (h : Idle env k x) {n : Name} {q : Kind × Mult} (hn : childKind env k n = some q) :
    ¬ x.named n := by
  cases x with
  | elem m as b =>
    intro e
    have e : m = n := e
    rw [Idle, e, hn] at h
    cases h
  | text t => exact id
  | other => exact id

/-- The elements with a name are the same, in the same order. -/
theorem Spec.SameContent.children {env : Env} {k : Kind} {c c' : List Node} (h : SameContent env k c c') {n : Name} {k' : Kind} {mu : Mult}
    (hn : childKind env k n = some (k', mu)) : List.Forall₂ (SameElem env k') (Spec.children n c) (Spec.children n c') := by
  have refl : ∀ (k : Kind) (l : List (List Attr × List Node)), List.Forall₂ (SameElem env k) l l := fun k l =>
    List.forall₂_same.2 fun e _ => .refl e
  induction h generalizing k' mu with
  | nil => exact .nil
  | @same k x c c' h ih =>
    by_cases hx : x.named n
    · cases x with
      | elem m as b =>
        rw [children_cons_elem, children_cons_elem, if_pos (by exact hx), if_pos (by exact hx)]
        exact .cons (.refl _) (ih hn)
      | text t => cases hx
      | other => cases hx
    · rw [children_cons_not hx, children_cons_not hx]
      exact ih hn
  | @elem k m k1 mu1 as as' b b' c c' h1 h2 h3 h4 h5 ih1 ih2 =>
    rw [children_cons_elem, children_cons_elem]
    by_cases hm : m = n
    · subst hm
      rw [if_pos rfl, if_pos rfl]
      rw [h1, Option.some.injEq, Prod.mk.injEq] at hn
      obtain ⟨rfl, rfl⟩ := hn
      exact .cons ⟨h3, h4⟩ (ih2 h1)
    · rw [if_neg hm, if_neg hm]
      exact ih2 hn
  | drop hx _ ih => rw [children_cons_not (idle_named hx hn)]; exact ih hn
  | insert hx _ ih => rw [children_cons_not (idle_named hx hn)]; exact ih hn
  | @move k m k1 mu1 as b y c h1 h0 h2 =>
    by_cases hy : y.named n
    · have hm : m ≠ n := fun e => h2 (e ▸ hy)
      cases y with
      | elem m' as' b' => simp only [children_cons_elem, if_neg hm]; exact refl _ _
      | text t => cases hy
      | other => cases hy
    · rw [children_cons_not hy, children_cons_elem, children_cons_elem, children_cons_not hy]; exact refl _ _
  | @back k m k1 mu1 as b y c h1 h0 h2 =>
    by_cases hy : y.named n
    · have hm : m ≠ n := fun e => h2 (e ▸ hy)
      cases y with
      | elem m' as' b' => simp only [children_cons_elem, if_neg hm]; exact refl _ _
      | text t => cases hy
      | other => cases hy
    · rw [children_cons_not hy, children_cons_elem, children_cons_elem, children_cons_not hy]; exact refl _ _
  | trans _ _ ih1 ih2 =>
    have t : ∀ {l1 l2 l3 : List (List Attr × List Node)} {k : Kind}, List.Forall₂ (SameElem env k) l1 l2 → List.Forall₂ (SameElem env k) l2 l3 →
        List.Forall₂ (SameElem env k) l1 l3 := by
      intro l1 l2 l3 k a b
      induction a generalizing l3 with
      | nil => exact b
      | cons h _ ih => cases b with | cons h' b => exact .cons (h.trans h') (ih b)
    exact t (ih1 hn) (ih2 hn)

namespace Spec.SameContent

variable {env : Env} {k : Kind} {c c' : List Node}

/-- A function of the elements with a name. -/
theorem map (h : SameContent env k c c') {n : Name} {k' : Kind} {mu : Mult} (hn : childKind env k n = some (k', mu)) {α : Type}
    (f : List Attr × List Node → α) (hf : ∀ e e', SameElem env k' e e' → f e = f e') :
    (Spec.children n c).map f = (Spec.children n c').map f := by
  have := h.children hn
  generalize Spec.children n c = l at this
  generalize Spec.children n c' = l' at this
  induction this with
  | nil => rfl
  | cons h _ ih => rw [List.map_cons, List.map_cons, hf _ _ h, ih]

/-- The element with a name, if there is one. -/
theorem child (h : SameContent env k c c') {n : Name} {k' : Kind} {mu : Mult} (hn : childKind env k n = some (k', mu)) :
    (child? n c = none ∧ child? n c' = none) ∨ ∃ e e', child? n c = some e ∧ child? n c' = some e' ∧ SameElem env k' e e' := by
  have := h.children hn
  unfold child?
  generalize Spec.children n c = l at this
  generalize Spec.children n c' = l' at this
  cases this with
  | nil => exact .inl ⟨rfl, rfl⟩
  | cons h _ => exact .inr ⟨_, _, rfl, rfl, h⟩

/-- The text of a metadata. -/
theorem docText (h : SameContent env k c c') (hk : k = .metadata) : Spec.docText c = Spec.docText c' := by
  induction h with
  | nil => rfl
  | @same k x c c' _ ih =>
    have := ih hk
    unfold Spec.docText at this ⊢
    cases x <;> simp [this]
  | elem h1 => subst hk; simp [childKind, Kind.isOpen, elements] at h1
  | @drop k x c c' hx _ ih =>
    rw [← ih hk]
    cases x with
    | text t => exact absurd hk hx
    | _ => rfl
  | @insert k x c c' hx _ ih =>
    rw [ih hk]
    cases x with
    | text t => exact absurd hk hx
    | _ => rfl
  | move h1 => subst hk; simp [childKind, Kind.isOpen, elements] at h1
  | back h1 => subst hk; simp [childKind, Kind.isOpen, elements] at h1
  | trans _ _ ih1 ih2 => exact (ih1 hk).trans (ih2 hk)

/-- What is made of each node. -/
theorem filterMap (h : SameContent env k c c') {α : Type} (f : Node → Option α) (h0 : ∀ x, Idle env k x → f x = none)
    (h1 : ∀ n k' mu e e', childKind env k n = some (k', mu) → SameElem env k' e e' → k'.isForeign = false → f (.elem n e.1 e.2) = f (.elem n e'.1 e'.2))
    (h2 : ∀ n k' mu as b, childKind env k n = some (k', mu) → mu = .single ∨ mu = .many → f (.elem n as b) = none) : c.filterMap f = c'.filterMap f := by
  induction h with
  | nil => rfl
  | same _ ih => rw [List.filterMap_cons, List.filterMap_cons, ih h0 h1 h2]
  | elem a1 a2 a3 a4 _ _ ih => rw [List.filterMap_cons, List.filterMap_cons, ih h0 h1 h2, h1 _ _ _ (_, _) (_, _) a1 ⟨a3, a4⟩ a2]
  | drop hx _ ih => rw [List.filterMap_cons, h0 _ hx, ih h0 h1 h2]
  | insert hx _ ih => rw [List.filterMap_cons, h0 _ hx, ih h0 h1 h2]
  | move a1 a2 _ => simp only [List.filterMap_cons, h2 _ _ _ _ _ a1 a2]
  | back a1 a2 _ => simp only [List.filterMap_cons, h2 _ _ _ _ _ a1 a2]
  | trans _ _ ih1 ih2 => exact (ih1 h0 h1 h2).trans (ih2 h0 h1 h2)

end Spec.SameContent

end Go3mf
