import Mathlib.Data.List.Forall2
import Verif.Model.ErrHeap
import Verif.Model.Validate
import Verif.Props.C14

/-!
# C82: errors are changed in place, unseen

`Wrap`, `WrapIndex`, `WrapPath` and `Append` change the errors they are given.  An error that is used only once, as the
validators and the decoder use theirs, then reads as if every call had returned a new one, and nothing else in the memory
is changed.  This is what the model of the validators assumes.  An error that is used twice shows the places of both
uses.
-/

namespace Go3mf

mutual
/-- The error that is found in the memory behind a pointer. -/
inductive Spec.ReadsErr (h : EHeap) : HErr → Err → Prop
  | leaf (l : Leaf) : Spec.ReadsErr h (.leaf l) (.leaf l)
  | error {a : Nat} {t : List Level} {r : HErr} {p : Str} {e : Err} :
    h[a]? = some (.error t r p) → Spec.ReadsErr h r e → Spec.ReadsErr h (.ptr a) (.wrapped t e p)
  | list {a : Nat} {rs : List HErr} {es : List Err} :
    h[a]? = some (.list rs) → Spec.ReadsErrs h rs es → Spec.ReadsErr h (.ptr a) (.list es)
/-- The same for the members of a list. -/
inductive Spec.ReadsErrs (h : EHeap) : List HErr → List Err → Prop
  | nil : Spec.ReadsErrs h [] []
  | cons {r : HErr} {rs : List HErr} {e : Err} {es : List Err} :
    Spec.ReadsErr h r e → Spec.ReadsErrs h rs es → Spec.ReadsErrs h (r :: rs) (e :: es)
end

/-- The same for an error that may be nil. -/
inductive Spec.Reads (h : EHeap) : HErr → ErrVal → Prop
  | nil : Spec.Reads h .nil .nil
  | err {r : HErr} {e : Err} : Spec.ReadsErr h r e → Spec.Reads h r (.err e)

/-- A function on errors that leaves nil alone. -/
def Spec.onErr (f : Err → Err) : ErrVal → ErrVal
  | .err e => .err (f e)
  | v => v

/-- The members of a list, each changed by `f`. -/
def Spec.onMembers (f : Err → Err) : Err → Err
  | .list es => .list (es.map f)
  | e => e

/-- What an expression stands for if no call changes its arguments. -/
def Spec.errVal : ErrProg → ErrVal
  | .nil => .nil
  | .leaf l => .err (.leaf l)
  | .empty => .err (.list [])
  | .wrapIndex n i e => Spec.onErr (wrapIndex n i) (Spec.errVal e)
  | .wrapPath n p e => Spec.onErr (wrapPath n p) (Spec.errVal e)
  | .append err e => (Spec.errVal err).append [Spec.errVal e]
  | .setPath p err e => Spec.onErr (Spec.onMembers (setPath p)) ((Spec.errVal err).append [Spec.errVal e])

/-! ## The shape of the errors in memory -/

/-- A pointer to an `Error` around a leaf, with an address from `b` to `c`, or a leaf. -/
inductive EAtom (h : EHeap) (b c : Nat) : HErr → Err → Prop
  | leaf (l : Leaf) : EAtom h b c (.leaf l) (.leaf l)
  | error {a : Nat} {t : List Level} {l : Leaf} {p : Str} :
    b ≤ a → a < c → h[a]? = some (.error t (.leaf l) p) → EAtom h b c (.ptr a) (.wrapped t (.leaf l) p)

/-- The members are such, and no pointer occurs twice. -/
structure EMembers (h : EHeap) (b c : Nat) (rs : List HErr) (es : List Err) : Prop where
  atoms : List.Forall₂ (EAtom h b c) rs es
  apart : rs.Pairwise fun r s => ∀ a, r = .ptr a → s ≠ .ptr a

/-- The error is nil, such, or a list of such. -/
inductive EOwn (h : EHeap) (b c : Nat) : HErr → ErrVal → Prop
  | nil : EOwn h b c .nil .nil
  | atom {r : HErr} {e : Err} : EAtom h b c r e → EOwn h b c r (.err e)
  | list {a : Nat} {rs : List HErr} {es : List Err} :
    b ≤ a → a < c → h[a]? = some (.list rs) → EMembers h b c rs es → EOwn h b c (.ptr a) (.err (.list es))

theorem EAtom.mono {h h' : EHeap} {b c b' c' : Nat} {r : HErr} {e : Err} (ha : EAtom h b c r e) (hb : b' ≤ b) (hc : c ≤ c')
    (hs : ∀ a t l p, h[a]? = some (.error t (.leaf l) p) → b ≤ a → a < c → r = .ptr a → h'[a]? = h[a]?) :
    EAtom h' b' c' r e := by
  cases ha with
  | leaf l => exact .leaf l
  | error h1 h2 h3 => exact .error (by omega) (by omega) ((hs _ _ _ _ h3 h1 h2 rfl).trans h3)

theorem EMembers.mono {h h' : EHeap} {b c b' c' : Nat} {rs : List HErr} {es : List Err} (hm : EMembers h b c rs es)
    (hb : b' ≤ b) (hc : c ≤ c') (hs : ∀ a t l p, h[a]? = some (.error t (.leaf l) p) → b ≤ a → a < c → h'[a]? = h[a]?) :
    EMembers h' b' c' rs es :=
  ⟨hm.atoms.imp fun _ _ h1 => h1.mono hb hc fun a t l p h2 h3 h4 _ => hs a t l p h2 h3 h4, hm.apart⟩

theorem EOwn.mono {h h' : EHeap} {b c b' c' : Nat} {r : HErr} {v : ErrVal} (ho : EOwn h b c r v) (hb : b' ≤ b) (hc : c ≤ c')
    (hs : ∀ a, b ≤ a → a < c → h'[a]? = h[a]?) : EOwn h' b' c' r v := by
  cases ho with
  | nil => exact .nil
  | atom h1 => exact .atom (h1.mono hb hc fun a _ _ _ _ h2 h3 _ => hs a h2 h3)
  | list h1 h2 h3 h4 =>
    exact .list (by omega) (by omega) ((hs _ h1 h2).trans h3) (h4.mono hb hc fun a _ _ _ _ h5 h6 => hs a h5 h6)

theorem EAtom.reads {h : EHeap} {b c : Nat} {r : HErr} {e : Err} (ha : EAtom h b c r e) : Spec.ReadsErr h r e := by
  cases ha with
  | leaf l => exact .leaf l
  | error _ _ h3 => exact .error h3 (.leaf _)

theorem EMembers.reads {h : EHeap} {b c : Nat} {rs : List HErr} {es : List Err} (hm : List.Forall₂ (EAtom h b c) rs es) :
    Spec.ReadsErrs h rs es := by
  induction hm with
  | nil => exact .nil
  | cons h1 _ ih => exact .cons h1.reads ih

theorem EOwn.reads {h : EHeap} {b c : Nat} {r : HErr} {v : ErrVal} (ho : EOwn h b c r v) : Spec.Reads h r v := by
  cases ho with
  | nil => exact .nil
  | atom h1 => exact .err h1.reads
  | list _ _ h3 h4 => exact .err (.list h3 (EMembers.reads h4.atoms))

/-! ## Wrapping -/

/-- Wrapping, for both functions. -/
def ewrap (lv : Level) : Option Str → Err → Err
  | none => wrapIndex lv.name lv.index
  | some p => wrapPath lv.name p

theorem lt_of_get {α : Type} {h : List α} {a : Nat} {c : α} (hg : h[a]? = some c) : a < h.length := by
  rcases List.getElem?_eq_some_iff.1 hg with ⟨h1, _⟩; exact h1

theorem wrapH_atom {lv : Level} {path : Option Str} (hlv : path ≠ none → lv.index = -1) (f : Nat) {h : EHeap} {b c : Nat} {r : HErr}
    {e : Err} (hc : c ≤ h.length) (ha : EAtom h b c r e) (hb : b ≤ h.length) :
    ∃ h' r', wrapH lv path (f + 1) h r = some (h', r') ∧ EAtom h' b h'.length r' (ewrap lv path e) ∧
      h.length ≤ h'.length ∧ (∀ a, a < h.length → r ≠ .ptr a → h'[a]? = h[a]?) ∧ (r' = r ∨ r' = .ptr h.length) := by
  cases ha with
  | leaf l =>
    refine ⟨_, _, rfl, ?_, by simp, fun a h1 _ => by rw [List.getElem?_append_left h1], .inr rfl⟩
    cases path with
    | none => exact .error hb (by simp) (by simp)
    | some p =>
      have := hlv (by simp)
      have h2 : lv = ⟨lv.name, -1⟩ := by rw [← this]
      show EAtom _ _ _ _ (.wrapped [⟨lv.name, -1⟩] (.leaf l) p)
      rw [← h2]
      exact .error hb (by simp) (by simp)
  | @error a t l p h1 h2 h3 =>
    refine ⟨h.set a (.error (t ++ [lv]) (.leaf l) (path.getD p)), .ptr a, by simp [wrapH, h3], ?_, by simp, ?_, .inl rfl⟩
    · have h4 : (h.set a (.error (t ++ [lv]) (.leaf l) (path.getD p)))[a]? = some (.error (t ++ [lv]) (.leaf l) (path.getD p)) := by
        simp [show a < h.length by omega]
      cases path with
      | none => exact .error h1 (by simp; omega) h4
      | some q =>
        have h5 : lv = ⟨lv.name, -1⟩ := by rw [← hlv (by simp)]
        show EAtom _ _ _ _ (.wrapped (t ++ [⟨lv.name, -1⟩]) (.leaf l) q)
        rw [← h5]
        exact .error h1 (by simp; omega) h4
    · intro a' _ h5
      have : a ≠ a' := fun h6 => h5 (by rw [h6])
      rw [List.getElem?_set_ne this]

theorem pairwise_mid {R : HErr → HErr → Prop} {l1 l2 : List HErr} {x y : HErr} (hp : (l1 ++ x :: l2).Pairwise R)
    (h1 : ∀ z ∈ l1, R z y) (h2 : ∀ z ∈ l2, R y z) : (l1 ++ y :: l2).Pairwise R := by
  rw [List.pairwise_append, List.pairwise_cons] at hp ⊢
  refine ⟨hp.1, ⟨h2, hp.2.1.2⟩, ?_⟩
  intro z hz w hw
  rcases List.mem_cons.1 hw with rfl | hw
  · exact h1 z hz
  · exact hp.2.2 z hz w (List.mem_cons_of_mem _ hw)

theorem atom_lt {h : EHeap} {b c : Nat} {rs : List HErr} {es : List Err} (hm : List.Forall₂ (EAtom h b c) rs es) {a : Nat}
    (hr : HErr.ptr a ∈ rs) : b ≤ a ∧ a < c ∧ ∃ t l p, h[a]? = some (.error t (.leaf l) p) := by
  induction hm with
  | nil => simp at hr
  | cons h1 _ ih =>
    rcases List.mem_cons.1 hr with h2 | h2
    · subst h2
      cases h1 with
      | error h3 h4 h5 => exact ⟨h3, h4, _, _, _, h5⟩
    · exact ih h2

theorem forall2_keep {R S : HErr → Err → Prop} {rs : List HErr} {es : List Err} (hm : List.Forall₂ R rs es)
    (h : ∀ r ∈ rs, ∀ e, R r e → S r e) : List.Forall₂ S rs es := by
  induction hm with
  | nil => exact .nil
  | cons h1 _ ih => exact .cons (h _ (by simp) _ h1) (ih fun r hr => h r (by simp [hr]))

theorem wrapLoopH_own {lv : Level} {path : Option Str} (hlv : path ≠ none → lv.index = -1) (f : Nat) {b a : Nat} (hba : b ≤ a) :
    ∀ (n : Nat) (h : EHeap) (done todo : List HErr) (es1 es2 : List Err), b ≤ h.length →
      h[a]? = some (.list (done ++ todo)) → todo.length = n →
      List.Forall₂ (EAtom h b h.length) done es1 → List.Forall₂ (EAtom h b h.length) todo es2 →
      ((done ++ todo).Pairwise fun r s => ∀ a, r = .ptr a → s ≠ .ptr a) →
      ∃ h' rs, wrapLoopH (wrapH lv path (f + 1)) a done.length n h = some h' ∧ h'[a]? = some (.list rs) ∧
        EMembers h' b h'.length rs (es1 ++ es2.map (ewrap lv path)) ∧ h.length ≤ h'.length ∧ (∀ x, x < b → h'[x]? = h[x]?) := by
  intro n
  induction n with
  | zero =>
    intro h done todo es1 es2 hb hg hn h1 h2 hp
    have : todo = [] := List.length_eq_zero_iff.1 hn
    subst this
    cases h2
    refine ⟨h, done, rfl, by simpa using hg, ⟨by simpa using h1, by simpa using hp⟩, Nat.le_refl _, fun _ _ => rfl⟩
  | succ n ih =>
    intro h done todo es1 es2 hb hg hn h1 h2 hp
    cases h2 with
    | nil => simp at hn
    | @cons r e todo es2 hr h2 =>
      obtain ⟨h3, r', hw, ha, hl, hs, hrr⟩ := wrapH_atom hlv f (Nat.le_refl _) hr hb
      have hal := lt_of_get hg
      have hra : r ≠ .ptr a := by
        rintro rfl
        cases hr with
        | error _ _ h5 => rw [hg] at h5; simp at h5
      have hg3 : h3[a]? = some (.list (done ++ r :: todo)) := (hs a hal hra).trans hg
      have hset : (done ++ r :: todo).set done.length r' = done ++ r' :: todo := by simp
      -- other members are still there after the call and the assignment
      have hkeep : ∀ (s : HErr) (e' : Err), EAtom h b h.length s e' → (∀ x, r = .ptr x → s ≠ .ptr x) →
          EAtom (h3.set a (.list (done ++ r' :: todo))) b (h3.set a (.list (done ++ r' :: todo))).length s e' := by
        intro s e' h5 h6
        refine h5.mono (Nat.le_refl _) (by simpa using hl) fun x t l p h7 _ h8 h9 => ?_
        have hxa : a ≠ x := by rintro rfl; rw [hg] at h7; simp at h7
        rw [List.getElem?_set_ne hxa]
        exact hs x h8 fun h10 => h6 x h10 h9
      have hp' := hp
      rw [List.pairwise_append, List.pairwise_cons] at hp'
      have hd : List.Forall₂ (EAtom (h3.set a (.list (done ++ r' :: todo))) b (h3.set a (.list (done ++ r' :: todo))).length) done es1 := by
        have : ∀ s ∈ done, ∀ x, r = .ptr x → s ≠ .ptr x := fun s hs' x h7 h8 => hp'.2.2 s hs' r (by simp) x h8 h7
        exact forall2_keep h1 fun s hs' e' h7 => hkeep s e' h7 (this s hs')
      have ht : List.Forall₂ (EAtom (h3.set a (.list (done ++ r' :: todo))) b (h3.set a (.list (done ++ r' :: todo))).length) todo es2 := by
        have : ∀ s ∈ todo, ∀ x, r = .ptr x → s ≠ .ptr x := fun s hs' x h7 => hp'.2.1.1 s hs' x h7
        exact forall2_keep h2 fun s hs' e' h7 => hkeep s e' h7 (this s hs')
      have hm : EAtom (h3.set a (.list (done ++ r' :: todo))) b (h3.set a (.list (done ++ r' :: todo))).length r' (ewrap lv path e) := by
        refine ha.mono (Nat.le_refl _) (by simp) fun x t l p h7 _ _ _ => ?_
        have hxa : a ≠ x := by rintro rfl; rw [hg3] at h7; simp at h7
        rw [List.getElem?_set_ne hxa]
      have hp2 : ((done ++ [r']) ++ todo).Pairwise fun r s => ∀ a, r = .ptr a → s ≠ .ptr a := by
        rw [List.append_assoc]
        refine pairwise_mid hp ?_ ?_
        · intro z hz x h7 h8
          rcases hrr with rfl | rfl
          · exact hp'.2.2 z hz r' (by simp) x h7 h8
          · subst h7
            have := (atom_lt h1 hz).2.1
            simp only [HErr.ptr.injEq] at h8
            omega
        · intro z hz x h7 h8
          rcases hrr with rfl | rfl
          · exact hp'.2.1.1 z hz x h7 h8
          · subst h8
            have := (atom_lt h2 hz).2.1
            simp only [HErr.ptr.injEq] at h7
            omega
      obtain ⟨h', rs, hloop, hg', hm', hl', hs'⟩ := ih (h3.set a (.list (done ++ r' :: todo))) (done ++ [r']) todo
        (es1 ++ [ewrap lv path e]) es2 (by simp; omega)
        (by simp [show a < h3.length by omega]) (by simpa using hn)
        (List.rel_append (R := EAtom _ _ _) hd (.cons hm .nil)) ht hp2
      refine ⟨h', rs, ?_, hg', by simpa using hm', ?_, ?_⟩
      · have hk : (done ++ r :: todo)[done.length]? = some r := by simp
        simp only [wrapLoopH, hg, hk, hw, hg3, hset]
        simpa using hloop
      · simp only [List.length_set] at hl'; omega
      · intro x hx
        rw [hs' x hx, List.getElem?_set_ne (by omega)]
        refine hs x (by omega) ?_
        rintro rfl
        cases hr with
        | error h7 _ _ => omega

theorem wrapIndex_list (n : Str) (i : Int) (es : List Err) : wrapIndex n i (.list es) = .list (es.map (wrapIndex n i)) := by
  have : ∀ es, wrapIndexList n i es = es.map (wrapIndex n i) := by
    intro es; induction es with
    | nil => rfl
    | cons e es ih => simp [wrapIndexList, ih]
  simp [wrapIndex, this]

theorem wrapPath_list (n p : Str) (es : List Err) : wrapPath n p (.list es) = .list (es.map (wrapPath n p)) := by
  have : ∀ es, wrapPathList n p es = es.map (wrapPath n p) := by
    intro es; induction es with
    | nil => rfl
    | cons e es ih => simp [wrapPathList, ih]
  simp [wrapPath, this]

theorem wrapH_own {lv : Level} {path : Option Str} (hlv : path ≠ none → lv.index = -1) (f : Nat) {h : EHeap} {b : Nat} {r : HErr}
    {v : ErrVal} (hb : b ≤ h.length) (ho : EOwn h b h.length r v) :
    ∃ h' r', wrapH lv path (f + 2) h r = some (h', r') ∧ EOwn h' b h'.length r' (Spec.onErr (ewrap lv path) v) ∧
      h.length ≤ h'.length ∧ (∀ a, a < b → h'[a]? = h[a]?) := by
  cases ho with
  | nil => exact ⟨h, .nil, by simp [wrapH], .nil, Nat.le_refl _, fun _ _ => rfl⟩
  | atom ha =>
    obtain ⟨h', r', h1, h2, h3, h4, _⟩ := wrapH_atom hlv (f + 1) (Nat.le_refl _) ha hb
    refine ⟨h', r', h1, .atom h2, h3, fun a h5 => h4 a (by omega) ?_⟩
    rintro rfl
    cases ha with
    | error h6 _ _ => omega
  | @list a rs es h1 h2 h3 h4 =>
    obtain ⟨h', rs', h5, h6, h7, h8, h9⟩ := wrapLoopH_own hlv f h1 rs.length h [] rs [] es hb (by simpa using h3) rfl .nil h4.atoms
      (by simpa using h4.apart)
    refine ⟨h', .ptr a, ?_, ?_, h8, h9⟩
    · simp only [wrapH, h3]
      simp only [List.length_nil] at h5
      simp [h5]
    · have : Spec.onErr (ewrap lv path) (.err (.list es)) = .err (.list (es.map (ewrap lv path))) := by
        cases path with
        | none => simp [Spec.onErr, ewrap, wrapIndex_list]
        | some p => simp [Spec.onErr, ewrap, wrapPath_list]
      rw [this]
      exact .list h1 (by omega) h6 (by simpa using h7)

/-! ## Appending -/

theorem appendOneH_own {h : EHeap} {b c d a : Nat} {rs : List HErr} {es : List Err} {r : HErr} {v : ErrVal}
    (hbc : b ≤ c) (hcd : c ≤ d) (hg : h[a]? = some (.list rs)) (hm : EMembers h b c rs es) (ho : EOwn h c d r v) :
    ∃ rs', (appendOneH h a r)[a]? = some (.list rs') ∧ EMembers (appendOneH h a r) b d rs' (es ++ Spec.contrib v) ∧
      (appendOneH h a r).length = h.length ∧ ∀ x, x ≠ a → (appendOneH h a r)[x]? = h[x]? := by
  have hal := lt_of_get hg
  -- after an assignment to the list, the members are still there
  have hkeep : ∀ (new : List HErr) (b' c' : Nat) (rs' : List HErr) (es' : List Err), b ≤ b' → c' ≤ d →
      List.Forall₂ (EAtom h b' c') rs' es' → List.Forall₂ (EAtom (h.set a (.list new)) b d) rs' es' := by
    intro new b' c' rs' es' h1 h2 h3
    refine h3.imp fun s e h4 => h4.mono h1 h2 fun x t l p h5 _ _ _ => ?_
    have : a ≠ x := by rintro rfl; rw [hg] at h5; simp at h5
    rw [List.getElem?_set_ne this]
  have hset : ∀ (new : List HErr), (h.set a (.list new))[a]? = some (.list new) := fun new => by simp [hal]
  have hne : ∀ (new : List HErr) (x : Nat), x ≠ a → (h.set a (.list new))[x]? = h[x]? := fun new x hx => by
    rw [List.getElem?_set_ne (Ne.symm hx)]
  cases ho with
  | nil =>
    refine ⟨rs, ?_⟩
    have : appendOneH h a .nil = h := by simp [appendOneH, hg]
    rw [this]
    refine ⟨hg, ?_, rfl, fun _ _ => rfl⟩
    simp only [Spec.contrib, List.append_nil]
    exact hm.mono (Nat.le_refl _) hcd fun _ _ _ _ _ _ _ => rfl
  | @atom r e ha =>
    have : appendOneH h a r = h.set a (.list (rs ++ [r])) := by
      cases ha with
      | leaf l => simp [appendOneH, hg]
      | error _ _ h3 => simp [appendOneH, hg, h3]
    rw [this]
    refine ⟨_, hset _, ⟨?_, ?_⟩, by simp, hne _⟩
    · have hc : Spec.contrib (.err e) = [e] := by cases ha <;> rfl
      rw [hc]
      exact List.rel_append (R := EAtom _ _ _) (hkeep _ _ _ _ _ (Nat.le_refl _) hcd hm.atoms)
        (hkeep _ _ _ _ _ hbc (Nat.le_refl _) (.cons ha .nil))
    · rw [List.pairwise_append]
      refine ⟨hm.apart, by simp, ?_⟩
      intro z hz w hw x h1 h2
      simp only [List.mem_singleton] at hw
      subst hw; subst h1; subst h2
      have := (atom_lt hm.atoms hz).2.1
      cases ha with
      | error h3 _ _ => omega
  | @list a' fs es' h1 h2 h3 h4 =>
    have : appendOneH h a (.ptr a') = h.set a (.list (rs ++ fs)) := by simp [appendOneH, hg, h3]
    rw [this]
    refine ⟨_, hset _, ⟨?_, ?_⟩, by simp, hne _⟩
    · exact List.rel_append (R := EAtom _ _ _) (hkeep _ _ _ _ _ (Nat.le_refl _) hcd hm.atoms) (hkeep _ _ _ _ _ hbc (Nat.le_refl _) h4.atoms)
    · rw [List.pairwise_append]
      refine ⟨hm.apart, h4.apart, ?_⟩
      intro z hz w hw x h5 h6
      subst h5; subst h6
      have := (atom_lt hm.atoms hz).2.1
      have := (atom_lt h4.atoms hw).1
      omega

/-- The result of `Append` is nil or a list. -/
def IsListVal : ErrVal → Prop
  | .nil => True
  | .err (.list _) => True
  | _ => False

theorem appendH_own {h : EHeap} {b c : Nat} {r1 r2 : HErr} {v1 v2 : ErrVal} (hbc : b ≤ c) (hc : c ≤ h.length)
    (h1 : EOwn h b c r1 v1) (h2 : EOwn h c h.length r2 v2) :
    EOwn (appendH h r1 r2).1 b (appendH h r1 r2).1.length (appendH h r1 r2).2 (v1.append [v2]) ∧
      h.length ≤ (appendH h r1 r2).1.length ∧ (∀ a, a < b → (appendH h r1 r2).1[a]? = h[a]?) ∧ IsListVal (v1.append [v2]) := by
  -- the list is a new one
  have hfresh : ∀ (hv : ∀ l, v1 ≠ .err (.list l)) (hn : ¬ (v1 = .nil ∧ v2 = .nil)),
      let h0 := appendOneH (appendOneH (h ++ [.list []]) h.length r1) h.length r2
      EOwn h0 b h0.length (.ptr h.length) (v1.append [v2]) ∧ h.length ≤ h0.length ∧ (∀ a, a < b → h0[a]? = h[a]?) ∧
        IsListVal (v1.append [v2]) := by
    intro hv hn h0
    have hk : ∀ a, a < h.length → (h ++ [HCell.list []])[a]? = h[a]? := fun a ha => List.getElem?_append_left ha
    obtain ⟨rs1, g1, m1, l1, s1⟩ := appendOneH_own (h := h ++ [.list []]) (a := h.length) (b := b) (c := b) (d := c) (rs := []) (es := [])
      (Nat.le_refl _) hbc (by simp) ⟨.nil, by simp⟩ (h1.mono (Nat.le_refl _) (Nat.le_refl _) fun a _ h3 => hk a (by omega))
    obtain ⟨rs2, g2, m2, l2, s2⟩ := appendOneH_own hbc hc g1 m1
      (h2.mono (Nat.le_refl _) (Nat.le_refl _) fun a _ h3 => (s1 a (by omega)).trans (hk a h3))
    have hval : v1.append [v2] = .err (.list (Spec.contrib v1 ++ Spec.contrib v2)) := by
      rw [C14_call _ _ (by simp)]
      cases h2 with
      | nil =>
        cases h1 with
        | nil => exact absurd ⟨rfl, rfl⟩ hn
        | atom ha => simp [ErrVal.nonNil, Spec.asList, Spec.contrib]
        | list => exact absurd rfl (hv _)
      | atom => simp [ErrVal.nonNil]
      | list => simp [ErrVal.nonNil]
    have hlen : h0.length = h.length + 1 := by rw [show h0.length = _ from l2, l1]; simp
    rw [hval]
    refine ⟨.list (by omega) (by omega) g2 ?_, by omega, ?_, trivial⟩
    · have := m2.mono (b' := b) (c' := h0.length) (Nat.le_refl _) (by omega) fun _ _ _ _ _ _ _ => rfl
      simpa using this
    · intro a ha
      rw [show h0[a]? = _ from s2 a (by omega), s1 a (by omega), hk a (by omega)]
  cases h1 with
  | nil =>
    cases h2 with
    | nil => exact ⟨.nil, Nat.le_refl _, fun _ _ => rfl, trivial⟩
    | atom ha =>
      have := hfresh (by simp) (by simp)
      cases ha <;> exact this
    | list => exact hfresh (by simp) (by simp)
  | @atom r e ha =>
    have hnl : ∀ l, ErrVal.err e ≠ .err (.list l) := by cases ha <;> simp
    have := hfresh hnl (by simp)
    cases ha with
    | leaf l => exact this
    | error _ _ h5 =>
      simp only [appendH, h5]
      exact this
  | @list a rs es h3 h4 h5 h6 =>
    obtain ⟨rs', g, m, l, s⟩ := appendOneH_own hbc hc h5 h6 h2
    have hval : (ErrVal.err (.list es)).append [v2] = .err (.list (es ++ Spec.contrib v2)) := by
      rw [C14_call _ _ (by simp)]
      cases h2 <;> simp [ErrVal.nonNil, Spec.asList, Spec.contrib]
    have hr : appendH h (.ptr a) r2 = (appendOneH h a r2, .ptr a) := by simp only [appendH, h5]
    rw [hval, hr]
    exact ⟨.list h3 (by rw [l]; omega) g (by rw [l]; exact m), by rw [l], fun x hx => s x (by omega), trivial⟩

/-! ## Setting the path -/

theorem setPathFold_own {path : Str} {a b : Nat} {rs0 : List HErr} :
    ∀ (todo : List HErr) (h : EHeap) (done : List HErr) (es1 es2 : List Err), h[a]? = some (.list rs0) →
      EMembers h b h.length (done ++ todo) (es1 ++ es2) → List.Forall₂ (EAtom h b h.length) done es1 →
      List.Forall₂ (EAtom h b h.length) todo es2 →
      let h' := todo.foldl (setPathOneH path) h
      h'[a]? = some (.list rs0) ∧ EMembers h' b h'.length (done ++ todo) (es1 ++ es2.map (setPath path)) ∧ h'.length = h.length ∧
        ∀ x, x < b → h'[x]? = h[x]? := by
  intro todo
  induction todo with
  | nil =>
    intro h done es1 es2 hg hm h1 h2
    cases h2
    exact ⟨hg, by simpa using hm, rfl, fun _ _ => rfl⟩
  | cons r todo ih =>
    intro h done es1 es2 hg hm h1 h2
    cases h2 with
    | @cons _ e _ es2 hr h2 =>
      have hp := hm.apart
      rw [List.pairwise_append, List.pairwise_cons] at hp
      have hstep : ∃ h1, setPathOneH path h r = h1 ∧ h1.length = h.length ∧ h1[a]? = h[a]? ∧ (∀ x, x < b → h1[x]? = h[x]?) ∧
          (∀ x, r ≠ .ptr x → h1[x]? = h[x]?) ∧ EAtom h1 b h1.length r (setPath path e) := by
        cases hr with
        | leaf l => exact ⟨h, rfl, rfl, rfl, fun _ _ => rfl, fun _ _ => rfl, .leaf l⟩
        | @error x t l p h3 h4 h5 =>
          have hxa : x ≠ a := by rintro rfl; rw [hg] at h5; simp at h5
          refine ⟨h.set x (.error t (.leaf l) path), by simp [setPathOneH, h5], by simp, by rw [List.getElem?_set_ne hxa], ?_, ?_, ?_⟩
          · intro y hy; rw [List.getElem?_set_ne (by omega)]
          · intro y hy
            rw [List.getElem?_set_ne (fun h6 => hy (by rw [h6]))]
          · exact .error h3 (by simpa using h4) (by simp [h4])
      obtain ⟨h1', e1, e2, e3, e4, e5, e6⟩ := hstep
      have hkeep : ∀ (s : HErr) (e' : Err), EAtom h b h.length s e' → (∀ x, r = .ptr x → s ≠ .ptr x) → EAtom h1' b h1'.length s e' := by
        intro s e' h7 h8
        exact h7.mono (Nat.le_refl _) (by omega) fun x _ _ _ _ _ _ h9 => e5 x fun h10 => h8 x h10 h9
      have hd : List.Forall₂ (EAtom h1' b h1'.length) done es1 := by
        have : ∀ s ∈ done, ∀ x, r = .ptr x → s ≠ .ptr x := fun s hs' x h7 h8 => hp.2.2 s hs' r (by simp) x h8 h7
        exact forall2_keep h1 fun s hs' e' h7 => hkeep s e' h7 (this s hs')
      have ht : List.Forall₂ (EAtom h1' b h1'.length) todo es2 := by
        have : ∀ s ∈ todo, ∀ x, r = .ptr x → s ≠ .ptr x := fun s hs' x h7 => hp.2.1.1 s hs' x h7
        exact forall2_keep h2 fun s hs' e' h7 => hkeep s e' h7 (this s hs')
      have hd' := List.rel_append (R := EAtom _ _ _) hd (.cons e6 .nil)
      have := ih h1' (done ++ [r]) (es1 ++ [setPath path e]) es2 (e3.trans hg)
        ⟨List.rel_append (R := EAtom _ _ _) hd' ht, by simpa using hm.apart⟩ hd' ht
      simp only [List.foldl_cons, e1]
      obtain ⟨g1, g2, g3, g4⟩ := this
      exact ⟨g1, by simpa using g2, by omega, fun x hx => (g4 x hx).trans (e4 x hx)⟩

theorem setPathH_own {path : Str} {h : EHeap} {b : Nat} {r : HErr} {v : ErrVal} (ho : EOwn h b h.length r v) (hv : IsListVal v) :
    ∃ h', setPathH path h r = some h' ∧ EOwn h' b h'.length r (Spec.onErr (Spec.onMembers (setPath path)) v) ∧
      h.length ≤ h'.length ∧ ∀ x, x < b → h'[x]? = h[x]? := by
  cases ho with
  | nil => exact ⟨h, rfl, .nil, Nat.le_refl _, fun _ _ => rfl⟩
  | atom ha => cases ha <;> exact absurd hv (by simp [IsListVal])
  | @list a rs es h1 h2 h3 h4 =>
    obtain ⟨g1, g2, g3, g4⟩ := setPathFold_own (path := path) rs h [] [] es h3 h4 .nil h4.atoms
    exact ⟨_, by simp [setPathH, h3], .list h1 (by omega) g1 (by simpa using g2), by omega, g4⟩

/-! ## The property -/

theorem run_own (f : Nat) (p : ErrProg) : ∀ (h : EHeap), ∃ h' r, p.run (f + 2) h = some (h', r) ∧
    EOwn h' h.length h'.length r (Spec.errVal p) ∧ h.length ≤ h'.length ∧ ∀ a, a < h.length → h'[a]? = h[a]? := by
  induction p with
  | nil => exact fun h => ⟨h, .nil, rfl, .nil, Nat.le_refl _, fun _ _ => rfl⟩
  | leaf l => exact fun h => ⟨h, .leaf l, rfl, .atom (.leaf l), Nat.le_refl _, fun _ _ => rfl⟩
  | empty =>
    exact fun h => ⟨_, _, rfl, .list (Nat.le_refl _) (by simp) (by simp) ⟨.nil, by simp⟩, by simp, fun a ha => List.getElem?_append_left ha⟩
  | wrapIndex n i e ih =>
    intro h
    obtain ⟨h1, r1, e1, o1, l1, s1⟩ := ih h
    obtain ⟨h2, r2, e2, o2, l2, s2⟩ := wrapH_own (lv := ⟨n, i⟩) (path := none) (by simp) f l1 o1
    exact ⟨h2, r2, by simp [ErrProg.run, e1, e2], o2, by omega, fun a ha => (s2 a ha).trans (s1 a ha)⟩
  | wrapPath n q e ih =>
    intro h
    obtain ⟨h1, r1, e1, o1, l1, s1⟩ := ih h
    obtain ⟨h2, r2, e2, o2, l2, s2⟩ := wrapH_own (lv := ⟨n, -1⟩) (path := some q) (by simp) f l1 o1
    exact ⟨h2, r2, by simp [ErrProg.run, e1, e2], o2, by omega, fun a ha => (s2 a ha).trans (s1 a ha)⟩
  | append x y ihx ihy =>
    intro h
    obtain ⟨h1, r1, e1, o1, l1, s1⟩ := ihx h
    obtain ⟨h2, r2, e2, o2, l2, s2⟩ := ihy h1
    obtain ⟨o3, l3, s3, _⟩ := appendH_own l1 l2 (o1.mono (Nat.le_refl _) (Nat.le_refl _) fun a _ ha => s2 a ha) o2
    exact ⟨_, _, by simp only [ErrProg.run, e1, e2, Option.bind_some, Option.map_some], o3, by omega,
      fun a ha => (s3 a ha).trans ((s2 a (by omega)).trans (s1 a ha))⟩
  | setPath q x y ihx ihy =>
    intro h
    obtain ⟨h1, r1, e1, o1, l1, s1⟩ := ihx h
    obtain ⟨h2, r2, e2, o2, l2, s2⟩ := ihy h1
    obtain ⟨o3, l3, s3, v3⟩ := appendH_own l1 l2 (o1.mono (Nat.le_refl _) (Nat.le_refl _) fun a _ ha => s2 a ha) o2
    obtain ⟨h4, e4, o4, l4, s4⟩ := setPathH_own (path := q) o3 v3
    exact ⟨h4, _, by simp [ErrProg.run, e1, e2, e4], o4, by omega,
      fun a ha => (s4 a ha).trans ((s3 a ha).trans ((s2 a (by omega)).trans (s1 a ha)))⟩

/-- Whatever is in the memory, an expression of calls that uses each error once is evaluated to the error that it stands
for if no call changes its arguments; what was in the memory before is still there, unchanged.  A nesting of two calls is
enough: lists have no lists as members. -/
theorem C82_once_partial (p : ErrProg) (h : EHeap) (fuel : Nat) (hf : 2 ≤ fuel) :
    ∃ h' r, p.run fuel h = some (h', r) ∧ Spec.Reads h' r (Spec.errVal p) ∧ h <+: h' := by
  obtain ⟨f, rfl⟩ : ∃ f, fuel = f + 2 := ⟨fuel - 2, by omega⟩
  obtain ⟨h', r, h1, h2, h3, h4⟩ := run_own f p h
  refine ⟨h', r, h1, h2.reads, ?_⟩
  rw [List.prefix_iff_getElem?]
  intro i hi
  rw [h4 i hi, List.getElem?_eq_getElem hi]

/-- What is read is determined. -/
theorem C82_reads (h : EHeap) : (∀ r e, Spec.ReadsErr h r e → ∀ e', Spec.ReadsErr h r e' → e = e') := by
  intro r e h1
  refine Spec.ReadsErr.rec (motive_1 := fun r e _ => ∀ e', Spec.ReadsErr h r e' → e = e')
    (motive_2 := fun rs es _ => ∀ es', Spec.ReadsErrs h rs es' → es = es') ?_ ?_ ?_ ?_ ?_ h1
  · intro l e' h2; cases h2; rfl
  · intro a t r p e hg _ ih e' h2
    cases h2 with
    | error hg' h3 => rw [hg] at hg'; cases hg'; rw [ih _ h3]
    | list hg' _ => rw [hg] at hg'; cases hg'
  · intro a rs es hg _ ih e' h2
    cases h2 with
    | error hg' _ => rw [hg] at hg'; cases hg'
    | list hg' h3 => rw [hg] at hg'; cases hg'; rw [ih _ h3]
  · intro es' h2; cases h2; rfl
  · intro r rs e es _ _ ih1 ih2 es' h2
    cases h2 with
    | cons h3 h4 => rw [ih1 _ h3, ih2 _ h4]

/-- An error that is wrapped twice, here first for one object and then for another, has both places in both results:
wrapping changes what the caller still holds. -/
theorem C82_shared_false : ∃ (h : EHeap) (r : HErr) (e : Err), Spec.ReadsErr h r e ∧
    ∃ h1 r1 h2 r2, wrapH ⟨b!"object", 0⟩ none 2 h r = some (h1, r1) ∧ wrapH ⟨b!"object", 1⟩ none 2 h1 r = some (h2, r2) ∧
      Spec.ReadsErr h1 r1 (wrapIndex b!"object" 0 e) ∧ ¬ Spec.ReadsErr h1 r e ∧
      ¬ Spec.ReadsErr h2 r1 (wrapIndex b!"object" 0 e) ∧ ¬ Spec.ReadsErr h2 r2 (wrapIndex b!"object" 1 e) ∧
      Spec.ReadsErr h2 r2 (wrapIndex b!"object" 1 (wrapIndex b!"object" 0 e)) := by
  refine ⟨[.error [⟨b!"mesh", -1⟩] (.leaf (.sentinel .recursion)) []], .ptr 0, .wrapped [⟨b!"mesh", -1⟩] (.leaf (.sentinel .recursion)) [],
    .error rfl (.leaf _), _, _, _, _, rfl, rfl, .error rfl (.leaf _), ?_, ?_, ?_, .error rfl (.leaf _)⟩
  all_goals
    intro h
    cases h with
    | error hg _ =>
      simp at hg

/-- `Append` onto a list that the caller still holds extends that list. -/
theorem C82_append_false : ∃ (h : EHeap) (r : HErr) (e : Err), Spec.ReadsErr h r e ∧ ∃ x : Leaf,
    ¬ Spec.ReadsErr (appendH h r (.leaf x)).1 r e := by
  refine ⟨[.list []], .ptr 0, .list [], .list rfl .nil, .sentinel .recursion, ?_⟩
  intro h
  cases h with
  | list hg h2 =>
    cases h2 with
    | nil => revert hg; decide +kernel

/- The errors of two objects, one with a wrapped error and one with a list of two, collected and wrapped again, in a memory
that already holds an error. -/
example : ∃ h' r, (ErrProg.wrapIndex b!"model" (-1)
      (.append (.append .nil (.wrapIndex b!"object" 0 (.wrapIndex b!"mesh" (-1) (.leaf (.sentinel .recursion)))))
        (.wrapPath b!"resources" b!"/a" (.append (.append .nil (.leaf (.sentinel .missingID))) (.wrapIndex b!"item" 3 (.leaf (.sentinel .uuid))))))).run 2
      [.error [] (.leaf (.sentinel .uuid)) []] = some (h', r) ∧
    Spec.Reads h' r (.err (.list [
      .wrapped [⟨b!"mesh", -1⟩, ⟨b!"object", 0⟩, ⟨b!"model", -1⟩] (.leaf (.sentinel .recursion)) [],
      .wrapped [⟨b!"resources", -1⟩, ⟨b!"model", -1⟩] (.leaf (.sentinel .missingID)) b!"/a",
      .wrapped [⟨b!"item", 3⟩, ⟨b!"resources", -1⟩, ⟨b!"model", -1⟩] (.leaf (.sentinel .uuid)) b!"/a"])) ∧
    h'[0]? = some (.error [] (.leaf (.sentinel .uuid)) []) :=
  ⟨_, _, rfl, .err (.list rfl (.cons (.error rfl (.leaf _)) (.cons (.error rfl (.leaf _)) (.cons (.error rfl (.leaf _)) .nil)))), rfl⟩

end Go3mf
