import Verif.Lemmas.StrOrder
import Verif.Props.C03

/-!
# C04: walk order, completeness and early stop

The visitor is an arbitrary function with its own state `σ`; `ε` is the type of errors.
-/

namespace Go3mf

/-- `cs` lists the child models in increasing byte-lexical order of their paths. -/
def Spec.ChildsInOrder (m : Model) (cs : List (Str × ChildModel)) : Prop :=
  cs.Perm m.childs ∧ (cs.map (·.1)).Pairwise (List.Lex (· < ·))

/-- The calls a walk makes: the resources of each child model in order, then the root's with an empty path. -/
def Spec.visits {α : Type} (sel : Resources → List α) (m : Model) (cs : List (Str × ChildModel)) : List (Str × α) :=
  cs.flatMap (fun pc => (sel pc.2.resources).map fun a => (pc.1, a)) ++ (sel m.resources).map fun a => ([], a)

/-- Calling a visitor on a list until it fails. -/
def Spec.callUntil {σ α ε : Type} (fn : σ → Str → α → σ × Option ε) : List (Str × α) → σ → σ × Option ε
  | [], s => (s, none)
  | (p, a) :: l, s =>
    match fn s p a with
    | (s', none) => Spec.callUntil fn l s'
    | (s', some e) => (s', some e)

theorem callUntil_append {σ α ε : Type} (fn : σ → Str → α → σ × Option ε) (l1 l2 : List (Str × α)) (s : σ) :
    Spec.callUntil fn (l1 ++ l2) s =
      match Spec.callUntil fn l1 s with
      | (s', none) => Spec.callUntil fn l2 s'
      | (s', some e) => (s', some e) := by
  induction l1 generalizing s with
  | nil => rfl
  | cons a l1 ih =>
    obtain ⟨p, a⟩ := a
    simp only [List.cons_append, Spec.callUntil]
    rcases h : fn s p a with ⟨s', e⟩
    cases e <;> simp [ih]

theorem visitList_eq {σ α ε : Type} (fn : σ → Str → α → σ × Option ε) (p : Str) (l : List α) (s : σ) :
    visitList fn p l s = Spec.callUntil fn (l.map fun a => (p, a)) s := by
  induction l generalizing s with
  | nil => rfl
  | cons a l ih =>
    simp only [visitList, List.map_cons, Spec.callUntil]
    rcases h : fn s p a with ⟨s', e⟩
    cases e <;> simp [ih]

theorem visitChilds_eq {σ α ε : Type} (sel : Resources → List α) (m : Model)
    (fn : σ → Str → α → σ × Option ε) (cs : List (Str × ChildModel))
    (h : ∀ pc ∈ cs, lookupChild m.childs pc.1 = some pc.2) (s : σ) :
    visitChilds sel m fn (cs.map (·.1)) s =
      Spec.callUntil fn (cs.flatMap (fun pc => (sel pc.2.resources).map fun a => (pc.1, a))) s := by
  induction cs generalizing s with
  | nil => rfl
  | cons pc cs ih =>
    simp only [List.map_cons, visitChilds, h pc (by simp), List.flatMap_cons, callUntil_append, visitList_eq]
    rcases hh : Spec.callUntil fn ((sel pc.2.resources).map fun a => (pc.1, a)) s with ⟨s', e⟩
    cases e with
    | none => simpa using ih (fun q hq => h q (by simp [hq])) s'
    | some e => rfl

theorem walk_eq {σ α ε : Type} (sel : Resources → List α) (m : Model) (hwf : m.WF)
    (cs : List (Str × ChildModel)) (hcs : Spec.ChildsInOrder m cs)
    (fn : σ → Str → α → σ × Option ε) (s : σ) :
    m.walk sel fn s = Spec.callUntil fn (Spec.visits sel m cs) s := by
  have h1 : m.sortedChilds = cs.map (·.1) := Str.sort_eq (hcs.1.map _) hcs.2
  have h2 : ∀ pc ∈ cs, lookupChild m.childs pc.1 = some pc.2 := fun pc hpc =>
    (lookupChild_spec hwf _ _).2 (hcs.1.mem_iff.1 hpc)
  simp only [Model.walk, h1, visitChilds_eq sel m fn cs h2, Spec.visits, callUntil_append, visitList_eq]
  rcases hh : Spec.callUntil fn (cs.flatMap fun pc => (sel pc.2.resources).map fun a => (pc.1, a)) s with ⟨s', e⟩
  cases e <;> simp [hh]

/-- `WalkObjects` calls the visitor on the objects of the children in lexical order of their paths, then
on the root's objects with an empty path, until the visitor fails; its result is the visitor's error. -/
theorem C04_walkObjects {σ ε : Type} (m : Model) (hwf : m.WF) (cs : List (Str × ChildModel))
    (hcs : Spec.ChildsInOrder m cs) (fn : σ → Str → Object → σ × Option ε) (s : σ) :
    m.walkObjects fn s = Spec.callUntil fn (Spec.visits (·.objects) m cs) s := walk_eq _ m hwf cs hcs fn s

/-- The same for `WalkAssets`. -/
theorem C04_walkAssets {σ ε : Type} (m : Model) (hwf : m.WF) (cs : List (Str × ChildModel))
    (hcs : Spec.ChildsInOrder m cs) (fn : σ → Str → Asset → σ × Option ε) (s : σ) :
    m.walkAssets fn s = Spec.callUntil fn (Spec.visits (·.assets) m cs) s := walk_eq _ m hwf cs hcs fn s

/-- Every model has exactly one such listing of its children. -/
theorem C04_order_exists (m : Model) (hwf : m.WF) : ∃! cs, Spec.ChildsInOrder m cs := by
  have hs : m.sortedChilds.Pairwise (List.Lex (· < ·)) := by
    have h1 : m.sortedChilds.Pairwise (fun a b => Str.le a b = true) := List.pairwise_insertionSort _ _
    have h2 : m.sortedChilds.Pairwise (· ≠ ·) := (List.perm_insertionSort _ _).nodup_iff.2 hwf
    refine (h1.and h2).imp (fun {a b} h => (Str.lt_iff a b).1 ?_)
    rcases Str.lt_total a b with h3 | h3 | h3
    · exact h3
    · exact absurd h3 h.2
    · simp [Str.le, h3] at h
  have hnd : m.childs.Nodup := List.Nodup.of_map _ hwf
  have inj : ∀ x ∈ m.childs, ∀ y ∈ m.childs, x.1 = y.1 → x = y := by
    rintro ⟨p, c⟩ hx ⟨q, d⟩ hy h
    simp only at h
    subst h
    have e1 := (lookupChild_spec hwf _ _).2 hx
    have e2 := (lookupChild_spec hwf _ _).2 hy
    rw [e1] at e2
    simp at e2; simp [e2]
  have ex : ∃ cs : List (Str × ChildModel), cs.Perm m.childs ∧ cs.map (·.1) = m.sortedChilds := by
    have hp : (m.childs.map (·.1)).Perm m.sortedChilds := (List.perm_insertionSort _ _).symm
    clear hs hnd inj
    generalize m.childs = l at hp
    generalize m.sortedChilds = s at hp
    induction s generalizing l with
    | nil => simp at hp; exact ⟨[], by simp [hp]⟩
    | cons a s ih =>
      have ha : a ∈ l.map (·.1) := hp.mem_iff.2 (by simp)
      obtain ⟨x, hx, rfl⟩ := List.mem_map.1 ha
      obtain ⟨l1, l2, rfl⟩ := List.append_of_mem hx
      have hp' : ((l1 ++ l2).map (·.1)).Perm s := by
        have : ((l1 ++ x :: l2).map (·.1)).Perm (x.1 :: (l1 ++ l2).map (·.1)) := by
          simpa using List.perm_middle
        exact List.Perm.cons_inv (this.symm.trans hp)
      obtain ⟨cs, h1, h2⟩ := ih _ hp'
      exact ⟨x :: cs, (h1.cons x).trans List.perm_middle.symm, by simp [h2]⟩
  obtain ⟨cs, h1, h2⟩ := ex
  refine ⟨cs, ⟨h1, h2 ▸ hs⟩, ?_⟩
  rintro ds ⟨h3, h4⟩
  have h5 : m.sortedChilds = ds.map (·.1) := Str.sort_eq (h3.map _) h4
  have h6 : ds.map (·.1) = cs.map (·.1) := by rw [← h5, h2]
  have aux : ∀ (as bs : List (Str × ChildModel)), (∀ x ∈ as, x ∈ m.childs) → (∀ x ∈ bs, x ∈ m.childs) →
      as.map (·.1) = bs.map (·.1) → as = bs := by
    intro as
    induction as with
    | nil => intro bs _ _ h; simpa using h.symm
    | cons a as ih =>
      intro bs ha hb h
      cases bs with
      | nil => simp at h
      | cons b bs =>
        simp only [List.map_cons, List.cons.injEq] at h
        rw [inj a (ha a (by simp)) b (hb b (by simp)) h.1,
          ih bs (fun x hx => ha x (by simp [hx])) (fun x hx => hb x (by simp [hx])) h.2]
  exact aux ds cs (fun x hx => h3.mem_iff.1 hx) (fun x hx => h1.mem_iff.1 hx) h6

/-- Consequently the iteration order of the child map is irrelevant. -/
theorem C04_map_order {σ ε : Type} (m : Model) (hwf : m.WF) (cs' : List (Str × ChildModel))
    (hp : cs'.Perm m.childs) (fn : σ → Str → Object → σ × Option ε) (ga : σ → Str → Asset → σ × Option ε) (s : σ) :
    ({ m with childs := cs' } : Model).walkObjects fn s = m.walkObjects fn s ∧
    ({ m with childs := cs' } : Model).walkAssets ga s = m.walkAssets ga s := by
  obtain ⟨cs, hcs, -⟩ := C04_order_exists m hwf
  have hwf' : ({ m with childs := cs' } : Model).WF := (hp.map _).nodup_iff.2 hwf
  have hcs' : Spec.ChildsInOrder { m with childs := cs' } cs := ⟨hcs.1.trans hp.symm, hcs.2⟩
  rw [C04_walkObjects m hwf cs hcs, C04_walkObjects _ hwf' cs hcs',
    C04_walkAssets m hwf cs hcs, C04_walkAssets _ hwf' cs hcs']
  exact ⟨rfl, rfl⟩

/-- A visitor that records its calls and fails on the resources `bad` picks. -/
def Spec.recorder {α : Type} (bad : Str × α → Bool) (s : List (Str × α)) (p : Str) (a : α) :
    List (Str × α) × Option (Str × α) :=
  (s ++ [(p, a)], if bad (p, a) then some (p, a) else none)

theorem callUntil_recorder {α : Type} (bad : Str × α → Bool) (l s : List (Str × α)) :
    Spec.callUntil (Spec.recorder bad) l s =
      (s ++ l.takeWhile (fun x => !bad x) ++ (l.find? bad).toList, l.find? bad) := by
  induction l generalizing s with
  | nil => simp [Spec.callUntil]
  | cons x l ih =>
    obtain ⟨p, a⟩ := x
    simp only [Spec.callUntil, Spec.recorder]
    cases h : bad (p, a) <;> simp [h, List.find?_cons]
    rw [ih]; simp

/-- What a recording visitor sees: everything up to and including the first resource it rejects, which is
the result of the walk; if it rejects nothing, everything, and the walk succeeds. -/
theorem C04_trace (m : Model) (hwf : m.WF) (cs : List (Str × ChildModel)) (hcs : Spec.ChildsInOrder m cs)
    (bad : Str × Object → Bool) :
    m.walkObjects (Spec.recorder bad) [] =
      ((Spec.visits (·.objects) m cs).takeWhile (fun x => !bad x) ++ ((Spec.visits (·.objects) m cs).find? bad).toList,
        (Spec.visits (·.objects) m cs).find? bad) := by
  rw [C04_walkObjects m hwf cs hcs, callUntil_recorder]; simp

/- A model with two children stored out of order. -/
example :
    let o (i : UInt32) : Object := { Object.zero with id := i }
    let c (l : List Object) : ChildModel := { ChildModel.zero with resources := { Resources.zero with objects := l } }
    let m : Model := { Model.zero with
      resources := { Resources.zero with objects := [o 7] }
      childs := [(b!"/b", c [o 3, o 4]), (b!"/a", c [o 1, o 2])] }
    m.WF ∧ m.walkObjects (Spec.recorder fun x => x.2.id == 4) [] =
      ([(b!"/a", o 1), (b!"/a", o 2), (b!"/b", o 3), (b!"/b", o 4)], some (b!"/b", o 4)) := by decide
example :
    let c : ChildModel := ChildModel.zero
    Spec.ChildsInOrder { Model.zero with childs := [(b!"/b", c), (b!"/a", c)] } [(b!"/a", c), (b!"/b", c)] :=
  ⟨List.Perm.swap _ _ _, by decide⟩

end Go3mf
