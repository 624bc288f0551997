import Verif.Lemmas.DocFirst
import Verif.Lemmas.RtSlices

/-!
# Lists of elements in a document
-/

namespace Go3mf
open Spec

theorem nameLookup_if {β : Type} (l x : Name) (y : β) (t : List (Name × β)) :
    List.lookup l ((x, y) :: t) = if l = x then some y else List.lookup l t := by
  rw [List.lookup_cons]
  by_cases h : l = x
  · simp [h]
  · have : (l == x) = false := by simpa using h
    simp [h, this]

theorem childKind_closed {env : Env} {k : Kind} (h : k.isOpen = false) (m : Name) :
    childKind env k m = (elements k).lookup m := by
  simp [childKind, h]

theorem childKind_leaf {env : Env} {k : Kind} (h : k.isOpen = false) (he : elements k = []) (m : Name) :
    childKind env k m = none := by
  rw [childKind_closed h, he]; rfl

theorem childKind_one {env : Env} {k ck : Kind} {cn : Name} {mu : Mult} (h : k.isOpen = false)
    (he : elements k = [(cn, ck, mu)]) (m : Name) : childKind env k m = if m = cn then some (ck, mu) else none := by
  rw [childKind_closed h, he, nameLookup_if]; rfl

theorem childKind_two {env : Env} {k k1 k2 : Kind} {n1 n2 : Name} {mu1 mu2 : Mult} (h : k.isOpen = false)
    (he : elements k = [(n1, k1, mu1), (n2, k2, mu2)]) (m : Name) :
    childKind env k m = if m = n1 then some (k1, mu1) else if m = n2 then some (k2, mu2) else none := by
  rw [childKind_closed h, he, nameLookup_if, nameLookup_if]; rfl

theorem child?_one {m : Name} {before c : List Node} {as : List Attr} (h : children m before = []) :
    child? m (before ++ [.elem m as c]) = some (as, c) := by
  rw [child?, children_one, h]; simp

theorem child?_ne {m n : Name} {before c : List Node} {as : List Attr} (h : m ≠ n) :
    child? n (before ++ [.elem m as c]) = child? n before := by
  rw [child?, children_one, if_neg h, List.append_nil, child?]

theorem child?_none {m : Name} {before : List Node} (h : children m before = []) : child? m before = none := by
  rw [child?, h]; rfl

theorem child?_ignored {env : Env} {k : Kind} {n : Name} {x : Node} (h : Ignored env k x)
    (hn : childKind env k n ≠ none) (before : List Node) : child? n (before ++ [x]) = child? n before := by
  rw [child?, children_ignored h hn, child?]

theorem children_same {m : Name} {before c : List Node} {as : List Attr} :
    children m (before ++ [.elem m as c]) = children m before ++ [(as, c)] := by
  rw [children_one, if_pos rfl]

theorem children_ne {m n : Name} {before c : List Node} {as : List Attr} (h : m ≠ n) :
    children n (before ++ [.elem m as c]) = children n before := by
  rw [children_one, if_neg h, List.append_nil]

/-- Elements of one name: `I xs r` says that the registers are `r` after the elements `xs`. -/
theorem runs_list {cfg : DecCfg} {kept : Prop} {k ck : Kind} {d : Dec} {n cn : Name}
    {I : List (List Attr × List Node) → Regs → Prop} {c : List Node} {r : Regs} (hkm : k ≠ .metadata) (ho : k.isOpen = false)
    (hel : elements k = [(cn, ck, .many)]) (hc : d.hasChild = true)
    (hq : ∀ xs r, I xs r → Quiet cfg k d r)
    (he : ∀ xs r as c, I xs r → AttrsFit cfg.env ck as → Once cfg.env ck c → ContentOk cfg.env kept ck cn c →
      ∃ r1 dl r2 r3, child cfg r d cn = some (r1, some ((xs.length : Int), dl)) ∧
        start cfg r1 dl as = some (r2, attrFaults cfg.env ck as) ∧
        Runs cfg dl cn r2 (treeEvents c) r3 (contentFaults cfg.env ck [] c) ∧ I (xs ++ [(as, c)]) (stop r3 dl))
    (hok : ContentOk cfg.env kept k n c) (hon : Once cfg.env k c) (hi : I [] r) :
    ∃ r', Runs cfg d n r (treeEvents c) r' (contentFaults cfg.env k [] c) ∧ I (children cn c) r' := by
  have hck := childKind_one (env := cfg.env) ho hel
  have := runs_content (cfg := cfg) (kept := kept) (k := k) (d := d) (n := n) (I := fun b r => I (children cn b) r) hkm
    (fun b r h => hq _ r h)
    (fun b x r h hx => by rw [children_ignored hx (by rw [hck]; simp)]; exact h)
    (fun b m as c k' mu r h hm _ ha hon hok _ => by
      rw [hck] at hm
      by_cases hmn : m = cn
      · subst hmn
        rw [if_pos rfl] at hm
        obtain ⟨rfl, rfl⟩ := Prod.mk.inj (Option.some.inj hm)
        obtain ⟨r1, dl, r2, r3, e1, e2, e3, e4⟩ := he _ r as c h ha hon hok
        exact ⟨stop r3 dl, runs_elem (by rw [hck, if_pos rfl]) hc e1 rfl e2 e3, by rw [children_same]; exact e4⟩
      · rw [if_neg hmn] at hm; simp at hm) c [] r hok (by simpa using hon) (by simpa [children] using hi)
  simpa using this

end Go3mf
