import Verif.Lemmas.Plain
import Verif.Spec.XmlText

/-!
# What the writer writes consists of XML characters in UTF-8
-/

namespace Go3mf

open Spec

namespace Spec

theorem XmlText.nil : XmlText [] := ⟨[], by simp, rfl⟩

theorem XmlText.append {s t : Str} : XmlText s → XmlText t → XmlText (s ++ t) := by
  rintro ⟨cs, h, rfl⟩ ⟨ds, h', rfl⟩
  refine ⟨cs ++ ds, fun c hc => ?_, by simp [utf8s]⟩
  rcases List.mem_append.1 hc with hc | hc
  · exact h c hc
  · exact h' c hc

theorem XmlText.one {c : Nat} (h : XmlChar c) : XmlText (utf8 c) := ⟨[c], by simpa using h, by simp [utf8s]⟩

/-- A byte that is a character of XML on its own. -/
theorem XmlText.byte {b : Byte} (h : b < 0x80) (h' : XmlChar b.toNat) : XmlText [b] := by
  have hb : b.toNat < 0x80 := h
  have hu : utf8 b.toNat = [b] := by rw [utf8_ascii hb]; simp
  exact hu ▸ XmlText.one h'

theorem XmlText.ascii : ∀ {s : Str}, (s.all fun b => decide (b < 0x80) && decide (XmlChar b.toNat)) = true → XmlText s
  | [], _ => XmlText.nil
  | b :: s, h => by
    simp only [List.all_cons, Bool.and_eq_true, decide_eq_true_eq] at h
    exact (XmlText.byte h.1.1 h.1.2).append (XmlText.ascii (s := s) (by simpa using h.2))

end Spec

theorem plainByte_text : ∀ b : Byte, plainByte b = true →
    (decide (b < 0x80) && decide (XmlChar b.toNat)) = true := forall_byte (by decide +kernel)

theorem Plain.text {s : Str} (h : Plain s) : XmlText s :=
  XmlText.ascii (List.all_eq_true.2 fun b hb => plainByte_text b (h b hb))

/-! ## Escaping -/

theorem escapeGo_skip_true : ∀ (n : Nat) (s : Str), escapeGo n true s = s.take n ++ escapeGo 0 false (s.drop n)
  | 0, [] => by simp [escapeGo]
  | 0, b :: s => by simp [escapeGo]
  | n + 1, [] => by simp [escapeGo]
  | n + 1, b :: s => by simp [escapeGo, escapeGo_skip_true n s]

theorem escapeGo_skip_false : ∀ (n : Nat) (s : Str), escapeGo n false s = escapeGo 0 false (s.drop n)
  | 0, s => by simp
  | n + 1, [] => by simp [escapeGo]
  | n + 1, b :: s => by simp [escapeGo, escapeGo_skip_false n s]

theorem replacement_text : XmlText replacement := replacement_eq ▸ XmlText.one (by decide)

theorem escapeASCII_text : ∀ b : Byte, b < 0x80 → XmlText (escapeASCII b) := by
  intro b hb
  by_cases hr : b < 0x20 ∧ b ≠ 9 ∧ b ≠ 10 ∧ b ≠ 13
  · have h : ∀ b : Byte, (decide (b < 0x20 ∧ b ≠ 9 ∧ b ≠ 10 ∧ b ≠ 13)) = true → escapeASCII b = replacement :=
      forall_byte (by decide +kernel)
    rw [h b (by simpa using hr)]
    exact replacement_text
  · have h : ∀ b : Byte, (decide (b < 0x80) && !decide (b < 0x20 ∧ b ≠ 9 ∧ b ≠ 10 ∧ b ≠ 13)) = true →
        ((escapeASCII b).all fun b => decide (b < 0x80) && decide (XmlChar b.toNat)) = true :=
      forall_byte (by decide +kernel)
    exact XmlText.ascii (h b (by simp only [hb, hr]; decide))

theorem escape_text_aux : ∀ (n : Nat) (s : Str), s.length ≤ n → XmlText (escapeGo 0 false s)
  | _, [], _ => XmlText.nil
  | 0, b :: s, h => by simp at h
  | m + 1, b :: s, h => by
    simp only [List.length_cons] at h
    simp only [escapeGo]
    by_cases hb : b < 0x80
    · rw [if_pos hb]
      exact (escapeASCII_text b hb).append (escape_text_aux m s (by omega))
    · rw [if_neg hb]
      cases hr : runeLen (b :: s) with
      | zero => exact replacement_text.append (escape_text_aux m s (by omega))
      | succ n =>
        simp only
        obtain ⟨c, hc, hc', he, _⟩ := runeLen_high hb hr
        have ih := escape_text_aux m (s.drop n) (by simp; omega)
        have hsplit : b :: s = utf8 c ++ s.drop n := by simp [he]
        have hnc := isNonChar_utf8 hc (s.drop n)
        rw [← hsplit] at hnc
        rw [escapeGo_skip_false, escapeGo_skip_true]
        split
        · exact replacement_text.append ih
        · rename_i hno
          have hx : XmlChar c := by
            have h1 : ¬ (c = 0xFFFE ∨ c = 0xFFFF) := fun hh => hno (hnc.2 hh)
            unfold Scalar at hc
            unfold XmlChar
            omega
          have := (XmlText.one hx).append ih
          rw [he] at this
          simpa using this

/-- Whatever the bytes, the escaped text is made of XML characters. -/
theorem escape_text (s : Str) : XmlText (escape s) := escape_text_aux _ s (Nat.le_refl _)

/-! ## The printer -/

/-- The names of an attribute that is written, and its value if that is not escaped. -/
def AttrText (skip : Bool) (a : Attr) : Prop :=
  XmlText a.name.loc ∧ XmlText a.name.space ∧ (skip = true → XmlText a.value)

/-- The names of a token. -/
def OpText : Op → Prop
  | .start n as _ skip => XmlText n.loc ∧ ∀ a ∈ as, AttrText skip a
  | .stop n => XmlText n.loc
  | .chars _ => True

/-- The prefixes of a map. -/
def PrefixMap.Texts (m : PrefixMap) : Prop := ∀ k, XmlText (m k)

theorem PrefixMap.Texts.set {m : PrefixMap} (h : m.Texts) (k : Str) {v : Str} (hv : XmlText v) : (m.set k v).Texts := by
  intro x
  unfold PrefixMap.set
  split
  · exact hv
  · exact h x

theorem createAttrPrefix_text {m : PrefixMap} {a : Attr} (hm : m.Texts) (hl : XmlText a.name.loc)
    (hs : XmlText a.name.space) : XmlText (createAttrPrefix m a).1 ∧ (createAttrPrefix m a).2.Texts := by
  unfold createAttrPrefix
  split
  · exact ⟨hm _, hm⟩
  · split
    · exact ⟨XmlText.ascii (s := b!"xml") (by decide), hm⟩
    · split
      · exact ⟨hs, hm.set _ hl⟩
      · exact ⟨hs, hm.set _ hl⟩

theorem printName_text {m : PrefixMap} {n : Name} (hm : m.Texts) (hn : XmlText n.loc) : XmlText (printName m n) := by
  unfold printName
  refine XmlText.append ?_ hn
  split
  · exact (hm _).append (XmlText.ascii (by decide))
  · exact XmlText.nil

theorem printAttrs_text {skip : Bool} : ∀ {as : List Attr} {m : PrefixMap}, m.Texts → (∀ a ∈ as, AttrText skip a) →
    XmlText (printAttrs skip m as).1 ∧ (printAttrs skip m as).2.Texts
  | [], m, hm, _ => ⟨XmlText.nil, hm⟩
  | a :: as, m, hm, h => by
    obtain ⟨hl, hs, hv⟩ := h a (by simp)
    have hr : ∀ x ∈ as, AttrText skip x := fun x hx => h x (by simp [hx])
    unfold printAttrs
    split
    · exact printAttrs_text hm hr
    · have hp : XmlText (if a.name.space ≠ [] then createAttrPrefix m a else ([], m)).1 ∧
          (if a.name.space ≠ [] then createAttrPrefix m a else ([], m)).2.Texts := by
        split
        · exact createAttrPrefix_text hm hl hs
        · exact ⟨XmlText.nil, hm⟩
      have ih := printAttrs_text (skip := skip) (as := as) hp.2 hr
      refine ⟨?_, ih.2⟩
      refine XmlText.append (XmlText.append (XmlText.append (XmlText.append (XmlText.append (XmlText.append
        (XmlText.ascii (by decide)) ?_) hl) (XmlText.ascii (by decide))) ?_) (XmlText.ascii (by decide))) ih.1
      · split
        · rename_i hne
          rw [if_pos hne] at hp
          exact XmlText.append (by simpa [hne] using hp.1) (XmlText.ascii (by decide))
        · exact XmlText.nil
      · split
        · exact hv ‹_›
        · exact escape_text _

theorem printOp_text {m : PrefixMap} {op : Op} (hm : m.Texts) (h : OpText op) :
    XmlText (printOp m op).1 ∧ (printOp m op).2.Texts := by
  cases op with
  | start n as auto skip =>
    have := printAttrs_text hm h.2
    refine ⟨?_, this.2⟩
    simp only [printOp, printStart]
    refine XmlText.append (XmlText.append (XmlText.append (XmlText.append (XmlText.ascii (by decide))
      (printName_text hm h.1)) this.1) ?_) (XmlText.ascii (by decide))
    split
    · exact XmlText.ascii (by decide)
    · exact XmlText.nil
  | stop n =>
    refine ⟨?_, hm⟩
    simp only [printOp, printEnd]
    exact ((XmlText.ascii (by decide)).append (printName_text hm h)).append (XmlText.ascii (by decide))
  | chars s => exact ⟨escape_text s, hm⟩

theorem printOps_text : ∀ {ops : List Op} {m : PrefixMap}, m.Texts → (∀ op ∈ ops, OpText op) → XmlText (printOps m ops)
  | [], _, _, _ => XmlText.nil
  | op :: ops, m, hm, h => by
    have h1 := printOp_text hm (h op (by simp))
    exact h1.1.append (printOps_text h1.2 fun x hx => h x (by simp [hx]))

/-! ## The encoder -/

/-- The names of a sequence of tokens. -/
def OpsText (ops : List Op) : Prop := ∀ op ∈ ops, OpText op

/-- The names of attributes. -/
def AttrsText (skip : Bool) (as : List Attr) : Prop := ∀ a ∈ as, AttrText skip a

theorem opsText_nil : OpsText [] ↔ True := by simp [OpsText]
theorem opsText_cons {op : Op} {ops : List Op} : OpsText (op :: ops) ↔ OpText op ∧ OpsText ops := by simp [OpsText]
theorem opsText_append {a b : List Op} : OpsText (a ++ b) ↔ OpsText a ∧ OpsText b := by
  simp only [OpsText, List.mem_append]
  exact ⟨fun h => ⟨fun x hx => h x (Or.inl hx), fun x hx => h x (Or.inr hx)⟩, fun h x hx => hx.elim (h.1 x) (h.2 x)⟩
theorem opsText_map {α : Type} {f : α → Op} {l : List α} : OpsText (l.map f) ↔ ∀ x ∈ l, OpText (f x) := by
  simp [OpsText]
theorem opsText_flatMap {α : Type} {f : α → List Op} {l : List α} : OpsText (l.flatMap f) ↔ ∀ x ∈ l, OpsText (f x) := by
  simp only [OpsText, List.mem_flatMap]
  exact ⟨fun h x hx op ho => h op ⟨x, hx, ho⟩, fun h op ⟨x, hx, ho⟩ => h x hx op ho⟩
theorem opText_start {n : Name} {as : List Attr} : OpText (opStart n as) ↔ XmlText n.loc ∧ AttrsText false as := Iff.rfl
theorem opText_auto {n : Name} {as : List Attr} : OpText (opAuto n as) ↔ XmlText n.loc ∧ AttrsText false as := Iff.rfl
theorem opText_fast {n : Name} {as : List Attr} : OpText (opFast n as) ↔ XmlText n.loc ∧ AttrsText true as := Iff.rfl
theorem opText_stop {n : Name} : OpText (.stop n) ↔ XmlText n.loc := Iff.rfl
theorem opText_chars {s : Str} : OpText (.chars s) ↔ True := Iff.rfl
theorem attrsText_nil {k : Bool} : AttrsText k [] ↔ True := by simp [AttrsText]
theorem attrsText_cons {k : Bool} {a : Attr} {as : List Attr} : AttrsText k (a :: as) ↔ AttrText k a ∧ AttrsText k as := by
  simp [AttrsText]
theorem attrsText_append {k : Bool} {a b : List Attr} : AttrsText k (a ++ b) ↔ AttrsText k a ∧ AttrsText k b := by
  simp only [AttrsText, List.mem_append]
  exact ⟨fun h => ⟨fun x hx => h x (Or.inl hx), fun x hx => h x (Or.inr hx)⟩, fun h x hx => hx.elim (h.1 x) (h.2 x)⟩
theorem attrText_false {l v : Str} (h : XmlText l) : AttrText false (attr l v) := ⟨h, XmlText.nil, fun h => nomatch h⟩
theorem attrText_true {l v : Str} (h : XmlText l) (h' : XmlText v) : AttrText true (attr l v) :=
  ⟨h, XmlText.nil, fun _ => h'⟩
theorem attrText_ns {k : Bool} {s l v : Str} (h : XmlText l) (h' : XmlText s) (hv : k = true → XmlText v) :
    AttrText k ⟨⟨s, l⟩, v⟩ := ⟨h, h', hv⟩
theorem attrsText_if {k : Bool} {c : Bool} {l v : Str} (h : AttrText k (attr l v)) : AttrsText k (attrIf c l v) := by
  unfold attrIf
  split
  · exact attrsText_cons.2 ⟨h, attrsText_nil.2 trivial⟩
  · exact attrsText_nil.2 trivial

/-- Closes a goal about a literal, a number or a list of them. -/
macro "text_leaf" : tactic => `(tactic| first
  | exact trivial
  | assumption
  | exact attrsText_if (attrText_false (XmlText.ascii (by decide +kernel)))
  | exact attrText_false (XmlText.ascii (by decide +kernel))
  | exact XmlText.ascii (by decide +kernel)
  | exact attrText_true (XmlText.ascii (by decide +kernel)) (plain_formatUint _).text
  | exact attrText_true (XmlText.ascii (by decide +kernel)) (plain_format _ _).text
  | exact attrText_true (XmlText.ascii (by decide +kernel)) (plain_formatRGBA _).text
  | exact attrText_true (XmlText.ascii (by decide +kernel)) (plain_joinWords plain_formatUint _).text
  | exact attrText_true (XmlText.ascii (by decide +kernel)) (plain_joinWords (plain_format _) _).text
  | exact attrsText_if (attrText_true (XmlText.ascii (by decide +kernel)) (plain_formatUint _).text)
  | exact attrsText_if (attrText_true (XmlText.ascii (by decide +kernel)) (plain_format _ _).text)
  | exact attrsText_if (attrText_true (XmlText.ascii (by decide +kernel)) (plain_capMode _).text))

/-- Splits a goal about tokens into goals about names and values. -/
macro "text_ops" : tactic => `(tactic|
  (simp only [opsText_nil, opsText_cons, opsText_append, opsText_map, opsText_flatMap, opText_start, opText_auto,
    opText_fast, opText_stop, opText_chars, attrsText_nil, attrsText_cons, attrsText_append]
   (repeat' first | with_reducible apply And.intro | with_reducible intro _ _) <;> try text_leaf))

theorem ColorGroup.text (r : ColorGroup) : OpsText r.ops := by unfold ColorGroup.ops; text_ops
theorem Texture2DGroup.text (prec : Int) (r : Texture2DGroup) : OpsText (r.ops prec) := by
  unfold Texture2DGroup.ops; text_ops
theorem CompositeMaterials.text (prec : Int) (r : CompositeMaterials) : OpsText (r.ops prec) := by
  unfold CompositeMaterials.ops; text_ops
theorem MultiProperties.text (r : MultiProperties) : OpsText r.ops := by unfold MultiProperties.ops; text_ops
theorem Texture2D.text (r : Texture2D) : OpsText r.ops := by unfold Texture2D.ops; text_ops
theorem Segment.text (s : Segment) : OpText s.op := by
  unfold Segment.op
  split <;> text_ops
theorem Polygon.text (p : Polygon) : OpsText p.ops := by
  unfold Polygon.ops
  text_ops
  · exact ⟨XmlText.ascii (by decide), attrsText_cons.2
      ⟨attrText_true (XmlText.ascii (by decide)) (plain_formatUint _).text, attrsText_nil.2 trivial⟩⟩
  · exact Segment.text _
theorem sliceVertices_text (prec : Int) (vs : List Point2D) : OpsText (sliceVerticesOps prec vs) := by
  unfold sliceVerticesOps; text_ops
theorem Slice.text (prec : Int) (s : Slice) : OpsText (s.ops prec) := by
  unfold Slice.ops
  text_ops
  · exact sliceVertices_text _ _
  · exact Polygon.text _
theorem SliceStack.text (prec : Int) (s : SliceStack) : OpsText (s.ops prec) := by
  unfold SliceStack.ops
  text_ops
  exact Slice.text _ _
theorem Beam.text (prec : Int) (m : BeamLattice) (b : Beam) : OpText (b.op prec m) := by unfold Beam.op; text_ops
theorem BeamSet.text (s : BeamSet) : OpsText s.ops := by unfold BeamSet.ops; text_ops
theorem BeamLattice.text (prec : Int) (m : BeamLattice) : OpsText (m.ops prec) := by
  unfold BeamLattice.ops BeamLattice.beamsOps BeamLattice.setsOps
  text_ops
  · exact Beam.text _ _ _
  · exact BeamSet.text _
theorem ExtRes.text (prec : Int) (r : ExtRes) : OpsText (r.ops prec) := by
  cases r with
  | colorGroup r => exact r.text
  | texture2D r => exact r.text
  | texture2DGroup r => exact r.text prec
  | composite r => exact r.text prec
  | multi r => exact r.text
  | sliceStack r => exact r.text prec

theorem tokens_text {ts : List Token} (h : NamedTokens ts) : OpsText (tokensOps ts) := by
  refine opsText_map.2 fun t ht => ?_
  have := h t ht
  cases t with
  | start n as => exact ⟨this.1, fun a ha => ⟨(this.2 a ha).1, (this.2 a ha).2, fun h => nomatch h⟩⟩
  | stop n => exact this
  | chars s => trivial

theorem any_text {prec : Int} : ∀ {any : List AnyElem}, NamedAny any → OpsText (encodeAny prec any)
  | [], _ => opsText_nil.2 trivial
  | .tokens ts :: _, h => tokens_text (h ts (by simp))
  | .res r :: _, _ => r.text prec
  | .beamLattice b :: _, _ => b.text prec

theorem appends_named {g : AttrGroup} (h : NamedAttrs [g]) : ∀ as ∈ g.appends, AttrsText false as := by
  have hs : XmlText nsProduction := XmlText.ascii (by decide +kernel)
  have hu : ∀ v, AttrsText false [(⟨⟨nsProduction, b!"UUID"⟩, v⟩ : Attr)] := fun v => by
    simp only [attrsText_cons, attrsText_nil, and_true]
    exact attrText_ns (XmlText.ascii (by decide)) hs (fun h => nomatch h)
  have hp : ∀ v, AttrsText false [(⟨⟨nsProduction, b!"path"⟩, v⟩ : Attr)] := fun v => by
    simp only [attrsText_cons, attrsText_nil, and_true]
    exact attrText_ns (XmlText.ascii (by decide)) hs (fun h => nomatch h)
  cases g with
  | unknown s as =>
    intro x hx a ha
    simp only [AttrGroup.appends, List.mem_singleton] at hx
    subst hx
    have := h s x (by simp) a ha
    exact ⟨this.1, this.2, fun h => nomatch h⟩
  | prodBuild u =>
    intro x hx
    simp only [AttrGroup.appends, List.mem_singleton] at hx
    exact hx ▸ hu u
  | prodObject u =>
    intro x hx
    simp only [AttrGroup.appends, List.mem_singleton] at hx
    exact hx ▸ hu u
  | prodItem u p =>
    intro x hx
    simp only [AttrGroup.appends, List.mem_append, List.mem_singleton] at hx
    rcases hx with hx | hx
    · split at hx <;> simp at hx
      exact hx ▸ hp p
    · exact hx ▸ hu u
  | prodComponent u p =>
    intro x hx
    simp only [AttrGroup.appends, List.mem_append, List.mem_singleton] at hx
    rcases hx with hx | hx
    · split at hx <;> simp at hx
      exact hx ▸ hp p
    · exact hx ▸ hu u
  | sliceObject i r =>
    intro x hx
    simp only [AttrGroup.appends, List.mem_singleton] at hx
    subst hx
    simp only [attrsText_cons, attrsText_nil, and_true]
    exact ⟨attrText_ns (XmlText.ascii (by decide)) (XmlText.ascii (by decide +kernel)) (fun h => nomatch h),
      attrText_ns (XmlText.ascii (by decide)) (XmlText.ascii (by decide +kernel)) (fun h => nomatch h)⟩

theorem anyAttr_named {any : AnyAttr} (h : NamedAttrs any) : AttrsText false (encodeAnyAttr any) := by
  intro a ha
  simp only [encodeAnyAttr, List.mem_flatten, List.mem_flatMap] at ha
  obtain ⟨as, ⟨g, hg, has⟩, ha⟩ := ha
  exact appends_named (g := g) (fun s as hs => h s as (by simp at hs; exact hs ▸ hg)) as has a ha

theorem appends_text {any : AnyAttr} (h : TextAttrs any) : ∀ as ∈ any.flatMap AttrGroup.appends, AttrsText true as := by
  have hs : XmlText nsProduction := XmlText.ascii (by decide +kernel)
  have hu : ∀ v, XmlText v → AttrsText true [(⟨⟨nsProduction, b!"UUID"⟩, v⟩ : Attr)] := fun v hv => by
    simp only [attrsText_cons, attrsText_nil, and_true]
    exact attrText_ns (XmlText.ascii (by decide)) hs (fun _ => hv)
  have hp : ∀ v, XmlText v → AttrsText true [(⟨⟨nsProduction, b!"path"⟩, v⟩ : Attr)] := fun v hv => by
    simp only [attrsText_cons, attrsText_nil, and_true]
    exact attrText_ns (XmlText.ascii (by decide)) hs (fun _ => hv)
  intro x hx
  obtain ⟨g, hg, hx⟩ := List.mem_flatMap.1 hx
  have hh := h g hg
  cases g with
  | unknown s as =>
    simp only [AttrGroup.appends, List.mem_singleton] at hx
    subst hx
    exact fun a ha => ⟨(hh a ha).1, (hh a ha).2.1, fun _ => (hh a ha).2.2⟩
  | prodBuild u =>
    simp only [AttrGroup.appends, List.mem_singleton] at hx
    exact hx ▸ hu u hh
  | prodObject u =>
    simp only [AttrGroup.appends, List.mem_singleton] at hx
    exact hx ▸ hu u hh
  | prodItem u p =>
    simp only [AttrGroup.appends, List.mem_append, List.mem_singleton] at hx
    rcases hx with hx | hx
    · split at hx <;> simp at hx
      exact hx ▸ hp p hh.2
    · exact hx ▸ hu u hh.1
  | prodComponent u p =>
    simp only [AttrGroup.appends, List.mem_append, List.mem_singleton] at hx
    rcases hx with hx | hx
    · split at hx <;> simp at hx
      exact hx ▸ hp p hh.2
    · exact hx ▸ hu u hh.1
  | sliceObject i r =>
    simp only [AttrGroup.appends, List.mem_singleton] at hx
    subst hx
    simp only [attrsText_cons, attrsText_nil, and_true]
    exact ⟨attrText_ns (XmlText.ascii (by decide)) (XmlText.ascii (by decide +kernel)) (fun _ => (plain_formatUint _).text),
      attrText_ns (XmlText.ascii (by decide)) (XmlText.ascii (by decide +kernel)) (fun _ => (plain_meshResolution _).text)⟩

/-! ## Triangles -/

/-- The attributes in the shared array, and those of the element. -/
def AttrSlice.Texts (s : AttrSlice) : Prop := AttrsText true s.arr ∧ ∀ l, s.own = some l → AttrsText true l

theorem AttrsText.take {k : Bool} {as : List Attr} (h : AttrsText k as) (n : Nat) : AttrsText k (as.take n) :=
  fun a ha => h a (List.mem_of_mem_take ha)

theorem AttrsText.drop {k : Bool} {as : List Attr} (h : AttrsText k as) (n : Nat) : AttrsText k (as.drop n) :=
  fun a ha => h a (List.mem_of_mem_drop ha)

theorem AttrSlice.Texts.append {s : AttrSlice} (h : s.Texts) {as : List Attr} (ha : AttrsText true as) :
    (s.append as).Texts := by
  unfold AttrSlice.append
  split
  · rename_i l hl
    refine ⟨h.1, fun x hx => ?_⟩
    simp only [Option.some.injEq] at hx
    exact hx ▸ attrsText_append.2 ⟨h.2 l hl, ha⟩
  · rename_i hn
    split
    · exact ⟨attrsText_append.2 ⟨attrsText_append.2 ⟨h.1.take _, ha⟩, h.1.drop _⟩, fun x hx => h.2 x hx⟩
    · refine ⟨h.1, fun x hx => ?_⟩
      simp only [Option.some.injEq] at hx
      exact hx ▸ attrsText_append.2 ⟨h.1.take _, ha⟩

theorem AttrSlice.Texts.fold : ∀ {ass : List (List Attr)} {s : AttrSlice}, s.Texts → (∀ as ∈ ass, AttrsText true as) →
    (ass.foldl AttrSlice.append s).Texts
  | [], _, h, _ => h
  | as :: ass, s, h, ha => by
    rw [List.foldl_cons]
    exact AttrSlice.Texts.fold (h.append (ha as (by simp))) fun x hx => ha x (by simp [hx])

theorem AttrSlice.Texts.attrs {s : AttrSlice} (h : s.Texts) : AttrsText true s.attrs := by
  unfold AttrSlice.attrs
  cases ho : s.own with
  | none => exact h.1.take _
  | some l => exact h.2 l ho

theorem modify_text {v : Str} (hv : XmlText v) : ∀ {arr : List Attr} {i : Nat}, AttrsText true arr →
    AttrsText true (setValue arr i v) := by
  intro arr
  induction arr with
  | nil => intro i _; simp [setValue, attrsText_nil]
  | cons a as ih =>
    intro i h
    obtain ⟨h1, h2⟩ := attrsText_cons.1 h
    cases i with
    | zero =>
      simp only [setValue, List.modify_zero_cons]
      exact attrsText_cons.2 ⟨⟨h1.1, h1.2.1, fun _ => hv⟩, h2⟩
    | succ i =>
      simp only [setValue, List.modify_succ_cons]
      exact attrsText_cons.2 ⟨h1, ih h2⟩

theorem triangle_slice_text {pid pindex : UInt32} {arr : List Attr} (h : AttrsText true arr) (t : Triangle) :
    (t.slice pid pindex arr).Texts := by
  have hf : ∀ {arr : List Attr} (i : Nat) (x : UInt32), AttrsText true arr → AttrsText true (setValue arr i (formatUint x)) :=
    fun i x h => modify_text (plain_formatUint x).text h
  have h0 := hf 2 t.v3 (hf 1 t.v2 (hf 0 t.v1 h))
  unfold Triangle.slice
  simp only
  split
  · exact ⟨hf 6 _ (hf 5 _ (hf 4 _ (hf 3 _ h0))), fun l hl => nomatch hl⟩
  · split
    · exact ⟨hf 4 _ (hf 3 _ h0), fun l hl => nomatch hl⟩
    · exact ⟨h0, fun l hl => nomatch hl⟩

theorem triangles_text {pid pindex : UInt32} : ∀ {ts : List Triangle} {arr : List Attr}, AttrsText true arr →
    (∀ t ∈ ts, TextAttrs t.anyAttr) → OpsText (trianglesLoop pid pindex arr ts)
  | [], _, _, _ => opsText_nil.2 trivial
  | t :: ts, arr, h, ht => by
    have hs := AttrSlice.Texts.fold (triangle_slice_text (pid := pid) (pindex := pindex) h t) (appends_text (ht t (by simp)))
    exact opsText_cons.2 ⟨⟨XmlText.ascii (by decide), hs.attrs⟩, triangles_text hs.1 fun x hx => ht x (by simp [hx])⟩

theorem triangleArray_text : AttrsText true triangleArray := by
  unfold triangleArray
  simp only [attrsText_cons, attrsText_nil, and_true]
  (repeat' with_reducible apply And.intro) <;> exact attrText_true (XmlText.ascii (by decide)) XmlText.nil

/-! ## The core elements -/

theorem Mesh.text {prec : Int} {pid pindex : UInt32} {m : Mesh} (h : NamedMesh m) : OpsText (m.ops prec pid pindex) := by
  obtain ⟨h1, h2, h3, h4, h5⟩ := h
  have := anyAttr_named h1
  have := anyAttr_named h2
  have := anyAttr_named h3
  unfold Mesh.ops Mesh.verticesOps Mesh.trianglesOps
  text_ops
  · exact triangles_text triangleArray_text h5
  · exact any_text h4

theorem encodeMetadata_text (mds : List Metadata) : OpsText (encodeMetadata mds) := by
  unfold encodeMetadata Metadata.ops
  text_ops

theorem MetadataGroup.text {g : MetadataGroup} (h : NamedAttrs g.anyAttr) : OpsText g.ops := by
  have := anyAttr_named h
  have := encodeMetadata_text g.metadata
  unfold MetadataGroup.ops
  text_ops

theorem Item.text {i : Item} (h : NamedAttrs i.anyAttr) (h' : NamedAttrs i.metadata.anyAttr) : OpsText i.ops := by
  have := anyAttr_named h
  have := MetadataGroup.text h'
  unfold Item.ops Item.attrs
  split <;> text_ops

theorem Components.text {cs : Components} (h : NamedAttrs cs.anyAttr) (h' : ∀ c ∈ cs.component, NamedAttrs c.anyAttr) :
    OpsText cs.ops := by
  have := anyAttr_named h
  unfold Components.ops Component.op
  text_ops
  exact anyAttr_named (h' _ ‹_›)

theorem Object.text {prec : Int} {o : Object} (h : NamedObject o) : OpsText (o.ops prec) := by
  obtain ⟨h1, h2, h3, h4⟩ := h
  have := anyAttr_named h1
  have ha : AttrsText false o.attrs := by
    unfold Object.attrs
    split <;> text_ops
  have hm : OpsText (if o.metadata.metadata ≠ [] then o.metadata.ops else []) := by
    split
    · exact MetadataGroup.text h2
    · exact opsText_nil.2 trivial
  have hsh : OpsText (o.shapeOps prec) := by
    unfold Object.shapeOps
    split
    · exact Mesh.text (h3 _ ‹_›)
    · exact Components.text (h4 _ ‹_›).1 (h4 _ ‹_›).2
    · exact opsText_nil.2 trivial
  unfold Object.ops
  text_ops

theorem Asset.text {prec : Int} {a : Asset} (h : NamedAsset a) : OpsText (a.ops prec) := by
  cases a with
  | base r =>
    have := anyAttr_named h.1
    unfold Asset.ops BaseMaterials.ops Base.op
    text_ops
    exact anyAttr_named (h.2 _ ‹_›)
  | unknown id ts => exact tokens_text h
  | res r => exact r.text prec

theorem Resources.text {prec : Int} {r : Resources} (h : NamedResources r) : OpsText (r.ops prec) := by
  obtain ⟨h1, h2, h3⟩ := h
  have := anyAttr_named h1
  unfold Resources.ops
  text_ops
  · exact Asset.text (h2 _ ‹_›)
  · exact Object.text (h3 _ ‹_›)

theorem Model.rootAttrs_text {m : Model} (h : NamedRoot m) (isRoot : Bool) : AttrsText false (m.rootAttrs isRoot) := by
  have := anyAttr_named h.1
  have hx : AttrsText false (m.extensions.map fun x => (⟨⟨b!"xmlns", x.localName⟩, x.ns⟩ : Attr)) := by
    intro a ha
    obtain ⟨x, hx, rfl⟩ := List.mem_map.1 ha
    exact attrText_ns (h.2 x hx) (XmlText.ascii (by decide)) (fun h => nomatch h)
  have hl : AttrText false ⟨⟨nsXML, b!"lang"⟩, m.language⟩ :=
    attrText_ns (XmlText.ascii (by decide)) (XmlText.ascii (by decide +kernel)) (fun h => nomatch h)
  unfold Model.rootAttrs
  text_ops

theorem Model.text {prec : Int} {m : Model} (h : NamedModel m) : OpsText (m.ops prec) := by
  obtain ⟨h1, h2, h3, h4, h5⟩ := h
  have := Model.rootAttrs_text h1 true
  have := anyAttr_named h4
  have := encodeMetadata_text m.metadata
  have := Resources.text (prec := prec) h2
  have := any_text (prec := prec) h3
  unfold Model.ops Model.bodyOps Build.ops
  text_ops
  exact Item.text (h5 _ ‹_›).1 (h5 _ ‹_›).2

theorem ChildModel.text {prec : Int} {m : Model} {c : ChildModel} (h : NamedRoot m) (hc : NamedChild c) :
    OpsText (c.ops prec m) := by
  have := Model.rootAttrs_text h false
  have := Resources.text (prec := prec) hc.1
  have := any_text (prec := prec) hc.2
  unfold ChildModel.ops
  text_ops

end Go3mf
