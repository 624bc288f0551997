import Verif.Lemmas.Buffer
import Verif.Props.C30

/-!
# C31: unknown elements are preserved token by token
-/

namespace Go3mf

open Spec

/-- The event of the reader that a token stands for. -/
def Spec.eventOf : Token → Event
  | .start n as => .start n as
  | .stop n => .stop n
  | .chars t => .chars t

/-- What the reader returns for a list of tokens. -/
def Spec.eventsOf (ts : List Token) : List (Option Event) := ts.map fun t => some (eventOf t)

/-- Complete elements with any names but `n` and any attributes and, if `txt`, texts. -/
inductive Spec.Below (txt : Prop) (n : Name) : List Token → Prop
  | nil : Below txt n []
  | elem {m : Name} {as : List Attr} {ts rest : List Token} : m ≠ n → Below txt n ts → Below txt n rest →
      Below txt n (.start m as :: (ts ++ .stop m :: rest))
  | text {s : Str} {rest : List Token} : txt → Below txt n rest → Below txt n (.chars s :: rest)

/-- An element with the name `n` in a name space that no extension knows. -/
structure Spec.Subtree (env : Env) (txt : Prop) (n : Name) (as : List Attr) (ts : List Token) : Prop where
  core : n.space ≠ nsCore
  unknown : ¬ Known env n.space
  tokens : ∃ body, Below txt n body ∧ ts = .start n as :: (body ++ [.stop n])

/-! ## Decoding -/

section
variable {cfg : DecCfg} {loc : AnyLoc} {n : Name} {r : Regs} {txt : Prop} {as : List Attr} {ts : List Token}

theorem inside_within {d : Dec} {put : List Token → Regs} (hd : d.hasChild = false) (hm : ∀ l, d ≠ .metadata l)
    (hp : ∀ ts t, (put ts).addToken d t = put (ts ++ [t])) (ht : txt → ∀ i t, cfg.mem i t = t) {ts : List Token}
    (h : Below txt n ts) : ∀ acc, Within cfg d n (put acc) (eventsOf ts) (put (acc ++ ts)) := by
  induction h with
  | nil => intro acc; rw [List.append_nil]; exact Within.nil
  | @elem m as ts rest hne h1 h2 ih1 ih2 =>
    intro acc
    have e : eventsOf (.start m as :: (ts ++ .stop m :: rest)) =
        [some (.start m as)] ++ (eventsOf ts ++ ([some (.stop m)] ++ eventsOf rest)) := by
      simp [eventsOf, eventOf]
    rw [e]
    have w1 : Within cfg d n (put acc) [some (.start m as)] (put (acc ++ [.start m as])) := by
      refine Within.single fun i idx st => ?_
      simp [DState.step, DState.onStart, hd, hp]
    have w2 : ∀ acc, Within cfg d n (put acc) [some (.stop m)] (put (acc ++ [.stop m])) := by
      intro acc
      refine Within.single fun i idx st => ?_
      simp only [DState.step, DState.onEnd]
      rw [if_neg (fun h => hne h.symm), hp]
    have := w1.append ((ih1 _).append ((w2 _).append (ih2 _)))
    simpa using this
  | @text s rest htx h ih =>
    intro acc
    have w1 : Within cfg d n (put acc) [some (.chars s)] (put (acc ++ [.chars s])) := by
      refine Within.single fun i idx st => ?_
      have : DState.onChar cfg ⟨put acc, d, n, ⟨d, n, idx⟩ :: st, []⟩ i s =
          ⟨(put acc).addToken d (.chars (cfg.mem i s)), d, n, ⟨d, n, idx⟩ :: st, []⟩ := by
        unfold DState.onChar
        cases d <;> first | exact absurd rfl (hm _) | rfl
      simp only [DState.step, this, ht htx, hp]
    have := w1.append (ih (acc ++ [.chars s]))
    simpa [eventsOf, eventOf] using this

theorem subtree_within {n' : Name} (h : Subtree cfg.env txt n as ts) (ht : txt → ∀ i t, cfg.mem i t = t)
    (hl : loc ≠ .asset) (hh : Holds loc r (.tokens ts)) :
    Within cfg loc.parent n' r (eventsOf ts) (r.putAny loc (.tokens ts)) := by
  obtain ⟨hcore, hunk, body, hbody, hts⟩ := h
  have hh' : ∀ ts', Holds loc r (.tokens ts') := by
    intro ts'
    cases loc with
    | asset => exact absurd rfl hl
    | modelAny => trivial
    | meshAny => exact hh
  have hn : newAnyElement cfg.env loc n = some (.unknown loc n, .tokens []) := by
    simp [newAnyElement, load_unknown hunk]
  have hc : child cfg r loc.parent n = some (r.putAny loc (.tokens []), some (-1, .unknown loc n)) := by
    cases loc with
    | asset => exact absurd rfl hl
    | modelAny =>
      simp only [AnyLoc.parent, child, modelChild]
      rw [if_neg hcore, hn]
      rfl
    | meshAny =>
      simp only [AnyLoc.parent, child, meshChild]
      rw [if_neg hcore, hn]
      rfl
  have hp : ∀ ts t, (r.putAny loc (.tokens ts)).addToken (.unknown loc n) t = r.putAny loc (.tokens (ts ++ [t])) := by
    intro ts t
    simp only [Regs.addToken]
    rw [modAny_put (hh' _) (hh' _)]
  have hb := inside_within (cfg := cfg) (d := .unknown loc n) (put := fun ts => r.putAny loc (.tokens ts)) rfl (by simp) hp ht
    hbody [.start n as]
  have := Within.elem (cfg := cfg) (n := n') (n' := n) (as := as) (d := loc.parent) (d' := .unknown loc n) (r := r)
    (r2 := r.putAny loc (.tokens [.start n as])) (parent_hasChild loc) hc (by
      simp only [Go3mf.start]
      rw [modAny_put (hh' _) (hh' _)]
      rfl)
    hb
  simp only [Go3mf.stop, hp] at this
  rw [hts]
  simpa [eventsOf, eventOf] using this

theorem subtree_within_asset {n' : Name} {rs : Resources} {id : UInt32} (h : Subtree cfg.env txt n as ts)
    (ht : txt → ∀ i t, cfg.mem i t = t) (hr : r.res = some rs) (hid : assetID as id) :
    Within cfg .resources n' r (eventsOf ts)
      { r with unk := ts, unkID := id, res := some { rs with assets := rs.assets ++ [.unknown id ts] } } := by
  obtain ⟨hcore, hunk, body, hbody, hts⟩ := h
  have hn : newAnyElement cfg.env .asset n = some (.unknown .asset n, .tokens []) := by
    simp [newAnyElement, load_unknown hunk]
  have hc : child cfg r .resources n =
      some ({ r with unk := [], unkID := 0 }, some ((rs.assets.length : Int), Dec.unknownAsset n)) := by
    simp only [child, resourcesChild, hr]
    rw [if_neg (fun e => hcore e.1), if_neg hcore, hn]
  have hb := inside_within (cfg := cfg) (d := .unknownAsset n) (put := fun ts => { r with unk := ts, unkID := id }) rfl (by simp)
    (fun _ _ => rfl) ht hbody [.start n as]
  have := Within.elem (cfg := cfg) (n := n') (n' := n) (as := as) (d := .resources) (d' := .unknownAsset n) (r := r)
    (r2 := { r with unk := [.start n as], unkID := id }) rfl hc (by
      unfold assetID at hid
      simp only [Go3mf.start]
      cases hf : firstID as with
      | none => rw [hf] at hid; simp only at hid; subst hid; rfl
      | some a =>
        rw [hf] at hid
        simp only at hid ⊢
        have e : uintAttr true a = (id, []) := by simp [uintAttr, hid, parseUintVal]
        rw [e]; rfl)
    hb
  simp only [Go3mf.stop, hr] at this
  rw [hts]
  simpa [eventsOf, eventOf] using this

end

/-- **C31** (decoding, below a model): from inside of a root element, the tokens of an unknown element are consumed, exactly
they are recorded as one element of `Model.Any`, and nothing else changes.  What is missing: elements with the name of
the unknown element inside of it (`C31_nested_false`), and texts whose bytes are overwritten (`C31_text_false`). -/
theorem C31_decode_partial (env : Env) (isRoot : Bool) (mem : Nat → Str → Str) (strict : Bool) (fin : LexErr) (i : Nat) (r : Regs)
    (n' : Name) (idx : Int) (st : List Frame) (txt : Prop) (n : Name) (as : List Attr) (ts : List Token)
    (rest : List (Option Event)) (h : Subtree env txt n as ts) (ht : txt → ∀ i t, mem i t = t) :
    runTokens ⟨env, isRoot, mem⟩ strict (fun _ => false) fin i ⟨r, .model, n', ⟨.model, n', idx⟩ :: st, []⟩
        (eventsOf ts ++ rest) =
      runTokens ⟨env, isRoot, mem⟩ strict (fun _ => false) fin (i + ts.length)
        ⟨{ r with model := { r.model with any := r.model.any ++ [.tokens ts] } }, .model, n', ⟨.model, n', idx⟩ :: st, []⟩
        rest := by
  have := subtree_within (cfg := ⟨env, isRoot, mem⟩) (loc := .modelAny) (r := r) (n' := n') h ht (by simp) trivial strict fin i idx
    st rest
  simpa [eventsOf, AnyLoc.parent, Regs.putAny] using this

/-- **C31** (decoding, below a mesh): the same with `Mesh.Any`. -/
theorem C31_mesh_partial (env : Env) (isRoot : Bool) (mem : Nat → Str → Str) (strict : Bool) (fin : LexErr) (i : Nat) (r : Regs)
    (n' : Name) (idx : Int) (st : List Frame) (txt : Prop) (n : Name) (as : List Attr) (ts : List Token)
    (rest : List (Option Event)) (x : Mesh) (hx : r.obj.mesh = some x) (h : Subtree env txt n as ts)
    (ht : txt → ∀ i t, mem i t = t) :
    runTokens ⟨env, isRoot, mem⟩ strict (fun _ => false) fin i ⟨r, .mesh, n', ⟨.mesh, n', idx⟩ :: st, []⟩
        (eventsOf ts ++ rest) =
      runTokens ⟨env, isRoot, mem⟩ strict (fun _ => false) fin (i + ts.length)
        ⟨{ r with obj := { r.obj with mesh := some { x with any := x.any ++ [.tokens ts] } } }, .mesh, n',
          ⟨.mesh, n', idx⟩ :: st, []⟩
        rest := by
  have := subtree_within (cfg := ⟨env, isRoot, mem⟩) (loc := .meshAny) (r := r) (n' := n') h ht (by simp)
    (by simp [Holds, hx]) strict fin i idx st rest
  simpa [eventsOf, AnyLoc.parent, Regs.putAny, Object.modMesh, hx] using this

/-- **C31** (decoding, below the resources): the same with `Resources.Assets`; the identifier is recorded, too.  The
registers `unk` and `unkID` are the fields of the element that is being read. -/
theorem C31_resources_partial (env : Env) (isRoot : Bool) (mem : Nat → Str → Str) (strict : Bool) (fin : LexErr) (i : Nat)
    (r : Regs) (n' : Name) (idx : Int) (st : List Frame) (txt : Prop) (n : Name) (as : List Attr) (ts : List Token)
    (rest : List (Option Event)) (rs : Resources) (id : UInt32) (hr : r.res = some rs) (h : Subtree env txt n as ts)
    (ht : txt → ∀ i t, mem i t = t) (hid : IdOf as id) :
    runTokens ⟨env, isRoot, mem⟩ strict (fun _ => false) fin i ⟨r, .resources, n', ⟨.resources, n', idx⟩ :: st, []⟩
        (eventsOf ts ++ rest) =
      runTokens ⟨env, isRoot, mem⟩ strict (fun _ => false) fin (i + ts.length)
        ⟨{ r with unk := ts, unkID := id, res := some { rs with assets := rs.assets ++ [.unknown id ts] } }, .resources, n',
          ⟨.resources, n', idx⟩ :: st, []⟩
        rest := by
  have := subtree_within_asset (cfg := ⟨env, isRoot, mem⟩) (r := r) (n' := n') h ht hr (idOf_asset hid) strict fin i idx st rest
  simpa [eventsOf] using this

/-- An element with a child, an attribute and a text. -/
example : Subtree ⟨id, true, true, true, true⟩ True ⟨b!"u", b!"a"⟩ [⟨⟨[], b!"id"⟩, b!"7"⟩]
    [.start ⟨b!"u", b!"a"⟩ [⟨⟨[], b!"id"⟩, b!"7"⟩], .start ⟨nsCore, b!"mesh"⟩ [], .chars b!"x", .stop ⟨nsCore, b!"mesh"⟩,
      .stop ⟨b!"u", b!"a"⟩] ∧
    IdOf [⟨⟨[], b!"id"⟩, b!"7"⟩] 7 := by
  refine ⟨⟨by decide +kernel, ?_, [.start ⟨nsCore, b!"mesh"⟩ [], .chars b!"x", .stop ⟨nsCore, b!"mesh"⟩], ?_, rfl⟩, ?_⟩
  · decide +kernel
  · exact .elem (ts := [.chars b!"x"]) (by decide +kernel) (.text trivial .nil) .nil
  · exact Or.inl ⟨[], ⟨⟨[], b!"id"⟩, b!"7"⟩, [], rfl, rfl, by simp, by decide, by decide, by decide⟩

/-! ## Encoding -/

/-- The unknown elements of a model that are written. -/
inductive Spec.Held (m : Model) : List Token → Prop
  | model {ts : List Token} {es : List AnyElem} : m.any = .tokens ts :: es → Held m ts
  | mesh {o : Object} {x : Mesh} {ts : List Token} {es : List AnyElem} : o ∈ m.resources.objects → o.mesh = some x →
      x.any = .tokens ts :: es → Held m ts
  | asset {id : UInt32} {ts : List Token} : .unknown id ts ∈ m.resources.assets → Held m ts

theorem infix_mid {α : Type} {x a b l : List α} (h : x <:+: a) (e : l = b ++ a) : x <:+: l := by
  rw [e]; exact h.trans (List.suffix_append b a).isInfix

theorem infix_flatMap {α β : Type} {f : α → List β} {a : α} {l : List α} (h : a ∈ l) : f a <:+: l.flatMap f := by
  obtain ⟨s, t, rfl⟩ := List.append_of_mem h
  exact ⟨s.flatMap f, t.flatMap f, by simp⟩

theorem held_ops {m : Model} {ts : List Token} (h : Held m ts) (prec : Int) : tokensOps ts <:+: m.ops prec := by
  have hbody : ∀ {x}, x <:+: m.bodyOps prec → x <:+: m.ops prec := by
    intro x hx
    refine hx.trans ⟨[opStart (coreName b!"model") (m.rootAttrs true)], [.stop (coreName b!"model")], ?_⟩
    simp [Model.ops]
  have hres : ∀ {x}, x <:+: m.resources.ops prec → x <:+: m.ops prec := by
    intro x hx
    refine hbody (hx.trans ⟨encodeMetadata m.metadata, m.build.ops ++ encodeAny prec m.any, ?_⟩)
    simp [Model.bodyOps]
  cases h with
  | model h =>
    refine hbody ⟨encodeMetadata m.metadata ++ m.resources.ops prec ++ m.build.ops, [], ?_⟩
    simp [Model.bodyOps, h, encodeAny, AnyElem.ops]
  | @mesh o x _ es ho hx h =>
    refine hres ((?_ : tokensOps ts <:+: o.ops prec).trans ((infix_flatMap (f := Object.ops prec) ho).trans
      ⟨opStart (coreName b!"resources") (encodeAnyAttr m.resources.anyAttr) :: m.resources.assets.flatMap (Asset.ops prec),
        [.stop (coreName b!"resources")], by simp [Resources.ops]⟩))
    refine (?_ : tokensOps ts <:+: x.ops prec o.pid o.pindex).trans
      ⟨opStart (coreName b!"object") o.attrs :: (if o.metadata.metadata ≠ [] then o.metadata.ops else []),
        [.stop (coreName b!"object")], by simp [Object.ops, Object.shapeOps, hx]⟩
    refine ⟨opStart (coreName b!"mesh") (encodeAnyAttr x.anyAttr) :: x.verticesOps prec ++ x.trianglesOps o.pid o.pindex,
      [.stop (coreName b!"mesh")], ?_⟩
    simp [Mesh.ops, h, encodeAny, AnyElem.ops]
  | @asset id _ h =>
    have := infix_flatMap (f := Asset.ops prec) h
    refine hres (this.trans ⟨[opStart (coreName b!"resources") (encodeAnyAttr m.resources.anyAttr)],
      m.resources.objects.flatMap (Object.ops prec) ++ [.stop (coreName b!"resources")], by simp [Resources.ops]⟩)

theorem readOps_stop {d : Str} {n : Name} {ops' : List Op} : ∀ (ops : List Op) (t : Str),
    readOps d t ((ops ++ [.stop n]) ++ ops') = readOps d t (ops ++ [.stop n]) ++ readOps d [] ops'
  | [], t => by simp [readOps, flushText_nil]
  | .chars s :: ops, t => by
    have := readOps_stop (d := d) (n := n) (ops' := ops') ops (t ++ cleanText s)
    simpa [readOps] using this
  | .start m as auto skip :: ops, t => by
    have := readOps_stop (d := d) (n := n) (ops' := ops') ops []
    simp only [List.cons_append, readOps]
    rw [this]
    simp
  | .stop m :: ops, t => by
    have := readOps_stop (d := d) (n := n) (ops' := ops') ops []
    simp only [List.cons_append, readOps]
    rw [this]
    simp

theorem content_read {env : Env} {D : List (Str × Str)} {n : Name} {as : List Attr} {body ts : List Token}
    (h : TokensDom env D False n as body ts) : rd (tokensOps ts) = eventsOf ts := by
  have hin : ∀ {b : List Token}, Inner D False n b → rd (tokensOps b) = eventsOf b := by
    intro b hi
    induction hi with
    | nil => rfl
    | @elem m as ts rest hne hn ha h1 h2 ih1 ih2 =>
      have e : rd (tokensOps (.start m as :: (ts ++ .stop m :: rest))) =
          [some (.start m as)] ++ (rd (tokensOps ts) ++ ([some (.stop m)] ++ rd (tokensOps rest))) := by
        simp only [tokensOps, List.map_cons, List.map_append, rd, Token.op, opStart, readOps]
        rw [readOps_append (by exact trivial)]
        simp [readOps, flushText_nil, hn.full, ha.read]
      rw [e, ih1, ih2]
      simp [eventsOf, eventOf]
    | text hf => exact hf.elim
  rw [h.ops, rd_elem, hin h.inner, h.name.full, h.attrs.read, h.eq]
  simp [eventsOf, eventOf]

/-- **C31** (encoding): the tokens of an unknown element of a writable model are, one after the other, in the document that
is written, as a reader sees it.  What is missing: all but the first of several elements of one list (C32), and elements
outside of `Writable`: the ones with texts or with their own name inside. -/
theorem C31_encode_partial (env : Env) (prec : Int) (m : Model) (ts : List Token) (hw : Writable env m) (h : Held m ts) :
    eventsOf ts <:+: (lex .eof (.new (printOps (fun _ => []) (m.ops prec)))).1 := by
  have hd := writable_dom hw
  have hl := C23_roundtrip_partial b!"model" (m.rootAttrs true) (m.bodyOps prec) (by decide +kernel) (by decide +kernel)
    (by rw [root_shown hd.root]; exact rootOK hd.root true)
    (by rw [root_shown hd.root, decls_root hd.root, root_default hd.root]; exact hd.good.ok)
    (by have := hd.good (prec := prec) |>.nest [] []; rw [List.append_nil] at this; rw [this]; rfl)
  have he : document b!"model" (m.rootAttrs true) (m.bodyOps prec) = m.ops prec := by
    simp [document, Model.ops, opStart, coreName]
  rw [root_shown hd.root, root_default hd.root, he] at hl
  rw [hl]
  obtain ⟨pre, post, hops⟩ := held_ops h prec
  have htok : ∃ n as D body, TokensDom env D False n as body ts := by
    have hel : ∀ {n as}, Element env m.extensions n as ts → ∃ D body, TokensDom env D False n as body ts := by
      intro n as hx
      obtain ⟨body, hb⟩ := element_dom hx
      exact ⟨_, body, hb⟩
    cases h with
    | model h =>
      have := hw.any (.tokens ts) (by rw [h]; simp)
      obtain ⟨n, as, hx⟩ := this
      exact ⟨n, as, hel hx⟩
    | mesh ho hx h =>
      have := ((hw.objects _ ho).mesh _ hx).any (.tokens ts) (by rw [h]; simp)
      obtain ⟨n, as, hx⟩ := this
      exact ⟨n, as, hel hx⟩
    | asset h =>
      obtain ⟨n, as, hx, -⟩ := hw.assets _ h
      exact ⟨n, as, hel hx⟩
  obtain ⟨n, as, D, body, hdom⟩ := htok
  have hr := content_read hdom
  have hno : NoText (tokensOps ts ++ post) := by rw [hdom.ops]; trivial
  rw [← hops, List.append_assoc, readOps_append hno]
  have : readOps nsCore [] (tokensOps ts ++ post) = eventsOf ts ++ readOps nsCore [] post := by
    rw [← hr, rd, hdom.ops]
    exact readOps_stop _ _
  rw [this, ← List.append_assoc]
  exact ⟨_, _, rfl⟩

/-- **C31** (encoding then decoding): the unknown elements that are written (see C32) are read back with the same tokens:
below the model, below every mesh, and below the resources. -/
theorem C31_roundtrip_partial (env : Env) (mem : Nat → Str → Str) (prec : Int) (m : Model) (hw : Writable env m) :
    ∃ m', unmarshalModel env mem (printOps (fun _ => []) (m.ops prec)) .zero = some (m', .ok) ∧
      (∀ ts es, m.any = .tokens ts :: es → m'.any = [.tokens ts]) ∧
      (∀ (i : Nat) (o : Object) (x : Mesh) (ts : List Token) (es : List AnyElem), m.resources.objects[i]? = some o →
        o.mesh = some x → x.any = .tokens ts :: es →
        ∃ o' x', m'.resources.objects[i]? = some o' ∧ o'.mesh = some x' ∧ x'.any = [.tokens ts]) ∧
      (∀ (i : Nat) (id : UInt32) (ts : List Token), m.resources.assets[i]? = some (.unknown id ts) →
        m'.resources.assets[i]? = some (.unknown id ts)) := by
  refine ⟨m.back prec, decode_marshal (writable_dom hw) False.elim, ?_, ?_, ?_⟩
  · intro ts es h
    simp [Model.back, anyBack, h, AnyElem.back]
  · intro i o x ts es ho hx h
    refine ⟨o.back prec, x.back prec o.pid o.pindex, ?_, by simp [Object.back, hx], ?_⟩
    · simp [Model.back, Resources.back, ho]
    · simp [Mesh.back, anyBack, h, AnyElem.back]
  · intro i id ts h
    simp [Model.back, Resources.back, h, Asset.back]

/-- A model with an unknown element. -/
def exUnknown : Model :=
  { Model.zero with
    extensions := exExts
    any := [.tokens [.start ⟨b!"http://example.com/v", b!"a"⟩ [⟨⟨[], b!"k"⟩, b!"<"⟩], .start ⟨nsCore, b!"mesh"⟩ [],
      .stop ⟨nsCore, b!"mesh"⟩, .stop ⟨b!"http://example.com/v", b!"a"⟩]] }

example : Writable exEnv exUnknown ∧ (∃ ts, ts.length = 4 ∧ Held exUnknown ts) := by
  have hext : ∀ x ∈ exExts, ExtensionWritable x := exWritable.extensions
  refine ⟨⟨hext, by decide +kernel, text_closed (by decide +kernel), text_closed (by decide +kernel), attrsOk_nil, by simp [exUnknown, Model.zero, Resources.zero, Build.zero],
    by simp [exUnknown, Model.zero, Resources.zero, Build.zero], by simp [exUnknown, Model.zero, Resources.zero, Build.zero], by simp [exUnknown, Model.zero, Resources.zero, Build.zero], attrsOk_nil,
    by simp [exUnknown, Model.zero, Resources.zero, Build.zero], attrsOk_nil, ?_⟩, _, rfl, .model rfl⟩
  intro e he
  simp only [exUnknown, List.mem_singleton] at he
  subst he
  have hdecl : Declared exUnknown.extensions b!"http://example.com/v" :=
    ⟨by decide +kernel, ⟨b!"http://example.com/v", b!"v", true⟩, by simp [exUnknown, exExts], rfl⟩
  have hplain : ∀ {s : Str}, s ≠ [] → (s.all fun b => 97 ≤ b && b ≤ 122) = true → PlainName s := by
    intro s hs ha
    refine ⟨hs, fun b hb => ?_⟩
    have := List.all_eq_true.1 ha b hb
    simp only [Bool.and_eq_true, decide_eq_true_eq] at this
    exact Or.inr (Or.inr (Or.inl this))
  refine ⟨⟨b!"http://example.com/v", b!"a"⟩, [⟨⟨[], b!"k"⟩, b!"<"⟩],
    ⟨Or.inr hdecl, hplain (by decide) (by decide +kernel), by decide +kernel⟩, by decide +kernel, by decide +kernel, ?_,
    [.start ⟨nsCore, b!"mesh"⟩ [], .stop ⟨nsCore, b!"mesh"⟩], ?_, rfl⟩
  · intro a ha
    simp only [List.mem_singleton] at ha
    subst ha
    exact ⟨Or.inl rfl, hplain (by decide) (by decide +kernel), by decide +kernel, text_closed (by decide +kernel)⟩
  · exact .elem (ts := []) (by decide +kernel) ⟨Or.inl rfl, hplain (by decide +kernel) (by decide +kernel), by decide +kernel⟩
      (by simp) .nil .nil

/-! ## What is lost -/

/-- The elements below the model that are decoded, for extensions all of which are registered; texts read as they do when the
document has been read. -/
def tokensBack (data : Str) : Option (List (List Token)) :=
  match unmarshalModel exEnv (lexMem id data) data .zero with
  | some (m, .ok) => m.any.mapM fun e => match e with
    | .tokens ts => some ts
    | _ => none
  | _ => none

/-- The array of the buffer is used again: the kept text `hello` reads `model`, the name of the last end tag. -/
theorem C31_text_false :
    tokensBack b!"<model xmlns=\"http://schemas.microsoft.com/3dmanufacturing/core/2015/02\" xmlns:v=\"u\"><v:a>hello</v:a></model>" =
      some [[.start ⟨b!"u", b!"a"⟩ [], .chars b!"model", .stop ⟨b!"u", b!"a"⟩]] := by
  decide +kernel

/-- An element inside of one with the same name ends it: the rest becomes an element of its own and the end tag is lost. -/
theorem C31_nested_false :
    tokensBack b!"<model xmlns=\"http://schemas.microsoft.com/3dmanufacturing/core/2015/02\" xmlns:v=\"u\"><v:a><v:a/><v:b/></v:a></model>" =
      some [[.start ⟨b!"u", b!"a"⟩ [], .start ⟨b!"u", b!"a"⟩ [], .stop ⟨b!"u", b!"a"⟩],
        [.start ⟨b!"u", b!"b"⟩ [], .stop ⟨b!"u", b!"b"⟩]] := by
  decide +kernel

end Go3mf
