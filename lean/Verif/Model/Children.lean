import Mathlib.Logic.Relation
import Verif.Model.Package

/-!
# The goroutines that decode child models: read.go:215-238 and 308-322, and `DecodeContext`

One goroutine per child part.  A goroutine runs `decodeModelFile` token by token; any interleaving of the steps of the
goroutines is a run.  What the goroutines share:

* the variable `errs`, written without synchronisation (one atomic store in the model);
* the context, done once `cancel` is called or the context of the caller is done;
* the slice `model.Any`: `append` is a load followed by a store.  The elements themselves belong to the goroutine that
  appended them (they are pointers): the shared slice holds the number of the goroutine and the position of the element in
  its private list.

Everything else of the model that a child part changes is its own resources; `C48_private` proves it.  A goroutine
therefore works on a private copy of the model, from which its resources are taken at the end.  This is only faithful if no
two files have the same name (otherwise they share the resources).  A panic ends the program.
-/

namespace Go3mf

/-- The errors of read.go:308-322 `readChildModel`. -/
inductive ChildErr where
  /-- The part cannot be opened. -/
  | open
  | decode (r : DecodeResult)
  deriving Repr

/-- Where a goroutine is. -/
inductive Phase where
  | ready
  /-- About to read the token number `i`. -/
  | running (i : Nat) (s : DState) (evs : List (Option Event))
  /-- Token number `i` appends to `model.Any`, which has been loaded. -/
  | appending (i : Nat) (s : DState) (evs : List (Option Event)) (any : List (Nat × Nat))
  /-- Token number `i` has been read. -/
  | polling (i : Nat) (s : DState) (evs : List (Option Event))
  /-- `decodeModelFile` has returned. -/
  | decoded (s : DState) (r : DecodeResult)
  /-- `readChildModel` has returned an error. -/
  | failed (s : Option DState) (e : ChildErr)
  /-- `errs` has been written. -/
  | stored (s : Option DState)
  | finished (s : Option DState)
  | panicked

/-- What the goroutines share. -/
structure Shared where
  errs : Option ChildErr
  done : Bool
  any : List (Nat × Nat)

/-- The parameters of the decoder. -/
structure PkgCfg where
  env : Env
  strict : Bool
  /-- `DecCfg.mem` of the part with the given name. -/
  mem : Str → Nat → Str → Str

/-- The parameters of `decodeModelFile` for a child part. -/
def PkgCfg.child (c : PkgCfg) (name : Str) : DecCfg := ⟨c.env, false, c.mem name⟩

/-- The parameters of `decodeModelFile` for the root part. -/
def PkgCfg.root (c : PkgCfg) (name : Str) : DecCfg := ⟨c.env, true, c.mem name⟩

/-- The tokens of a part. -/
def partTokens (p : Str × LexErr) : List (Option Event) × LexErr := lex p.2 (.new p.1)

/-- One step of the goroutine number `g`, which decodes the file `f` (read.go:223-232 and 308-322). -/
def Phase.step (c : PkgCfg) (m : Model) (g : Nat) (f : InFile) (sh : Shared) : Phase → Option (Shared × Phase)
  | .ready => match f.content with
    | none => some (sh, .failed none .open)
    | some p => some (sh, .running 0 (DState.init m f.name) (partTokens p).1)
  | .running _ s [] => match f.content with
    | none => none
    | some p => some (sh, .decoded s (decodeResult c.strict s.errs (.token (partTokens p).2)))
  | .running i s (ev :: evs) => match s.step (c.child f.name) i ev with
    | none => some (sh, .panicked)
    | some s' =>
      if s.regs.model.any.length < s'.regs.model.any.length then some (sh, .appending i s' evs sh.any)
      else some (sh, .polling i s' evs)
  | .appending i s evs any => some ({ sh with any := any ++ [(g, s.regs.model.any.length - 1)] }, .polling i s evs)
  | .polling i s evs =>
    if c.strict && !s.errs.isEmpty then some (sh, .decoded s (decodeResult c.strict s.errs .strict))
    else if i % 1000 == 0 && sh.done then some (sh, .decoded s .ctx)
    else some (sh, .running (i + 1) s evs)
  | .decoded s r =>
    if sh.done then some (sh, .failed (some s) (.decode .ctx))
    else match r with
      | .ok => some (sh, .finished (some s))
      | r => some (sh, .failed (some s) (.decode r))
  | .failed s e => some ({ sh with errs := some e }, .stored s)
  | .stored s => some ({ sh with done := true }, .finished s)
  | .finished _ => none
  | .panicked => none

/-- A state: what is shared and the goroutines. -/
structure ChildrenState where
  sh : Shared
  ps : List Phase

/-- One step of one goroutine. -/
inductive ChildrenStep (c : PkgCfg) (m : Model) (fs : List InFile) : ChildrenState → ChildrenState → Prop
  | step {st : ChildrenState} {g : Nat} {f : InFile} {p p' : Phase} {sh' : Shared} :
      fs[g]? = some f → st.ps[g]? = some p → p.step c m g f st.sh = some (sh', p') →
      ChildrenStep c m fs st ⟨sh', st.ps.set g p'⟩

/-- One step, of a goroutine or of the caller of `DecodeContext`, who cancels the context. -/
inductive ChildrenStepC (c : PkgCfg) (m : Model) (fs : List InFile) : ChildrenState → ChildrenState → Prop
  | step {st st' : ChildrenState} : ChildrenStep c m fs st st' → ChildrenStepC c m fs st st'
  | cancel {st : ChildrenState} : ChildrenStepC c m fs st { st with sh := { st.sh with done := true } }

/-- The state in which the goroutines start; `done` tells whether the context of the caller is done. -/
def ChildrenState.init (fs : List InFile) (done : Bool) : ChildrenState := ⟨⟨none, done, []⟩, fs.map fun _ => .ready⟩

/-- `wg.Wait()` returns. -/
def ChildrenState.Finished (st : ChildrenState) : Prop :=
  ∀ (g : Nat) (p : Phase), st.ps[g]? = some p → ∃ s, p = .finished s

/-- The private state of a goroutine. -/
def Phase.state : Phase → Option DState
  | .finished s => s
  | _ => none

/-- The elements of `model.Any` at the end. -/
def ChildrenState.anyElems (st : ChildrenState) : List AnyElem :=
  st.sh.any.filterMap fun x => ((st.ps[x.1]?).bind Phase.state).bind fun s => s.regs.model.any[x.2]?

/-- The resources of the child parts, written to the model. -/
def setChilds (m : Model) : List (InFile × Phase) → Model
  | [] => m
  | (f, p) :: l =>
    match p.state.bind (·.regs.res) with
    | some rs => setChilds (m.setResources f.name rs) l
    | none => setChilds m l

/-- The model when `wg.Wait()` returns. -/
def ChildrenState.model (st : ChildrenState) (m : Model) (fs : List InFile) : Model :=
  { setChilds m (fs.zip st.ps) with any := m.any ++ st.anyElems }

/-- read.go:215-238 `processNonRootModels`: `m'` and `e` are a possible outcome, without cancellation by the caller. -/
def ChildrenOutcome (c : PkgCfg) (m : Model) (fs : List InFile) (m' : Model) (e : Option ChildErr) : Prop :=
  ∃ st, Relation.ReflTransGen (ChildrenStep c m fs) (.init fs false) st ∧ st.Finished ∧ st.sh.errs = e ∧ st.model m fs = m'

/-- The same if the caller may cancel the context at any time; `b` and `b'` tell whether it is done before and after. -/
def ChildrenOutcomeC (c : PkgCfg) (m : Model) (fs : List InFile) (b : Bool) (m' : Model) (e : Option ChildErr) (b' : Bool) :
    Prop :=
  ∃ st, Relation.ReflTransGen (ChildrenStepC c m fs) (.init fs b) st ∧ st.Finished ∧ st.sh.errs = e ∧
    st.model m fs = m' ∧ (st.sh.errs = none → st.sh.done = b')

/-- The outcomes of read.go:183-192 `DecodeContext`. -/
inductive PkgResult where
  /-- The package has no root model. -/
  | opc
  | child (e : ChildErr)
  /-- The root part cannot be opened. -/
  | open
  | root (r : DecodeResult)
  deriving Repr

/-- read.go:202-213 `processRootModel`; `none` is a panic. -/
def processRoot (c : PkgCfg) (done : Nat → Bool) (m : Model) (f : InFile) : Option (Model × PkgResult) :=
  match f.content with
  | none => some (m, .open)
  | some p =>
    (decodeEvents (c.root f.name) c.strict done m f.name (partTokens p).1 (partTokens p).2).map fun q => (q.1, .root q.2)

/-- read.go:183-192 `DecodeContext`: `m'` and `r` are a possible outcome for the model `m`.  The context of the caller is
done before if `b`, and done when token number `i` of the root part has been read if `done i`. -/
inductive Decodes (c : PkgCfg) (o : Opc) (pk : InPkg) (m : Model) (b : Bool) (done : Nat → Bool) : Model → PkgResult → Prop
  | opc : processOPC c.env o pk m = none → Decodes c o pk m b done m .opc
  | child {m1 m' : Model} {root : InFile} {fs : List InFile} {e : ChildErr} {b' : Bool} :
      processOPC c.env o pk m = some (m1, root, fs) → ChildrenOutcomeC c m1 fs b m' (some e) b' →
      Decodes c o pk m b done m' (.child e)
  | root {m1 m2 m' : Model} {root : InFile} {fs : List InFile} {b' : Bool} {r : PkgResult} :
      processOPC c.env o pk m = some (m1, root, fs) → ChildrenOutcomeC c m1 fs b m2 none b' →
      (b' = true → ∀ i, done i = true) → processRoot c done m2 root = some (m', r) → Decodes c o pk m b done m' r

/-- read.go:178-180 `Decode`: `m'` and `r` are a possible outcome for the model `m`.  The background context is never done. -/
inductive DecodesBg (c : PkgCfg) (o : Opc) (pk : InPkg) (m : Model) : Model → PkgResult → Prop
  | opc : processOPC c.env o pk m = none → DecodesBg c o pk m m .opc
  | child {m1 m' : Model} {root : InFile} {fs : List InFile} {e : ChildErr} :
      processOPC c.env o pk m = some (m1, root, fs) → ChildrenOutcome c m1 fs m' (some e) → DecodesBg c o pk m m' (.child e)
  | root {m1 m2 m' : Model} {root : InFile} {fs : List InFile} {r : PkgResult} :
      processOPC c.env o pk m = some (m1, root, fs) → ChildrenOutcome c m1 fs m2 none →
      processRoot c (fun _ => false) m2 root = some (m', r) → DecodesBg c o pk m m' r

end Go3mf
