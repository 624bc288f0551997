import Verif.Model.Children

/-!
# The parts that are opened and closed while a package is read: read.go:183-333

The functions of `Package.lean` and `Children.lean` again, with the calls of `Open` that succeed and the calls of `Close` in
the order in which they happen.  A call of `Open` that fails gives nothing that could be closed.
-/

namespace Go3mf

/-- A call of `Open` that succeeds, or a call of `Close`, of the part with the given name. -/
inductive Handle where
  | opened (name : Str)
  | closed (name : Str)
  deriving DecidableEq

/-- read.go:324-333 `copyFile`: the part is closed whether it could be read or not. -/
def InFile.copyLog (f : InFile) : List Handle :=
  match f.content with
  | none => []
  | some _ => [.opened f.name, .closed f.name]

/-- read.go:292-306 `addAttachment`. -/
def attachLog (env : Env) (as : List Attachment) (f : InFile) : List Handle :=
  if as.any fun a => env.equalFold a.path f.name then [] else f.copyLog

/-- read.go:268-290 `extractCoreAttachments` for the root: one relationship. -/
def extractRootLog (env : Env) (o : Opc) (pk : InPkg) (root : InFile) (x : OpcState × List Handle) (rel : Relationship) :
    OpcState × List Handle :=
  (extractRoot env o pk root x.1 rel, x.2 ++
    match pk.find o root.name rel.path with
    | none => []
    | some f => if rel.type = relModel then [] else attachLog env x.1.model.attachments f)

/-- read.go:268-290 `extractCoreAttachments` for a child: one relationship. -/
def extractChildLog (env : Env) (o : Opc) (pk : InPkg) (file : InFile) (x : Model × List Handle) (rel : Relationship) :
    Model × List Handle :=
  (extractChild env o pk file x.1 rel, x.2 ++
    match pk.find o file.name rel.path with
    | none => []
    | some f =>
      if rel.type = relModel then []
      else match lookupChild x.1.childs file.name with
        | none => []
        | some _ => attachLog env x.1.attachments f)

/-- read.go:244-261: one relationship of the package. -/
def processRelLog (env : Env) (o : Opc) (pk : InPkg) (x : OpcState × List Handle) (r : Relationship) :
    Option OpcState × List Handle :=
  match pk.find o b!"/" r.path with
  | none => if r.type = relModel then (none, x.2) else (some x.1, x.2)
  | some f =>
    if r.type = relModel then
      let y := f.rels.foldl (extractRootLog env o pk f)
        ({ x.1 with model := { x.1.model with path := f.name }, root := some f }, x.2)
      let z := y.1.childs.foldl (fun m c => c.rels.foldl (extractChildLog env o pk c) m) (y.1.model, y.2)
      (some { y.1 with model := z.1 }, z.2)
    else (some { x.1 with model := { x.1.model with
        rootRelationships := x.1.model.rootRelationships ++ [r],
        attachments := addAttachment env x.1.model.attachments f } }, x.2 ++ attachLog env x.1.model.attachments f)

/-- The loop of read.go:244-261. -/
def processRelsLog (env : Env) (o : Opc) (pk : InPkg) : OpcState × List Handle → List Relationship → Option OpcState × List Handle
  | x, [] => (some x.1, x.2)
  | x, r :: rs =>
    match processRelLog env o pk x r with
    | (none, log) => (none, log)
    | (some s, log) => processRelsLog env o pk (s, log) rs

/-- read.go:240-266 `processOPC`. -/
def processOPCLog (env : Env) (o : Opc) (pk : InPkg) (m : Model) : List Handle :=
  (processRelsLog env o pk (⟨m, none, []⟩, []) pk.rels).2

/-- What a goroutine does with its part in the step that it makes from the given phase (read.go:308-322): the part is closed
when `readChildModel` returns. -/
def Phase.handles (f : InFile) : Phase → List Handle
  | .ready => match f.content with
    | none => []
    | some _ => [.opened f.name]
  | .decoded _ _ => [.closed f.name]
  | _ => []

/-- One step of one goroutine or of the caller. -/
inductive HandleStep (c : PkgCfg) (m : Model) (fs : List InFile) : ChildrenState × List Handle → ChildrenState × List Handle → Prop
  | step {x : ChildrenState × List Handle} {g : Nat} {f : InFile} {p p' : Phase} {sh' : Shared} :
      fs[g]? = some f → x.1.ps[g]? = some p → p.step c m g f x.1.sh = some (sh', p') →
      HandleStep c m fs x (⟨sh', x.1.ps.set g p'⟩, x.2 ++ p.handles f)
  | cancel {x : ChildrenState × List Handle} :
      HandleStep c m fs x ({ x.1 with sh := { x.1.sh with done := true } }, x.2)

/-- read.go:215-238 `processNonRootModels`, like `ChildrenOutcomeC`. -/
def HandleOutcome (c : PkgCfg) (m : Model) (fs : List InFile) (b : Bool) (m' : Model) (e : Option ChildErr) (b' : Bool)
    (log : List Handle) : Prop :=
  ∃ st, Relation.ReflTransGen (HandleStep c m fs) (.init fs b, []) (st, log) ∧ st.Finished ∧ st.sh.errs = e ∧
    st.model m fs = m' ∧ (st.sh.errs = none → st.sh.done = b')

/-- read.go:183-213 `DecodeContext` and `processRootModel`, like `Decodes`. -/
inductive HandleDecodes (c : PkgCfg) (o : Opc) (pk : InPkg) (m : Model) (b : Bool) (done : Nat → Bool) :
    Model → PkgResult → List Handle → Prop
  | opc : processOPC c.env o pk m = none → HandleDecodes c o pk m b done m .opc (processOPCLog c.env o pk m)
  | child {m1 m' : Model} {root : InFile} {fs : List InFile} {e : ChildErr} {b' : Bool} {log : List Handle} :
      processOPC c.env o pk m = some (m1, root, fs) → HandleOutcome c m1 fs b m' (some e) b' log →
      HandleDecodes c o pk m b done m' (.child e) (processOPCLog c.env o pk m ++ log)
  | root {m1 m2 m' : Model} {root : InFile} {fs : List InFile} {b' : Bool} {r : PkgResult} {log : List Handle} :
      processOPC c.env o pk m = some (m1, root, fs) → HandleOutcome c m1 fs b m2 none b' log →
      (b' = true → ∀ i, done i = true) → processRoot c done m2 root = some (m', r) →
      HandleDecodes c o pk m b done m' r (processOPCLog c.env o pk m ++ log ++ root.copyLog)

end Go3mf
