import Verif.Model.EncodeIO

/-!
# The calls of `Encode` in their order: encoder.go:146-218 and opc.go:12-62

`EncodeIO.lean` gives a part its content and its relationships at once.  Here every call that `Encode` makes of the package
writer is recorded, in the order in which it is made, and the writer of github.com/qmuntal/opc is a machine that takes
them one by one.  Of that library it is assumed that it writes the relationships of a part when the next part is created or
the package is closed, and that (like `archive/zip`) it takes no content for a part after that.
-/

namespace Go3mf

/-- A call of a `packageWriter` or of a `packagePart`.  A part is given by the number of parts that were created before it.
Only those calls of `Create` that succeed are recorded. -/
inductive PkgCall where
  | create (name contentType : Str)
  | write (i : Nat) (p : Str)
  | partRel (i : Nat) (r : Relationship)
  | pkgRel (r : Relationship)
  | close
  deriving DecidableEq

/-- The writer of the package: what will be in the file. -/
structure OpcW where
  rels : List Relationship
  parts : List IOPart
  closed : Bool
  deriving DecidableEq

/-- opc.go:34-36 `newOpcWriter`. -/
def OpcW.new : OpcW := ⟨[], [], false⟩

/-- Is this the part that was created last, in a package that is not closed? -/
def OpcW.isOpen (w : OpcW) (i : Nat) : Bool := !w.closed && decide (i + 1 = w.parts.length)

/-- opc.go:17-62: one call.  What comes too late has no effect on the file. -/
def OpcW.call (o : Out) (w : OpcW) : PkgCall → OpcW
  | .create n t =>
    if w.closed then w else { w with parts := w.parts ++ [⟨⟨o.opc.norm n, t, [], []⟩, []⟩] }
  | .write i p =>
    if w.isOpen i then
      { w with parts := w.parts.modify i fun q =>
          ⟨{ q.part with data := q.part.data ++ p.take ((o.sink i).write q.hist p).1 }, q.hist ++ [p]⟩ }
    else w
  | .partRel i r =>
    if w.isOpen i then
      { w with parts := w.parts.modify i fun q => ⟨{ q.part with rels := opcAddRel q.part.rels r }, q.hist⟩ }
    else w
  | .pkgRel r => if w.closed then w else { w with rels := opcAddRel w.rels r }
  | .close => { w with closed := true }

/-- The writer and the calls that were made. -/
structure Run where
  w : OpcW
  log : List PkgCall

/-- Make a call. -/
def Run.call (o : Out) (r : Run) (c : PkgCall) : Run := ⟨r.w.call o c, r.log ++ [c]⟩

/-- Make calls one after the other. -/
def Run.calls (o : Out) (r : Run) (cs : List PkgCall) : Run := cs.foldl (Run.call o) r

/-- opc.go:38-45 `Create`: the part, `none` if there is an error. -/
def Run.create (o : Out) (r : Run) (name contentType : Str) : Option Nat × Run :=
  if o.creates r.w.parts name contentType then (some r.w.parts.length, r.call o (.create name contentType)) else (none, r)

/-- encoder.go:207-218 `writeAttachements`: is there no error? -/
def attachRun (o : Out) : List (Attachment × Stream) → Run → Bool × Run
  | [], r => (true, r)
  | (a, s) :: as, r =>
    match r.create o a.path a.contentType with
    | (none, r) => (false, r)
    | (some i, r) =>
      let c := copyLoop (o.sink i) s.eof RawW.new s.chunks
      let r := r.calls o (c.2.1.hist.map (.write i))
      if c.1 then attachRun o as r else (false, r)

/-- encoder.go:156-171 and 190-199: create a part and write a model.  `pre` are the relationships that `modelToken` adds to
the package (encoder.go:226-229).  The buffer of the XML printer is written in pieces, the first one after that.  The result is
the part, `none` if there is an error. -/
def modelRun (o : Out) (name : Str) (pre : List Relationship) (steps : List Step) (r : Run) : Option Nat × Run :=
  match r.create o name contentTypeModel with
  | (none, r) => (none, r)
  | (some i, r) =>
    let r := r.call o (.write i xmlHeader)
    let h := RawW.new.call (o.sink i) xmlHeader
    if ((o.sink i).write [] xmlHeader).2 then
      let b := runSteps (o.sink i) (fun _ => []) (BufW.new h) steps
      let r := r.calls o (pre.map .pkgRel ++ (b.2.raw.hist.drop 1).map (.write i))
      if b.1 then (some i, r) else (none, r)
    else (none, r)

/-- encoder.go:182-205 `writeChildModels`: is there no error? -/
def childsRun (o : Out) (prec : Int) (m : Model) : List (Str × ChildModel) → Run → Bool × Run
  | [], r => (true, r)
  | c :: cs, r =>
    match modelRun o (o.opc.resolve m.pathOrDefault c.1) [] (c.2.steps prec m) r with
    | (none, r) => (false, r)
    | (some i, r) => childsRun o prec m cs (r.calls o (c.2.partRels.map (.partRel i)))

/-- encoder.go:146-180 `Encode`: is there no error? -/
def encodeRun (o : Out) (prec : Int) (m : Model) (ss : List Stream) (order1 : List Str) (order2 : List (Str × ChildModel)) :
    Bool × Run :=
  match attachRun o (m.attachments.zip ss) ⟨.new, []⟩ with
  | (false, r) => (false, r)
  | (true, r) =>
    let r := r.calls o ((m.rootRelationships ++ [(⟨m.pathOrDefault, relModel, []⟩ : Relationship)]).map .pkgRel)
    match modelRun o m.pathOrDefault (if m.thumbnail ≠ [] then [⟨m.thumbnail, relThumbnail, []⟩] else []) (m.steps prec) r with
    | (none, r) => (false, r)
    | (some i, r) =>
      match childsRun o prec m order2 (r.calls o ((m.rootPartRels order1).map (.partRel i))) with
      | (false, r) => (false, r)
      | (true, r) => (o.close, r.call o .close)

end Go3mf
