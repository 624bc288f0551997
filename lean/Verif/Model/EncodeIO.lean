import Verif.Model.Package
import Verif.Model.Writer

/-!
# encoder.go with writers that fail and streams that are used up

`Encode` as in `Verif/Model/Package.lean`, with the errors of the writers of the parts, and with attachments whose content is
an `io.Reader` that can be read once and can fail.
-/

namespace Go3mf

/-- encoder.go:325-348 `writeResources`. -/
def Resources.steps (prec : Int) (rs : Resources) : List Step :=
  .op (opStart (coreName b!"resources") (encodeAnyAttr rs.anyAttr)) ::
    (rs.assets.flatMap (fun a => (a.ops prec).map .op ++ [.flush]) ++
      (rs.objects.flatMap (fun o => (o.ops prec).map .op ++ [.flush]) ++ [.op (.stop (coreName b!"resources"))]))

/-- encoder.go:266-281 `writeModel`. -/
def Model.steps (prec : Int) (m : Model) : List Step :=
  .op (opStart (coreName b!"model") (m.rootAttrs true)) ::
    ((encodeMetadata m.metadata).map .op ++ (m.resources.steps prec ++ (m.build.ops.map .op ++
      ((encodeAny prec m.any).map .op ++ [.op (.stop (coreName b!"model")), .flush]))))

/-- encoder.go:250-264 `writeChildModel`. -/
def ChildModel.steps (prec : Int) (m : Model) (c : ChildModel) : List Step :=
  .op (opStart (coreName b!"model") (m.rootAttrs false)) ::
    (c.resources.steps prec ++ ([.op (opStart (coreName b!"build") []), .op (.stop (coreName b!"build"))] ++
      ((encodeAny prec c.any).map .op ++ [.op (.stop (coreName b!"model")), .flush])))

/-- A `bytes.Buffer` as a writer: it takes everything. -/
def bufferSink : Sink := ⟨fun _ p => (p.length, true)⟩

/-- encoder.go:98-104 `MarshalModel`: `none` is an error. -/
def marshalModelIO (m : Model) : Option Str :=
  let r := runSteps bufferSink (fun _ => []) (BufW.new RawW.new) (m.steps 4)
  if r.1 then some r.2.raw.out else none

/-- An `io.Reader`: what the next calls of `Read` give, and whether it then ends without an error. -/
structure Stream where
  chunks : List Str
  eof : Bool
  deriving DecidableEq

/-- The content. -/
def Stream.bytes (s : Stream) : Str := s.chunks.flatten

/-- The loop of `io.Copy`: is there no error, the writer and what has not been read. -/
def copyLoop (s : Sink) (eof : Bool) : RawW → List Str → Bool × RawW × List Str
  | w, [] => (eof, w, [])
  | w, c :: cs =>
    if c = [] then copyLoop s eof w cs
    else
      let r := s.write w.hist c
      if r.2 ∧ r.1 = c.length then copyLoop s eof (w.call s c) cs else (false, w.call s c, cs)

/-- What is below an `Encoder`: the library, the writers of the first, second, … part, whether they can be created, and
whether `Close` succeeds. -/
structure Out where
  opc : Opc
  sink : Nat → Sink
  create : Nat → Bool
  close : Bool

/-- A part with the calls of `Write` of its writer. -/
structure IOPart where
  part : OutPart
  hist : List Str
  deriving DecidableEq

/-- Does `Create` succeed (opc.go:38-45)? -/
def Out.creates (o : Out) (ps : List IOPart) (name contentType : Str) : Bool :=
  o.opc.accepts (ps.map (·.part.name)) (o.opc.norm name) contentType && o.create ps.length

/-- A created part. -/
def Out.part (o : Out) (name contentType : Str) (w : RawW) (rels : List Relationship) : IOPart :=
  ⟨⟨o.opc.norm name, contentType, w.out, rels.foldl opcAddRel []⟩, w.hist⟩

/-- encoder.go:207-218 `writeAttachements`: is there no error, the parts and the streams afterwards. -/
def attachIO (o : Out) : List (Attachment × Stream) → List IOPart → Bool × List IOPart × List Stream
  | [], ps => (true, ps, [])
  | (a, s) :: as, ps =>
    if o.creates ps a.path a.contentType then
      let r := copyLoop (o.sink ps.length) s.eof RawW.new s.chunks
      let ps := ps ++ [o.part a.path a.contentType r.2.1 []]
      if r.1 then
        let t := attachIO o as ps
        (t.1, t.2.1, ⟨r.2.2, s.eof⟩ :: t.2.2)
      else (false, ps, ⟨r.2.2, s.eof⟩ :: as.map (·.2))
    else (false, ps, s :: as.map (·.2))

/-- encoder.go:156-176 and 190-202: a model part. -/
def modelIO (o : Out) (name : Str) (steps : List Step) (rels : List Relationship) (ps : List IOPart) : Bool × List IOPart :=
  if o.creates ps name contentTypeModel then
    let s := o.sink ps.length
    let h := RawW.new.call s xmlHeader
    if (s.write [] xmlHeader).2 then
      let r := runSteps s (fun _ => []) (BufW.new h) steps
      if r.1 then (true, ps ++ [o.part name contentTypeModel r.2.raw rels])
      else (false, ps ++ [o.part name contentTypeModel r.2.raw []])
    else (false, ps ++ [o.part name contentTypeModel h []])
  else (false, ps)

/-- encoder.go:182-205 `writeChildModels`. -/
def childsIO (o : Out) (prec : Int) (m : Model) : List (Str × ChildModel) → List IOPart → Bool × List IOPart
  | [], ps => (true, ps)
  | c :: cs, ps =>
    let r := modelIO o (o.opc.resolve m.pathOrDefault c.1) (c.2.steps prec m) c.2.partRels ps
    if r.1 then childsIO o prec m cs r.2 else r

/-- The result of `Encode`: is there no error, the relationships and parts of the package, and the streams. -/
structure EncOut where
  ok : Bool
  rels : List Relationship
  parts : List IOPart
  streams : List Stream

/-- encoder.go:146-180 `Encode`, with the streams of the attachments. -/
def encodeIO (o : Out) (prec : Int) (m : Model) (ss : List Stream) (order1 : List Str) (order2 : List (Str × ChildModel)) :
    EncOut :=
  let a := attachIO o (m.attachments.zip ss) []
  if a.1 then
    let r := modelIO o m.pathOrDefault (m.steps prec) (m.rootPartRels order1) a.2.1
    if r.1 then
      let c := childsIO o prec m order2 r.2
      ⟨c.1 && o.close, m.pkgRels.foldl opcAddRel [], c.2, a.2.2⟩
    else ⟨false, m.pkgRels.foldl opcAddRel [], r.2, a.2.2⟩
  else ⟨false, [], a.2.1, a.2.2⟩

end Go3mf
