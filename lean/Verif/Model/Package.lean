import Verif.Model.Encode
import Verif.Model.Decode

/-!
# Packages: encoder.go:146-218, opc.go and read.go:183-322

The library github.com/qmuntal/opc is not part of the repository.  Its functions are parameters (`Opc`): how it
normalises part names, how it resolves the target of a relationship and which parts it refuses.  A written package is the
list of its parts with their content and relationships.  `Part.Relationships` is a field that the library reads when
the next part is created or the writer is closed; `Encode` fills it before (proved for the calls of `Verif/Model/Calls.lean`
in C78), so here a part is created with its content and relationships at once.  The errors of the underlying writer and of the
streams of attachments are in `Verif/Model/EncodeIO.lean`.
-/

namespace Go3mf

/-- What the repository uses of github.com/qmuntal/opc. -/
structure Opc where
  /-- `NormalizePartName`. -/
  norm : Str → Str
  /-- `ResolveRelationship`. -/
  resolve : Str → Str → Str
  /-- Does `CreatePart` succeed, given the names of the parts created before, the name and the content type? -/
  accepts : List Str → Str → Str → Bool

/-! ## Writing -/

/-- A written part. -/
structure OutPart where
  name : Str
  contentType : Str
  data : Str
  rels : List Relationship
  deriving DecidableEq

/-- A written package. -/
structure OutPkg where
  rels : List Relationship
  parts : List OutPart
  deriving DecidableEq

/-- opc.go:17-28 and 47-58 `AddRelationship`. -/
def opcAddRel (rels : List Relationship) (r : Relationship) : List Relationship :=
  if rels.any fun x => decide (x.type = r.type ∧ x.path = r.path) then rels else rels ++ [r]

/-- opc.go:38-45 `Create`, the content and the calls of `AddRelationship` of the part; `none` is an error. -/
def createPart (o : Opc) (name contentType data : Str) (rels : List Relationship) (parts : List OutPart) :
    Option (List OutPart) :=
  if o.accepts (parts.map (·.name)) (o.norm name) contentType then
    some (parts ++ [⟨o.norm name, contentType, data, rels.foldl opcAddRel []⟩])
  else none

/-- encoder.go:207-218 `writeAttachements`. -/
def writeAttachments (o : Opc) : List Attachment → List OutPart → Option (List OutPart)
  | [], ps => some ps
  | a :: as, ps => (createPart o a.path a.contentType a.stream [] ps).bind (writeAttachments o as)

/-- encoder.go:182-205 `writeChildModels`, given the order in which the map is visited. -/
def writeChilds (o : Opc) (prec : Int) (m : Model) : List (Str × ChildModel) → List OutPart → Option (List OutPart)
  | [], ps => some ps
  | c :: cs, ps =>
    (createPart o (o.resolve m.pathOrDefault c.1) contentTypeModel (c.2.partBytes prec m) c.2.partRels ps).bind
      (writeChilds o prec m cs)

/-- encoder.go:163-174: the relationships of the root part, given the order in which the map is visited. -/
def Model.rootPartRels (m : Model) (order : List Str) : List Relationship :=
  (order.map (fun p => (⟨p, relModel, []⟩ : Relationship)) ++ m.resources.rels ++ anyRels m.any).foldl addRelationship
    m.relationships

/-- encoder.go:151-154 and 226-229: the calls of `AddRelationship` of the package. -/
def Model.pkgRels (m : Model) : List Relationship :=
  m.rootRelationships ++ [⟨m.pathOrDefault, relModel, []⟩] ++
    if m.thumbnail ≠ [] then [⟨m.thumbnail, relThumbnail, []⟩] else []

/-- encoder.go:146-180 `Encode`.  The map of child models is visited twice, in any two orders. -/
def encodePkg (o : Opc) (prec : Int) (m : Model) (order1 : List Str) (order2 : List (Str × ChildModel)) : Option OutPkg :=
  (writeAttachments o m.attachments []).bind fun ps =>
    (createPart o m.pathOrDefault contentTypeModel (m.partBytes prec) (m.rootPartRels order1) ps).bind fun ps =>
      (writeChilds o prec m order2 ps).map fun ps => ⟨m.pkgRels.foldl opcAddRel [], ps⟩

/-! ## Reading -/

/-- A part of a package that is read. -/
structure InFile where
  name : Str
  contentType : Str
  rels : List Relationship
  /-- The content and the error after it, `none` if the part cannot be opened. -/
  content : Option (Str × LexErr)
  deriving DecidableEq

/-- A package that is read. -/
structure InPkg where
  rels : List Relationship
  files : List InFile
  deriving DecidableEq

/-- opc.go:86-89, 115-118 and 124-131 `findOPCFileFromName`. -/
def InPkg.find (o : Opc) (pk : InPkg) (source path : Str) : Option InFile :=
  pk.files.find? fun f => decide (f.name = o.resolve source path)

/-- read.go:324-333 `copyFile`. -/
def InFile.copy (f : InFile) : Option Str :=
  match f.content with
  | some (b, .eof) => some b
  | _ => none

/-- read.go:292-306 `addAttachment`. -/
def addAttachment (env : Env) (as : List Attachment) (f : InFile) : List Attachment :=
  if as.any fun a => env.equalFold a.path f.name then as
  else match f.copy with
    | some b => as ++ [⟨b, f.name, f.contentType⟩]
    | none => as

/-- The assignment of an empty child model (read.go:274-277). -/
def resetChild (name : Str) : List (Str × ChildModel) → List (Str × ChildModel)
  | [] => [(name, .zero)]
  | c :: cs => if c.1 = name then (name, .zero) :: cs else c :: resetChild name cs

/-- Append a relationship to a child model. -/
def addChildRel (name : Str) (rel : Relationship) : List (Str × ChildModel) → List (Str × ChildModel)
  | [] => []
  | c :: cs =>
    if c.1 = name then (c.1, { c.2 with relationships := c.2.relationships ++ [rel] }) :: cs
    else c :: addChildRel name rel cs

/-- The variables of read.go:240-266 `processOPC`: the model, the root file and `Decoder.nonRootModels`. -/
structure OpcState where
  model : Model
  root : Option InFile
  childs : List InFile

/-- read.go:268-290 `extractCoreAttachments` for the root: one relationship. -/
def extractRoot (env : Env) (o : Opc) (pk : InPkg) (root : InFile) (s : OpcState) (rel : Relationship) : OpcState :=
  match pk.find o root.name rel.path with
  | none => s
  | some f =>
    if rel.type = relModel then
      { s with childs := s.childs ++ [f], model := { s.model with childs := resetChild f.name s.model.childs } }
    else { s with model := { s.model with
        attachments := addAttachment env s.model.attachments f,
        relationships := s.model.relationships ++ [rel] } }

/-- read.go:268-290 `extractCoreAttachments` for a child: one relationship. -/
def extractChild (env : Env) (o : Opc) (pk : InPkg) (file : InFile) (m : Model) (rel : Relationship) : Model :=
  match pk.find o file.name rel.path with
  | none => m
  | some f =>
    if rel.type = relModel then m
    else match lookupChild m.childs file.name with
      | none => m
      | some _ => { m with
          attachments := addAttachment env m.attachments f,
          childs := addChildRel file.name rel m.childs }

/-- read.go:244-261: one relationship of the package; `none` is the error of a missing root. -/
def processRel (env : Env) (o : Opc) (pk : InPkg) (s : OpcState) (r : Relationship) : Option OpcState :=
  match pk.find o b!"/" r.path with
  | none => if r.type = relModel then none else some s
  | some f =>
    if r.type = relModel then
      let s := f.rels.foldl (extractRoot env o pk f)
        { s with model := { s.model with path := f.name }, root := some f }
      some { s with model := s.childs.foldl (fun m c => c.rels.foldl (extractChild env o pk c) m) s.model }
    else some { s with model := { s.model with
        rootRelationships := s.model.rootRelationships ++ [r],
        attachments := addAttachment env s.model.attachments f } }

/-- The loop of read.go:244-261. -/
def processRels (env : Env) (o : Opc) (pk : InPkg) : OpcState → List Relationship → Option OpcState
  | s, [] => some s
  | s, r :: rs => (processRel env o pk s r).bind (processRels env o pk · rs)

/-- read.go:240-266 `processOPC` of a new decoder: the model, the root file and the files of the child models; `none` is
an error. -/
def processOPC (env : Env) (o : Opc) (pk : InPkg) (m : Model) : Option (Model × InFile × List InFile) :=
  match processRels env o pk ⟨m, none, []⟩ pk.rels with
  | none => none
  | some s => match s.root with
    | none => none
    | some f => some (s.model, f, s.childs)

/-- read.go:240-266 `processOPC` of a decoder that has been used before: `used` is what it left in `Decoder.nonRootModels`. -/
def processOPCAgain (env : Env) (o : Opc) (pk : InPkg) (m : Model) (used : List InFile) : Option (Model × InFile × List InFile) :=
  match processRels env o pk ⟨m, none, used⟩ pk.rels with
  | none => none
  | some s => match s.root with
    | none => none
    | some f => some (s.model, f, s.childs)

end Go3mf
