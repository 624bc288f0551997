import Verif.Spec.Writable
import Verif.Props.C50
import Verif.Props.C51

/-!
# The packages that can be written and read back

Conditions on the paths and relationships of a model, and the relation between a model and what a writer and a reader of
packages may make of it.
-/

namespace Go3mf.Spec

/-! ## The library -/

/-- The library keeps the path as it is, as it does with absolute paths. -/
def Absolute (o : Opc) (p : Str) : Prop := o.norm p = p ∧ ∀ source, o.resolve source p = p

/-- The part that is read from what was written.  The identifiers of relationships may differ. -/
structure SamePart (p : OutPart) (f : InFile) : Prop where
  name : f.name = p.name
  contentType : f.contentType = p.contentType
  rels : f.rels.map relLink = p.rels.map relLink
  content : f.content = some (p.data, .eof)

/-- The package that is read from what was written. -/
structure Reopened (pk : OutPkg) (ip : InPkg) : Prop where
  rels : ip.rels.map relLink = pk.rels.map relLink
  parts : List.Forall₂ SamePart pk.parts ip.files

/-! ## Relationships -/

/-- The relationships that the package must have besides the one of the root model: the type and the target. -/
def PkgLink (m : Model) (l : Str × Str) : Prop :=
  l ∈ m.rootRelationships.map relLink ∨ (m.thumbnail ≠ [] ∧ l = (relThumbnail, m.thumbnail))

/-- The relationships that a part must have besides those of child models. -/
def PartLink (rels : List Relationship) (rs : Resources) (any : List AnyElem) (l : Str × Str) : Prop :=
  l ∈ rels.map relLink ∨ Uses rs any l

/-- A file to which the package or a part has a relationship. -/
def Leads (m : Model) (p : Str) : Prop :=
  ∃ l : Str × Str, l.2 = p ∧ (PkgLink m l ∨ PartLink m.relationships m.resources m.any l ∨
    ∃ x ∈ m.childs, PartLink x.2.relationships x.2.resources x.2.any l)

/-- The paths and relationships of a model that can be written and read back: the paths are absolute, the attachments
have different paths up to case, and each relationship leads to an attachment. -/
structure Packed (env : Env) (o : Opc) (m : Model) : Prop where
  root : Absolute o m.pathOrDefault
  attachments : ∀ a ∈ m.attachments, Absolute o a.path
  childs : ∀ x ∈ m.childs, Absolute o x.1 ∧ x.1 ≠ []
  once : OnceEach env m.attachments
  pkgTypes : ∀ r ∈ m.rootRelationships, r.type ≠ relModel
  rootTypes : ∀ r ∈ m.relationships, r.type ≠ relModel
  childTypes : ∀ x ∈ m.childs, ∀ r ∈ x.2.relationships, r.type ≠ relModel
  targets : ∀ p, Leads m p → p ∈ m.attachments.map (·.path)

/-! ## Child models -/

/-- The child models that can be written and read back.  Child parts are read before the prefixes of the model are known, so
the metadata of their objects have no name space; and elements that are not resources are not kept apart. -/
structure ChildWritable (env : Env) (exts : List Extension) (c : ChildModel) : Prop where
  assets : ∀ a ∈ c.resources.assets, AssetWritable env exts a
  objects : ∀ o ∈ c.resources.objects, ObjectWritable env exts [] o
  attrs : AttrsOk env exts b!"resources" c.resources.anyAttr
  any : c.any = []

/-- What can be written without loss. -/
structure ChildOk (prec : Int) (c : ChildModel) : Prop where
  assets : ∀ a ∈ c.resources.assets, AssetOk a
  objects : ∀ o ∈ c.resources.objects, ObjectFits prec o

/-! ## What is read -/

/-- The relationships of a part that was read: no type and target twice, those of the part that was written, one to each file that
is used, and nothing else; one is added only if there is none with the same target. -/
structure NearRels (rels : List Relationship) (rs : Resources) (any : List AnyElem) (rels' : List Relationship) : Prop where
  once : (rels'.map relLink).Nodup
  kept : ∀ r ∈ rels, relLink r ∈ rels'.map relLink
  used : ∀ l, Uses rs any l → l.2 ∈ rels'.map (·.path)
  nothingElse : ∀ l ∈ rels'.map relLink, PartLink rels rs any l
  added : ∀ l ∈ rels'.map relLink, l ∈ rels.map relLink ∨ l.2 ∉ rels.map (·.path)

/-- The model that is read from a package. -/
structure NearPackage (prec : Int) (m m' : Model) : Prop where
  model : NearModel prec m m'
  path : m'.path = m.pathOrDefault
  /-- The same child models. -/
  paths : (m'.childs.map (·.1)).Perm (m.childs.map (·.1))
  childs : ∀ p c, (p, c) ∈ m.childs → ∃ c', (p, c') ∈ m'.childs ∧ NearResources prec c.resources c'.resources ∧ c'.any = c.any ∧
    NearRels c.relationships c.resources c.any c'.relationships
  rootRelationships : (m'.rootRelationships.map relLink).Nodup ∧ ∀ l, l ∈ m'.rootRelationships.map relLink ↔ PkgLink m l
  relationships : NearRels m.relationships m.resources m.any m'.relationships
  /-- The attachments to which the package or a part has a relationship. -/
  attachments : ∀ a, a ∈ m'.attachments ↔ a ∈ m.attachments ∧ Leads m a.path
  once : m'.attachments.Nodup

end Go3mf.Spec
