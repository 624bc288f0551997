import Verif.Model.Xml
import Verif.Model.Core

/-!
# The schema of the core specification

What the schema of the core specification says about the order of the elements and about the names of their attributes.
The smallest numbers of elements and the types of the values are left out.
-/

namespace Go3mf.Spec

/-- The start and end tags, in their order. -/
def tagsOf (evs : List (Option Event)) : List Event :=
  evs.filterMap fun e => match e with
    | some (.start n as) => some (.start n as)
    | some (.stop n) => some (.stop n)
    | _ => none

/-- A set of sequences of tags. -/
abbrev Lang := List Event → Prop

namespace Lang

def Empty : Lang := fun s => s = []

def Cat (P Q : Lang) : Lang := fun s => ∃ a b, s = a ++ b ∧ P a ∧ Q b

def Alt (P Q : Lang) : Lang := fun s => P s ∨ Q s

def Opt (P : Lang) : Lang := fun s => s = [] ∨ P s

def Star (P : Lang) : Lang := fun s => ∃ ss : List (List Event), s = ss.flatten ∧ ∀ x ∈ ss, P x

/-- An element of the core specification. -/
def Elem (l : Str) (A : List Attr → Prop) (P : Lang) : Lang := fun s =>
  ∃ as body, s = .start ⟨nsCore, l⟩ as :: (body ++ [.stop ⟨nsCore, l⟩]) ∧ A as ∧ P body

/-- An element of an extension. -/
def ElemIn (ns l : Str) (A : List Attr → Prop) (P : Lang) : Lang := fun s =>
  ∃ as body, s = .start ⟨ns, l⟩ as :: (body ++ [.stop ⟨ns, l⟩]) ∧ A as ∧ P body

/-- An element of another specification. -/
def Other : Lang := fun s => ∃ n as body, s = .start n as :: (body ++ [.stop n]) ∧ n.space ≠ nsCore

end Lang

/-- The names of the attributes without name space. -/
def coreNames (as : List Attr) : List Str := (as.filter fun a => a.name.space = []).map (·.name.loc)

/-- The attributes of the schema: those that are required are there, and there are no others without name space than these
and the optional ones. -/
def Attrs (req opt : List Str) (as : List Attr) : Prop :=
  (∀ r ∈ req, r ∈ coreNames as) ∧ ∀ l ∈ coreNames as, l ∈ req ∨ l ∈ opt

namespace Schema

open Lang

def metadata : Lang := Elem b!"metadata" (Attrs [b!"name"] [b!"preserve", b!"type"]) Empty

def metadatagroup : Lang := Elem b!"metadatagroup" (Attrs [] []) (Star metadata)

def vertex : Lang := Elem b!"vertex" (Attrs [b!"x", b!"y", b!"z"] []) Empty

/-! ### Extensions -/

def colorgroup : Lang :=
  ElemIn nsMaterials b!"colorgroup" (Attrs [b!"id"] []) (Star (ElemIn nsMaterials b!"color" (Attrs [b!"color"] []) Empty))

def texture2d : Lang :=
  ElemIn nsMaterials b!"texture2d" (Attrs [b!"id", b!"path", b!"contenttype"] [b!"tilestyleu", b!"tilestylev", b!"filter"]) Empty

def texture2dgroup : Lang :=
  ElemIn nsMaterials b!"texture2dgroup" (Attrs [b!"id", b!"texid"] [])
    (Star (ElemIn nsMaterials b!"tex2coord" (Attrs [b!"u", b!"v"] []) Empty))

def compositematerials : Lang :=
  ElemIn nsMaterials b!"compositematerials" (Attrs [b!"id", b!"matid", b!"matindices"] [])
    (Star (ElemIn nsMaterials b!"composite" (Attrs [b!"values"] []) Empty))

def multiproperties : Lang :=
  ElemIn nsMaterials b!"multiproperties" (Attrs [b!"id", b!"pids"] [b!"blendmethods"])
    (Star (ElemIn nsMaterials b!"multi" (Attrs [b!"pindices"] []) Empty))

/-- The properties of a segment come with the group. -/
def segmentNames (as : List Attr) : Prop :=
  coreNames as = [b!"v2"] ∨ coreNames as = [b!"v2", b!"pid", b!"p1"] ∨ coreNames as = [b!"v2", b!"pid", b!"p1", b!"p2"]

def polygon : Lang :=
  ElemIn nsSlices b!"polygon" (Attrs [b!"startv"] []) (Star (ElemIn nsSlices b!"segment" segmentNames Empty))

def sliceVertices : Lang :=
  ElemIn nsSlices b!"vertices" (Attrs [] []) (Star (ElemIn nsSlices b!"vertex" (Attrs [b!"x", b!"y"] []) Empty))

def slice : Lang := ElemIn nsSlices b!"slice" (Attrs [b!"ztop"] []) (Cat (Opt sliceVertices) (Star polygon))

def sliceref : Lang := ElemIn nsSlices b!"sliceref" (Attrs [b!"slicestackid", b!"slicepath"] []) Empty

/-- That there are not both slices and references is left to the validation. -/
def slicestack : Lang := ElemIn nsSlices b!"slicestack" (Attrs [b!"id"] [b!"zbottom"]) (Cat (Star slice) (Star sliceref))

def beam : Lang := ElemIn nsBeam b!"beam" (Attrs [b!"v1", b!"v2"] [b!"r1", b!"r2", b!"cap1", b!"cap2"]) Empty

def beamset : Lang :=
  ElemIn nsBeam b!"beamset" (Attrs [] [b!"name", b!"identifier"]) (Star (ElemIn nsBeam b!"ref" (Attrs [b!"index"] []) Empty))

def beamlattice : Lang :=
  ElemIn nsBeam b!"beamlattice"
    (Attrs [b!"minlength", b!"radius"] [b!"clippingmode", b!"clippingmesh", b!"representationmesh", b!"cap"])
    (Cat (ElemIn nsBeam b!"beams" (Attrs [] []) (Star beam)) (Opt (ElemIn nsBeam b!"beamsets" (Attrs [] []) (Star beamset))))

/-- An element of an extension of this repository, or of a specification that is not known. -/
def extension : Lang := fun s =>
  colorgroup s ∨ texture2d s ∨ texture2dgroup s ∨ compositematerials s ∨ multiproperties s ∨ slicestack s ∨ beamlattice s ∨
  ∃ n as body, s = .start n as :: (body ++ [.stop n]) ∧ n.space ∉ [nsCore, nsMaterials, nsSlices, nsBeam, nsProduction]

/-! ### The core

`other` says what the elements of other specifications are. -/

/-- A property of a vertex comes with the group, and the second and third ones come together after the first. -/
def triangleNames (as : List Attr) : Prop :=
  coreNames as = [b!"v1", b!"v2", b!"v3"] ∨ coreNames as = [b!"v1", b!"v2", b!"v3", b!"pid", b!"p1"] ∨
  coreNames as = [b!"v1", b!"v2", b!"v3", b!"pid", b!"p1", b!"p2", b!"p3"]

def triangle : Lang := Elem b!"triangle" triangleNames Empty

def vertices : Lang := Elem b!"vertices" (Attrs [] []) (Star vertex)

def triangles : Lang := Elem b!"triangles" (Attrs [] []) (Star triangle)

def mesh (other : Lang) : Lang := Elem b!"mesh" (Attrs [] []) (Cat vertices (Cat triangles (Star other)))

def component : Lang := Elem b!"component" (Attrs [b!"objectid"] [b!"transform"]) Empty

def components : Lang := Elem b!"components" (Attrs [] []) (Star component)

def object (other : Lang) : Lang :=
  Elem b!"object" (Attrs [b!"id"] [b!"type", b!"pid", b!"pindex", b!"thumbnail", b!"partnumber", b!"name"])
    (Cat (Opt metadatagroup) (Alt (mesh other) components))

def base : Lang := Elem b!"base" (Attrs [b!"name", b!"displaycolor"] []) Empty

def basematerials : Lang := Elem b!"basematerials" (Attrs [b!"id"] []) (Star base)

def resources (other : Lang) : Lang :=
  Elem b!"resources" (Attrs [] []) (Cat (Star (Alt basematerials other)) (Star (object other)))

def item : Lang := Elem b!"item" (Attrs [b!"objectid"] [b!"transform", b!"partnumber"]) (Opt metadatagroup)

def build : Lang := Elem b!"build" (Attrs [] []) (Star item)

/-- `xmlns` is the declaration of the default name space. -/
def model (other : Lang) : Lang :=
  Elem b!"model" (Attrs [] [b!"unit", b!"requiredextensions", b!"recommendedextensions", b!"xmlns"])
    (Cat (Star metadata) (Cat (resources other) (Cat build (Star other))))

/-! ### A schema with two exceptions

Objects may be empty, and the root element may have a thumbnail. -/

def objectLax (other : Lang) : Lang :=
  Elem b!"object" (Attrs [b!"id"] [b!"type", b!"pid", b!"pindex", b!"thumbnail", b!"partnumber", b!"name"])
    (Cat (Opt metadatagroup) (Opt (Alt (mesh other) components)))

def modelLax (other : Lang) : Lang :=
  Elem b!"model" (Attrs [] [b!"unit", b!"requiredextensions", b!"recommendedextensions", b!"xmlns", b!"thumbnail"])
    (Cat (Star metadata) (Cat
      (Elem b!"resources" (Attrs [] []) (Cat (Star (Alt basematerials other)) (Star (objectLax other))))
      (Cat build (Star other))))

end Schema

end Go3mf.Spec
