import Verif.Model.Enums
import Verif.Model.Encode

/-!
# Enumerations as numbers

In Go an enumeration is a type of small numbers with some named constants; a field can hold any number.  Everywhere else in the model
a field holds one of the named values.
-/

namespace Go3mf

/-- An enumeration: the numbers of the named values and the map literal of `String`. -/
structure GoEnum (α : Type) where
  /-- the constants, by `iota` -/
  code : α → UInt8
  /-- the map literal of `String`, by number -/
  names : List (UInt8 × Str)

/-- Indexing a map literal: the zero value, an empty string, for a key that is not in it. -/
def lookupName : List (UInt8 × Str) → UInt8 → Str
  | [], _ => []
  | (k, s) :: t, n => if k = n then s else lookupName t n

/-- `String` of a number. -/
def GoEnum.string {α : Type} (e : GoEnum α) (n : UInt8) : Str := lookupName e.names n

/-- core.go:47-68 `Units`. -/
def unitsEnum : GoEnum Units where
  code
    | .millimeter => 0
    | .micrometer => 1
    | .centimeter => 2
    | .inch => 3
    | .foot => 4
    | .meter => 5
  names := [(0, b!"millimeter"), (1, b!"micron"), (2, b!"centimeter"), (3, b!"inch"), (4, b!"foot"), (5, b!"meter")]

/-- core.go:71-90 `ObjectType`, an `int8`: a negative number is given by its two's complement. -/
def objectTypeEnum : GoEnum ObjectType where
  code
    | .model => 0
    | .other => 1
    | .support => 2
    | .solidSupport => 3
    | .surface => 4
  names := [(0, b!"model"), (1, b!"other"), (2, b!"support"), (3, b!"solidsupport"), (4, b!"surface")]

/-- slices/slices.go:74-95 `MeshResolution`. -/
def meshResolutionEnum : GoEnum MeshResolution where
  code
    | .full => 0
    | .low => 1
  names := [(0, b!"fullres"), (1, b!"lowres")]

/-- beamlattice/beamlattice.go:37-61 `ClipMode`. -/
def clipModeEnum : GoEnum ClipMode where
  code
    | .none => 0
    | .inside => 1
    | .outside => 2
  names := [(0, b!"none"), (1, b!"inside"), (2, b!"outside")]

/-- beamlattice/beamlattice.go:64-88 `CapMode`. -/
def capModeEnum : GoEnum CapMode where
  code
    | .sphere => 0
    | .hemisphere => 1
    | .butt => 2
  names := [(0, b!"sphere"), (1, b!"hemisphere"), (2, b!"butt")]

/-- materials/materials.go:45-58 `Texture2DType`; the constants start with 1. -/
def texture2DTypeEnum : GoEnum Texture2DType where
  code
    | .unset => 0
    | .png => 1
    | .jpeg => 2
  names := [(1, b!"image/png"), (2, b!"image/jpeg")]

/-- materials/materials.go:61-78 `TileStyle`. -/
def tileStyleEnum : GoEnum TileStyle where
  code
    | .wrap => 0
    | .mirror => 1
    | .clamp => 2
    | .none => 3
  names := [(0, b!"wrap"), (1, b!"mirror"), (2, b!"clamp"), (3, b!"none")]

/-- materials/materials.go:81-96 `TextureFilter`. -/
def textureFilterEnum : GoEnum TextureFilter where
  code
    | .auto => 0
    | .linear => 1
    | .nearest => 2
  names := [(0, b!"auto"), (1, b!"linear"), (2, b!"nearest")]

/-- materials/materials.go:99-112 `BlendMethod`. -/
def blendMethodEnum : GoEnum BlendMethod where
  code
    | .mix => 0
    | .multiply => 1
  names := [(0, b!"mix"), (1, b!"multiply")]

/-- The attribute of an enumeration that is always written (encoder.go:223, slices/encoder.go:18,
materials/encoder.go:128). -/
def enumAlways {α : Type} (e : GoEnum α) (name : Name) (n : UInt8) : List Attr := [⟨name, e.string n⟩]

/-- The attribute of an enumeration that is written if it differs from the zero value (encoder.go:379-381,
beamlattice/encoder.go:19-21, 34-36, materials/encoder.go:130-138). -/
def enumUnlessZero {α : Type} (e : GoEnum α) (name : Name) (n : UInt8) : List Attr := if n ≠ 0 then [⟨name, e.string n⟩] else []

/-- materials/encoder.go:95-98, 101: the attribute of the blend methods. -/
def blendAttr (ns : List UInt8) : Attr := ⟨⟨[], b!"blendmethods"⟩, Str.join b!" " (ns.map blendMethodEnum.string)⟩

end Go3mf
