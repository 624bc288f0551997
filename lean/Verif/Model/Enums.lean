import Verif.Model.Core

/-!
# Enumerations of the extensions and their XML spellings
-/

namespace Go3mf

/-- slices/slices.go:90-95 `MeshResolution.String`. -/
def MeshResolution.str : MeshResolution → Str
  | .full => b!"fullres"
  | .low => b!"lowres"

/-- slices/slices.go:82-88 `newMeshResolution`. -/
def newMeshResolution : Str → Option MeshResolution := mapGet [(b!"fullres", .full), (b!"lowres", .low)]

/-- beamlattice/beamlattice.go:55-61 `ClipMode.String`. -/
def ClipMode.str : ClipMode → Str
  | .none => b!"none"
  | .inside => b!"inside"
  | .outside => b!"outside"

/-- beamlattice/beamlattice.go:46-53 `newClipMode`. -/
def newClipMode : Str → Option ClipMode := mapGet
  [(b!"none", .none), (b!"inside", .inside), (b!"outside", .outside)]

/-- beamlattice/beamlattice.go:82-88 `CapMode.String`. -/
def CapMode.str : CapMode → Str
  | .sphere => b!"sphere"
  | .hemisphere => b!"hemisphere"
  | .butt => b!"butt"

/-- beamlattice/beamlattice.go:73-80 `newCapMode`. -/
def newCapMode : Str → Option CapMode := mapGet
  [(b!"sphere", .sphere), (b!"hemisphere", .hemisphere), (b!"butt", .butt)]

/-- materials/materials.go:53-58 `Texture2DType.String`; the zero value is not in the map. -/
def Texture2DType.str : Texture2DType → Str
  | .unset => []
  | .png => b!"image/png"
  | .jpeg => b!"image/jpeg"

/-- materials/materials.go:247-253 `newTexture2DType`. -/
def newTexture2DType : Str → Option Texture2DType := mapGet [(b!"image/png", .png), (b!"image/jpeg", .jpeg)]

/-- materials/materials.go:71-78 `TileStyle.String`. -/
def TileStyle.str : TileStyle → Str
  | .wrap => b!"wrap"
  | .mirror => b!"mirror"
  | .clamp => b!"clamp"
  | .none => b!"none"

/-- materials/materials.go:264-272 `newTileStyle`. -/
def newTileStyle : Str → Option TileStyle := mapGet
  [(b!"wrap", .wrap), (b!"mirror", .mirror), (b!"clamp", .clamp), (b!"none", .none)]

/-- materials/materials.go:90-96 `TextureFilter.String`. -/
def TextureFilter.str : TextureFilter → Str
  | .auto => b!"auto"
  | .linear => b!"linear"
  | .nearest => b!"nearest"

/-- materials/materials.go:255-262 `newTextureFilter`. -/
def newTextureFilter : Str → Option TextureFilter := mapGet
  [(b!"auto", .auto), (b!"linear", .linear), (b!"nearest", .nearest)]

/-- materials/materials.go:107-112 `BlendMethod.String`. -/
def BlendMethod.str : BlendMethod → Str
  | .mix => b!"mix"
  | .multiply => b!"multiply"

/-- materials/materials.go:274-280 `newBlendMethod`. -/
def newBlendMethod : Str → Option BlendMethod := mapGet [(b!"mix", .mix), (b!"multiply", .multiply)]

end Go3mf
