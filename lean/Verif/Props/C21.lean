import Verif.Model.Enums

/-!
# C21: enumerations and their XML spellings are inverse

For each enumeration: the parser accepts a string exactly when it is the spelling of a value, and then
returns that value.  Together with totality of the spelling function this says that parsing inverts
printing and that nothing else is accepted.  The spellings themselves are pinned down by
`C21_spellings`, against the 3MF specification.
-/

namespace Go3mf

theorem C21_units (s : Str) (v : Units) : newUnits s = some v ↔ s = v.str := by
  cases v <;> simp only [newUnits, mapGet, Units.str] <;> grind

theorem C21_objectType (s : Str) (v : ObjectType) : newObjectType s = some v ↔ s = v.str := by
  cases v <;> simp only [newObjectType, mapGet, ObjectType.str] <;> grind

theorem C21_meshResolution (s : Str) (v : MeshResolution) : newMeshResolution s = some v ↔ s = v.str := by
  cases v <;> simp only [newMeshResolution, mapGet, MeshResolution.str] <;> grind

theorem C21_clipMode (s : Str) (v : ClipMode) : newClipMode s = some v ↔ s = v.str := by
  cases v <;> simp only [newClipMode, mapGet, ClipMode.str] <;> grind

theorem C21_capMode (s : Str) (v : CapMode) : newCapMode s = some v ↔ s = v.str := by
  cases v <;> simp only [newCapMode, mapGet, CapMode.str] <;> grind

theorem C21_tileStyle (s : Str) (v : TileStyle) : newTileStyle s = some v ↔ s = v.str := by
  cases v <;> simp only [newTileStyle, mapGet, TileStyle.str] <;> grind

theorem C21_textureFilter (s : Str) (v : TextureFilter) : newTextureFilter s = some v ↔ s = v.str := by
  cases v <;> simp only [newTextureFilter, mapGet, TextureFilter.str] <;> grind

theorem C21_blendMethod (s : Str) (v : BlendMethod) : newBlendMethod s = some v ↔ s = v.str := by
  cases v <;> simp only [newBlendMethod, mapGet, BlendMethod.str] <;> grind

/-- The zero value of the texture type is not a supported value: it has no spelling. -/
theorem C21_texture2DType (s : Str) (v : Texture2DType) :
    newTexture2DType s = some v ↔ v ≠ .unset ∧ s = v.str := by
  cases v <;> simp only [newTexture2DType, mapGet, Texture2DType.str] <;> grind

/-- The spellings required by the 3MF core, materials, beam lattice and slice specifications. -/
theorem C21_spellings :
    [Units.micrometer, .millimeter, .centimeter, .inch, .foot, .meter].map Units.str =
      [b!"micron", b!"millimeter", b!"centimeter", b!"inch", b!"foot", b!"meter"] ∧
    [ObjectType.model, .solidSupport, .support, .surface, .other].map ObjectType.str =
      [b!"model", b!"solidsupport", b!"support", b!"surface", b!"other"] ∧
    [MeshResolution.full, .low].map MeshResolution.str = [b!"fullres", b!"lowres"] ∧
    [ClipMode.none, .inside, .outside].map ClipMode.str = [b!"none", b!"inside", b!"outside"] ∧
    [CapMode.hemisphere, .sphere, .butt].map CapMode.str = [b!"hemisphere", b!"sphere", b!"butt"] ∧
    [TileStyle.wrap, .mirror, .clamp, .none].map TileStyle.str = [b!"wrap", b!"mirror", b!"clamp", b!"none"] ∧
    [TextureFilter.auto, .linear, .nearest].map TextureFilter.str = [b!"auto", b!"linear", b!"nearest"] ∧
    [BlendMethod.mix, .multiply].map BlendMethod.str = [b!"mix", b!"multiply"] ∧
    [Texture2DType.png, .jpeg].map Texture2DType.str = [b!"image/png", b!"image/jpeg"] := by
  decide

/- Accepted and rejected strings exist. -/
example : newUnits b!"micron" = some .micrometer ∧ newUnits b!"Micron" = none := by decide
example : newTexture2DType b!"image/png" = some .png ∧ newTexture2DType [] = none := by decide

end Go3mf
