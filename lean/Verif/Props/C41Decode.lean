import Verif.Model.Decode
import Verif.Props.C41

/-!
# C41: metadata that has been decoded
-/

namespace Go3mf

/-- A document with a metadata whose name space is declared. -/
def metadataDoc : Str :=
  b!"<model xmlns=\"http://schemas.microsoft.com/3dmanufacturing/core/2015/02\" xmlns:v=\"http://example.com/v\"><metadata name=\"v:part\">x</metadata><resources/><build/></model>"

/-- The metadata that are decoded, and what their validation reports. -/
def metadataChecked (data : Str) : Option (List Name × List (Option (Int × Leaf))) :=
  match unmarshalModel ⟨id, true, true, true, true⟩ (fun _ t => t) data .zero with
  | some (m, .ok) => some (m.metadata.map (·.name), (checkMetadata m m.metadata).map fun
      | .wrapped [l] (.leaf f) _ => some (l.index, f)
      | _ => none)
  | _ => none

/-- A metadata with a declared name space, decoded without error, does not validate: the decoder stores the prefix
(decoder.go:166), the validation looks for the name space. -/
theorem C41_decoded_false : metadataChecked metadataDoc =
    some ([⟨b!"v", b!"part"⟩], [some (0, .sentinel .metadataNamespace)]) := by
  decide +kernel

end Go3mf
