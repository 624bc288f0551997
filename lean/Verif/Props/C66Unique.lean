import Verif.Lemmas.ValidateMono
import Verif.Props.C66

/-!
# C66: the answer is determined
-/

namespace Go3mf

/-- C66: if `Validate` returns, then with one list of errors only: it does not depend on anything but the model. -/
theorem C66_unique {env : Env} {m : Model} {es es' : List Err} (h : m.Validate env es) (h' : m.Validate env es') : es = es' :=
  Validate_unique h h'

set_option maxRecDepth 8000 in
/-- The empty model is rejected with an error, so it is not accepted. -/
example : ¬ ({ Model.zero with extensions := [⟨b!"urn", b!"x", true⟩] } : Model).Accepts ⟨id, true, true, true, true⟩ := by
  intro h
  obtain ⟨es, h1, h2⟩ : ∃ es, ({ Model.zero with extensions := [⟨b!"urn", b!"x", true⟩] } : Model).Validate ⟨id, true, true, true, true⟩ es ∧ es.length = 1 := by
    refine ⟨_, ⟨1, rfl⟩, by decide +kernel⟩
  rw [C66_unique h1 h] at h2
  cases h2

end Go3mf
