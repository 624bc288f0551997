import Verif.Props.C31

/-!
# C32: every extension element of a model or mesh is written

The code writes only the first element of each list: `Any.Marshal3MF` (spec/spec.go:124-131) returns as soon as an element
has been written without error.
-/

namespace Go3mf

open Spec

/-- **C32**: lists with at most one element are written and read back: below the model and below every mesh. -/
theorem C32_one_partial (env : Env) (mem : Nat → Str → Str) (prec : Int) (m : Model) (hw : Writable env m)
    (hm : AnyOk prec m.any) (hx : ∀ o ∈ m.resources.objects, ∀ x, o.mesh = some x → AnyOk prec x.any) :
    ∃ m', unmarshalModel env mem (printOps (fun _ => []) (m.ops prec)) .zero = some (m', .ok) ∧
      List.Forall₂ (NearElem prec) m.any m'.any ∧
      ∀ (i : Nat) (o : Object) (x : Mesh), m.resources.objects[i]? = some o → o.mesh = some x →
        ∃ o' x', m'.resources.objects[i]? = some o' ∧ o'.mesh = some x' ∧ List.Forall₂ (NearElem prec) x.any x'.any := by
  refine ⟨m.back prec, decode_marshal (writable_dom hw) False.elim, near_any hm, ?_⟩
  intro i o x ho hox
  refine ⟨o.back prec, x.back prec o.pid o.pindex, ?_, by simp [Object.back, hox], near_any (hx o (List.mem_of_getElem? ho) x hox)⟩
  simp [Model.back, Resources.back, ho]

example : AnyOk 4 exUnknown.any ∧ exUnknown.any ≠ [] := ⟨⟨by simp [exUnknown], by simp [exUnknown, ElemOk]⟩, by simp [exUnknown]⟩

/-- The other elements leave no trace: the document is the same without them. -/
theorem C32_first_false (prec : Int) (m : Model) (x : Mesh) (pid pindex : UInt32) :
    m.ops prec = { m with any := m.any.take 1 }.ops prec ∧
    x.ops prec pid pindex = { x with any := x.any.take 1 }.ops prec pid pindex := by
  have h : ∀ es : List AnyElem, encodeAny prec es = encodeAny prec (es.take 1) := by
    intro es
    cases es <;> simp [encodeAny]
  refine ⟨?_, ?_⟩
  · have hb : m.bodyOps prec = { m with any := m.any.take 1 }.bodyOps prec := by
      simp only [Model.bodyOps]
      rw [← h m.any]
    simp only [Model.ops]
    rw [hb]
    rfl
  · show opStart _ _ :: x.verticesOps prec ++ x.trianglesOps pid pindex ++ encodeAny prec x.any ++ _ =
      opStart _ _ :: x.verticesOps prec ++ x.trianglesOps pid pindex ++ encodeAny prec (x.any.take 1) ++ _
    rw [← h]

/-- A model with two unknown elements. -/
def exTwo : Model :=
  { Model.zero with
    extensions := exExts
    any := [.tokens [.start ⟨b!"http://example.com/v", b!"a"⟩ [], .stop ⟨b!"http://example.com/v", b!"a"⟩],
      .tokens [.start ⟨b!"http://example.com/v", b!"b"⟩ [], .stop ⟨b!"http://example.com/v", b!"b"⟩]] }

/-- Of two elements the second one is lost, and no error is reported. -/
theorem C32_second_false : exTwo.any.length = 2 ∧
    tokensBack (marshalModel exTwo) =
      some [[.start ⟨b!"http://example.com/v", b!"a"⟩ [], .stop ⟨b!"http://example.com/v", b!"a"⟩]] := by
  decide +kernel

end Go3mf
