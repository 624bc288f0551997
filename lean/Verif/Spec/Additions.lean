import Verif.Model.Validate

/-!
# Specification of additions to a model

`growModel m A O I` is the model `m` with further assets, objects and items, each after those that are there.
-/

namespace Go3mf.Spec

/-- The model with additions. -/
def growModel (m : Model) (A : List Asset) (O : List Object) (I : List Item) : Model :=
  { m with
    resources :=
      { m.resources with
        assets := m.resources.assets ++ A
        objects := m.resources.objects ++ O }
    build := { m.build with items := m.build.items ++ I } }

/-- The error is in one of the additions: it is an error of the asset, object or item that has the index of an addition. -/
inductive InAddition (m : Model) (A : List Asset) (O : List Object) (I : List Item) : Err → Prop
  | asset (k : Nat) (a : Asset) (e : Err) : A[k]? = some a →
      InAddition m A O I (wrap b!"model" (wrap b!"resources" (wrapIndex a.xmlLocal (m.resources.assets.length + k : Nat) e)))
  | object (k : Nat) (e : Err) : k < O.length →
      InAddition m A O I (wrap b!"model" (wrap b!"resources" (wrapIndex b!"object" (m.resources.objects.length + k : Nat) e)))
  | item (k : Nat) (e : Err) : k < I.length →
      InAddition m A O I (wrap b!"model" (wrap b!"build" (wrapIndex b!"item" (m.build.items.length + k : Nat) e)))

end Go3mf.Spec
