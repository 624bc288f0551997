import Verif.Lemmas.Schedules
import Verif.Props.C11

/-!
# C11: which boxes are possible

The possible results are exactly those of joining the boxes of the items in some order: every order is that of a schedule.
-/

namespace Go3mf

/-- C11: if the goroutines of the items do the updates `ops`, then the box can be `r` exactly if some order of the updates gives `r`. -/
theorem C11_orders (m : Model) (hne : m.build.items ≠ []) {ops : List (Option (Box → Box))}
    (h : List.Forall₂ (Item.BoxOp m) m.build.items ops) (r : Box) :
    m.BoundingBox r ↔ ∃ fs : List (Box → Box), fs.Perm (ops.filterMap id) ∧ r = fs.foldl (fun b f => f b) .limit := by
  rw [Model.BoundingBox, if_neg (by simpa using hne)]
  constructor
  · rintro ⟨ops', h1, h2⟩
    rw [forall₂_unique (fun it f g h h' => BoxOp_unique (it := it) h h') h h1]
    exact Par.result_iff.1 h2
  · exact fun h2 => ⟨ops, h, Par.result_iff.2 h2⟩

/-- Both orders of two points are possible. -/
example (p q : Point3D) (f g : Box → Box) (h : List.Forall₂ (Item.BoxOp (Spec.twoDots p q)) (Spec.twoDots p q).build.items [some f, some g]) :
    (Spec.twoDots p q).BoundingBox (g (f .limit)) ∧ (Spec.twoDots p q).BoundingBox (f (g .limit)) :=
  ⟨(C11_orders _ (fun e => List.cons_ne_nil _ _ e) h _).2 ⟨[f, g], .refl _, rfl⟩, (C11_orders _ (fun e => List.cons_ne_nil _ _ e) h _).2 ⟨[g, f], .swap .., rfl⟩⟩

end Go3mf
