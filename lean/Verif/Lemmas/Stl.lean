import Verif.Model.Stl
import Verif.Props.C05

/-!
# The mesh built by the STL importer
-/

namespace Go3mf

/-- The elements of a list, three by three; one or two elements at the end are left out. -/
def Spec.triples {α : Type} : List α → List (α × α × α)
  | a :: b :: c :: l => (a, b, c) :: Spec.triples l
  | _ => []

/-- The vertex with index `i` exists and lies in the same quantisation cell as `p`. -/
def Spec.Corner (vs : List Point3D) (p : Point3D) (i : UInt32) : Prop :=
  ∃ q, vs[i.toNat]? = some q ∧ cellOf q = cellOf p

/-- A triangle has given corners, and nothing else. -/
def Spec.HasCorners (vs : List Point3D) (ps : Point3D × Point3D × Point3D) (t : Triangle) : Prop :=
  Spec.Corner vs ps.1 t.v1 ∧ Spec.Corner vs ps.2.1 t.v2 ∧ Spec.Corner vs ps.2.2 t.v3 ∧
    t = { Triangle.zero with v1 := t.v1, v2 := t.v2, v3 := t.v3 }

namespace Stl

/-- What a builder does with a list of points. -/
def run (ps : List Point3D) : MeshBuilder Point3D Vec3I × List (Point3D × UInt32) :=
  Spec.runBuilder cellOf (Spec.adds ps) (.new [])

theorem runBuilder_append {P K : Type} [DecidableEq K] (cell : P → K) (a b : List (Spec.BuilderOp P))
    (mb : MeshBuilder P K) :
    Spec.runBuilder cell (a ++ b) mb =
      ((Spec.runBuilder cell b (Spec.runBuilder cell a mb).1).1,
        (Spec.runBuilder cell a mb).2 ++ (Spec.runBuilder cell b (Spec.runBuilder cell a mb).1).2) := by
  induction a generalizing mb with
  | nil => rfl
  | cons op a ih => cases op <;> simp [Spec.runBuilder, ih]

theorem run_snoc (ps : List Point3D) (p : Point3D) :
    run (ps ++ [p]) =
      (((run ps).1.addVertex cellOf p).1, (run ps).2 ++ [(p, ((run ps).1.addVertex cellOf p).2)]) := by
  simp [run, Spec.adds, runBuilder_append, Spec.runBuilder]

/-- The triangles with given nodes. -/
def triangles (l : List UInt32) : List Triangle :=
  (Spec.triples l).map fun t => { Triangle.zero with v1 := t.1, v2 := t.2.1, v3 := t.2.2 }

/-- The points `ps` have been added; those at the end, with the indices `nodes`, are in no triangle yet. -/
structure Holds (ps : List Point3D) (m : Mesh) (nodes : List UInt32) : Prop where
  mb : m.mb = (run ps).1
  tris : ∃ full, (run ps).2.map (·.2) = full ++ nodes ∧ full.length % 3 = 0 ∧ m.tris = triangles full

theorem triples_append {α : Type} : (l l' : List α) → l.length % 3 = 0 →
    Spec.triples (l ++ l') = Spec.triples l ++ Spec.triples l'
  | [], _, _ => rfl
  | [_], _, h => by simp at h
  | [_, _], _, h => by simp at h
  | a :: b :: c :: l, l', h => by
    have := triples_append l l' (by simp only [List.length_cons] at h; omega)
    simp [Spec.triples, this]

theorem triangles_append (l l' : List UInt32) (h : l.length % 3 = 0) :
    triangles (l ++ l') = triangles l ++ triangles l' := by
  simp [triangles, triples_append l l' h]

theorem holds_new : Holds [] .new [] := ⟨rfl, [], rfl, rfl, rfl⟩

theorem holds_vertex {ps : List Point3D} {m : Mesh} {nodes : List UInt32} (h : Holds ps m nodes) (p : Point3D) :
    Holds (ps ++ [p]) (m.addVertex p).1 (nodes ++ [(m.addVertex p).2]) := by
  obtain ⟨hmb, full, hl, hf, ht⟩ := h
  refine ⟨?_, full, ?_, hf, ht⟩
  · simp [run_snoc, Mesh.addVertex, hmb]
  · simp [run_snoc, Mesh.addVertex, hmb, hl]

theorem holds_triangle {ps : List Point3D} {m : Mesh} {a b c : UInt32} (h : Holds ps m [a, b, c]) :
    Holds ps (m.addTriangle a b c) [] := by
  obtain ⟨hmb, full, hl, hf, ht⟩ := h
  refine ⟨hmb, full ++ [a, b, c], by rw [hl]; simp, by simp [hf], ?_⟩
  rw [triangles_append _ _ hf]
  simp [Mesh.addTriangle, ht, triangles, Spec.triples]

theorem triples_length {α : Type} : (l : List α) → (Spec.triples l).length = l.length / 3
  | [] => by simp [Spec.triples]
  | [_] => by simp [Spec.triples]
  | [_, _] => by simp [Spec.triples]
  | a :: b :: c :: l => by
    simp only [Spec.triples, List.length_cons, triples_length l]
    omega

theorem forall₂_triples {α β : Type} {R : α → β → Prop} {S : α × α × α → β × β × β → Prop}
    (hS : ∀ a b c x y z, R a x → R b y → R c z → S (a, b, c) (x, y, z)) :
    (l : List α) → (l' : List β) → List.Forall₂ R l l' → List.Forall₂ S (Spec.triples l) (Spec.triples l')
  | [], _, h => by cases h; exact .nil
  | [_], _, h => by
    cases h with
    | cons h1 h => cases h; exact .nil
  | [_, _], _, h => by
    cases h with
    | cons h1 h => cases h with
      | cons h2 h => cases h; exact .nil
  | a :: b :: c :: l, _, h => by
    cases h with
    | cons h1 h => cases h with
      | cons h2 h => cases h with
        | cons h3 h => exact .cons (hS _ _ _ _ _ _ h1 h2 h3) (forall₂_triples hS l _ h)

theorem run_vertices (ps : List Point3D) : (run ps).1.vertices = Spec.firsts cellOf ps := by
  simpa [run] using C05_vertices cellOf [] ps

theorem run_corners (ps : List Point3D) (hl : (run ps).1.vertices.length ≤ 2 ^ 32) :
    List.Forall₂ (Spec.Corner (run ps).1.vertices) ps ((run ps).2.map (·.2)) := by
  have h1 : (run ps).2.map (·.1) = ps := (C05_index cellOf [] ps hl).1
  have h2 : ∀ p i, (p, i) ∈ (run ps).2 → Spec.Corner (run ps).1.vertices p i :=
    fun p i h => ((C05_index cellOf [] ps hl).2.1 p i h).2
  clear hl
  generalize (run ps).1.vertices = vs at *
  generalize (run ps).2 = log at *
  subst h1
  induction log with
  | nil => exact .nil
  | cons e log ih =>
    exact .cons (h2 _ _ List.mem_cons_self) (ih fun p i h => h2 p i (List.mem_cons_of_mem _ h))

/-- What the mesh holds in the end. -/
theorem holds_end {ps : List Point3D} {m : Mesh} {nodes : List UInt32} (h : Holds ps m nodes) (hn : nodes.length < 3)
    (hl : (Spec.firsts cellOf ps).length ≤ 2 ^ 32) :
    m.mb.vertices = Spec.firsts cellOf ps ∧
    List.Forall₂ (Spec.HasCorners m.mb.vertices) (Spec.triples ps) m.tris := by
  obtain ⟨hmb, full, hf, hm, ht⟩ := h
  rw [← run_vertices] at hl
  rw [hmb]
  refine ⟨run_vertices ps, ?_⟩
  have hc := run_corners ps hl
  rw [hf] at hc
  have ht' : m.tris = (Spec.triples (full ++ nodes)).map
      fun t => { Triangle.zero with v1 := t.1, v2 := t.2.1, v3 := t.2.2 } := by
    rw [triples_append _ _ hm, ht, triangles]
    have : Spec.triples nodes = [] := by
      match nodes, hn with
      | [], _ => rfl
      | [_], _ => rfl
      | [_, _], _ => rfl
    simp [this]
  rw [ht', List.forall₂_map_right_iff]
  refine forall₂_triples ?_ _ _ hc
  intro a b c x y z h1 h2 h3
  exact ⟨h1, h2, h3, rfl⟩

theorem holds_length {ps : List Point3D} {m : Mesh} {nodes : List UInt32} (h : Holds ps m nodes)
    (hn : nodes.length < 3) : m.tris.length = ps.length / 3 := by
  obtain ⟨hmb, full, hf, hm, ht⟩ := h
  have : ps.length = full.length + nodes.length := by
    have h1 : (run ps).2.map (·.1) = ps := runBuilder_args cellOf ps _
    have h2 : ((run ps).2.map (·.1)).length = ((run ps).2.map (·.2)).length := by simp
    rw [h1, hf] at h2
    simpa using h2
  rw [ht, triangles, List.length_map, triples_length]
  omega

/-! ## When the context is looked at -/

/-- `nextFaceCheck` is right for a number of triangles. -/
structure NextOk (every len next : Nat) : Prop where
  dvd : every ∣ next
  pos : 0 < next
  ge : len ≤ next
  le : next ≤ len + every
  lt : 0 < len → next < len + every

theorem nextOk_new {every : Nat} (h : 0 < every) : NextOk every 0 every := ⟨Nat.dvd_refl _, h, by omega, by omega, by omega⟩

theorem nextOk_check {every len next : Nat} (h : NextOk every len next) :
    len + 1 > next ↔ 0 < len ∧ every ∣ len := by
  obtain ⟨hd, hp, hg, hle, hlt⟩ := h
  constructor
  · intro h
    have : len = next := by omega
    subst this
    exact ⟨hp, hd⟩
  · rintro ⟨h0, hdl⟩
    obtain ⟨a, rfl⟩ := hd
    obtain ⟨c, rfl⟩ := hdl
    have h1 := hlt h0
    have h2 : a < c + 1 := by
      by_contra hh
      have : every * (c + 1) ≤ every * a := Nat.mul_le_mul_left _ (by omega)
      rw [Nat.mul_add] at this
      omega
    have : every * a ≤ every * c := Nat.mul_le_mul_left _ (by omega)
    omega

theorem nextOk_step {every len next : Nat} (he : 0 < every) (h : NextOk every len next) :
    NextOk every (len + 1) (if len + 1 > next then next + every else next) := by
  obtain ⟨hd, hp, hg, hle, hlt⟩ := h
  by_cases hc : len + 1 > next
  · rw [if_pos hc]
    exact ⟨Nat.dvd_add hd (Nat.dvd_refl _), by omega, by omega, by omega, by omega⟩
  · rw [if_neg hc]
    exact ⟨hd, hp, by omega, by omega, by omega⟩

end Stl
end Go3mf
