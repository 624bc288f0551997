import Verif.Lemmas.RtUnknown
import Verif.Lemmas.RtMeta

/-!
# Encoded meshes decoded
-/

namespace Go3mf

section
variable {cfg : DecCfg} {loc : AnyLoc} {n : Name} {r : Regs} {env : Env} {D : List (Str × Str)} {txt : Prop} {prec : Int}

/-! ## Elements of the extensions -/

/-- What a resource of an extension becomes. -/
def ExtRes.back (prec : Int) : ExtRes → ExtRes
  | .colorGroup g => .colorGroup g
  | .texture2D g => .texture2D g
  | .texture2DGroup g => .texture2DGroup (g.back prec)
  | .composite g => .composite (g.back prec)
  | .multi g => .multi g
  | .sliceStack g => .sliceStack (g.back prec)

/-- What an element becomes. -/
def AnyElem.back (prec : Int) : AnyElem → AnyElem
  | .tokens ts => .tokens ts
  | .res x => .res (x.back prec)
  | .beamLattice b => .beamLattice (b.back prec)

/-- The resource can be written and read back: its extension is known and declared. -/
def ExtRes.Dom (env : Env) (D : List (Str × Str)) : ExtRes → Prop
  | .texture2D t => (env.materials = true ∧ nsMaterials ∈ D.map (·.2)) ∧ cleanText t.path = t.path
  | .sliceStack s => (env.slices = true ∧ nsSlices ∈ D.map (·.2)) ∧ s.Dom
  | _ => env.materials = true ∧ nsMaterials ∈ D.map (·.2)

/-- The element can be written and read back. -/
def AnyElem.Dom (env : Env) (D : List (Str × Str)) (txt : Prop) : AnyElem → Prop
  | .tokens ts => ∃ n as body, TokensDom env D txt n as body ts
  | .res x => x.Dom env D
  | .beamLattice b => (env.beamlattice = true ∧ nsBeam ∈ D.map (·.2)) ∧ ∀ s ∈ b.beamSets, s.Dom

theorem ExtRes.Dom.good {x : ExtRes} (h : x.Dom env D) : Good D (x.ops prec) := by
  cases x with
  | colorGroup g => exact ColorGroup.good h.2
  | texture2D g => exact Texture2D.good h.1.2 h.2
  | texture2DGroup g => exact Texture2DGroup.good h.2
  | composite g => exact CompositeMaterials.good h.2
  | multi g => exact MultiProperties.good h.2
  | sliceStack g => exact SliceStack.good h.1.2 h.2

theorem AnyElem.Dom.good {e : AnyElem} (h : e.Dom env D txt) : Good D (e.ops prec) := by
  cases e with
  | tokens ts => obtain ⟨n, as, body, h⟩ := h; exact h.good
  | res x => exact ExtRes.Dom.good h
  | beamLattice b => exact BeamLattice.good h.1.2 h.2

theorem ExtRes.Dom.within {x : ExtRes} (h : x.Dom cfg.env D) (hh : Holds loc r (.res x)) :
    ∃ v, Within cfg loc.parent n r (rd (x.ops prec)) ({ r with slice := v }.putAny loc (.res (x.back prec))) := by
  cases x with
  | colorGroup g => exact ⟨r.slice, ColorGroup.within h.1 hh⟩
  | texture2D g => exact ⟨r.slice, Texture2D.within h.1.1 hh h.2⟩
  | texture2DGroup g => exact ⟨r.slice, Texture2DGroup.within h.1 hh⟩
  | composite g => exact ⟨r.slice, CompositeMaterials.within h.1 hh⟩
  | multi g => exact ⟨r.slice, MultiProperties.within h.1 hh⟩
  | sliceStack g => exact SliceStack.within h.1.1 h.2 hh

theorem AnyElem.Dom.within {e : AnyElem} (h : e.Dom cfg.env D txt) (ht : txt → ∀ i t, cfg.mem i t = t) (hl : loc ≠ .asset)
    (hh : Holds loc r e) : ∃ v w, Within cfg loc.parent n r (rd (e.ops prec))
      ({ r with slice := v, beamSet := w }.putAny loc (e.back prec)) := by
  cases e with
  | tokens ts =>
    obtain ⟨n, as, body, h⟩ := h
    exact ⟨r.slice, r.beamSet, h.within ht hl hh⟩
  | res x =>
    obtain ⟨v, h⟩ := ExtRes.Dom.within (n := n) (prec := prec) h hh
    exact ⟨v, r.beamSet, h⟩
  | beamLattice b =>
    obtain ⟨v, h⟩ := BeamLattice.within (n := n) (prec := prec) h.1.1 h.2 hh
    exact ⟨r.slice, v, h⟩

/-- What the elements become: only the first is written. -/
def anyBack (prec : Int) (es : List AnyElem) : List AnyElem := (es.take 1).map (AnyElem.back prec)

theorem any_good {es : List AnyElem} (h : ∀ e ∈ es.take 1, e.Dom env D txt) : Good D (encodeAny prec es) := by
  cases es with
  | nil => exact .nil
  | cons e es => exact (h e (by simp)).good

/-! ## Vertices -/

/-- What a point becomes. -/
def Point3D.back (prec : Int) (p : Point3D) : Point3D := ⟨p.x.back prec, p.y.back prec, p.z.back prec⟩

theorem vertex_dom (p : Point3D) : AttrsDom D true
    [attr b!"x" (p.x.format prec), attr b!"y" (p.y.format prec), attr b!"z" (p.z.format prec)] :=
  .cons (.plain (by decide +kernel) (plain_format _ _)) (.cons (.plain (by decide +kernel) (plain_format _ _))
    (.one (.plain (by decide +kernel) (plain_format _ _))))

theorem vertices_good {m : Mesh} (h : AnyDom env D b!"vertices" m.verticesAttr) : Good D (m.verticesOps prec) :=
  .elem (nameOK_core (by decide +kernel)) h.attrs
    (.map fun v _ => .auto (nameOK_core (by decide +kernel)) (vertex_dom v))

theorem vertex_attrs (p : Point3D) : attrLoop vertexAttr ⟨.zero, .zero, .zero⟩
    [attr b!"x" (p.x.format prec), attr b!"y" (p.y.format prec), attr b!"z" (p.z.format prec)] = (p.back prec, []) := by
  rw [attrLoop_cons (s' := ⟨p.x.back prec, .zero, .zero⟩) (by simp only [vertexAttr, floatAttr_format]; rfl),
    attrLoop_cons (s' := ⟨p.x.back prec, p.y.back prec, .zero⟩) (by simp only [vertexAttr, floatAttr_format]; rfl),
    attrLoop_cons (s' := ⟨p.x.back prec, p.y.back prec, p.z.back prec⟩) (by simp only [vertexAttr, floatAttr_format]; rfl)]
  rfl

/-- The registers with the given mesh. -/
def Regs.setMesh (r : Regs) (m : Mesh) : Regs := { r with obj := { r.obj with mesh := some m } }

theorem within_vertices {m m0 : Mesh} (h : AnyDom cfg.env D b!"vertices" m.verticesAttr) (h1 : m0.vertices = [])
    (h2 : m0.verticesAttr = []) : Within cfg .mesh n (r.setMesh m0) (rd (m.verticesOps prec))
      (r.setMesh { m0 with vertices := m.vertices.map (Point3D.back prec), verticesAttr := m.verticesAttr }) := by
  have hv := within_ext_list (cfg := cfg) (d := .vertices) (n := ⟨nsCore, b!"vertices"⟩) (g := Point3D.back prec)
    (op := fun v => opFast (coreName b!"vertex")
      [attr b!"x" (v.x.format prec), attr b!"y" (v.y.format prec), attr b!"z" (v.z.format prec)])
    (st := fun acc => r.setMesh { m0 with vertices := acc, verticesAttr := m.verticesAttr })
    (xs := m.vertices) (acc := []) (fun _ => trivial)
    (fun v _ acc => by
      have := Within.auto (cfg := cfg) (n := ⟨nsCore, b!"vertices"⟩) (n' := coreName b!"vertex") (skip := true)
        (as := [attr b!"x" (v.x.format prec), attr b!"y" (v.y.format prec), attr b!"z" (v.z.format prec)])
        (d := .vertices) (d' := .vertex) (k := acc.length)
        (r := r.setMesh { m0 with vertices := acc, verticesAttr := m.verticesAttr })
        (r1 := r.setMesh { m0 with vertices := acc, verticesAttr := m.verticesAttr })
        (r2 := r.setMesh { m0 with vertices := acc ++ [v.back prec], verticesAttr := m.verticesAttr }) rfl (by
          simp only [child, onlyChild, fullName_core]
          rw [if_pos trivial]
          rfl) (by
          rw [(vertex_dom (D := []) v).read]
          simp only [start, vertex_attrs]
          rfl)
      exact this)
  have := Within.ops (cfg := cfg) (n := n) (n' := coreName b!"vertices") (skip := false) (as := encodeAnyAttr m.verticesAttr)
    (d := .mesh) (d' := .vertices) (k := -1) (r := r.setMesh m0) (r1 := r.setMesh m0)
    (r2 := r.setMesh { m0 with vertices := [], verticesAttr := m.verticesAttr }) rfl (by
      simp only [child, fullName_core, meshChild]
      rw [if_pos trivial, if_pos trivial]) (by
      rw [h.attrs.read]
      simp only [start, anyAttrs, Regs.setMesh, Option.getD_some, h2]
      rw [fold_any h.1]
      simp [Object.modMesh, h1]) hv
  simpa [stop, Mesh.verticesOps, opStart] using this

/-! ## Triangles -/

/-- The triangle can be written and read back.  The attributes of triangles are not escaped. -/
structure Triangle.Dom (env : Env) (D : List (Str × Str)) (t : Triangle) : Prop where
  attrs : AnyDom env D b!"triangle" t.anyAttr
  escape : ∀ a ∈ encodeAnyAttr t.anyAttr, escape a.value = a.value

/-- What a triangle of an object with the given properties becomes. -/
def Triangle.back (pid pindex : UInt32) (t : Triangle) : Triangle :=
  if t.pid ≠ 0 then t else { t with pid := pid, p1 := pindex, p2 := pindex, p3 := pindex }

/-- The attributes of a triangle, those of the groups left out. -/
def Triangle.core (pid pindex : UInt32) (t : Triangle) : List Attr :=
  [attr b!"v1" (formatUint t.v1), attr b!"v2" (formatUint t.v2), attr b!"v3" (formatUint t.v3)] ++
  if t.pid ≠ 0 ∧ (t.p1 ≠ t.p2 ∨ t.p1 ≠ t.p3) then
    [attr b!"pid" (formatUint t.pid), attr b!"p1" (formatUint t.p1), attr b!"p2" (formatUint t.p2), attr b!"p3" (formatUint t.p3)]
  else if t.pid ≠ 0 ∧ (t.pid ≠ pid ∨ t.p1 ≠ pindex) then
    [attr b!"pid" (formatUint t.pid), attr b!"p1" (formatUint t.p1)]
  else []

/-- The attributes of the groups go into the shared array: there is room for the first ones. -/
def Triangle.Spills (pid pindex : UInt32) (t : Triangle) : Prop :=
  ∃ x xs, (t.anyAttr.flatMap AttrGroup.appends).filter (· ≠ []) = x :: xs ∧ (t.core pid pindex).length + x.length ≤ 7

/-- A triangle whose attributes go into the shared array is not followed by one that uses the names that are lost. -/
def Room (pid pindex : UInt32) (ts : List Triangle) : Prop :=
  ts.Pairwise fun t u => t.Spills pid pindex → (u.core pid pindex).length ≤ (t.core pid pindex).length

/-- The first entries of the shared array have their names. -/
def Arr (c : Nat) (arr : List Attr) : Prop :=
  arr.length = 7 ∧ (arr.map (·.name)).take c = (triangleArray.map (·.name)).take c

theorem arr_init : Arr 7 triangleArray := ⟨rfl, rfl⟩

theorem Arr.mono {c c' : Nat} {arr : List Attr} (h : Arr c arr) (hc : c' ≤ c) : Arr c' arr := by
  refine ⟨h.1, ?_⟩
  have := congrArg (List.take c') h.2
  rwa [List.take_take, List.take_take, Nat.min_eq_left hc] at this

theorem setValue_names (arr : List Attr) (i : Nat) (v : Str) : (setValue arr i v).map (·.name) = arr.map (·.name) := by
  unfold setValue
  induction arr generalizing i with
  | nil => simp
  | cons a arr ih => cases i <;> simp_all

theorem setValue_length (arr : List Attr) (i : Nat) (v : Str) : (setValue arr i v).length = arr.length := by
  simp [setValue]

theorem Triangle.slice_names (pid pindex : UInt32) (arr : List Attr) (t : Triangle) :
    (t.slice pid pindex arr).arr.map (·.name) = arr.map (·.name) := by
  unfold Triangle.slice
  split
  · simp only [setValue_names]
  · split <;> simp only [setValue_names]

theorem Triangle.slice_len (pid pindex : UInt32) (arr : List Attr) (t : Triangle) :
    (t.slice pid pindex arr).own = none ∧ (t.slice pid pindex arr).len = (t.core pid pindex).length := by
  unfold Triangle.slice Triangle.core
  split
  · exact ⟨rfl, rfl⟩
  · split <;> exact ⟨rfl, rfl⟩

theorem core_length_le (pid pindex : UInt32) (t : Triangle) : (t.core pid pindex).length ≤ 7 := by
  unfold Triangle.core
  split
  · simp
  · split <;> simp

theorem seven {arr : List Attr} (h : arr.length = 7) : ∃ a b c d e f g, arr = [a, b, c, d, e, f, g] := by
  match arr, h with
  | [a, b, c, d, e, f, g], _ => exact ⟨a, b, c, d, e, f, g, rfl⟩

theorem slice_core {arr : List Attr} {pid pindex : UInt32} {t : Triangle} (h : Arr (t.core pid pindex).length arr) :
    (t.slice pid pindex arr).arr.take (t.core pid pindex).length = t.core pid pindex := by
  obtain ⟨hl, hn⟩ := h
  obtain ⟨⟨n1, v1⟩, ⟨n2, v2⟩, ⟨n3, v3⟩, ⟨n4, v4⟩, ⟨n5, v5⟩, ⟨n6, v6⟩, ⟨n7, v7⟩, rfl⟩ := seven hl
  revert hn
  unfold Triangle.slice Triangle.core
  split
  · intro hn
    simp [triangleArray, attr] at hn
    obtain ⟨rfl, rfl, rfl, rfl, rfl, rfl, rfl⟩ := hn
    rfl
  · split
    · intro hn
      simp [triangleArray, attr] at hn
      obtain ⟨rfl, rfl, rfl, rfl, rfl⟩ := hn
      rfl
    · intro hn
      simp [triangleArray, attr] at hn
      obtain ⟨rfl, rfl, rfl⟩ := hn
      rfl

theorem append_own : ∀ (xs : List (List Attr)) (arr l : List Attr) (k : Nat),
    xs.foldl AttrSlice.append ⟨arr, some l, k⟩ = ⟨arr, some (l ++ xs.flatten), k⟩
  | [], arr, l, k => by simp
  | x :: xs, arr, l, k => by
    have : AttrSlice.append ⟨arr, some l, k⟩ x = ⟨arr, some (l ++ x), k⟩ := rfl
    rw [List.foldl_cons, this, append_own xs]
    simp

theorem append_nil {arr : List Attr} {k : Nat} (hk : k ≤ arr.length) : AttrSlice.append ⟨arr, none, k⟩ [] = ⟨arr, none, k⟩ := by
  simp [AttrSlice.append, hk]

/-- What the groups append, and what becomes of the shared array. -/
theorem append_all : ∀ (xs : List (List Attr)) (arr : List Attr) (k : Nat), k ≤ arr.length →
    (xs.foldl AttrSlice.append ⟨arr, none, k⟩).attrs = arr.take k ++ xs.flatten ∧
    (xs.foldl AttrSlice.append ⟨arr, none, k⟩).arr.length = arr.length ∧
    (xs.foldl AttrSlice.append ⟨arr, none, k⟩).arr.take k = arr.take k ∧
    ((∀ x ys, xs.filter (· ≠ []) = x :: ys → arr.length < k + x.length) →
      (xs.foldl AttrSlice.append ⟨arr, none, k⟩).arr = arr)
  | [], arr, k, _ => by simp [AttrSlice.attrs]
  | x :: xs, arr, k, hk => by
    rw [List.foldl_cons]
    by_cases hx : x = []
    · subst hx
      rw [append_nil hk]
      simpa using append_all xs arr k hk
    · have hl : 0 < x.length := List.length_pos_iff.2 hx
      by_cases hf : k + x.length ≤ arr.length
      · have e : AttrSlice.append ⟨arr, none, k⟩ x =
            ⟨arr.take k ++ x ++ arr.drop (k + x.length), none, k + x.length⟩ := by
          simp only [AttrSlice.append]
          rw [if_pos hf]
        have el : (arr.take k ++ x ++ arr.drop (k + x.length)).length = arr.length := by
          simp; omega
        have et : (arr.take k ++ x ++ arr.drop (k + x.length)).take (k + x.length) = arr.take k ++ x := by
          rw [List.take_append_of_le_length (by simp; omega), List.take_of_length_le (by simp)]
        obtain ⟨h1, h2, h3, _⟩ := append_all xs (arr.take k ++ x ++ arr.drop (k + x.length)) (k + x.length) (by omega)
        rw [e, h1, h2, et, el]
        refine ⟨by simp, rfl, ?_, fun hn => ?_⟩
        · have := congrArg (List.take k) h3
          rw [List.take_take, Nat.min_eq_left (by omega), et] at this
          rw [this, List.take_append_of_le_length (by simp; omega), List.take_take, Nat.min_self]
        · have := hn x (xs.filter (· ≠ [])) (by simp [hx])
          omega
      · have e : AttrSlice.append ⟨arr, none, k⟩ x = ⟨arr, some (arr.take k ++ x), k⟩ := by
          simp only [AttrSlice.append]
          rw [if_neg hf]
        rw [e, append_own]
        simp [AttrSlice.attrs]

/-- What is written for a triangle, and what it leaves in the array. -/
theorem triangle_slice {c : Nat} {arr : List Attr} (h : Arr c arr) (pid pindex : UInt32) {t : Triangle}
    (hc : (t.core pid pindex).length ≤ c) :
    ((t.anyAttr.flatMap AttrGroup.appends).foldl AttrSlice.append (t.slice pid pindex arr)).attrs =
      t.core pid pindex ++ encodeAnyAttr t.anyAttr ∧
    Arr (t.core pid pindex).length ((t.anyAttr.flatMap AttrGroup.appends).foldl AttrSlice.append (t.slice pid pindex arr)).arr ∧
    (¬ t.Spills pid pindex →
      Arr c ((t.anyAttr.flatMap AttrGroup.appends).foldl AttrSlice.append (t.slice pid pindex arr)).arr) := by
  have h1 := slice_core (h.mono hc)
  have h2 := t.slice_names pid pindex arr
  have h3 := t.slice_len pid pindex arr
  have h4 : ∀ c, Arr c arr → Arr c (t.slice pid pindex arr).arr := by
    intro c h
    refine ⟨?_, by rw [h2]; exact h.2⟩
    have := congrArg List.length h2
    simpa [h.1] using this
  have h5 := h4 _ (h.mono hc)
  have h6 := h4 _ h
  generalize t.slice pid pindex arr = s at h1 h2 h3 h5 h6
  obtain ⟨sa, so, sl⟩ := s
  obtain ⟨rfl, rfl⟩ := h3
  simp only at h1 h2 h5 h6
  obtain ⟨e1, e2, e3, e4⟩ := append_all (t.anyAttr.flatMap AttrGroup.appends) sa (t.core pid pindex).length
    (by rw [h5.1]; exact core_length_le pid pindex t)
  refine ⟨by rw [e1, h1]; rfl, ⟨by rw [e2, h5.1], ?_⟩, fun hn => ?_⟩
  · rw [← List.map_take, e3, List.map_take]
    exact h5.2
  · rw [e4 fun x ys hx => ?_]
    · exact h6
    · by_contra hc
      exact hn ⟨x, ys, hx, by rw [h5.1] at hc; omega⟩

/-- The elements that should be written. -/
def triangleOps (pid pindex : UInt32) (ts : List Triangle) : List Op :=
  ts.map fun t => opFast (coreName b!"triangle") (t.core pid pindex ++ encodeAnyAttr t.anyAttr)

theorem trianglesLoop_eq {pid pindex : UInt32} : ∀ {ts : List Triangle} {c : Nat} {arr : List Attr}, Arr c arr →
    (∀ t ∈ ts, (t.core pid pindex).length ≤ c) → Room pid pindex ts →
    trianglesLoop pid pindex arr ts = triangleOps pid pindex ts
  | [], _, _, _, _, _ => rfl
  | t :: ts, c, arr, ha, hc, hr => by
    obtain ⟨e1, e2, e3⟩ := triangle_slice ha pid pindex (hc t (by simp))
    rw [trianglesLoop]
    simp only [e1, triangleOps, List.map_cons]
    congr 1
    obtain ⟨hr1, hr2⟩ := List.pairwise_cons.1 hr
    by_cases hs : t.Spills pid pindex
    · exact trianglesLoop_eq e2 (fun u hu => hr1 u hu hs) hr2
    · exact trianglesLoop_eq (e3 hs) (fun u hu => hc u (by simp [hu])) hr2

theorem triangles_eq {pid pindex : UInt32} {ts : List Triangle} (hr : Room pid pindex ts) :
    trianglesLoop pid pindex triangleArray ts = triangleOps pid pindex ts :=
  trianglesLoop_eq arr_init (fun t _ => core_length_le pid pindex t) hr

theorem core_dom (pid pindex : UInt32) (t : Triangle) : AttrsDom D true (t.core pid pindex) := by
  refine .append (.cons (.plain (by decide +kernel) (plain_formatUint _)) (.cons (.plain (by decide +kernel) (plain_formatUint _))
    (.one (.plain (by decide +kernel) (plain_formatUint _))))) ?_
  by_cases h1 : t.pid ≠ 0 ∧ (t.p1 ≠ t.p2 ∨ t.p1 ≠ t.p3)
  · rw [if_pos h1]
    exact .cons (.plain (by decide +kernel) (plain_formatUint _)) (.cons (.plain (by decide +kernel) (plain_formatUint _))
      (.cons (.plain (by decide +kernel) (plain_formatUint _)) (.one (.plain (by decide +kernel) (plain_formatUint _)))))
  · rw [if_neg h1]
    by_cases h2 : t.pid ≠ 0 ∧ (t.pid ≠ pid ∨ t.p1 ≠ pindex)
    · rw [if_pos h2]
      exact .cons (.plain (by decide +kernel) (plain_formatUint _)) (.one (.plain (by decide +kernel) (plain_formatUint _)))
    · rw [if_neg h2]
      exact .nil

theorem Triangle.Dom.attrsDom {t : Triangle} (h : t.Dom env D) (pid pindex : UInt32) :
    AttrsDom D true (t.core pid pindex ++ encodeAnyAttr t.anyAttr) := by
  refine .append (core_dom pid pindex t) ?_
  intro a ha
  obtain ⟨⟨h1, h2, h3, _⟩, h4⟩ := h.attrs.attrs a ha
  exact ⟨⟨h1, h2, h3, fun _ => h.escape a ha⟩, h4⟩

theorem triangle_attrs {t : Triangle} (h : t.Dom env D) (pid pindex : UInt32) :
    ∃ v, attrFold (triangleAttr env) {} (t.core pid pindex ++ encodeAnyAttr t.anyAttr) = some (v, []) ∧
      v.triangle pid pindex = t.back pid pindex := by
  have hg : ∀ v : TriangleVars, v.anyAttr = [] →
      attrFold (triangleAttr env) v (encodeAnyAttr t.anyAttr) = some ({ v with anyAttr := t.anyAttr }, []) := by
    intro v hv
    exact attrFold_groups (get := TriangleVars.anyAttr) (set := fun i x => { i with anyAttr := x }) h.attrs.1 hv
      (fun s a ha => by simp [triangleAttr, ha]) (fun _ _ => rfl) (fun _ _ _ => rfl) (fun _ => rfl)
  unfold Triangle.core
  simp only [List.append_assoc, List.cons_append, List.nil_append]
  rw [attrFold_cons (s' := { v1 := t.v1 }) (by simp only [triangleAttr, uintAttr_format]; rfl),
    attrFold_cons (s' := { v1 := t.v1, v2 := t.v2 }) (by simp only [triangleAttr, uintAttr_format]; rfl),
    attrFold_cons (s' := { v1 := t.v1, v2 := t.v2, v3 := t.v3 }) (by simp only [triangleAttr, uintAttr_format]; rfl)]
  by_cases h1 : t.pid ≠ 0 ∧ (t.p1 ≠ t.p2 ∨ t.p1 ≠ t.p3)
  · rw [if_pos h1]
    simp only [List.cons_append, List.nil_append]
    rw [attrFold_cons (s' := { v1 := t.v1, v2 := t.v2, v3 := t.v3, pid := some t.pid })
        (by simp only [triangleAttr, uintAttr_format]; rfl),
      attrFold_cons (s' := { v1 := t.v1, v2 := t.v2, v3 := t.v3, pid := some t.pid, p1 := some t.p1 })
        (by simp only [triangleAttr, uintAttr_format]; rfl),
      attrFold_cons (s' := { v1 := t.v1, v2 := t.v2, v3 := t.v3, pid := some t.pid, p1 := some t.p1, p2 := some t.p2 })
        (by simp only [triangleAttr, uintAttr_format]; rfl),
      attrFold_cons (s' := { v1 := t.v1, v2 := t.v2, v3 := t.v3, pid := some t.pid, p1 := some t.p1, p2 := some t.p2, p3 := some t.p3 })
        (by simp only [triangleAttr, uintAttr_format]; rfl), hg _ rfl]
    refine ⟨_, rfl, ?_⟩
    rw [Triangle.back, if_pos h1.1]
    rfl
  · rw [if_neg h1]
    by_cases h2 : t.pid ≠ 0 ∧ (t.pid ≠ pid ∨ t.p1 ≠ pindex)
    · rw [if_pos h2]
      simp only [List.cons_append, List.nil_append]
      rw [attrFold_cons (s' := { v1 := t.v1, v2 := t.v2, v3 := t.v3, pid := some t.pid })
          (by simp only [triangleAttr, uintAttr_format]; rfl),
        attrFold_cons (s' := { v1 := t.v1, v2 := t.v2, v3 := t.v3, pid := some t.pid, p1 := some t.p1 })
          (by simp only [triangleAttr, uintAttr_format]; rfl), hg _ rfl]
      refine ⟨_, rfl, ?_⟩
      have hp : t.p1 = t.p2 ∧ t.p1 = t.p3 := by
        constructor
        · by_contra hc; exact h1 ⟨h2.1, Or.inl hc⟩
        · by_contra hc; exact h1 ⟨h2.1, Or.inr hc⟩
      rw [Triangle.back, if_pos h2.1]
      obtain ⟨_, _, _, _, _, _, _, _⟩ := t
      simp only at hp
      obtain ⟨rfl, rfl⟩ := hp
      rfl
    · rw [if_neg h2, List.nil_append, hg _ rfl]
      refine ⟨_, rfl, ?_⟩
      by_cases h3 : t.pid ≠ 0
      · have hp : t.p1 = t.p2 ∧ t.p1 = t.p3 := by
          constructor
          · by_contra hc; exact h1 ⟨h3, Or.inl hc⟩
          · by_contra hc; exact h1 ⟨h3, Or.inr hc⟩
        have hq : t.pid = pid ∧ t.p1 = pindex := by
          constructor
          · by_contra hc; exact h2 ⟨h3, Or.inl hc⟩
          · by_contra hc; exact h2 ⟨h3, Or.inr hc⟩
        rw [Triangle.back, if_pos h3]
        obtain ⟨_, _, _, _, _, _, _, _⟩ := t
        simp only at hp hq
        obtain ⟨rfl, rfl⟩ := hp
        obtain ⟨rfl, rfl⟩ := hq
        rfl
      · rw [Triangle.back, if_neg h3]
        rfl

theorem triangleOps_good {pid pindex : UInt32} : ∀ {ts : List Triangle}, (∀ t ∈ ts, t.Dom env D) →
    Good D (triangleOps pid pindex ts)
  | [], _ => .nil
  | t :: ts, h =>
    Good.append (ops := [_]) (.auto (nameOK_core (by decide +kernel)) ((h t (by simp)).attrsDom pid pindex))
      (triangleOps_good fun x hx => h x (by simp [hx]))

theorem within_triangleOps {pid pindex : UInt32} : ∀ {ts : List Triangle} {r : Regs} {m0 : Mesh},
    (∀ t ∈ ts, t.Dom cfg.env D) → r.obj.pid = pid → r.obj.pindex = pindex →
    Within cfg .triangles n (r.setMesh m0) (rd (triangleOps pid pindex ts))
      (r.setMesh { m0 with triangles := m0.triangles ++ ts.map (Triangle.back pid pindex) })
  | [], _, _, _, _, _ => by
    rw [List.map_nil, List.append_nil]
    exact Within.nil
  | t :: ts, r, m0, h, hp, hq => by
    obtain ⟨v, v1, v2⟩ := triangle_attrs (h t (by simp)) pid pindex
    have w1 := Within.auto (cfg := cfg) (n := n) (n' := coreName b!"triangle") (skip := true)
        (as := t.core pid pindex ++ encodeAnyAttr t.anyAttr)
        (d := .triangles) (d' := .triangle) (k := m0.triangles.length) (r := r.setMesh m0) (r1 := r.setMesh m0)
        (r2 := r.setMesh { m0 with triangles := m0.triangles ++ [t.back pid pindex] }) rfl (by
          simp only [child, onlyChild, fullName_core]
          rw [if_pos trivial]
          rfl) (by
          rw [((h t (by simp)).attrsDom pid pindex).read]
          simp only [start, v1, Option.map_some]
          rw [show (r.setMesh m0).obj.pid = pid from hp, show (r.setMesh m0).obj.pindex = pindex from hq, v2]
          rfl)
    have w2 := within_triangleOps (r := r) (m0 := { m0 with triangles := m0.triangles ++ [t.back pid pindex] })
      (fun x hx => h x (List.mem_cons_of_mem _ hx)) hp hq
    have := w1.seq (triangleOps_good (pid := pid) (pindex := pindex) fun x hx => h x (List.mem_cons_of_mem _ hx)).text w2
    simpa [stop, opFast, triangleOps] using this

theorem triangles_good {m : Mesh} {pid pindex : UInt32} (h : AnyDom env D b!"triangles" m.trianglesAttr)
    (ht : ∀ t ∈ m.triangles, t.Dom env D) (hr : Room pid pindex m.triangles) : Good D (m.trianglesOps pid pindex) := by
  unfold Mesh.trianglesOps
  rw [triangles_eq hr]
  exact .elem (nameOK_core (by decide +kernel)) h.attrs (triangleOps_good ht)

theorem within_triangles {m m0 : Mesh} (h : AnyDom cfg.env D b!"triangles" m.trianglesAttr)
    (ht : ∀ t ∈ m.triangles, t.Dom cfg.env D) (hr : Room r.obj.pid r.obj.pindex m.triangles)
    (h1 : m0.triangles = []) (h2 : m0.trianglesAttr = []) :
    Within cfg .mesh n (r.setMesh m0) (rd (m.trianglesOps r.obj.pid r.obj.pindex))
      (r.setMesh { m0 with
        triangles := m.triangles.map (Triangle.back r.obj.pid r.obj.pindex), trianglesAttr := m.trianglesAttr }) := by
  have hv := within_triangleOps (cfg := cfg) (n := ⟨nsCore, b!"triangles"⟩) (r := r)
    (m0 := { m0 with triangles := [], trianglesAttr := m.trianglesAttr }) ht rfl rfl
  have := Within.ops (cfg := cfg) (n := n) (n' := coreName b!"triangles") (skip := false) (as := encodeAnyAttr m.trianglesAttr)
    (d := .mesh) (d' := .triangles) (k := -1) (r := r.setMesh m0) (r1 := r.setMesh m0)
    (r2 := r.setMesh { m0 with triangles := [], trianglesAttr := m.trianglesAttr }) rfl (by
      simp only [child, fullName_core, meshChild]
      rw [if_pos trivial, if_neg (by decide +kernel), if_pos trivial]) (by
      rw [h.attrs.read]
      simp only [start, anyAttrs, Regs.setMesh, Option.getD_some, h2]
      rw [fold_any h.1]
      simp [Object.modMesh, h1]) hv
  simpa [stop, Mesh.trianglesOps, opStart, triangles_eq hr] using this

/-! ## The mesh -/

/-- The mesh can be written and read back. -/
structure Mesh.Dom (env : Env) (D : List (Str × Str)) (txt : Prop) (pid pindex : UInt32) (m : Mesh) : Prop where
  attrs : AnyDom env D b!"mesh" m.anyAttr
  vertices : AnyDom env D b!"vertices" m.verticesAttr
  triangles : AnyDom env D b!"triangles" m.trianglesAttr
  triangle : ∀ t ∈ m.triangles, t.Dom env D
  room : Room pid pindex m.triangles
  any : ∀ e ∈ m.any.take 1, e.Dom env D txt

/-- What the mesh of an object with the given properties becomes. -/
def Mesh.back (prec : Int) (pid pindex : UInt32) (m : Mesh) : Mesh :=
  { m with
    vertices := m.vertices.map (Point3D.back prec)
    triangles := m.triangles.map (Triangle.back pid pindex)
    any := anyBack prec m.any }

theorem Mesh.ops_eq (m : Mesh) (pid pindex : UInt32) : m.ops prec pid pindex =
    .start (coreName b!"mesh") (encodeAnyAttr m.anyAttr) false false ::
      (m.verticesOps prec ++ (m.trianglesOps pid pindex ++ encodeAny prec m.any)) ++ [.stop (coreName b!"mesh")] := by
  simp [Mesh.ops, opStart]

theorem Mesh.Dom.good {m : Mesh} {pid pindex : UInt32} (h : m.Dom env D txt pid pindex) : Good D (m.ops prec pid pindex) := by
  rw [Mesh.ops_eq]
  exact .elem (nameOK_core (by decide +kernel)) h.attrs.attrs
    (.append (vertices_good h.vertices) (.append (triangles_good h.triangles h.triangle h.room) (any_good h.any)))

theorem Mesh.Dom.within {m : Mesh} (h : m.Dom cfg.env D txt r.obj.pid r.obj.pindex) (ht : txt → ∀ i t, cfg.mem i t = t) :
    ∃ v w, Within cfg .object n r (rd (m.ops prec r.obj.pid r.obj.pindex))
      ({ r with slice := v, beamSet := w }.setMesh (m.back prec r.obj.pid r.obj.pindex)) := by
  have w1 := within_vertices (cfg := cfg) (n := ⟨nsCore, b!"mesh"⟩) (r := r) (prec := prec) (m := m)
    (m0 := { Mesh.zero with anyAttr := m.anyAttr }) h.vertices rfl rfl
  have w2 := within_triangles (cfg := cfg) (n := ⟨nsCore, b!"mesh"⟩) (r := r) (m := m)
    (m0 := { Mesh.zero with
      anyAttr := m.anyAttr, vertices := m.vertices.map (Point3D.back prec), verticesAttr := m.verticesAttr })
    h.triangles h.triangle h.room rfl rfl
  have w3 : ∃ v w, Within cfg .mesh ⟨nsCore, b!"mesh"⟩ (r.setMesh { m.back prec r.obj.pid r.obj.pindex with any := [] })
      (rd (encodeAny prec m.any)) ({ r with slice := v, beamSet := w }.setMesh (m.back prec r.obj.pid r.obj.pindex)) := by
    cases hm : m.any with
    | nil =>
      refine ⟨r.slice, r.beamSet, ?_⟩
      have e : m.back prec r.obj.pid r.obj.pindex = { m.back prec r.obj.pid r.obj.pindex with any := [] } := by
        simp [Mesh.back, hm, anyBack]
      rw [e]
      exact Within.nil
    | cons x xs =>
      obtain ⟨v, w, hw⟩ := (h.any x (by simp [hm])).within (cfg := cfg) (loc := .meshAny) (n := ⟨nsCore, b!"mesh"⟩) (prec := prec)
        (r := r.setMesh { m.back prec r.obj.pid r.obj.pindex with any := [] }) ht (by simp) rfl
      refine ⟨v, w, ?_⟩
      have e : m.back prec r.obj.pid r.obj.pindex =
          { m.back prec r.obj.pid r.obj.pindex with any := [] ++ [x.back prec] } := by
        simp [Mesh.back, hm, anyBack]
      rw [e]
      exact hw
  obtain ⟨v, w, w3⟩ := w3
  refine ⟨v, w, ?_⟩
  rw [Mesh.ops_eq]
  exact Within.ops (cfg := cfg) (n := n) (n' := coreName b!"mesh") (skip := false) (as := encodeAnyAttr m.anyAttr)
    (d := .object) (d' := .mesh) (k := -1) (r := r) (r1 := r)
    (r2 := r.setMesh { Mesh.zero with anyAttr := m.anyAttr }) rfl (by
      simp only [child, fullName_core]
      rw [if_pos trivial]) (by
      rw [h.attrs.attrs.read]
      simp only [start, anyAttrs]
      rw [fold_any h.attrs.1]
      rfl) (w1.seq (noText_append (triangles_good h.triangles h.triangle h.room).text (any_good (prec := prec) h.any).text)
        (w2.seq (any_good (prec := prec) h.any).text w3))

end

end Go3mf
