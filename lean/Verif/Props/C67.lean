import Verif.Lemmas.Grow
import Verif.Props.C28
import Verif.Props.C47
import Verif.Props.C54

/-!
# C67: an imported STL file gives a valid model, which can be saved and loaded
-/

namespace Go3mf
open Spec Stl

/-- The facets make an acceptable mesh: three different vertices, four facets, and no facet with two corners in the same
cell. -/
structure Spec.SoundFacets (vs : List Point3D) (cs : List (Point3D × Point3D × Point3D)) : Prop where
  vertices : 3 ≤ vs.length
  facets : 4 ≤ cs.length
  corners : ∀ c ∈ cs, [cellOf c.1, cellOf c.2.1, cellOf c.2.2].Nodup

/-- The object that is added. -/
def Spec.importedObject (m : Model) (mesh : Mesh) : Object := { Object.zero with id := m.resources.unusedID, mesh := some mesh }

theorem imported_grown {m m' : Model} {mesh : Mesh} (h : Imported m m' mesh) : m' = grown m (importedObject m mesh) := by
  obtain ⟨id, h1, rfl⟩ := h
  exact h1

theorem index_cell {ps : List Point3D} {p q : Point3D} {i j : UInt32} (hi : Corner (firsts cellOf ps) p i)
    (hj : Corner (firsts cellOf ps) q j) : i = j ↔ cellOf p = cellOf q := by
  obtain ⟨a, h1, h2⟩ := hi
  obtain ⟨b, h3, h4⟩ := hj
  constructor
  · rintro rfl
    rw [h1] at h3
    cases h3
    rw [← h2, ← h4]
  · intro h
    have hn := firsts_nodup cellOf ps
    rw [List.pairwise_iff_getElem] at hn
    obtain ⟨h5, h6⟩ := List.getElem?_eq_some_iff.1 h1
    obtain ⟨h7, h8⟩ := List.getElem?_eq_some_iff.1 h3
    rcases Nat.lt_trichotomy i.toNat j.toNat with hlt | heq | hlt
    · exact absurd (by rw [h6, h8, h2, h4, h]) (hn _ _ h5 h7 hlt)
    · exact UInt32.toNat_inj.1 heq
    · exact absurd (by rw [h6, h8, h2, h4, h]) (hn _ _ h7 h5 hlt)

/-- What the validator says of the new object alone. -/
theorem imported_object {m : Model} {p : Str} {ps : List Point3D} {cs : List (Point3D × Point3D × Point3D)} {ts : List Triangle}
    {id : UInt32} (hid : id ≠ 0) (hv : (firsts cellOf ps).length < 2 ^ 32)
    (hts : List.Forall₂ (HasCorners (firsts cellOf ps)) cs ts) :
    (∀ loc l, ¬ ObjectRule m p { Object.zero with id := id, mesh := some (plainMesh (firsts cellOf ps) ts) } loc l) ↔
      SoundFacets (firsts cellOf ps) cs := by
  constructor
  · intro h
    refine ⟨?_, ?_, ?_⟩
    · by_contra hlt
      exact h _ _ (.mesh rfl (.vertices (.inl rfl) (by show (firsts cellOf ps).length < 3; omega)))
    · by_contra hlt
      exact h _ _ (.mesh rfl (.triangles (.inl rfl) (by show ts.length < 4; rw [← hts.length_eq]; omega) rfl))
    · intro c hc
      obtain ⟨i, hi⟩ := List.mem_iff_getElem?.1 hc
      obtain ⟨t, ht, h1, h2, h3, -⟩ := forall2_getElem hts hi
      by_contra hn
      refine h _ _ (.mesh rfl (.repeated (i := i) (t := t) ht ?_))
      simpa [index_cell h1 h2, index_cell h1 h3, index_cell h2 h3] using hn
  · rintro ⟨h1, h2, h3⟩ loc l hr
    cases hr with
    | id h => exact hid h
    | pid h => exact h rfl
    | shape h => cases h
    | missing _ h => exact h rfl
    | property _ h => exact h rfl
    | componentsPid h => cases h
    | component h => cases h
    | mesh h hr =>
      cases h
      have hcor : ∀ (i : Nat) (t : Triangle), ts[i]? = some t → ∃ c ∈ cs, HasCorners (firsts cellOf ps) c t := by
        intro i t ht
        obtain ⟨c, hc, h⟩ := forall2_getElem hts.flip ht
        exact ⟨c, List.mem_of_getElem? hc, h⟩
      cases hr with
      | vertices _ h => exact absurd h (by show ¬ (firsts cellOf ps).length < 3; omega)
      | triangles _ h => exact absurd h (by show ¬ ts.length < 4; rw [← hts.length_eq]; omega)
      | repeated ht h =>
        obtain ⟨c, hc, g1, g2, g3, -⟩ := hcor _ _ ht
        have := h3 c hc
        exact h (by simpa [index_cell g1 g2, index_cell g1 g3, index_cell g2 g3] using this)
      | @vertex i t v ht hvm h =>
        obtain ⟨c, hc, ⟨q1, g1, -⟩, ⟨q2, g2, -⟩, ⟨q3, g3, -⟩, -⟩ := hcor _ _ ht
        have hlt : v.toNat < (firsts cellOf ps).length := by
          simp only [List.mem_cons, List.not_mem_nil, or_false] at hvm
          rcases hvm with rfl | rfl | rfl
          · exact (List.getElem?_eq_some_iff.1 g1).1
          · exact (List.getElem?_eq_some_iff.1 g2).1
          · exact (List.getElem?_eq_some_iff.1 g3).1
        rw [show (plainMesh (firsts cellOf ps) ts).vertices = firsts cellOf ps from rfl, Nat.mod_eq_of_lt hv] at h
        omega
      | missing ht h =>
        obtain ⟨c, hc, -, -, -, g⟩ := hcor _ _ ht
        rw [g] at h
        exact h rfl
      | property ht h =>
        obtain ⟨c, hc, -, -, -, g⟩ := hcor _ _ ht
        rw [g] at h
        exact h rfl

/-- The identifiers of the root part of a model without errors are valid, if no asset has the identifier 0. -/
theorem accepted_ids {env : Env} {m : Model} (h : ∀ loc l p, ¬ ModelRule env m loc l p)
    (h0 : ∀ a ∈ m.resources.assets, a.identify ≠ 0) : ValidIDs m.resources := by
  have hp : ∀ loc l, ¬ PartRule env m (rootPath m) m.resources loc l := fun loc l hr => h _ _ _ (.root hr)
  have ho : ∀ o ∈ m.resources.objects, o.id ≠ 0 := by
    intro o hm hz
    obtain ⟨i, hi⟩ := List.mem_iff_getElem?.1 hm
    exact hp _ _ (.object hi (.id hz))
  have hpair : ∀ {α : Type} (f : α → UInt32) (l : List α),
      (∀ (i : Nat) (a b : α), l[i]? = some a → b ∈ l.take i → f b ≠ f a) → (l.map f).Nodup := by
    intro α f l hl
    rw [List.Nodup, List.pairwise_iff_getElem]
    intro i j hi hj hij
    simp only [List.length_map] at hi hj
    simp only [List.getElem_map]
    exact hl j _ _ (List.getElem?_eq_getElem hj) (List.mem_take_iff_getElem.2 ⟨i, by omega, rfl⟩)
  refine ⟨?_, ?_⟩
  · simp only [idsOf, List.mem_append, List.mem_map, not_or, not_exists, not_and]
    exact ⟨h0, ho⟩
  · rw [idsOf, List.nodup_append]
    refine ⟨hpair _ _ ?_, hpair _ _ ?_, ?_⟩
    · intro i a b hi hb he
      exact hp _ _ (.assetId hi (h0 a (List.mem_of_getElem? hi)) hb he)
    · intro i a b hi hb he
      exact hp _ _ (.objectId hi (ho a (List.mem_of_getElem? hi)) hb he)
    · simp only [List.mem_map, forall_exists_index, and_imp, forall_apply_eq_imp_iff₂]
      intro a ha o hm he
      obtain ⟨i, hi⟩ := List.mem_iff_getElem?.1 hm
      exact hp _ _ (.objectAssetId hi (ho o hm) ha he)

/-- **C67**: a model that is accepted is still accepted after the import, exactly if the facets make an acceptable mesh.  It
must not use the production extension, nor have objects with slices outside of the root part, nor assets with the identifier 0;
see below. -/
theorem C67_valid_partial (env : Env) (m m' : Model) (hwf : m.WF) (hacc : m.Accepts env) (hprod : ¬ Active env m .production)
    (hsl : SlicesInRoot env m) (hpath : ∀ c, ([], c) ∉ m.childs) (h0 : ∀ a ∈ m.resources.assets, a.identify ≠ 0)
    (hlen : m.resources.assets.length + m.resources.objects.length < 2 ^ 32 - 1)
    (ps : List Point3D) (hv : (firsts cellOf ps).length < 2 ^ 32) (cs : List (Point3D × Point3D × Point3D)) (ts : List Triangle)
    (hts : List.Forall₂ (HasCorners (firsts cellOf ps)) cs ts) (h : Imported m m' (plainMesh (firsts cellOf ps) ts)) :
    m'.Accepts env ↔ SoundFacets (firsts cellOf ps) cs := by
  have hno := (C63_accepts env m hwf [] hacc).1 rfl
  have hids := C01_unusedID_partial _ (accepted_ids hno h0) hlen
  have hfree := hids.2.1
  simp only [idsOf, List.mem_append, List.mem_map, not_or, not_exists, not_and] at hfree
  have hid : m.resources.unusedID ≠ 0 := (UInt32.pos_iff_ne_zero).1 hids.1
  rw [imported_grown h]
  have hadd : Addable m (importedObject m (plainMesh (firsts cellOf ps) ts)) :=
    ⟨fun x hx => hfree.2 x hx, rfl, rfl, ⟨_, rfl, rfl⟩, rfl⟩
  have hnamed : NamedParts m := by
    rintro p c hc (rfl | hp)
    · exact hpath c hc
    · exact hno _ _ _ (.childName hc hp)
  have hobj := imported_object (m := m) (p := rootPath m) hid hv hts
  constructor
  · intro hacc'
    rw [← imported_object (m := grown m (importedObject m (plainMesh (firsts cellOf ps) ts))) (p := rootPath m) hid hv hts]
    intro loc l hr
    refine (C63_accepts env _ (by exact hwf) [] hacc').1 rfl _ _ _ (.root (.object (i := m.resources.objects.length) ?_ hr))
    exact List.getElem?_concat_length
  · intro hs
    obtain ⟨errs, he⟩ := Grow.returns hadd hsl hwf ⟨[], hacc⟩
    have : errs = [] := by
      rw [C63_accepts env _ (by exact hwf) errs he]
      intro loc l p hr
      rcases Grow.modelRule hadd hid (fun a ha => hfree.1 a ha) hprod hnamed hsl hr with ⟨loc', l', p', h1⟩ | ⟨loc', l', h1⟩
      · exact hno _ _ _ h1
      · exact hobj.2 hs _ _ h1
    subst this
    exact he

/-- **C67**, for the whole way from the bytes of a binary file. -/
theorem C67_binary_partial (env : Env) (ctx : Ctx) (hctx : ∀ n, ctx n = false) (m : Model) (hwf : m.WF) (hacc : m.Accepts env)
    (hprod : ¬ Active env m .production) (hsl : SlicesInRoot env m) (hpath : ∀ c, ([], c) ∉ m.childs)
    (h0 : ∀ a ∈ m.resources.assets, a.identify ≠ 0)
    (hlen : m.resources.assets.length + m.resources.objects.length < 2 ^ 32 - 1)
    (header : Str) (hh : header.length = 80) (fs : List Facet) (hn : fs.length < 2 ^ 32)
    (hv : (firsts cellOf (points fs)).length < 2 ^ 32) (hl : 300 ≤ (binaryFile header fs).length)
    (hb : (∀ b ∈ header.take 5, b < 128) ∧ ¬ StartsSolid header) :
    ∃ m', decode ctx ⟨binaryFile header fs, true⟩ m = some (m', none) ∧
      (m'.Accepts env ↔ SoundFacets (firsts cellOf (points fs)) (corners fs)) := by
  obtain ⟨m', ts, h1, h2, h3⟩ := C47_binary_partial ctx hctx m header hh fs hn (by omega) [] true (by simpa using hl) (.inr hb)
  rw [List.append_nil] at h1
  exact ⟨m', h1, C67_valid_partial env m m' hwf hacc hprod hsl hpath h0 hlen _ hv _ ts h3 h2⟩

/-- **C67**, for the whole way from the bytes of an ASCII file. -/
theorem C67_ascii_partial (env : Env) (ctx : Ctx) (hctx : ∀ n, ctx n = false) (m : Model) (hwf : m.WF) (hacc : m.Accepts env)
    (hprod : ¬ Active env m .production) (hsl : SlicesInRoot env m) (hpath : ∀ c, ([], c) ∉ m.childs)
    (h0 : ∀ a ∈ m.resources.assets, a.identify ≠ 0)
    (hlen : m.resources.assets.length + m.resources.objects.length < 2 ^ 32 - 1)
    (ls : List Str) (last : Str) (hls : ShortLines (ls ++ [last]))
    (hv : (firsts cellOf ((ls ++ [last]).filterMap vertexLine)).length < 2 ^ 32)
    (hl : 300 ≤ (textOf ls last).length) (ha : ∀ b ∈ (textOf ls last).take 300, b < 128) (hs : StartsSolid (textOf ls last)) :
    ∃ m', decode ctx ⟨textOf ls last, true⟩ m = some (m', none) ∧
      (m'.Accepts env ↔ SoundFacets (firsts cellOf ((ls ++ [last]).filterMap vertexLine))
        (triples ((ls ++ [last]).filterMap vertexLine))) := by
  obtain ⟨m', ts, h1, h2, h3⟩ := C47_ascii_partial ctx hctx m ls last hls (by omega) hl ha hs
  exact ⟨m', h1, C67_valid_partial env m m' hwf hacc hprod hsl hpath h0 hlen _ hv _ ts h3 h2⟩

/-! ## Saving -/

theorem text_nil : Text [] := ⟨[], by simp, rfl⟩

/-- The new object and the new item can be written. -/
theorem C67_writable (env : Env) (prec : Int) (m m' : Model) (vs : List Point3D) (cs : List (Point3D × Point3D × Point3D))
    (ts : List Triangle) (hts : List.Forall₂ (HasCorners vs) cs ts) (h : Imported m m' (plainMesh vs ts)) (hw : Writable env m)
    (hk : ModelOk prec m) : Writable env m' ∧ ModelOk prec m' := by
  rw [imported_grown h]
  have ht : ∀ t ∈ ts, t.anyAttr = [] := by
    intro t htm
    obtain ⟨i, hi⟩ := List.mem_iff_getElem?.1 htm
    obtain ⟨c, -, -, -, -, g⟩ := forall2_getElem hts.flip hi
    rw [g]
    rfl
  have ho : ObjectWritable env m.extensions m.extensions (importedObject m (plainMesh vs ts)) := by
    refine ⟨text_nil, text_nil, text_nil, groupWritable_nil, ?_, by rintro c ⟨⟩, attrsOk_nil, by rintro x ⟨⟩; exact undisturbed_plain ht⟩
    rintro x ⟨⟩
    refine ⟨attrsOk_nil, attrsOk_nil, attrsOk_nil, fun t htm => ?_, by rintro e ⟨⟩⟩
    have := ht t htm
    exact ⟨by rw [this]; exact attrsOk_nil, by rw [this]; rintro v ⟨⟩⟩
  constructor
  · obtain ⟨a, b, c, d, e, f, g, i, j, k, l, n, o⟩ := hw
    refine ⟨a, b, c, d, e, f, g, i, ?_, k, ?_, n, o⟩
    · intro x hx
      rcases List.mem_append.1 hx with hx | hx
      · exact j x hx
      · rw [List.mem_singleton.1 hx]
        exact ho
    · intro x hx
      rcases Grow.items_grown hx with hx | rfl
      · exact l x hx
      · exact ⟨text_nil, groupWritable_nil, attrsOk_nil⟩
  · obtain ⟨a, b, c⟩ := hk
    refine ⟨a, ?_, c⟩
    intro x hx
    rcases List.mem_append.1 hx with hx | hx
    · exact b x hx
    · rw [List.mem_singleton.1 hx]
      refine ⟨.inr rfl, by rintro ⟨⟩, ?_⟩
      rintro y ⟨⟩
      exact ⟨by simp [plainMesh, Mesh.zero], by rintro e ⟨⟩⟩

/-- The coordinates are numbers, of at most this size. -/
def Spec.Bounded (B : ℚ) (p : Point3D) : Prop := ∀ x ∈ [p.x, p.y, p.z], x.isFinite = true ∧ |floatVal x| ≤ B

/-- No coordinate differs by more than `d`. -/
def Spec.Close (d : ℚ) (p q : Point3D) : Prop :=
  |floatVal p.x - floatVal q.x| ≤ d ∧ |floatVal p.y - floatVal q.y| ≤ d ∧ |floatVal p.z - floatVal q.z| ≤ d

/-- The triangle has these corners, up to `d`. -/
def Spec.CloseCorners (d : ℚ) (vs : List Point3D) (c : Point3D × Point3D × Point3D) (t : Triangle) : Prop :=
  (∃ q, vs[t.v1.toNat]? = some q ∧ Close d c.1 q) ∧ (∃ q, vs[t.v2.toNat]? = some q ∧ Close d c.2.1 q) ∧
    ∃ q, vs[t.v3.toNat]? = some q ∧ Close d c.2.2 q

theorem near_diff {prec : Int} {x y : F32} (hx : x.isFinite = true) (h : Near prec x y) :
    |floatVal x - floatVal y| ≤ 1 / 10 ^ prec.toNat := by
  rcases F32.prec_cases prec with hp | ⟨n, rfl⟩
  · rw [Near, if_pos hp] at h
    rw [h, sub_self, abs_zero]
    positivity
  rw [Near, if_neg (by omega), Int.toNat_natCast] at h
  rw [Int.toNat_natCast]
  obtain ⟨-, -, k, h1, h2⟩ := h.1 hx
  have h3 := abs_sub_le (floatVal x) ((k : ℚ) / 10 ^ n) (floatVal y)
  rw [abs_sub_comm (floatVal x) ((k : ℚ) / 10 ^ n)] at h3
  have h4 : (1 : ℚ) / 10 ^ n = 1 / 2 / 10 ^ n + 1 / 2 / 10 ^ n := by ring
  linarith

theorem corner_close {prec : Int} {B : ℚ} (hB : B ≤ 2147) {vs vs' : List Point3D} (hvs : ∀ p ∈ vs, Bounded B p)
    (hn : List.Forall₂ (NearPoint3 prec) vs vs') {p : Point3D} (hp : Bounded B p) {i : UInt32} (hc : Corner vs p i) :
    ∃ q, vs'[i.toNat]? = some q ∧ Close (1 / 10 ^ prec.toNat + 1 / 10 ^ 6 + B / 2 ^ 23) p q := by
  obtain ⟨v, h1, h2⟩ := hc
  obtain ⟨q, h3, h4⟩ := forall2_getElem hn h1
  have hv := hvs v (List.mem_of_getElem? h1)
  have hnear := C54_near_partial p v (by
    intro x hx
    have : x ∈ [p.x, p.y, p.z] ∨ x ∈ [v.x, v.y, v.z] := by
      simp only [List.mem_cons, List.not_mem_nil, or_false] at hx ⊢
      tauto
    rcases this with h | h
    · exact ⟨(hp x h).1, (hp x h).2.trans hB⟩
    · exact ⟨(hv x h).1, (hv x h).2.trans hB⟩) h2.symm
  refine ⟨q, h3, ?_⟩
  have key : ∀ a b c : F32, (a.isFinite = true ∧ |floatVal a| ≤ B) → (b.isFinite = true ∧ |floatVal b| ≤ B) → Near prec b c →
      |floatVal a - floatVal b| ≤ 1 / 10 ^ 6 + (|floatVal a| + |floatVal b|) / 2 ^ 24 →
      |floatVal a - floatVal c| ≤ 1 / 10 ^ prec.toNat + 1 / 10 ^ 6 + B / 2 ^ 23 := by
    intro a b c ha hb hbc hab
    have g1 := near_diff hb.1 hbc
    have g2 := abs_sub_le (floatVal a) (floatVal b) (floatVal c)
    have g3 : (|floatVal a| + |floatVal b|) / 2 ^ 24 ≤ (B + B) / 2 ^ 24 := by
      apply div_le_div_of_nonneg_right (add_le_add ha.2 hb.2) (by positivity)
    have g4 : (B + B) / 2 ^ 24 = B / 2 ^ 23 := by ring
    linarith
  exact ⟨key _ _ _ (hp _ (by simp)) (hv _ (by simp)) h4.x (hnear (p.x, v.x) (by simp)),
    key _ _ _ (hp _ (by simp)) (hv _ (by simp)) h4.y (hnear (p.y, v.y) (by simp)),
    key _ _ _ (hp _ (by simp)) (hv _ (by simp)) h4.z (hnear (p.z, v.z) (by simp))⟩

theorem forall2_concat {α β : Type} {R : α → β → Prop} {l : List α} {a : α} {l' : List β} (h : List.Forall₂ R (l ++ [a]) l') :
    ∃ k b, l' = k ++ [b] ∧ k.length = l.length ∧ R a b := by
  induction l generalizing l' with
  | nil =>
    cases h with
    | cons h1 h2 =>
      cases h2
      exact ⟨[], _, rfl, rfl, h1⟩
  | cons x l ih =>
    cases h with
    | cons h1 h2 =>
      obtain ⟨k, b, rfl, h3, h4⟩ := ih h2
      exact ⟨_ :: k, b, rfl, by simp [h3], h4⟩

theorem forall2_comp {α β γ : Type} {R : α → β → Prop} {S : β → γ → Prop} {T : α → γ → Prop} {P : α → Prop}
    (hT : ∀ a b c, R a b → P a → S b c → T a c) {l : List α} {k : List β} {n : List γ} (h : List.Forall₂ R l k)
    (h' : List.Forall₂ S k n) (hP : ∀ a ∈ l, P a) : List.Forall₂ T l n := by
  induction h generalizing n with
  | nil => cases h'; exact .nil
  | cons h1 _ ih =>
    cases h' with
    | cons h2 h3 => exact .cons (hT _ _ _ h1 (hP _ (by simp)) h2) (ih h3 fun a ha => hP a (by simp [ha]))

/-- What is near to the model with an imported mesh has its triangles. -/
theorem near_imported {prec : Int} {m m' m'' : Model} {ps : List Point3D} {cs : List (Point3D × Point3D × Point3D)}
    {ts : List Triangle} (hts : List.Forall₂ (HasCorners (firsts cellOf ps)) cs ts)
    (h : Imported m m' (plainMesh (firsts cellOf ps) ts)) (h2 : NearModel prec m' m'')
    {B : ℚ} (hB : B ≤ 2147) (hps : ∀ p ∈ ps, Bounded B p) (hcs : ∀ c ∈ cs, ∀ p ∈ [c.1, c.2.1, c.2.2], p ∈ ps) :
    ∃ objs o mesh, m''.resources.objects = objs ++ [o] ∧ objs.length = m.resources.objects.length ∧
      o.id = m.resources.unusedID ∧ o.mesh = some mesh ∧
      List.Forall₂ (CloseCorners (1 / 10 ^ prec.toNat + 1 / 10 ^ 6 + B / 2 ^ 23) mesh.vertices) cs mesh.triangles := by
  have ho := h2.resources.objects
  rw [imported_grown h, show (grown m (importedObject m (plainMesh (firsts cellOf ps) ts))).resources.objects =
    m.resources.objects ++ [importedObject m (plainMesh (firsts cellOf ps) ts)] from rfl] at ho
  obtain ⟨objs, o, h3, h4, h5⟩ := forall2_concat ho
  obtain ⟨mesh, h6, h7⟩ := rel_some h5.mesh rfl
  refine ⟨objs, o, mesh, h3, h4, h5.id, h6, ?_⟩
  have hvs : ∀ p ∈ firsts cellOf ps, Bounded B p := fun p hp => hps p (firsts_filter_mem cellOf ps p hp)
  refine forall2_comp (fun c t t' hc hin ht => ?_) hts h7.triangles hcs
  obtain ⟨g1, g2, g3, -⟩ := hc
  rw [CloseCorners, ht.v1, ht.v2, ht.v3]
  exact ⟨corner_close hB hvs h7.vertices (hps _ (hin _ (by simp))) g1,
    corner_close hB hvs h7.vertices (hps _ (hin _ (by simp))) g2,
    corner_close hB hvs h7.vertices (hps _ (hin _ (by simp))) g3⟩

/-- **C67**: when a model with an imported mesh is written and read again, the last object has a triangle for every facet of
the STL file, in the same order, and its corners are where they were, up to the decimals that are written, the size of the cells
and the precision of float32. -/
theorem C67_saved_partial (env : Env) (mem : Nat → Str → Str) (prec : Int) (m m' : Model) (hw : Writable env m)
    (hk : ModelOk prec m) (ps : List Point3D) (cs : List (Point3D × Point3D × Point3D)) (ts : List Triangle)
    (hts : List.Forall₂ (HasCorners (firsts cellOf ps)) cs ts) (h : Imported m m' (plainMesh (firsts cellOf ps) ts))
    (B : ℚ) (hB : B ≤ 2147) (hps : ∀ p ∈ ps, Bounded B p) (hcs : ∀ c ∈ cs, ∀ p ∈ [c.1, c.2.1, c.2.2], p ∈ ps) :
    ∃ m'' objs o mesh, unmarshalModel env mem (printOps (fun _ => []) (m'.ops prec)) .zero = some (m'', .ok) ∧
      m''.resources.objects = objs ++ [o] ∧ objs.length = m.resources.objects.length ∧ o.id = m.resources.unusedID ∧
      o.mesh = some mesh ∧
      List.Forall₂ (CloseCorners (1 / 10 ^ prec.toNat + 1 / 10 ^ 6 + B / 2 ^ 23) mesh.vertices) cs mesh.triangles := by
  obtain ⟨hw', hk'⟩ := C67_writable env prec m m' _ cs ts hts h hw hk
  obtain ⟨m'', h1, h2⟩ := C28_marshal env mem prec m' hw' hk'
  obtain ⟨objs, o, mesh, h3⟩ := near_imported hts h h2 hB hps hcs
  exact ⟨m'', objs, o, mesh, h1, h3⟩

/-! ## What is missing -/

/-- With the production extension, the new object lacks a UUID, and the model is rejected. -/
theorem C67_production_false (env : Env) (m m' : Model) (mesh : Mesh) (hwf : m.WF) (hprod : Active env m .production)
    (h : Imported m m' mesh) : ¬ m'.Accepts env := by
  rw [imported_grown h]
  intro hacc
  refine (C63_accepts env _ (by exact hwf) [] hacc).1 rfl _ _ _
    (.root (.production (i := m.resources.objects.length) (o := importedObject m mesh) hprod ?_ (.missing rfl)))
  exact List.getElem?_concat_length

/-- Such a model, which is accepted: the build has a UUID, and there is nothing in it. -/
def Spec.emptyProduction : Model :=
  { Model.zero with
    extensions := [⟨nsProduction, b!"p", true⟩]
    build := ⟨[], [.prodBuild b!"f47ac10b-58cc-0372-8567-0e02b2c3d479"]⟩ }

example : Spec.emptyProduction.WF ∧ Spec.emptyProduction.Accepts (.ascii true true true true) ∧
    Active (.ascii true true true true) Spec.emptyProduction .production :=
  ⟨by decide, accepts_of 1 (by decide +kernel), rfl, _, List.mem_singleton.2 rfl, rfl⟩

/-- A tetrahedron, and a file with five facets, the last of which is there twice. -/
def exTetra : List Facet :=
  let a : Spec.Vertex := ⟨0, 0, 0⟩
  let b : Spec.Vertex := ⟨0x40000000, 0, 0⟩
  let c : Spec.Vertex := ⟨0, 0x40000000, 0⟩
  let d : Spec.Vertex := ⟨0, 0, 0x40000000⟩
  [⟨0, 0, 0, a, c, b, 0, 0⟩, ⟨0, 0, 0, a, b, d, 0, 0⟩, ⟨0, 0, 0, b, c, d, 0, 0⟩, ⟨0, 0, 0, c, a, d, 0, 0⟩,
    ⟨0, 0, 0, c, a, d, 0, 0⟩]
@[inherit_doc exTetra] def exTetraFile : Str := binaryFile (List.replicate 80 32) exTetra

/-- The result of the import is accepted. -/
def Spec.importAccepted (env : Env) (m : Model) : Option Bool :=
  (decode (fun _ => false) ⟨exTetraFile, true⟩ m).bind fun r => (r.1.validateFuel env 9).map List.isEmpty

/-- An asset of an unknown extension without identifier, next to the object 1: the new object gets the identifier 1, too. -/
def Spec.zeroAsset : Model :=
  { Model.zero with
    resources := { Resources.zero with
      assets := [.unknown 0 [.start ⟨b!"http://x.com/y", b!"z"⟩ [], .stop ⟨b!"http://x.com/y", b!"z"⟩]]
      objects := [{ Object.zero with id := 1, type := .support, mesh := some (Spec.oneTriangle 0 0) }] } }

theorem C67_zero_false : Spec.zeroAsset.Accepts (.ascii true true true true) ∧
    Spec.importAccepted (.ascii true true true true) Spec.zeroAsset = some false :=
  ⟨accepts_of 1 (by decide +kernel), by decide +kernel⟩

/-- The part `/a` has an object 1 with slices, and an object 2, which is not in the build and in which the object 1 is tilted. -/
def Spec.tiltedElsewhere : Model :=
  { Model.zero with
    extensions := [⟨nsSlices, b!"s", false⟩]
    resources := { Resources.zero with
      objects := [{ Object.zero with id := 1, type := .support, mesh := some (Spec.oneTriangle 0 0) }] }
    childs := [(b!"/a", { ChildModel.zero with
      resources := { Resources.zero with
        assets := [.res (.sliceStack ⟨5, .zero, [⟨.one, [], []⟩], []⟩)]
        objects := [
          { Object.zero with id := 1, type := .support, mesh := some (Spec.oneTriangle 0 0), anyAttr := [.sliceObject 5 .full] },
          { Object.zero with
            id := 2
            components := some ⟨[{ Component.zero with objectID := 1, transform := { Matrix.identity with m2 := .one } }], []⟩ }] } })] }

/-- The validator takes the new item, which refers to the object 2 of the root part, for the object 2 of the part `/a`. -/
theorem C67_slices_false : Spec.tiltedElsewhere.WF ∧ Spec.tiltedElsewhere.Accepts (.ascii true true true true) ∧
    Spec.importAccepted (.ascii true true true true) Spec.tiltedElsewhere = some false :=
  ⟨by decide, accepts_of 1 (by decide +kernel), by decide +kernel⟩

/- The import of the tetrahedron into the empty model is accepted. -/
example : Spec.importAccepted (.ascii true true true true) .zero = some true := by decide +kernel

/- The conditions of the theorems hold. -/
example : ∃ m', decode (fun _ => false) ⟨exTetraFile, true⟩ .zero = some (m', none) ∧ m'.Accepts (.ascii true true true true) := by
  obtain ⟨m', h1, h2⟩ := C67_binary_partial (.ascii true true true true) (fun _ => false) (fun _ => rfl) .zero (by decide)
    (accepts_of 1 (by decide +kernel)) (by rintro ⟨-, e, he, -⟩; cases he) (by rintro ⟨-, e, he, -⟩; cases he)
    (by rintro c ⟨⟩) (by rintro a ⟨⟩) (by decide) (List.replicate 80 32) (by decide) exTetra (by decide) (by decide +kernel)
    (by decide +kernel) ⟨by decide, by unfold StartsSolid; decide⟩
  exact ⟨m', h1, h2.2 ⟨by decide +kernel, by decide, by decide +kernel⟩⟩

example : ∃ m' m'' o mesh, decode (fun _ => false) ⟨exTetraFile, true⟩ .zero = some (m', none) ∧
    unmarshalModel (.ascii true true true true) (fun _ s => s) (printOps (fun _ => []) (m'.ops 4)) .zero = some (m'', .ok) ∧
      m''.resources.objects = [o] ∧ o.mesh = some mesh ∧
      List.Forall₂ (CloseCorners (1 / 10 ^ 4 + 1 / 10 ^ 6 + 2 / 2 ^ 23) mesh.vertices) (corners exTetra) mesh.triangles := by
  obtain ⟨m', ts, h1, h2, h3⟩ := C47_binary_partial (fun _ => false) (fun _ => rfl) .zero (List.replicate 80 32) (by decide) exTetra
    (by decide) (by decide +kernel) [] true (by decide +kernel) (.inr ⟨by decide, by unfold StartsSolid; decide⟩)
  rw [List.append_nil] at h1
  have hw : Writable (.ascii true true true true) .zero :=
    ⟨by rintro x ⟨⟩, by decide, text_nil, text_nil, attrsOk_nil, by rintro g ⟨⟩, by rintro g ⟨⟩, by rintro g ⟨⟩, by rintro g ⟨⟩,
      attrsOk_nil, by rintro g ⟨⟩, attrsOk_nil, by rintro g ⟨⟩⟩
  have hk : ModelOk 4 .zero := ⟨by rintro g ⟨⟩, by rintro g ⟨⟩, ⟨by decide, by rintro g ⟨⟩⟩⟩
  obtain ⟨m'', objs, o, mesh, g1, g2, g3, -, g5, g6⟩ := C67_saved_partial (.ascii true true true true) (fun _ s => s) 4 .zero m'
    hw hk _ _ ts h3 h2 2 (by norm_num) (by unfold Bounded; decide +kernel) (by decide +kernel)
  rw [List.length_eq_zero_iff.1 g3] at g2
  exact ⟨m', m'', o, mesh, h1, g1, g2, g5, g6⟩

/-- The tetrahedron as an ASCII file. -/
def exTetraLines : List Str :=
  [b!"solid " ++ List.replicate 300 97] ++
  ([(b!"vertex 0 0 0", b!"vertex 0 1 0", b!"vertex 1 0 0"), (b!"vertex 0 0 0", b!"vertex 1 0 0", b!"vertex 0 0 1"),
    (b!"vertex 0 0 0", b!"vertex 0 0 1", b!"vertex 0 1 0"), (b!"vertex 1 0 0", b!"vertex 0 1 0", b!"vertex 0 0 1")].flatMap
    fun f => [b!"facet normal 0 0 0", b!"outer loop", f.1, f.2.1, f.2.2, b!"endloop", b!"endfacet"])

example : ∃ m', decode (fun _ => false) ⟨textOf exTetraLines b!"endsolid", true⟩ .zero = some (m', none) ∧
    m'.Accepts (.ascii true true true true) := by
  obtain ⟨m', h1, h2⟩ := C67_ascii_partial (.ascii true true true true) (fun _ => false) (fun _ => rfl) .zero (by decide)
    (accepts_of 1 (by decide +kernel)) (by rintro ⟨-, e, he, -⟩; cases he) (by rintro ⟨-, e, he, -⟩; cases he)
    (by rintro c ⟨⟩) (by rintro a ⟨⟩) (by decide) exTetraLines b!"endsolid" (by unfold ShortLines; decide +kernel) (by decide +kernel)
    (by decide +kernel) (by decide +kernel) (by unfold StartsSolid; decide +kernel)
  exact ⟨m', h1, h2.2 ⟨by decide +kernel, by decide +kernel, by decide +kernel⟩⟩

end Go3mf
