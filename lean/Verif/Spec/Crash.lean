import Verif.Lemmas.Decode
import Verif.Props.C26

/-!
# Which documents make the decoder panic

The decoder follows the elements that it knows and skips or records the others.  `Crashes` tells from the names of the
elements and from the name spaces of the attributes alone whether decoding a part panics.
-/

namespace Go3mf.Spec
open Go3mf

/-- The elements of the extensions that may be in the model, in the resources and in meshes. -/
def extRoots : List (Str × Str) :=
  [(nsMaterials, b!"colorgroup"), (nsMaterials, b!"texture2dgroup"), (nsMaterials, b!"texture2d"),
   (nsMaterials, b!"compositematerials"), (nsMaterials, b!"multiproperties"), (nsSlices, b!"slicestack"),
   (nsBeam, b!"beamlattice")]

/-- The other elements of the extensions: name space, parent and child. -/
def extTable : List ((Str × Str) × Str) :=
  [((nsMaterials, b!"colorgroup"), b!"color"), ((nsMaterials, b!"texture2dgroup"), b!"tex2coord"),
   ((nsMaterials, b!"compositematerials"), b!"composite"), ((nsMaterials, b!"multiproperties"), b!"multi"),
   ((nsSlices, b!"slicestack"), b!"slice"), ((nsSlices, b!"slicestack"), b!"sliceref"), ((nsSlices, b!"slice"), b!"vertices"),
   ((nsSlices, b!"slice"), b!"polygon"), ((nsSlices, b!"vertices"), b!"vertex"), ((nsSlices, b!"polygon"), b!"segment"),
   ((nsBeam, b!"beamlattice"), b!"beams"), ((nsBeam, b!"beamlattice"), b!"beamsets"), ((nsBeam, b!"beams"), b!"beam"),
   ((nsBeam, b!"beamsets"), b!"beamset"), ((nsBeam, b!"beamset"), b!"ref")]

/-- Does the decoder of the element `p` (`none` before the first element) follow an element `n`?  In the model, the
resources and meshes it also follows elements of name spaces for which no extension is registered, to record them. -/
def Follows (env : Env) (isRoot : Bool) : Option Name → Name → Prop
  | none, n => n = modelName
  | some p, n =>
    if p.space = nsCore then
      if n.space = nsCore then
        (p.loc, n.loc) ∈ coreTable ∧ (p.loc = b!"model" → n.loc ≠ b!"resources" → isRoot = true)
      else
        p.loc ∈ [b!"model", b!"resources", b!"mesh"] ∧ (env.load n.space = none ∨ (n.space, n.loc) ∈ extRoots)
    else (env.load p.space).isSome = true ∧ n.space = p.space ∧ ((p.space, p.loc), n.loc) ∈ extTable

instance (env : Env) (isRoot : Bool) : ∀ p n, Decidable (Follows env isRoot p n)
  | none, n => inferInstanceAs (Decidable (n = modelName))
  | some p, n => by unfold Follows; infer_instance

/-- The elements whose attributes in other name spaces are looked at. -/
def Looks (isRoot : Bool) (n : Name) : Prop :=
  n.space = nsCore ∧ n.loc ∉ [b!"vertex", b!"metadata"] ∧ (n.loc = b!"model" → isRoot = true)

instance (isRoot : Bool) (n : Name) : Decidable (Looks isRoot n) := by unfold Looks; infer_instance

/-- A beam lattice among the resources. -/
def LatticeAsset (env : Env) (p : Option Name) (n : Name) : Prop :=
  env.beamlattice = true ∧ p = some ⟨nsCore, b!"resources"⟩ ∧ n = latticeName

instance (env : Env) (p : Option Name) (n : Name) : Decidable (LatticeAsset env p n) := by unfold LatticeAsset; infer_instance

/-- The decoder panics.  `path` are the elements that it follows, the innermost first, and `depth` of them are open: when
the outermost one ends, its decoder remains the current one.  It panics

* at a beam lattice among the resources,
* at an attribute of a registered extension in an element that cannot hold it,
* at the end of an element with the name of the current decoder if none is open. -/
def Crashes (env : Env) (isRoot : Bool) : List Name → Nat → List (Option Event) → Prop
  | _, _, [] => False
  | path, depth, none :: evs => Crashes env isRoot path depth evs
  | path, depth, some (.chars _) :: evs => Crashes env isRoot path depth evs
  | path, depth, some (.start n as) :: evs =>
    LatticeAsset env path.head? n ∨
    if Follows env isRoot path.head? n then
      (Looks isRoot n ∧ ∃ a ∈ as, ¬ AttrAllowed env n.loc a.name.space) ∨ Crashes env isRoot (n :: path) (depth + 1) evs
    else Crashes env isRoot path depth evs
  | path, depth, some (.stop n) :: evs =>
    if path.head?.getD ⟨[], []⟩ = n then
      match depth with
      | 0 => True
      | 1 => Crashes env isRoot path 0 evs
      | depth + 2 => Crashes env isRoot path.tail (depth + 1) evs
    else Crashes env isRoot path depth evs

instance Crashes.dec (env : Env) (isRoot : Bool) : ∀ path depth evs, Decidable (Crashes env isRoot path depth evs)
  | _, _, [] => isFalse id
  | path, depth, none :: evs => Crashes.dec env isRoot path depth evs
  | path, depth, some (.chars _) :: evs => Crashes.dec env isRoot path depth evs
  | path, depth, some (.start n as) :: evs =>
    have := Crashes.dec env isRoot (n :: path) (depth + 1) evs
    have := Crashes.dec env isRoot path depth evs
    inferInstanceAs (Decidable (_ ∨ ite _ _ _))
  | path, 0, some (.stop n) :: evs =>
    have := Crashes.dec env isRoot path 0 evs
    inferInstanceAs (Decidable (if path.head?.getD ⟨[], []⟩ = n then True else Crashes env isRoot path 0 evs))
  | path, 1, some (.stop n) :: evs =>
    have := Crashes.dec env isRoot path 1 evs
    have := Crashes.dec env isRoot path 0 evs
    inferInstanceAs (Decidable (if path.head?.getD ⟨[], []⟩ = n then Crashes env isRoot path 0 evs
      else Crashes env isRoot path 1 evs))
  | path, d + 2, some (.stop n) :: evs =>
    have := Crashes.dec env isRoot path (d + 2) evs
    have := Crashes.dec env isRoot path.tail (d + 1) evs
    inferInstanceAs (Decidable (if path.head?.getD ⟨[], []⟩ = n then Crashes env isRoot path.tail (d + 1) evs
      else Crashes env isRoot path (d + 2) evs))

/-- The elements that the decoder follows, the innermost first, and the number of open ones, after a token. -/
def follow (env : Env) (isRoot : Bool) (st : List Name × Nat) : Option Event → List Name × Nat
  | some (.start n _) => if Follows env isRoot st.1.head? n then (n :: st.1, st.2 + 1) else st
  | some (.stop n) =>
    if st.1.head?.getD ⟨[], []⟩ = n then
      match st.2 with
      | 0 => st
      | 1 => (st.1, 0)
      | d + 2 => (st.1.tail, d + 1)
    else st
  | _ => st

/-- The elements that the decoder follows, in order: each with the path of open elements that it follows, the innermost
first, and with its attributes. -/
def followed (env : Env) (isRoot : Bool) : List Name × Nat → List (Option Event) → List (List Name × List Attr)
  | _, [] => []
  | st, some (.start n as) :: evs =>
    if Follows env isRoot st.1.head? n then
      ((n :: st.1).take (st.2 + 1), as) :: followed env isRoot (n :: st.1, st.2 + 1) evs
    else followed env isRoot st evs
  | st, ev :: evs => followed env isRoot (follow env isRoot st ev) evs

end Go3mf.Spec
