/-!
# Byte strings

Go `string` and `[]byte` values are modelled as lists of bytes.
-/

namespace Go3mf

/-- A Go `byte`. -/
abbrev Byte := UInt8

/-- A Go `string` / `[]byte` (content only). -/
abbrev Str := List UInt8

/-- `b!"text"` is the byte list of the UTF-8 encoding of `text`, written out literally. -/
syntax:max "b!" noWs str : term

macro_rules
  | `(b!$s:str) => do
    let bs := s.getString.toUTF8.toList
    let elems ← bs.mapM fun b => `(term| ($(Lean.Syntax.mkNumLit (toString b.toNat)) : UInt8))
    `(([ $(elems.toArray),* ] : List UInt8))

/-- Every statement about all bytes can be checked on the 256 values. -/
theorem forall_byte {p : Byte → Prop} (h : ∀ n : Fin 256, p (UInt8.ofNat n.val)) : ∀ b, p b := by
  intro b
  have := h ⟨b.toNat, UInt8.toNat_lt b⟩
  simpa using this

/-- Lexicographic byte order, `strings.Compare(a, b) < 0` of Go (used by `sort.Strings`). -/
def Str.lt : Str → Str → Bool
  | [], [] => false
  | [], _ :: _ => true
  | _ :: _, [] => false
  | a :: as, b :: bs => if a < b then true else if b < a then false else Str.lt as bs

/-- `strings.HasPrefix`. -/
def Str.hasPrefix : Str → Str → Bool
  | _, [] => true
  | [], _ :: _ => false
  | a :: as, b :: bs => a == b && Str.hasPrefix as bs

/-- `strings.Contains(s, sub)`. -/
def Str.contains (sub : Str) : Str → Bool
  | [] => sub.isEmpty
  | a :: as => Str.hasPrefix (a :: as) sub || Str.contains sub as

end Go3mf
