import Verif.Spec.Markup

/-!
# What becomes of a text that shares its bytes with a buffer

A reader that collects every name, value and text at the start of one array writes them over each other.  Here is said,
without reference to the code, what it writes for each part of a document, and what a text that it has handed out reads as
after that.
-/

namespace Go3mf.Spec

/-- The bytes `t` after `p` has been written over their beginning. -/
def overwrite (t p : Str) : Str := (p ++ t.drop p.length).take t.length

/-- What a text `t` in an array of `cap` bytes reads as after the pieces have been written to the buffer, each to its
beginning.  A piece that does not fit fills the array; then it and all that follow go to another array. -/
def keptAfter (cap : Nat) (t : Str) : List Str → Str
  | [] => t
  | p :: ps => if p.length ≤ cap then keptAfter cap (overwrite t p) ps else overwrite t p

/-- The capacity of the array after `n` bytes have been written one by one to the beginning of one with `cap` bytes.  The
first array has 64 bytes; when `k` bytes are needed and there are less, the next one has `k + grow k` bytes. -/
def capacityFor (grow : Nat → Nat) (cap n : Nat) : Nat :=
  if n ≤ cap then cap else capacityFor grow (if cap = 0 then 64 else cap + 1 + grow (cap + 1)) n
termination_by n - cap
decreasing_by split <;> omega

/-- The same after several pieces. -/
def capacityAfter (grow : Nat → Nat) (cap : Nat) (ps : List Str) : Nat := ps.foldl (fun c p => capacityFor grow c p.length) cap

/-- The source of a text or of an attribute value (see `TextOf`) of which `acc` has been collected already, and the pieces
that are written: what has been collected with every reference as it stands in the document, and at last the text. -/
inductive TextPieces (q : Option Byte) : Str → Str → List Str → Prop where
  | nil {acc : Str} : TextPieces q acc [] [acc]
  | plain {acc s : Str} {b : Byte} {ps : List Str} : b ≠ 0x3C → b ≠ 0x26 → q ≠ some b → b ≠ 0xD → b ≠ 0xA →
      TextPieces q (acc ++ [b]) s ps → TextPieces q acc (b :: s) ps
  | lf {acc s : Str} {ps : List Str} : TextPieces q (acc ++ [0xA]) s ps → TextPieces q acc (0xA :: s) ps
  | crlf {acc s : Str} {ps : List Str} : TextPieces q (acc ++ [0xA]) s ps → TextPieces q acc (0xD :: 0xA :: s) ps
  | cr {acc s : Str} {ps : List Str} : s.head? ≠ some 0xA → TextPieces q (acc ++ [0xA]) s ps → TextPieces q acc (0xD :: s) ps
  | ref {acc r s : Str} {c : Nat} {ps : List Str} : ReferenceOf .reader r c → TextPieces q (acc ++ utf8 c) s ps →
      TextPieces q acc (r ++ s) ((acc ++ r) :: ps)

/-- The attributes of a tag (see `AttrsOf`) and the pieces: the names and the values. -/
inductive AttrPieces : Bool → Str → List Str → Prop where
  | nil {next : Bool} : AttrPieces next [] []
  | cons {next : Bool} {w n e e' v rest : Str} {q : Byte} {name : Name} {vs ps : List Str} : White w →
      w ≠ [] ∨ next = true → QNameOf .reader n name → White e → White e' → q = 0x22 ∨ q = 0x27 →
      TextPieces (some q) [] v vs → AttrPieces true rest ps →
      AttrPieces next (w ++ n ++ e ++ b!"=" ++ e' ++ [q] ++ v ++ [q] ++ rest) (n :: (vs ++ ps))

/-- A document of the reader (see `MarkupOf`) and the pieces that are written for each of its parts: nothing for the end
that belongs to an empty element, and all but the white space before its content for a processing instruction. -/
inductive PiecesOf : Str → List (List Str) → Prop where
  | nil : PiecesOf [] []
  | chars {s rest : Str} {ts : List Str} {ps : List (List Str)} : s ≠ [] → TextPieces none [] s ts →
      rest = [] ∨ rest.head? = some 0x3C → PiecesOf rest ps → PiecesOf (s ++ rest) (ts :: ps)
  | start {n a w rest : Str} {name : Name} {as : List Str} {ps : List (List Str)} : QNameOf .reader n name →
      AttrPieces false a as → White w → PiecesOf rest ps →
      PiecesOf (b!"<" ++ n ++ a ++ w ++ b!">" ++ rest) ((n :: as) :: ps)
  | empty {n a w rest : Str} {name : Name} {as : List Str} {ps : List (List Str)} : QNameOf .reader n name →
      AttrPieces false a as → White w → PiecesOf rest ps →
      PiecesOf (b!"<" ++ n ++ a ++ w ++ b!"/>" ++ rest) ((n :: as) :: [] :: ps)
  | stop {n w rest : Str} {name : Name} {ps : List (List Str)} : QNameOf .reader n name → White w → PiecesOf rest ps →
      PiecesOf (b!"</" ++ n ++ w ++ b!">" ++ rest) ([n] :: ps)
  | instruction {n w body rest : Str} {ps : List (List Str)} : n ≠ [] → (∀ b ∈ n, AnyByte b) → White w →
      (∀ b ∈ body.head?, ¬ IsWhite b) → w ≠ [] ∨ (∀ b ∈ body.head?, ¬ AnyByte b) → ¬ b!"?>" <:+: body → PiecesOf rest ps →
      PiecesOf (b!"<?" ++ n ++ w ++ body ++ b!"?>" ++ rest) ([n ++ body ++ b!"?>"] :: ps)

end Go3mf.Spec
