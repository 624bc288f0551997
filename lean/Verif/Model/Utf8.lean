import Verif.Model.Base

/-!
# `unicode/utf8` and `encoding/xml.EscapeText` of the standard library
-/

namespace Go3mf

/-- `utf8.EncodeRune`, `string(rune(n))`: surrogates and values beyond U+10FFFF become U+FFFD. -/
def encodeRune (n : Nat) : Str :=
  if n < 0x80 then [UInt8.ofNat n]
  else if n < 0x800 then [UInt8.ofNat (0xC0 + n / 64), UInt8.ofNat (0x80 + n % 64)]
  else if n ≥ 0x110000 ∨ (0xD800 ≤ n ∧ n < 0xE000) then [0xEF, 0xBF, 0xBD]
  else if n < 0x10000 then
    [UInt8.ofNat (0xE0 + n / 4096), UInt8.ofNat (0x80 + n / 64 % 64), UInt8.ofNat (0x80 + n % 64)]
  else [UInt8.ofNat (0xF0 + n / 262144), UInt8.ofNat (0x80 + n / 4096 % 64), UInt8.ofNat (0x80 + n / 64 % 64),
    UInt8.ofNat (0x80 + n % 64)]

/-- A continuation byte. -/
def isCont (b : Byte) : Bool := 0x80 ≤ b && b ≤ 0xBF

/-- The range of the second byte after a first byte of a sequence of three or four (`acceptRanges` of unicode/utf8). -/
def secondOK (a b : Byte) : Bool :=
  if a = 0xE0 then 0xA0 ≤ b && b ≤ 0xBF
  else if a = 0xED then 0x80 ≤ b && b ≤ 0x9F
  else if a = 0xF0 then 0x90 ≤ b && b ≤ 0xBF
  else if a = 0xF4 then 0x80 ≤ b && b ≤ 0x8F
  else isCont b

/-- `utf8.DecodeRune`: the width of the character at the start; 0 if there is none, in which case Go returns U+FFFD and
width 1. -/
def runeLen : Str → Nat
  | [] => 0
  | a :: s =>
    if a < 0x80 then 1
    else if 0xC2 ≤ a && a ≤ 0xDF then
      match s with
      | b :: _ => if isCont b then 2 else 0
      | _ => 0
    else if 0xE0 ≤ a && a ≤ 0xEF then
      match s with
      | b :: c :: _ => if secondOK a b && isCont c then 3 else 0
      | _ => 0
    else if 0xF0 ≤ a && a ≤ 0xF4 then
      match s with
      | b :: c :: d :: _ => if secondOK a b && isCont c && isCont d then 4 else 0
      | _ => 0
    else 0

/-- The UTF-8 of U+FFFD. -/
def replacement : Str := [0xEF, 0xBF, 0xBD]

/-- The ASCII characters that `escapeText` does not copy: the five markup characters, tab, line feed, carriage return,
and the control characters, which are not in the character range. -/
def escapeASCII (c : Byte) : Str :=
  if c = 34 then b!"&#34;"
  else if c = 39 then b!"&#39;"
  else if c = 38 then b!"&amp;"
  else if c = 60 then b!"&lt;"
  else if c = 62 then b!"&gt;"
  else if c = 9 then b!"&#x9;"
  else if c = 10 then b!"&#xA;"
  else if c = 13 then b!"&#xD;"
  else if c < 0x20 then replacement
  else [c]

/-- Is the character at the start U+FFFE or U+FFFF, the only ones of two or more bytes outside the character range? -/
def isNonChar : Str → Bool
  | 0xEF :: 0xBF :: b :: _ => b = 0xBE || b = 0xBF
  | _ => false

/-- The loop of `escapeText`; the next `skip` bytes belong to a character already treated, and are copied if `copy`. -/
def escapeGo : Nat → Bool → Str → Str
  | _, _, [] => []
  | k + 1, copy, b :: s => (if copy then [b] else []) ++ escapeGo k copy s
  | 0, _, b :: s =>
    if b < 0x80 then escapeASCII b ++ escapeGo 0 false s
    else match runeLen (b :: s) with
      | 0 => replacement ++ escapeGo 0 false s
      | n + 1 =>
        if isNonChar (b :: s) then replacement ++ escapeGo n false s
        else b :: escapeGo n true s

/-- `xml.EscapeText` of encoding/xml. -/
def escape (s : Str) : Str := escapeGo 0 false s

end Go3mf
