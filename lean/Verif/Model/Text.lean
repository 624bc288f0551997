import Verif.Model.Errors
import Verif.Model.Types

/-!
# spec/utils.go, uuid/uuid.go, math.go `Matrix.String`
-/

namespace Go3mf

/-! ## Colours -/

/-- spec/utils.go:22-33 `hexToByte`: the value and whether the error was set. -/
def hexToByte (b : Byte) : Byte × Bool :=
  if 48 ≤ b && b ≤ 57 then (b - 48, false)
  else if 97 ≤ b && b ≤ 102 then (b - 97 + 10, false)
  else if 65 ≤ b && b ≤ 70 then (b - 65 + 10, false)
  else (0, true)

/-- `hexToByte(x)<<4 + hexToByte(y)`. -/
def hexPair (x y : Byte) : Byte × Bool :=
  let a := hexToByte x
  let b := hexToByte y
  ((a.1 <<< 4) + b.1, a.2 || b.2)

/-- spec/utils.go:15-50 `ParseRGBA`: the colour (also set, partially, on error) and whether there was an
error. -/
def parseRGBA : Str → RGBA × Bool
  | [h, r1, r2, g1, g2, b1, b2, a1, a2] =>
    if h ≠ 35 then (.zero, true) else
    let r := hexPair r1 r2
    let g := hexPair g1 g2
    let b := hexPair b1 b2
    let a := hexPair a1 a2
    (⟨r.1, g.1, b.1, a.1⟩, r.2 || g.2 || b.2 || a.2)
  | [h, r1, r2, g1, g2, b1, b2] =>
    if h ≠ 35 then (.zero, true) else
    let r := hexPair r1 r2
    let g := hexPair g1 g2
    let b := hexPair b1 b2
    (⟨r.1, g.1, b.1, 0xff⟩, r.2 || g.2 || b.2)
  | _ => (.zero, true)

/-- A lower-case hexadecimal digit. -/
def hexDigit (n : Byte) : Byte := if n < 10 then 48 + n else 87 + n

/-- `%02x` of a byte, also `hex.Encode` of one byte. -/
def hex2 (b : Byte) : Str := [hexDigit (b >>> 4), hexDigit (b &&& 15)]

/-- spec/utils.go:53-58 `FormatRGBA`. -/
def formatRGBA (c : RGBA) : Str :=
  if c.a = 255 then b!"#" ++ hex2 c.r ++ hex2 c.g ++ hex2 c.b
  else b!"#" ++ hex2 c.r ++ hex2 c.g ++ hex2 c.b ++ hex2 c.a

/-! ## `strings.Fields` -/

/-- Length of the white-space character (`unicode.IsSpace`) at the start of a byte string, 0 if there is
none: U+0009–U+000D, U+0020, U+0085, U+00A0, U+1680, U+2000–U+200A, U+2028, U+2029, U+202F, U+205F, U+3000
in UTF-8. -/
def spaceLen : Str → Nat
  | 9 :: _ => 1
  | 10 :: _ => 1
  | 11 :: _ => 1
  | 12 :: _ => 1
  | 13 :: _ => 1
  | 32 :: _ => 1
  | 0xC2 :: b :: _ => if b = 0x85 ∨ b = 0xA0 then 2 else 0
  | 0xE1 :: 0x9A :: 0x80 :: _ => 3
  | 0xE2 :: 0x80 :: b :: _ => if (0x80 ≤ b ∧ b ≤ 0x8A) ∨ b = 0xA8 ∨ b = 0xA9 ∨ b = 0xAF then 3 else 0
  | 0xE2 :: 0x81 :: 0x9F :: _ => 3
  | 0xE3 :: 0x80 :: 0x80 :: _ => 3
  | _ => 0

/-- A field, if non-empty. -/
def flushField (cur : Str) : List Str := if cur.isEmpty then [] else [cur]

/-- The scan of `strings.Fields`: `skip` bytes of a white-space character still to pass, `cur` the field so
far. -/
def fieldsGo : Nat → Str → Str → List Str
  | _, cur, [] => flushField cur
  | k + 1, cur, _ :: cs => fieldsGo k cur cs
  | 0, cur, c :: cs =>
    match spaceLen (c :: cs) with
    | 0 => fieldsGo 0 (cur ++ [c]) cs
    | n + 1 => flushField cur ++ fieldsGo n [] cs

/-- `strings.Fields`: the maximal runs of characters that are not white space. -/
def fields (s : Str) : List Str := fieldsGo 0 [] s

/-! ## Transforms -/

/-- spec/utils.go:66-73: the loop over the values; `none` on the first error. -/
def parseFloats : List Str → Option (List F32)
  | [] => some []
  | s :: ss =>
    match parseFloat s with
    | .error _ => none
    | .ok v =>
      match parseFloats ss with
      | none => none
      | some vs => some (v :: vs)

/-- spec/utils.go:61-78 `ParseMatrix`. -/
def parseMatrix (s : Str) : Option Matrix :=
  match parseFloats (fields s) with
  | some [t0, t1, t2, t3, t4, t5, t6, t7, t8, t9, t10, t11] =>
    some ⟨t0, t1, t2, .zero, t3, t4, t5, .zero, t6, t7, t8, .zero, t9, t10, t11, .one⟩
  | _ => none

/-- math.go:112-115 `Matrix.String`. -/
def Matrix.str (m : Matrix) : Str :=
  Str.join b!" " ([m.m0, m.m1, m.m2, m.m4, m.m5, m.m6, m.m8, m.m9, m.m10, m.m12, m.m13, m.m14].map (F32.format 3))

/-! ## UUIDs -/

/-- uuid/uuid.go:61-78 `xvalues`: the value of a hexadecimal digit, `none` for 255. -/
def xvalue (b : Byte) : Option Byte :=
  if 48 ≤ b && b ≤ 57 then some (b - 48)
  else if 65 ≤ b && b ≤ 70 then some (b - 55)
  else if 97 ≤ b && b ≤ 102 then some (b - 87)
  else none

/-- The 16 random bytes. -/
abbrev UUIDBytes := List UInt8

/-- uuid/uuid.go:143-153 `encodeHex`. -/
def encodeHex (u : UUIDBytes) : Str :=
  (u.take 4).flatMap hex2 ++ b!"-" ++ ((u.drop 4).take 2).flatMap hex2 ++ b!"-" ++
  ((u.drop 6).take 2).flatMap hex2 ++ b!"-" ++ ((u.drop 8).take 2).flatMap hex2 ++ b!"-" ++
  (u.drop 10).flatMap hex2

/-- uuid/uuid.go:35-46 `New`, given the 16 bytes read from the random source (a failing source panics). -/
def uuidNew (u : UUIDBytes) : Str :=
  let u := u.set 6 ((u.getD 6 0 &&& 0x0f) ||| 0x40)
  let u := u.set 8 ((u.getD 8 0 &&& 0x3f) ||| 0x80)
  encodeHex u

/-- uuid/uuid.go:81-85 `xtob` (second result): are `s[x]`, `s[x+1]` hexadecimal digits? -/
def xtobOK (s : Str) (x : Nat) : Bool :=
  (xvalue (s.getD x 0)).isSome && (xvalue (s.getD (x + 1) 0)).isSome

/-- uuid/uuid.go:123-141: the check of the first 36 bytes of `s`. -/
def checkUUID36 (s : Str) : Bool :=
  s.getD 8 0 = 45 && s.getD 13 0 = 45 && s.getD 18 0 = 45 && s.getD 23 0 = 45 &&
  [0, 2, 4, 6, 9, 11, 14, 16, 19, 21, 24, 26, 28, 30, 32, 34].all (xtobOK s)

/-- `strings.ToLower(s[:9]) == "urn:uuid:"`.  Lowering ASCII bytes only is enough: the prefix has 9 ASCII
characters, and lowering maps characters one to one, so a 9-byte string with a multi-byte character has
fewer than 9 characters and cannot match. -/
def isURNPrefix (s : Str) : Bool := (s.take 9).map asciiLower == b!"urn:uuid:"

/-- uuid/uuid.go:93-141 `validateUUID`: no error. -/
def uuidValid (s : Str) : Bool :=
  if s.length = 36 then checkUUID36 s
  else if s.length = 45 then isURNPrefix s && checkUUID36 (s.drop 9)
  else if s.length = 38 then checkUUID36 (s.drop 1)
  else if s.length = 32 then
    [0, 1, 2, 3, 4, 5, 6, 7, 8, 9, 10, 11, 12, 13, 14, 15].all (fun i => xtobOK s (i * 2))
  else false

end Go3mf
