import Verif.Model.Base

/-!
# Numbers: `uint32`, `float32` and their text forms

Models the parts of Go's `strconv` and `math` that the repository uses:
`strconv.FormatUint`, `strconv.ParseUint`, `strconv.FormatFloat(x, 'f', prec, 32)`,
`strconv.ParseFloat(s, 32)`, `math.Float32frombits`, and `float32` comparison and arithmetic.
The library algorithms (Ryu, Eisel-Lemire, big decimal) are replaced by the exact
mathematical function they are specified to compute: correct rounding, ties to even, and for negative
precisions the shortest decimal that is read back as the same number.
-/

namespace Go3mf

/-! ## Decimal digits -/

/-- Is the byte an ASCII decimal digit. -/
def isDigit (b : Byte) : Bool := 48 ≤ b && b ≤ 57

/-- The byte of a decimal digit `d < 10`. -/
def digitByte (d : Nat) : Byte := UInt8.ofNat (48 + d)

/-- Least significant first decimal digits, `fuel` bounds their number. -/
def natDigitsRev : Nat → Nat → Str
  | 0, _ => []
  | fuel + 1, n => if n < 10 then [digitByte n] else digitByte (n % 10) :: natDigitsRev fuel (n / 10)

/-- Decimal numeral of a natural number: `strconv.FormatUint(n, 10)`. -/
def natDigits (n : Nat) : Str := (natDigitsRev (Nat.log2 n + 1) n).reverse

/-- Value of a string of decimal digits. -/
def digitsVal (s : Str) : Nat := s.foldl (fun acc b => acc * 10 + (b.toNat - 48)) 0

/-- Result of the numeric parsers of `strconv`: the value returned by Go in each case
(`ErrSyntax` returns 0, `ErrRange` returns the nearest bound). -/
inductive NumErr where
  | syntax
  | range
  deriving DecidableEq, Repr

/-- Loop of `strconv.ParseUint(s, 10, 32)` on a non-empty rest: a non-digit is a syntax error,
exceeding 2³²−1 is a range error, whichever comes first. -/
def parseUintLoop : Str → Nat → Except NumErr UInt32
  | [], n => .ok (UInt32.ofNat n)
  | b :: bs, n =>
    if isDigit b then
      let n' := n * 10 + (b.toNat - 48)
      if n' ≥ 2 ^ 32 then .error .range else parseUintLoop bs n'
    else .error .syntax

/-- `strconv.ParseUint(s, 10, 32)`. -/
def parseUint (s : Str) : Except NumErr UInt32 :=
  if s.isEmpty then .error .syntax else parseUintLoop s 0

/-- The value Go returns together with the error. -/
def NumErr.uintVal : NumErr → UInt32
  | .syntax => 0
  | .range => 4294967295

/-- `strconv.FormatUint(uint64(x), 10)`. -/
def formatUint (x : UInt32) : Str := natDigits x.toNat

/-! ## float32 values

A finite `float32` is `± mag · 2⁻¹⁴⁹` for a natural number `mag` with at most 24 significant bits. -/

/-- Number of units in 1. -/
@[irreducible] def scale : Nat := 2 ^ 149

/-- Largest finite magnitude, in units of 2⁻¹⁴⁹ (`math.MaxFloat32`). -/
def maxMag : Nat := (2 ^ 24 - 1) * 2 ^ 253

/-- Spacing of the float32 grid around `n` (units of 2⁻¹⁴⁹). -/
def ulp (n : Nat) : Nat := 2 ^ (Nat.log2 n - 23)

/-- `mag` is the magnitude of a finite float32. -/
def Rep (mag : Nat) : Prop := mag ≤ maxMag ∧ ulp mag ∣ mag

instance (n : Nat) : Decidable (Rep n) := inferInstanceAs (Decidable (_ ∧ _))

/-- Go `float32`; all NaN payloads are identified. -/
inductive F32 where
  | fin (neg : Bool) (mag : Nat) (rep : Rep mag)
  | inf (neg : Bool)
  | nan
  deriving DecidableEq

namespace F32

/-- The float with given sign and magnitude; `nan` if not representable (never used so). -/
def mk (neg : Bool) (mag : Nat) : F32 := if h : Rep mag then .fin neg mag h else .nan

/-- Positive zero, the zero value of Go's `float32`. -/
def zero : F32 := .fin false 0 (by decide)

/-- The constant 1. -/
def one : F32 := mk false (scale)

/-- `math.Float32frombits`. -/
def ofBits (u : UInt32) : F32 :=
  let n := u.toNat
  let neg := decide (n ≥ 2 ^ 31)
  let e := n / 2 ^ 23 % 256
  let m := n % 2 ^ 23
  if e = 255 then (if m = 0 then .inf neg else .nan)
  else if e = 0 then mk neg m
  else mk neg ((2 ^ 23 + m) * 2 ^ (e - 1))

/-- Order key: finite values are compared by signed magnitude, infinities lie beyond them. -/
def key : F32 → Int
  | .fin neg mag _ => if neg then -(mag : Int) else mag
  | .inf neg => if neg then -((maxMag : Int) + 1) else maxMag + 1
  | .nan => 0

def isNaN : F32 → Bool
  | .nan => true
  | _ => false

def isFinite : F32 → Bool
  | .fin .. => true
  | _ => false

/-- `math.Signbit`; the sign of NaN is not modelled. -/
def signBit : F32 → Bool
  | .fin neg _ _ => neg
  | .inf neg => neg
  | .nan => false

/-- Go `==` on float32: NaN is unequal to everything, −0 equals +0. -/
def eq (x y : F32) : Bool := !x.isNaN && !y.isNaN && x.key == y.key

/-- Go `<` on float32. -/
def lt (x y : F32) : Bool := !x.isNaN && !y.isNaN && decide (x.key < y.key)

/-- Go `<=` on float32. -/
def le (x y : F32) : Bool := !x.isNaN && !y.isNaN && decide (x.key ≤ y.key)

/-! ### Rounding -/

/-- Nearest integer to `a / b`, ties to even (`b > 0`). -/
def rhe (a b : Nat) : Nat :=
  let q := a / b
  let r := a % b
  if 2 * r < b then q
  else if b < 2 * r then q + 1
  else if q % 2 = 0 then q else q + 1

/-- Nearest magnitude with 24 significant bits to `a / b` (units of 2⁻¹⁴⁹), ties to even, exponent
unbounded above. -/
def roundMag (a b : Nat) : Nat :=
  let u := ulp (a / b)
  rhe a (b * u) * u

/-- Correctly rounded float32 with the given sign and magnitude `a / b` (units of 2⁻¹⁴⁹);
infinite on overflow. -/
def ofRat (neg : Bool) (a b : Nat) : F32 :=
  let m := roundMag a b
  if m ≤ maxMag then mk neg m else .inf neg

/-- Go float32 negation. -/
def neg : F32 → F32
  | .fin s m h => .fin (!s) m h
  | .inf s => .inf (!s)
  | .nan => .nan

/-- Go float32 multiplication, round to nearest even. -/
def mul : F32 → F32 → F32
  | .nan, _ => .nan
  | _, .nan => .nan
  | .inf s, .inf t => .inf (s != t)
  | .inf s, .fin t m _ => if m = 0 then .nan else .inf (s != t)
  | .fin s m _, .inf t => if m = 0 then .nan else .inf (s != t)
  | .fin s m _, .fin t n _ => ofRat (s != t) (m * n) (scale)

/-- Go float32 addition, round to nearest even. -/
def add : F32 → F32 → F32
  | .nan, _ => .nan
  | _, .nan => .nan
  | .inf s, .inf t => if s = t then .inf s else .nan
  | .inf s, .fin .. => .inf s
  | .fin .., .inf t => .inf t
  | .fin s m hm, .fin t n hn =>
    let k := key (.fin s m hm) + key (.fin t n hn)
    if k = 0 then (if s && t then mk true 0 else zero)
    else ofRat (decide (k < 0)) k.natAbs 1

/-! ### Text -/

/-- Left-pad with '0' to at least `n` bytes. -/
def padZero (n : Nat) (s : Str) : Str := List.replicate (n - s.length) 48 ++ s

/-- Fixed point numeral of `d / 10^prec`: integer part, and '.' with `prec` digits if `prec > 0`. -/
def fixedDigits (prec d : Nat) : Str :=
  let s := padZero (prec + 1) (natDigits d)
  if prec = 0 then s
  else s.take (s.length - prec) ++ 46 :: s.drop (s.length - prec)

/-- The decimal written for magnitude `mag` at `prec` decimals, as an integer number of 10^−prec. -/
def decimalOf (prec mag : Nat) : Nat := rhe (mag * 10 ^ prec) (scale)

/-- Go strconv/ftoaryu.go `computeBounds` and the rules for its bounds in `ryuFtoaShortest`: the decimal `a / b` (units of
2⁻¹⁴⁹) lies between the midpoints of `mag` and its two neighbours, which belong to the interval if the mantissa of `mag` is
even.  Below a power of two the neighbour is only half as far away. -/
def between (mag a b : Nat) : Bool :=
  let u := ulp mag
  let lower := if mag = 2 ^ 23 * u ∧ u ≠ 1 then 4 * mag - u else 4 * mag - 2 * u
  let upper := 4 * mag + 2 * u
  if mag / u % 2 = 0 then decide (lower * b ≤ 4 * a) && decide (4 * a ≤ upper * b)
  else decide (lower * b < 4 * a) && decide (4 * a < upper * b)

/-- Go strconv/ftoaryu.go `ryuDigits32`, the last step: the multiple of the unit `s / b` in the interval that is closest to
`mag`, ties to even; `none` if there is no multiple in the interval. -/
def closest (mag s b : Nat) : Option Nat :=
  let j := rhe (mag * b) s
  let f := mag * b / s
  if between mag (j * s) b then some j
  else if between mag (f * s) b then some f
  else if between mag ((f + 1) * s) b then some (f + 1)
  else none

/-- Go strconv/ftoaryu.go `ryuFtoaShortest`: the decimal with the fewest digits in the interval, as its number of decimals
and its integer number of units of the last decimal.  The powers of ten are tried from the largest to the smallest, where
Go begins with a small one and removes digits as long as it can. -/
def shortest (mag : Nat) : Nat × Nat :=
  if mag = 0 then (0, 0) else
  match (List.range 39).findSome? fun i => (closest mag (10 ^ (38 - i) * scale) 1).map (· * 10 ^ (38 - i)) with
  | some d => (0, d)
  | none => ((List.range 150).findSome? fun n => (closest mag scale (10 ^ n)).map (n, ·)).getD (0, 0)

/-- The decimal that is written for a magnitude, as its number of decimals and its integer number of units of the last
decimal.  Go strconv/ftoa.go: `shortest := prec < 0`; 'f' with explicit precision always takes the exact `bigFtoa` path, whose
rounding is half to even. -/
def written (prec : Int) (mag : Nat) : Nat × Nat :=
  if prec < 0 then shortest mag else (prec.toNat, decimalOf prec.toNat mag)

/-- `strconv.FormatFloat(float64(x), 'f', prec, 32)`, and `fmt.Sprintf("%.<prec>f", x)` for `prec ≥ 0`. -/
def format (prec : Int) : F32 → Str
  | .fin neg mag _ => (if neg then [45] else []) ++ fixedDigits (written prec mag).1 (written prec mag).2
  | .inf false => b!"+Inf"
  | .inf true => b!"-Inf"
  | .nan => b!"NaN"

end F32

/-! ### `strconv.ParseFloat(s, 32)` -/

/-- ASCII lower case of a byte, `strconv.lower` (`c | ('x' - 'X')`). -/
def lowerByte (b : Byte) : Byte := b ||| 32

/-- ASCII-only case folding used by `strconv.special`/`commonPrefixLenIgnoreCase`. -/
def asciiLower (b : Byte) : Byte := if 65 ≤ b && b ≤ 90 then b + 32 else b

/-- Value of a hexadecimal digit. -/
def hexVal (b : Byte) : Option Nat :=
  if 48 ≤ b && b ≤ 57 then some (b.toNat - 48)
  else if 97 ≤ b && b ≤ 102 then some (b.toNat - 87)
  else if 65 ≤ b && b ≤ 70 then some (b.toNat - 55)
  else none

/-- State of the mantissa scan in `strconv.readFloat`. -/
structure ReadFloat where
  /-- mantissa as an integer, all digits seen -/
  mant : Nat := 0
  /-- digits after the point -/
  frac : Nat := 0
  sawDot : Bool := false
  sawDigits : Bool := false
  underscores : Bool := false

/-- Mantissa loop of `strconv.readFloat`; stops at the first byte that is neither digit, first '.', nor '_'.
Go keeps 19 digits and a truncation flag and redoes the rest exactly; the model keeps all digits. -/
def readMantissa (hex : Bool) : Str → ReadFloat → ReadFloat × Str
  | [], st => (st, [])
  | c :: cs, st =>
    if c = 95 then readMantissa hex cs { st with underscores := true }
    else if c = 46 then
      if st.sawDot then (st, c :: cs) else readMantissa hex cs { st with sawDot := true }
    else if isDigit c then
      readMantissa hex cs { st with
        sawDigits := true
        mant := st.mant * (if hex then 16 else 10) + (c.toNat - 48)
        frac := if st.sawDot then st.frac + 1 else st.frac }
    else if hex then
      match hexVal c with
      | some v => readMantissa hex cs { st with
          sawDigits := true
          mant := st.mant * 16 + v
          frac := if st.sawDot then st.frac + 1 else st.frac }
      | none => (st, c :: cs)
    else (st, c :: cs)

/-- Exponent digits loop of `strconv.readFloat`: the value saturates once it reaches 10000. -/
def readExpDigits : Str → Nat → Bool → Nat × Bool × Str
  | [], e, u => (e, u, [])
  | c :: cs, e, u =>
    if c = 95 then readExpDigits cs e true
    else if isDigit c then readExpDigits cs (if e < 10000 then e * 10 + (c.toNat - 48) else e) u
    else (e, u, c :: cs)

/-- `strconv.underscoreOK` after the optional sign; `saw` is '0' (digit), '_' or '!' (other). -/
def underscoreLoop (hex : Bool) : Str → Byte → Bool
  | [], saw => saw != 95
  | c :: cs, saw =>
    if isDigit c || (hex && (97 ≤ lowerByte c && lowerByte c ≤ 102)) then underscoreLoop hex cs 48
    else if c = 95 then (if saw != 48 then false else underscoreLoop hex cs 95)
    else if saw = 95 then false
    else underscoreLoop hex cs 33

/-- `strconv.underscoreOK`. -/
def underscoreOK (s : Str) : Bool :=
  let s := match s with
    | c :: cs => if c = 45 || c = 43 then cs else c :: cs
    | [] => []
  match s with
  | 48 :: x :: rest =>
    if lowerByte x = 98 || lowerByte x = 111 || lowerByte x = 120 then
      underscoreLoop (lowerByte x = 120) rest 48
    else underscoreLoop false s 94
  | _ => underscoreLoop false s 94

/-- `strconv.special` restricted to whole-string matches, as `ParseFloat` requires: optional sign,
then "inf" or "infinity", or unsigned "nan"; ASCII case is ignored. -/
def parseSpecial (s : Str) : Option F32 :=
  let l := s.map asciiLower
  if l = b!"nan" then some .nan
  else if l = b!"inf" || l = b!"infinity" || l = b!"+inf" || l = b!"+infinity" then some (.inf false)
  else if l = b!"-inf" || l = b!"-infinity" then some (.inf true)
  else none

/-- Overflow to infinity is `ErrRange`. -/
def rangeCheck : F32 → Except NumErr F32
  | .inf _ => .error .range
  | r => .ok r

/-- Finish a number `± mant · base^−frac · b^±e`; the numerator is in units of 2⁻¹⁴⁹. -/
def finishFloat (hex neg : Bool) (mant frac : Nat) (eneg : Bool) (e : Nat) : Except NumErr F32 :=
  rangeCheck (F32.ofRat neg
    (mant * scale * (if eneg then 1 else (if hex then 2 else 10) ^ e))
    ((if hex then 16 else 10) ^ frac * (if eneg then (if hex then 2 else 10) ^ e else 1)))

/-- Optional sign of `strconv.readFloat`. -/
def splitSign : Str → Bool × Str
  | [] => (false, [])
  | c :: cs => if c = 43 then (false, cs) else if c = 45 then (true, cs) else (false, c :: cs)

/-- Optional `0x` prefix of `strconv.readFloat` (at least one more byte must follow). -/
def splitHex : Str → Bool × Str
  | z :: x :: r :: rest => if z = 48 && lowerByte x = 120 then (true, r :: rest) else (false, z :: x :: r :: rest)
  | s => (false, s)

/-- Optional exponent part and end of input in `strconv.readFloat`; `whole` is the complete input,
`s` what follows the mantissa. -/
def parseExp (whole : Str) (hex neg : Bool) (st : ReadFloat) (s : Str) : Except NumErr F32 :=
  match s with
  | [] =>
    if hex then .error .syntax
    else if st.underscores && !underscoreOK whole then .error .syntax
    else finishFloat false neg st.mant st.frac false 0
  | c :: cs =>
    if lowerByte c = (if hex then 112 else 101) then
      let (eneg, es) := splitSign cs
      match es with
      | [] => .error .syntax
      | f :: _ =>
        if isDigit f then
          let (e, u, rest) := readExpDigits es 0 st.underscores
          if !rest.isEmpty then .error .syntax
          else if u && !underscoreOK whole then .error .syntax
          else finishFloat hex neg st.mant st.frac eneg e
        else .error .syntax
    else .error .syntax

/-- `strconv.readFloat` after the sign. -/
def parseUnsigned (whole : Str) (neg : Bool) (s : Str) : Except NumErr F32 :=
  let h := splitHex s
  let m := readMantissa h.1 h.2 {}
  if m.1.sawDigits then parseExp whole h.1 neg m.1 m.2 else .error .syntax

/-- `strconv.ParseFloat(s, 32)`: Go strconv/atof.go `readFloat`, `special`, `atof32`.
Decimal and hexadecimal mantissas, exponents and underscores; correctly rounded.  On a range error
Go returns ±Inf with the error; see `parseFloatVal`. -/
def parseFloat (s : Str) : Except NumErr F32 :=
  match parseSpecial s with
  | some v => .ok v
  | none => parseUnsigned s (splitSign s).1 (splitSign s).2

/-- The value returned by `strconv.ParseFloat(s, 32)`, also when there is an error: 0 for a syntax
error and ±Inf for a range error. -/
def parseFloatVal (s : Str) : F32 :=
  match parseFloat s with
  | .ok v => v
  | .error .syntax => F32.zero
  | .error .range => .inf (s.head? == some 45)

/-- The value returned by `strconv.ParseUint(s, 10, 32)`, also when there is an error. -/
def parseUintVal (s : Str) : UInt32 :=
  match parseUint s with
  | .ok v => v
  | .error e => e.uintVal

end Go3mf
