import Verif.Model.Decimal

/-! IEEE 754 binary64 with round-to-nearest-even, as an exact computable model. The library functions sin, cos, tan and
atan2 are left open (`Libm`). -/

namespace GoSvg

/-- A binary64 value. `fin s m e` is `(-1)^s * m * 2^e`; `round64` only produces canonical ones: `e = -1074` and
`m < 2^53`, or `-1074 < e ≤ 971` and `2^52 ≤ m < 2^53`. -/
inductive F64 where
  | nan
  | inf (s : Bool)
  | fin (s : Bool) (m : Nat) (e : Int)
deriving DecidableEq, Repr

/-- The library functions left open. -/
class Libm where
  sin : F64 → F64
  cos : F64 → F64
  tan : F64 → F64
  atan2 : F64 → F64 → F64
  /-- rounded multiples of pi -/
  piMul : Rat → F64

namespace F64

def twoPow (e : Int) : Rat := if e < 0 then 1 / (2 ^ e.natAbs : Nat) else (2 ^ e.natAbs : Nat)

/-- The exponent of the last place for a positive rational: the `e ≥ -1074` with `2^52 ≤ q / 2^e < 2^53`, or -1074.
`num.log2 - den.log2` is the binary logarithm or one more. -/
def lastPlace (q : Rat) : Int :=
  let l : Int := (q.num.natAbs.log2 : Int) - q.den.log2
  let l := if q < twoPow l then l - 1 else l
  max (l - 52) (-1074)

/-- Rounds a non-negative rational to an integer, ties to even. -/
def roundNat (q : Rat) : Nat :=
  let n := q.num.natAbs
  let d := q.den
  let f := n / d
  let r := n % d
  if r * 2 > d ∨ (r * 2 = d ∧ f % 2 = 1) then f + 1 else f

/-- The binary64 nearest to `(-1)^s * q`, for `0 ≤ q`. -/
def roundAbs (s : Bool) (q : Rat) : F64 :=
  if q = 0 then .fin s 0 (-1074)
  else
    let e := lastPlace q
    let m := roundNat (q / twoPow e)
    let (m, e) : Nat × Int := if m = 2 ^ 53 then (2 ^ 52, e + 1) else (m, e)
    if e > 971 then .inf s else .fin s m e

/-- The binary64 nearest to a rational; an exact zero takes the given sign. -/
def roundRat (zeroSign : Bool) (q : Rat) : F64 :=
  if q = 0 then .fin zeroSign 0 (-1074) else roundAbs (decide (q < 0)) (if q < 0 then -q else q)

/-- The value of a finite number. -/
def val : F64 → Rat
  | .fin s m e => (if s then -1 else 1) * (m : Rat) * twoPow e
  | _ => 0

def isZero : F64 → Bool
  | .fin _ m _ => m == 0
  | _ => false

def sign : F64 → Bool
  | .nan => false
  | .inf s => s
  | .fin s _ _ => s

def neg : F64 → F64
  | .nan => .nan
  | .inf s => .inf !s
  | .fin s m e => .fin (!s) m e

def abs : F64 → F64
  | .nan => .nan
  | .inf _ => .inf false
  | .fin _ m e => .fin false m e

def add : F64 → F64 → F64
  | .nan, _ => .nan
  | _, .nan => .nan
  | .inf s, .inf t => if s = t then .inf s else .nan
  | .inf s, .fin .. => .inf s
  | .fin .., .inf t => .inf t
  | x@(.fin ..), y@(.fin ..) => roundRat (x.isZero && y.isZero && x.sign && y.sign) (x.val + y.val)

def sub (x y : F64) : F64 := add x (neg y)

def mul : F64 → F64 → F64
  | .nan, _ => .nan
  | _, .nan => .nan
  | .inf s, y => if y.isZero then .nan else .inf (s != y.sign)
  | x@(.fin ..), .inf t => if x.isZero then .nan else .inf (x.sign != t)
  | x@(.fin ..), y@(.fin ..) => roundRat (x.sign != y.sign) (x.val * y.val)

def div : F64 → F64 → F64
  | .nan, _ => .nan
  | _, .nan => .nan
  | .inf _, .inf _ => .nan
  | .inf s, .fin t _ _ => .inf (s != t)
  | .fin s _ _, .inf t => .fin (s != t) 0 (-1074)
  | x@(.fin ..), y@(.fin ..) =>
    if y.isZero then (if x.isZero then .nan else .inf (x.sign != y.sign))
    else roundRat (x.sign != y.sign) (x.val / y.val)

def lt : F64 → F64 → Bool
  | .nan, _ => false
  | _, .nan => false
  | .inf s, .inf t => s && !t
  | .inf s, .fin .. => s
  | .fin .., .inf t => !t
  | x@(.fin ..), y@(.fin ..) => decide (x.val < y.val)

def eq : F64 → F64 → Bool
  | .nan, _ => false
  | _, .nan => false
  | .inf s, .inf t => s == t
  | .inf _, .fin .. => false
  | .fin .., .inf _ => false
  | x@(.fin ..), y@(.fin ..) => decide (x.val = y.val)

def le (x y : F64) : Bool := lt x y || eq x y

/-- The integer square root, bit by bit from `2^b` down. -/
def natSqrt (n : Nat) : Nat → Nat → Nat
  | 0, r => if (r + 1) * (r + 1) ≤ n then r + 1 else r
  | b + 1, r => natSqrt n b (if (r + 2 ^ (b + 1)) * (r + 2 ^ (b + 1)) ≤ n then r + 2 ^ (b + 1) else r)

/-- The square root. For a positive value the argument is scaled by an even power of two so that its integer square
root has at least 54 bits, and an inexact root is marked by half a unit more, which decides the rounding. -/
def sqrt : F64 → F64
  | .nan => .nan
  | .inf s => if s then .nan else .inf false
  | .fin s m e =>
    if m = 0 then .fin s 0 (-1074)
    else if s then .nan
    else
      let k : Nat := if e % 2 = 0 then 120 else 121
      let n := m * 2 ^ k
      let r := natSqrt n 100 0
      let q : Rat := if r * r = n then r else (r : Rat) + 1 / 2
      roundAbs false (q * twoPow ((e - k) / 2))

/-- Truncation of a finite value toward zero. -/
def trunc (x : F64) : Int :=
  let q := x.val
  q.num.tdiv q.den

/-- Conversion to a signed integer of `bits + 1` bits: out of range gives the least value (amd64). -/
def toSigned (bits : Nat) : F64 → Int
  | x@(.fin ..) => let t := x.trunc; if -2 ^ bits ≤ t ∧ t < 2 ^ bits then t else -2 ^ bits
  | _ => -2 ^ bits

/-- strconv.ParseFloat(s, 64): the nearest number; a number that rounds to infinity is an error. -/
def parse (s : Str) : Option F64 :=
  match parseLit s with
  | none => none
  | some .nan => some .nan
  | some (.inf neg) => some (.inf neg)
  | some (.fin neg q) => match roundAbs neg q with
    | .fin s m e => some (.fin s m e)
    | _ => none

end F64

instance f64Float [Libm] : GoFloat F64 where
  ofRat q := F64.roundRat false q
  piMul := Libm.piMul
  add := F64.add
  sub := F64.sub
  mul := F64.mul
  div := F64.div
  neg := F64.neg
  lt := F64.lt
  le := F64.le
  eq := F64.eq
  abs := F64.abs
  sqrt := F64.sqrt
  sin := Libm.sin
  cos := Libm.cos
  tan := Libm.tan
  atan2 := Libm.atan2
  ofInt n := F64.roundRat false n
  toI32 := F64.toSigned 31
  toInt := F64.toSigned 63
  toU32 x := (F64.toSigned 63 x % 2 ^ 32).toNat
  parse := F64.parse

end GoSvg
