import Verif.Model.Go

/-! strconv.ParseFloat (strconv/atof.go), called in units.go:45: the literals it accepts and their exact values. -/

namespace GoSvg

/-- The leading decimal digits and the rest. -/
def takeDigits : Str → Str × Str
  | [] => ([], [])
  | c :: cs => if c.isDigit then let (d, r) := takeDigits cs; (c :: d, r) else ([], c :: cs)

/-- The value of a digit string (`0` for the empty one). -/
def digitsVal (s : Str) : Nat := s.foldl (fun acc c => acc * 10 + (c.toNat - 48)) 0

/-- An optional sign and the rest; `true` for minus. -/
def takeSign : Str → Bool × Str
  | '-' :: r => (true, r)
  | '+' :: r => (false, r)
  | s => (false, s)

/-- `10^e` for an integer `e` -/
def tenPow (e : Int) : Rat := if e < 0 then 1 / (10 ^ e.natAbs : Nat) else (10 ^ e.natAbs : Nat)

/-- The exponent part: nothing, or e/E, an optional sign and at least one digit. (Go stops reading digits of an exponent
once it is 10000 or more. The difference shows only in literals that also have tens of thousands of other digits; it is
not modelled.) -/
def parseExp : Str → Option Int
  | [] => some 0
  | c :: r =>
    if c = 'e' ∨ c = 'E' then
      let (neg, r) := takeSign r
      let (d, r) := takeDigits r
      if d = [] ∨ r ≠ [] then none else some (if neg then -(digitsVal d : Int) else digitsVal d)
    else none

/-- The fraction part: a point and digits, or nothing. -/
def takeFrac : Str → Str × Str
  | '.' :: r => takeDigits r
  | r => ([], r)

/-- The sign and the absolute value of a decimal literal. -/
def parseDec (s : Str) : Option (Bool × Rat) :=
  let (neg, r) := takeSign s
  let (ip, r) := takeDigits r
  let (fp, r) := takeFrac r
  if ip = [] ∧ fp = [] then none
  else match parseExp r with
    | none => none
    | some e => some (neg, (digitsVal (ip ++ fp) : Rat) * tenPow (e - fp.length))

/-! The other literals: hexadecimal ones, digit separators, infinities and "nan". -/

/-- The value of a hexadecimal digit. -/
def hexDigit (c : Char) : Option Nat :=
  if c.isDigit then some (c.toNat - 48)
  else if 97 ≤ c.toNat ∧ c.toNat ≤ 102 then some (c.toNat - 87)   -- a to f
  else if 65 ≤ c.toNat ∧ c.toNat ≤ 70 then some (c.toNat - 55)    -- A to F
  else none

/-- The values of the leading hexadecimal digits and the rest. -/
def takeHex : Str → List Nat × Str
  | [] => ([], [])
  | c :: cs => match hexDigit c with
    | some v => let (d, r) := takeHex cs; (v :: d, r)
    | none => ([], c :: cs)

/-- The fraction part: a point and hexadecimal digits, or nothing. -/
def takeHexFrac : Str → List Nat × Str
  | '.' :: r => takeHex r
  | r => ([], r)

/-- The exponent of a hexadecimal literal, which it must have. -/
def parseHexExp : Str → Option Int
  | [] => none
  | c :: r =>
    if c = 'p' ∨ c = 'P' then
      let (neg, r) := takeSign r
      let (d, r) := takeDigits r
      if d = [] ∨ r ≠ [] then none else some (if neg then -(digitsVal d : Int) else digitsVal d)
    else none

/-- `2^e` for an integer `e` -/
def twoPowInt (e : Int) : Rat := if e < 0 then 1 / (2 ^ e.natAbs : Nat) else (2 ^ e.natAbs : Nat)

/-- The sign and the absolute value of a hexadecimal literal. -/
def parseHexLit (s : Str) : Option (Bool × Rat) :=
  let (neg, r) := takeSign s
  match r with
  | '0' :: x :: r =>
    if x = 'x' ∨ x = 'X' then
      let (ip, r) := takeHex r
      let (fp, r) := takeHexFrac r
      if ip = [] ∧ fp = [] then none
      else match parseHexExp r with
        | none => none
        | some e => some (neg, (((ip ++ fp).foldl (fun acc d => acc * 16 + d) 0 : Nat) : Rat) * twoPowInt (e - 4 * fp.length))
    else none
  | _ => none

/-- What `underscoreOK` saw last: nothing yet, a digit (or a base prefix), an underscore, something else. -/
inductive Seen where
  | start | digit | underscore | other
deriving DecidableEq

/-- The loop of strconv's `underscoreOK`. -/
def underscoreLoop (hex : Bool) : Seen → Str → Bool
  | i, [] => i ≠ .underscore
  | i, c :: cs =>
    if c.isDigit || (hex && (hexDigit c).isSome) then underscoreLoop hex .digit cs
    else if c = '_' then (if i = .digit then underscoreLoop hex .underscore cs else false)
    else if i = .underscore then false
    else underscoreLoop hex .other cs

/-- strconv's `underscoreOK`: underscores only between digits, or between a base prefix and a digit. -/
def underscoreOK (s : Str) : Bool :=
  let (_, r) := takeSign s
  match r with
  | '0' :: x :: r' =>
    if x.toLower = 'b' ∨ x.toLower = 'o' ∨ x.toLower = 'x' then underscoreLoop (x.toLower = 'x') .digit r'
    else underscoreLoop false .start r
  | _ => underscoreLoop false .start r

/-- What a literal stands for. -/
inductive Lit where
  | fin (neg : Bool) (q : Rat)
  | inf (neg : Bool)
  | nan
deriving DecidableEq

/-- strconv's `special`: the infinities, and "nan" without a sign, in any mix of capitals. -/
def parseSpecial (s : Str) : Option Lit :=
  if s.map Char.toLower = "nan".toList then some .nan
  else
    let (neg, r) := takeSign s
    let r := r.map Char.toLower
    if r = "inf".toList ∨ r = "infinity".toList then some (.inf neg) else none

/-- strconv.ParseFloat's syntax. Go skips underscores as it reads and checks at the end that they stand between digits;
where they do, skipping them is the same as leaving them out. -/
def parseLit (s : Str) : Option Lit :=
  match parseDec s with
  | some (neg, q) => some (.fin neg q)
  | none => match parseSpecial s with
    | some l => some l
    | none =>
      if '_' ∈ s ∧ underscoreOK s = false then none
      else
        let t := s.filter (· ≠ '_')
        match parseDec t with
        | some (neg, q) => some (.fin neg q)
        | none => (parseHexLit t).map fun (neg, q) => .fin neg q

theorem parseLit_dec {s : Str} {neg : Bool} {q : Rat} (h : parseDec s = some (neg, q)) : parseLit s = some (.fin neg q) := by
  unfold parseLit; rw [h]

end GoSvg
