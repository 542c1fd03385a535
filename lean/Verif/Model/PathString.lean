import Verif.Model.Types

/-! path.go:36-74: the textual form of a path. -/

namespace GoSvg

/-- Rounds `n / 2^k` to an integer, ties to even. -/
def roundShift (n k : Nat) : Nat :=
  let q := n / 2 ^ k
  let r := n % 2 ^ k
  if r * 2 > 2 ^ k ∨ (r * 2 = 2 ^ k ∧ q % 2 = 1) then q + 1 else q

/-- `float32(n)` for a non-negative int32, exactly, as an integer: 24 significant bits, ties to even. -/
def f32Nat (n : Nat) : Nat :=
  if n < 2 ^ 24 then n
  else
    let k := n.log2 - 23
    roundShift n k * 2 ^ k

/-- `float32(n)` for an int32 -/
def f32Int (n : Int) : Int := if n < 0 then -(f32Nat n.natAbs : Int) else (f32Nat n.natAbs : Int)

/-- A natural number in decimal. -/
def decimal (n : Nat) : Str := Nat.toDigits 10 n

/-- Three decimal digits. -/
def threeDigits (n : Nat) : Str := [Nat.digitChar (n / 100 % 10), Nat.digitChar (n / 10 % 10), Nat.digitChar (n % 10)]

/-- `fmt.Sprintf("%4.3f", float32(n)/64)`: the quotient is exact, the decimal conversion rounds to thousandths, ties to
even (strconv's `shouldRoundUp`); the text is never shorter than the width 4. -/
def fmtFix (n : Int) : Str :=
  let v := f32Int n
  let t := roundShift (v.natAbs * 125) 3      -- thousandths: |v|/64*1000 = |v|*125/8
  (if v < 0 then ['-'] else []) ++ decimal (t / 1000) ++ '.' :: threeDigits (t % 1000)

/-- path.go:36-56. The cubic's format string starts with the letter once more. -/
def Op.toStr : Op → Str
  | .moveTo p => 'M' :: fmtFix p.x ++ ',' :: fmtFix p.y
  | .lineTo p => 'L' :: fmtFix p.x ++ ',' :: fmtFix p.y
  | .quadTo p q => 'Q' :: fmtFix p.x ++ ',' :: fmtFix p.y ++ ',' :: fmtFix q.x ++ ',' :: fmtFix q.y
  | .cubicTo p q r =>
    'C' :: 'C' :: fmtFix p.x ++ ',' :: fmtFix p.y ++ ',' :: fmtFix q.x ++ ',' :: fmtFix q.y ++ ',' :: fmtFix r.x ++
      ',' :: fmtFix r.y
  | .close => ['Z']

/-- path.go:62-69 and 71-74 -/
def toSVGPath (p : Path) : Str := [' '].intercalate (p.map Op.toStr)

end GoSvg
