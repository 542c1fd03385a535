import Verif.Spec.Numbers

/-! Specification: how colours are written. -/

namespace GoSvg.Spec

/-- `c` is the hexadecimal digit of value `n`, in either case. -/
def HexDigit (c : Char) (n : Nat) : Prop := "0123456789abcdef".toList[n]? = some c ∨ "0123456789ABCDEF".toList[n]? = some c

/-- A digit of one of the two alphabets. -/
def hexChar (upper : Bool) (n : Nat) : Char := ((if upper then "0123456789ABCDEF" else "0123456789abcdef").toList[n]?).getD '0'

/-- `fmt.Sprintf("#%02x%02x%02x", r, g, b)`, or with `%02X`. -/
def hexColor (upper : Bool) (r g b : Nat) : Str :=
  '#' :: [r / 16, r % 16, g / 16, g % 16, b / 16, b % 16].map (hexChar upper)

/-- A decimal integer: an optional sign and at least one digit. -/
structure IntText where
  sign : Option Char
  digits : Str

def IntText.text (t : IntText) : Str := t.sign.toList ++ t.digits

def IntText.value (t : IntText) : Int := if t.sign = some '-' then -(natVal t.digits : Int) else natVal t.digits

/-- Digits only, one at least, and a value that fits into 64 bits. -/
def IntText.WF (t : IntText) : Prop :=
  (t.sign = none ∨ t.sign = some '-' ∨ t.sign = some '+') ∧ Digits t.digits ∧ t.digits ≠ [] ∧ -2 ^ 63 ≤ t.value ∧ t.value < 2 ^ 63

/-- A component of `rgb(...)`: an integer with white space around it; for a percentage a `%` comes last. -/
structure Component where
  before : Str
  int : IntText
  after : Str
  percent : Bool

def Component.text (c : Component) : Str := c.before ++ c.int.text ++ c.after ++ (if c.percent then ['%'] else [])

def Component.WF (c : Component) : Prop := Blank c.before ∧ Blank c.after ∧ c.int.WF

/-- `rgb(x,y,z)` -/
def rgbText (x y z : Str) : Str := "rgb(".toList ++ (x ++ ',' :: (y ++ ',' :: z)) ++ ")".toList

/-- An integer limited to 0..255. -/
def limit (n : Int) : Int := max 0 (min n 255)

/-- What a component should mean: limited to 0..255, 100% being 255. -/
def Component.meaning (c : Component) : Int := if c.percent then limit (c.int.value * 255 / 100) else limit c.int.value

/-- The components that are read right: no negative numbers, and percentages up to 100. -/
def Component.InRange (c : Component) : Prop := 0 ≤ c.int.value ∧ (c.percent = true → c.int.value ≤ 100)

end GoSvg.Spec
