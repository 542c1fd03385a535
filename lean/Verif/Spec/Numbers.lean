import Verif.Model.Go

/-! Specification: how numbers are written, one by one and in lists. -/

namespace GoSvg.Spec

/-- A decimal spelling: optional minus, digits, optional fraction, optional lower-case exponent. -/
structure Spelling where
  neg : Bool
  ip : Str
  frac : Option Str
  exp : Option (Bool × Str)

def Digits (s : Str) : Prop := ∀ c ∈ s, c.isDigit = true

/-- A digit before or after the point, and a digit in the exponent if there is one. -/
structure Spelling.WF (n : Spelling) : Prop where
  ip : Digits n.ip
  frac : ∀ f, n.frac = some f → Digits f
  some_digit : n.ip ≠ [] ∨ ∃ f, n.frac = some f ∧ f ≠ []
  exp : ∀ s d, n.exp = some (s, d) → Digits d ∧ d ≠ []

/-- The spelling without its sign. -/
def Spelling.body (n : Spelling) : Str :=
  n.ip ++ (match n.frac with | some f => '.' :: f | none => []) ++
    (match n.exp with | some (s, d) => 'e' :: ((if s then ['-'] else []) ++ d) | none => [])

def Spelling.text (n : Spelling) : Str := (if n.neg then ['-'] else []) ++ n.body

/-- A character that separates numbers: not a digit or other numeric character, not a point, a minus or an `e`. -/
def IsSep [GoEnv] (c : Char) : Prop := GoEnv.isNumber c = false ∧ c ≠ '.' ∧ c ≠ '-' ∧ c ≠ 'e'

/-- A list of numbers with the separators in front of each, and a last separator. -/
structure NumberList where
  items : List (Str × Spelling)
  last : Str

/-- Separators everywhere except, if wanted, before a minus sign (and before the first number). -/
def NumberList.WF [GoEnv] (l : NumberList) : Prop :=
  (∀ c ∈ l.last, IsSep c) ∧ (∀ i ∈ l.items, i.2.WF ∧ ∀ c ∈ i.1, IsSep c) ∧
  ∀ i ∈ l.items.tail, i.1 ≠ [] ∨ i.2.neg = true

def NumberList.text (l : NumberList) : Str := l.items.flatMap (fun i => i.1 ++ i.2.text) ++ l.last

/-- The natural number written by decimal digits. -/
def natVal (s : Str) : Nat := s.foldl (fun n c => n * 10 + (c.toNat - '0'.toNat)) 0

/-- The absolute value a spelling stands for: (integer part + fraction) times a power of ten. -/
def Spelling.absValue (n : Spelling) : Rat :=
  ((natVal n.ip : Rat) + (match n.frac with | some f => (natVal f : Rat) / (10 ^ f.length : Nat) | none => 0)) *
    (match n.exp with
      | some (false, d) => (10 ^ natVal d : Nat)
      | some (true, d) => 1 / (10 ^ natVal d : Nat)
      | none => 1)

def Spelling.value (n : Spelling) : Rat := if n.neg then -n.absValue else n.absValue

/-- A number with further numbers run together behind it, each starting with a point: `23.4.56.67`. -/
structure Group where
  first : Spelling
  more : List Spelling

/-- The later ones are a point and digits (and perhaps an exponent); the first one must then have its own point. -/
structure Group.WF (g : Group) : Prop where
  first : g.first.WF
  more : ∀ n ∈ g.more, n.WF ∧ n.neg = false ∧ n.ip = [] ∧ n.frac ≠ none
  point : g.more ≠ [] → g.first.frac ≠ none

def Group.numbers (g : Group) : List Spelling := g.first :: g.more

def Group.text (g : Group) : Str := g.numbers.flatMap Spelling.text

/-- The numbers a list of spellings stands for, in order; none if one of them is not accepted by the number reader. -/
def readAll {F : Type} [GoFloat F] : List Str → Option (List F)
  | [] => some []
  | t :: ts => match GoFloat.parse t, readAll ts with
    | some v, some vs => some (v :: vs)
    | _, _ => none

end GoSvg.Spec

namespace GoSvg.Spec

/-- The pixels one of each unit makes: CSS absolute lengths, and no unit at all. -/
def units : List (Str × Rat) :=
  [("px".toList, 1), ("cm".toList, 96 / (254 / 100)), ("mm".toList, 96 / (254 / 10)), ("pt".toList, 96 / 72),
   ("in".toList, 96), ("Q".toList, 96 / (254 / 10) / 4), ("pc".toList, 96 / 6), ([], 1)]

def Blank (w : Str) : Prop := ∀ c ∈ w, isSpace c = true

/-- The decimal literals: optional sign, digits with an optional point among or around them, optional exponent. -/
def IsDecimal (t : Str) : Prop :=
  ∃ sign ip fp ex : Str, t = sign ++ ip ++ fp ++ ex ∧ (sign = [] ∨ sign = ['-'] ∨ sign = ['+']) ∧ Digits ip ∧
    (fp = [] ∨ ∃ f, fp = '.' :: f ∧ Digits f) ∧ (ip ≠ [] ∨ 2 ≤ fp.length) ∧
    (ex = [] ∨ ∃ e s d, ex = e :: (s ++ d) ∧ (e = 'e' ∨ e = 'E') ∧ (s = [] ∨ s = ['-'] ∨ s = ['+']) ∧ Digits d ∧ d ≠ [])

/-- The hexadecimal digits. -/
def IsHexDigit (c : Char) : Prop := c ∈ "0123456789abcdefABCDEF".toList

/-- The hexadecimal literals of Go: optional sign, 0x, digits with an optional point, and an exponent after a p. -/
def IsHexLiteral (t : Str) : Prop :=
  ∃ (sign ip fp s d : Str) (x p : Char), t = sign ++ '0' :: x :: (ip ++ fp ++ p :: (s ++ d)) ∧
    (sign = [] ∨ sign = ['-'] ∨ sign = ['+']) ∧ (x = 'x' ∨ x = 'X') ∧ (∀ c ∈ ip, IsHexDigit c) ∧
    (fp = [] ∨ ∃ f, fp = '.' :: f ∧ ∀ c ∈ f, IsHexDigit c) ∧ (ip ≠ [] ∨ 2 ≤ fp.length) ∧ (p = 'p' ∨ p = 'P') ∧
    (s = [] ∨ s = ['-'] ∨ s = ['+']) ∧ Digits d ∧ d ≠ []

/-- Every underscore stands between a digit or letter and a digit (perhaps a hexadecimal one). -/
def SeparatorsOK (t : Str) : Prop :=
  ∀ a b, t = a ++ '_' :: b → (∃ a' c, a = a' ++ [c] ∧ c.isAlphanum = true) ∧ ∃ d b', b = d :: b' ∧ IsHexDigit d

/-- The number literals of Go: decimal or hexadecimal once the underscores that separate digits are taken out. -/
def IsGoNumber (t : Str) : Prop :=
  SeparatorsOK t ∧ (IsDecimal (t.filter (· ≠ '_')) ∨ IsHexLiteral (t.filter (· ≠ '_')))

/-- The infinities and `nan`, in any mix of capital and small letters. -/
def IsSpecial (t : Str) : Prop :=
  ∃ sign w : Str, t = sign ++ w ∧ (sign = [] ∨ sign = ['-'] ∨ sign = ['+']) ∧
    (w.map Char.toLower = "inf".toList ∨ w.map Char.toLower = "infinity".toList ∨ (sign = [] ∧ w.map Char.toLower = "nan".toList))

end GoSvg.Spec

namespace GoSvg.Spec

/-- A list of groups with the separators in front of each: as `NumberList`, with run-together numbers allowed. -/
structure GroupList where
  items : List (Str × Group)
  last : Str

def GroupList.WF [GoEnv] (l : GroupList) : Prop :=
  (∀ c ∈ l.last, IsSep c) ∧ (∀ i ∈ l.items, i.2.WF ∧ ∀ c ∈ i.1, IsSep c) ∧
  ∀ i ∈ l.items.tail, i.1 ≠ [] ∨ i.2.first.neg = true

def GroupList.text (l : GroupList) : Str := l.items.flatMap (fun i => i.1 ++ i.2.text) ++ l.last

def GroupList.numbers (l : GroupList) : List Spelling := l.items.flatMap fun i => i.2.numbers

/-- A list of values separated by commas and spaces: each with the separator in front of it. -/
structure CommaList where
  items : List (Str × Str)
  last : Str

def CommaOrSpace (s : Str) : Prop := ∀ c ∈ s, c = ',' ∨ c = ' '

/-- At least one comma or space between two items; no comma or space inside an item; no empty item. -/
def CommaList.WF (l : CommaList) : Prop :=
  CommaOrSpace l.last ∧ (∀ i ∈ l.items, CommaOrSpace i.1 ∧ i.2 ≠ [] ∧ ∀ c ∈ i.2, c ≠ ',' ∧ c ≠ ' ') ∧
  ∀ i ∈ l.items.tail, i.1 ≠ []

def CommaList.text (l : CommaList) : Str := l.items.flatMap (fun i => i.1 ++ i.2) ++ l.last

end GoSvg.Spec
