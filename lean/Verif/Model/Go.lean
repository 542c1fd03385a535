/-
The parts of Go and of its standard library that the model needs: result values, a state monad, strings as lists of
characters, float64 as an abstract type, maps.
-/

namespace GoSvg

/-- A Go string, as the list of its runes. encoding/xml delivers valid UTF-8 only, so nothing is lost except where the
code looks at bytes; the model then uses `utf8`. -/
abbrev Str := List Char

/-- Lines written to the log, and the texts of the errors raised in strict mode instead.
parse.go:38-46 (`handleError`), parse.go:364-373, parse_path.go:372-379. -/
inductive Msg where
  /-- "Cannot process svg element " + tag -/
  | cannotProcess (tag : Str)
  /-- "unsupported value '%s' for <%s>" -/
  | unsupportedValue (prop value : Str)
  /-- "Ignoring svg command " + k -/
  | ignoringCommand (k : Char)
deriving DecidableEq, Repr

/-- The errors the package returns. -/
inductive Err where
  /-- `errParamMismatch`, parse_path.go:27 -/
  | paramMismatch
  /-- `errCommandUnknown`, parse_path.go:28 -/
  | commandUnknown
  /-- `errZeroLengthID`, parse_path.go:29 -/
  | zeroLengthID
  /-- any error of strconv.ParseFloat -/
  | badFloat
  /-- any error of strconv.Atoi -/
  | badInt
  /-- any error of strconv.ParseUint -/
  | badHex
  /-- svg_elements.go:214 -/
  | oddPoints
  /-- svg_elements.go:466 -/
  | useNoHref
  /-- svg_elements.go:469 -/
  | useNotID
  /-- svg_elements.go:473 -/
  | useNotFound
  /-- parse.go:145 -/
  | unsupportedURL (v : Str)
  /-- parse.go:149 -/
  | unsupportedSelector (v : Str)
  /-- an error made from a message by `handleError` in strict mode, parse.go:41, parse.go:368 -/
  | reported (m : Msg)
  /-- svg.go:77 "invalid svg xml svg" -/
  | noElement
  /-- an error of the XML decoder or of the reader (other than EOF), svg.go:81 -/
  | reader (e : Nat)
deriving DecidableEq, Repr

/-- Where a run-time panic happens. -/
inductive Site where
  /-- `c.styleStack[len(c.styleStack)-1]` or the re-slicing that pops, on an empty stack -/
  | styleStack
  /-- an index expression in the colour parser -/
  | color
  /-- indexing the last title or description -/
  | text
  /-- `c.grad` is nil -/
  | nilGrad
deriving DecidableEq, Repr

/-- The result of a Go function: a value, a returned error, a run-time panic, or no result (see DESIGN.md: fuel). -/
inductive Res (α : Type) where
  | ok (a : α)
  | err (e : Err)
  | panic (s : Site)
  | diverge
deriving DecidableEq, Repr

namespace Res

def bind {α β : Type} (m : Res α) (f : α → Res β) : Res β :=
  match m with
  | .ok a => f a
  | .err e => .err e
  | .panic s => .panic s
  | .diverge => .diverge

instance : Monad Res where
  pure := .ok
  bind := bind

@[simp] theorem pure_eq {α : Type} (a : α) : (pure a : Res α) = .ok a := rfl
@[simp] theorem bind_ok {α β : Type} (a : α) (f : α → Res β) : ((.ok a : Res α) >>= f) = f a := rfl
@[simp] theorem bind_err {α β : Type} (e : Err) (f : α → Res β) : ((.err e : Res α) >>= f) = .err e := rfl
@[simp] theorem bind_panic {α β : Type} (e : Site) (f : α → Res β) : ((.panic e : Res α) >>= f) = .panic e := rfl
@[simp] theorem bind_diverge {α β : Type} (f : α → Res β) : ((.diverge : Res α) >>= f) = .diverge := rfl

/-- A `for _, x := range xs { acc, err = step(acc, x); if err != nil { return err } }` loop. -/
def loop {α β : Type} (step : β → α → Res β) : β → List α → Res β
  | b, [] => .ok b
  | b, a :: as =>
    match step b a with
    | .ok b' => loop step b' as
    | .err e => .err e
    | .panic s => .panic s
    | .diverge => .diverge

end Res

/-- Computations that mutate a state of type `σ` and may fail: the state at the moment of the failure is kept, as Go's
mutations are not rolled back by an error return. -/
def SM (σ α : Type) := σ → Res α × σ

namespace SM

variable {σ α β : Type}

def pure (a : α) : SM σ α := fun s => (.ok a, s)

def bind (m : SM σ α) (f : α → SM σ β) : SM σ β := fun s =>
  match m s with
  | (.ok a, s') => f a s'
  | (.err e, s') => (.err e, s')
  | (.panic p, s') => (.panic p, s')
  | (.diverge, s') => (.diverge, s')

instance : Monad (SM σ) where
  pure := pure
  bind := bind

def get : SM σ σ := fun s => (.ok s, s)
def modify (f : σ → σ) : SM σ Unit := fun s => (.ok (), f s)
def throw (e : Err) : SM σ α := fun s => (.err e, s)
def panic (p : Site) : SM σ α := fun s => (.panic p, s)
def diverge : SM σ α := fun s => (.diverge, s)
/-- A computation that does not touch the state. -/
def lift (r : Res α) : SM σ α := fun s => (r, s)

@[simp] theorem pure_run (a : α) (s : σ) : (Pure.pure a : SM σ α) s = (.ok a, s) := rfl
@[simp] theorem get_run (s : σ) : (get : SM σ σ) s = (.ok s, s) := rfl
@[simp] theorem modify_run (f : σ → σ) (s : σ) : modify f s = (.ok (), f s) := rfl
@[simp] theorem throw_run (e : Err) (s : σ) : (throw e : SM σ α) s = (.err e, s) := rfl
@[simp] theorem panic_run (e : Site) (s : σ) : (panic e : SM σ α) s = (.panic e, s) := rfl
@[simp] theorem diverge_run (s : σ) : (diverge : SM σ α) s = (.diverge, s) := rfl
@[simp] theorem lift_run (r : Res α) (s : σ) : (lift r : SM σ α) s = (r, s) := rfl

theorem bind_run (m : SM σ α) (f : α → SM σ β) (s : σ) :
    (m >>= f) s = match m s with
      | (.ok a, s') => f a s'
      | (.err e, s') => (.err e, s')
      | (.panic p, s') => (.panic p, s')
      | (.diverge, s') => (.diverge, s') := rfl

/-- A loop over a list whose body may fail. -/
def forEach (body : α → SM σ Unit) : List α → SM σ Unit
  | [] => Pure.pure ()
  | a :: as => do body a; forEach body as

end SM

/-! ### Package strings -/

/-- unicode.IsSpace -/
def isSpace (c : Char) : Bool :=
  c.toNat ∈ [0x09, 0x0A, 0x0B, 0x0C, 0x0D, 0x20, 0x85, 0xA0, 0x1680, 0x2028, 0x2029, 0x202F, 0x205F, 0x3000]
    || (0x2000 ≤ c.toNat && c.toNat ≤ 0x200A)

/-- strings.TrimSpace -/
def trimSpace (s : Str) : Str := ((s.dropWhile isSpace).reverse.dropWhile isSpace).reverse

/-- strings.HasPrefix -/
def hasPrefix (s p : Str) : Bool := p.isPrefixOf s
/-- strings.HasSuffix -/
def hasSuffix (s p : Str) : Bool := p.isSuffixOf s
/-- strings.TrimPrefix -/
def trimPrefix (s p : Str) : Str := if hasPrefix s p then s.drop p.length else s
/-- strings.TrimSuffix -/
def trimSuffix (s p : Str) : Str := if hasSuffix s p then s.take (s.length - p.length) else s

/-- strings.Split with a one-character separator: always at least one piece. -/
def split (sep : Char) : Str → List Str
  | [] => [[]]
  | c :: cs =>
    if c = sep then [] :: split sep cs
    else match split sep cs with
      | p :: ps => (c :: p) :: ps
      | [] => [[c]]

/-- strings.Cut with a one-character separator -/
def cut (sep : Char) : Str → Option (Str × Str)
  | [] => none
  | c :: cs =>
    if c = sep then some ([], cs)
    else (cut sep cs).map fun (a, b) => (c :: a, b)

/-- strings.FieldsFunc: the maximal runs of characters not satisfying `p`. `cur` is the current run. -/
def fieldsGo (p : Char → Bool) : Str → Str → List Str
  | cur, [] => if cur = [] then [] else [cur]
  | cur, c :: cs =>
    if p c then (if cur = [] then fieldsGo p [] cs else cur :: fieldsGo p [] cs)
    else fieldsGo p (cur ++ [c]) cs

def fieldsFunc (p : Char → Bool) (s : Str) : List Str := fieldsGo p [] s

/-- The UTF-8 bytes of a character. -/
def utf8Char (c : Char) : List Nat :=
  let n := c.toNat
  if n < 0x80 then [n]
  else if n < 0x800 then [0xC0 + n / 64, 0x80 + n % 64]
  else if n < 0x10000 then [0xE0 + n / 4096, 0x80 + n / 64 % 64, 0x80 + n % 64]
  else [0xF0 + n / 262144, 0x80 + n / 4096 % 64, 0x80 + n / 64 % 64, 0x80 + n % 64]

/-- The bytes of a string: what `s[i]` and `len(s)` refer to. -/
def utf8 (s : Str) : List Nat := s.flatMap utf8Char

/-! ### Package strconv (integers) -/

def digitVal (c : Char) : Option Nat :=
  if '0' ≤ c ∧ c ≤ '9' then some (c.toNat - 48) else none

/-- The value of a string of decimal digits; `none` if another character occurs. -/
def natGo : Nat → Str → Option Nat
  | acc, [] => some acc
  | acc, c :: cs => match digitVal c with
    | some d => natGo (acc * 10 + d) cs
    | none => none

def parseNat (s : Str) : Option Nat := if s = [] then none else natGo 0 s

/-- strconv.Atoi on a 64-bit platform -/
def atoi (s : Str) : Option Int :=
  match s with
  | '-' :: t => (parseNat t).bind fun n => if n ≤ 2 ^ 63 then some (-(n : Int)) else none
  | '+' :: t => (parseNat t).bind fun n => if n < 2 ^ 63 then some (n : Int) else none
  | _ => (parseNat s).bind fun n => if n < 2 ^ 63 then some (n : Int) else none

/-- The value of a hexadecimal digit given as a byte. -/
def hexVal (b : Nat) : Option Nat :=
  if 48 ≤ b ∧ b ≤ 57 then some (b - 48)
  else if 97 ≤ b ∧ b ≤ 102 then some (b - 87)
  else if 65 ≤ b ∧ b ≤ 70 then some (b - 55)
  else none

/-- strconv.ParseUint(s, 16, 8) for the two-byte strings it is called with (patterns.go:137). -/
def parseHex2 (hi lo : Nat) : Option Nat :=
  match hexVal hi, hexVal lo with
  | some h, some l => some (h * 16 + l)
  | _, _ => none

/-! ### Integers -/

/-- Two's complement wrap-around to 32 bits (`fixed.Int26_6` is an int32). -/
def wrap32 (n : Int) : Int := Int.bmod n (2 ^ 32)
/-- Two's complement wrap-around to 64 bits (`int`). -/
def wrap64 (n : Int) : Int := Int.bmod n (2 ^ 64)
/-- Conversion to uint8. -/
def toU8 (n : Int) : Nat := (n % 256).toNat

/-! ### float64 -/

/-- The operations of Go's float64 used by the code. No laws: a theorem about an arbitrary `F` holds for IEEE
arithmetic with whatever library functions. -/
class GoFloat (F : Type) where
  /-- a constant expression with this exact value, converted to float64 -/
  ofRat : Rat → F
  /-- the constant expression `q * math.Pi` -/
  piMul : Rat → F
  add : F → F → F
  sub : F → F → F
  mul : F → F → F
  div : F → F → F
  neg : F → F
  lt : F → F → Bool
  le : F → F → Bool
  eq : F → F → Bool
  abs : F → F
  sqrt : F → F
  sin : F → F
  cos : F → F
  tan : F → F
  /-- math.Atan2(y, x) -/
  atan2 : F → F → F
  /-- float64(n) -/
  ofInt : Int → F
  /-- fixed.Int26_6(f), i.e. conversion to int32 -/
  toI32 : F → Int
  /-- int(f) -/
  toInt : F → Int
  /-- uint32(f) -/
  toU32 : F → Nat
  /-- strconv.ParseFloat(s, 64); `none` when it returns an error. (No caller uses the value that comes with an
  error.) -/
  parse : Str → Option F

@[inherit_doc GoFloat.add] infixl:65 " +. " => GoFloat.add
@[inherit_doc GoFloat.sub] infixl:65 " -. " => GoFloat.sub
@[inherit_doc GoFloat.mul] infixl:70 " *. " => GoFloat.mul
@[inherit_doc GoFloat.div] infixl:70 " /. " => GoFloat.div

/-- A numeric constant. -/
abbrev num {F : Type} [GoFloat F] (q : Rat) : F := GoFloat.ofRat q

/-- A colour (color.NRGBA), components 0..255. -/
structure Color where
  r : Nat
  g : Nat
  b : Nat
  a : Nat
deriving DecidableEq, Repr

/-- What the model leaves open about the Go environment: Unicode tables outside ASCII, the table of colour names, and
the growth of slices. -/
class GoEnv where
  /-- unicode.IsLetter -/
  isLetter : Char → Bool
  /-- unicode.IsNumber -/
  isNumber : Char → Bool
  /-- unicode.ToLower; strings.ToLower maps it over the runes -/
  toLower : Char → Char
  isLetter_ascii : ∀ c : Char, c.toNat < 128 → isLetter c = c.isAlpha
  isNumber_ascii : ∀ c : Char, c.toNat < 128 → isNumber c = c.isDigit
  toLower_ascii : ∀ c : Char, c.toNat < 128 → toLower c = c.toLower
  letter_not_number : ∀ c : Char, isLetter c = true → isNumber c = false
  /-- golang.org/x/image/colornames.Map -/
  colorName : Str → Option Color
  /-- names are lower-case letters; `none` and what starts with `url` are not names; the colours are opaque -/
  colorName_ok : ∀ s c, colorName s = some c → (∀ ch ∈ s, ch.isLower = true) ∧ s ≠ "none".toList ∧ hasPrefix s "url".toList = false ∧
    c.r < 256 ∧ c.g < 256 ∧ c.b < 256 ∧ c.a = 255
  /-- capacity after appending one element to a full slice of the given capacity -/
  growCap : Nat → Nat
  growCap_gt : ∀ n, n < growCap n
  /-- runtime.growslice for 16-byte elements below 256 elements -/
  growCap_small : ∀ n, n < 256 → growCap n = if n = 0 then 1 else 2 * n

/-- strings.ToLower -/
def toLower [GoEnv] (s : Str) : Str := s.map GoEnv.toLower

/-! ### Maps with string keys -/

/-- A Go map as a list of entries with distinct keys; the order is not observable. -/
abbrev GoMap (α : Type) := List (Str × α)

namespace GoMap

def find {α : Type} (m : GoMap α) (k : Str) : Option α := List.lookup k m

/-- `m[k] = v` -/
def insert {α : Type} (m : GoMap α) (k : Str) (v : α) : GoMap α := (k, v) :: m.filter fun e => e.1 ≠ k

end GoMap

end GoSvg
