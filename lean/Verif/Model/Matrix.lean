import Verif.Model.Types

/-! matrix.go -/

namespace GoSvg

variable {F : Type} [GoFloat F]

open GoFloat (ofInt toI32)

namespace Matrix2D

/-- matrix.go:81-82 -/
def identity : Matrix2D F := ⟨num 1, num 0, num 0, num 1, num 0, num 0⟩

/-- matrix.go:69-79 -/
def mult (a b : Matrix2D F) : Matrix2D F where
  a := a.a *. b.a +. a.c *. b.b
  b := a.b *. b.a +. a.d *. b.b
  c := a.a *. b.c +. a.c *. b.d
  d := a.b *. b.c +. a.d *. b.d
  e := a.a *. b.e +. a.c *. b.f +. a.e *. b.a
  f := a.b *. b.e +. a.d *. b.f +. a.f *. b.d

/-- matrix.go:84-89 -/
def tFixed (m : Matrix2D F) (p : Pt) : Pt where
  x := toI32 ((ofInt p.x *. m.a +. ofInt p.y *. m.c) +. m.e *. num 64)
  y := toI32 ((ofInt p.x *. m.b +. ofInt p.y *. m.d) +. m.f *. num 64)

/-- matrix.go:91-97 -/
def transform (m : Matrix2D F) (x1 y1 : F) : F × F :=
  (x1 *. m.a +. y1 *. m.c +. m.e, x1 *. m.b +. y1 *. m.d +. m.f)

/-- matrix.go:99-105 -/
def transformVector (m : Matrix2D F) (x1 y1 : F) : F × F :=
  (x1 *. m.a +. y1 *. m.c, x1 *. m.b +. y1 *. m.d)

/-- matrix.go:107-117 -/
def scale (m : Matrix2D F) (x y : F) : Matrix2D F :=
  ⟨m.a *. x, m.b *. y, m.c *. x, m.d *. y, m.e *. x, m.f *. y⟩

/-- matrix.go:119-129 -/
def skewY (m : Matrix2D F) (theta : F) : Matrix2D F :=
  m.mult ⟨num 1, GoFloat.tan theta, num 0, num 1, num 0, num 0⟩

/-- matrix.go:131-141 -/
def skewX (m : Matrix2D F) (theta : F) : Matrix2D F :=
  m.mult ⟨num 1, num 0, GoFloat.tan theta, num 1, num 0, num 0⟩

/-- matrix.go:143-153 -/
def translate (m : Matrix2D F) (x y : F) : Matrix2D F :=
  { m with e := m.e +. x, f := m.f +. y }

/-- matrix.go:155-165 -/
def rotate (m : Matrix2D F) (theta : F) : Matrix2D F :=
  m.mult ⟨GoFloat.cos theta, GoFloat.sin theta, GoFloat.neg (GoFloat.sin theta), GoFloat.cos theta, num 0, num 0⟩

/-- matrix.go:218-223 -/
def lineWidthScale (m : Matrix2D F) : F := (m.a +. m.d) /. num 2

/-- matrix.go:198-216 `MoveTo`, `LineTo`, `QuadTo`, `CubicTo`: the points of an operation transformed. -/
def moveTo (m : Matrix2D F) (p : Pt) : Pt := m.tFixed p
def lineTo (m : Matrix2D F) (p : Pt) : Pt := m.tFixed p
def quadTo (m : Matrix2D F) (p q : Pt) : Pt × Pt := (m.tFixed p, m.tFixed q)
def cubicTo (m : Matrix2D F) (p q r : Pt) : Pt × Pt × Pt := (m.tFixed p, m.tFixed q, m.tFixed r)

end Matrix2D

/-- matrix.go:17-19 `matrix3`, entry `i` as a function -/
abbrev Matrix3 (F : Type) := Fin 9 → F

/-- matrix.go:21-31 -/
def otherPair (i : Fin 3) : Fin 3 × Fin 3 :=
  match i with
  | 0 => (1, 2)
  | 1 => (0, 2)
  | 2 => (0, 1)

/-- The index `i + j*3` -/
def idx3 (i j : Fin 3) : Fin 9 := ⟨i.val + j.val * 3, by omega⟩

/-- matrix.go:33-38 -/
def Matrix3.coFact (m : Matrix3 F) (i j : Fin 3) : F :=
  let (ai, bi) := otherPair i
  let (aj, bj) := otherPair j
  let a := m (idx3 ai aj)
  let b := m (idx3 bi bj)
  let c := m (idx3 ai bj)
  let d := m (idx3 bi aj)
  a *. b -. c *. d

/-- matrix.go:44 `float64(1 - (i+j%2)%2*2)` -/
def checkerSign (i j : Fin 3) : Int := 1 - (((i.val + j.val % 2) % 2 * 2 : Nat) : Int)

/-- matrix.go:40-60. The cofactor matrix is built entry by entry (row `j`, column `i` at index `i+j*3`), the
determinant is taken before the transposition, and the transposed entries are divided by it. -/
def Matrix3.invert (m : Matrix3 F) : Matrix3 F :=
  let cofact : Matrix3 F := fun k =>
    let i : Fin 3 := ⟨k.val % 3, by omega⟩
    let j : Fin 3 := ⟨k.val / 3, by omega⟩
    m.coFact i j *. ofInt (checkerSign i j)
  let det := m 0 *. cofact 0 +. m 1 *. cofact 1 +. m 2 *. cofact 2
  -- the swap of `cofact[i+j*3]` and `cofact[j+i*3]` for i < j
  let transposed : Matrix3 F := fun k => cofact ⟨k.val / 3 + k.val % 3 * 3, by omega⟩
  fun k => transposed k /. det

/-- matrix.go:62-67 -/
def Matrix2D.invert (a : Matrix2D F) : Matrix2D F :=
  let n : Matrix3 F := fun k => match k with
    | 0 => a.a | 1 => a.c | 2 => a.e
    | 3 => a.b | 4 => a.d | 5 => a.f
    | 6 => num 0 | 7 => num 0 | 8 => num 1
  let n := Matrix3.invert n
  { a := n 0, c := n 1, e := n 2, b := n 3, d := n 4, f := n 5 }

end GoSvg
