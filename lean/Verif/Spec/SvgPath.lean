import Verif.Model.Types
import Verif.Spec.Numbers

/-! Specification: the meaning of path data (SVG 1.1, section 8.3), one parameter set at a time. Coordinates are in an
arbitrary arithmetic `F`; over the reals `+.`, `-.`, `*.` are the usual operations. -/

namespace GoSvg.Spec

variable {F : Type} [GoFloat F]

/-- A point. -/
abbrev Pnt (F : Type) := F × F

/-- One parameter set of a command. -/
inductive Seg (F : Type) where
  | move (p : Pnt F)
  | line (p : Pnt F)
  | horiz (x : F)
  | vert (y : F)
  | cubic (p1 p2 p : Pnt F)
  | smooth (p2 p : Pnt F)
  | quad (p1 p : Pnt F)
  | tquad (p : Pnt F)
  | close

/-- A drawing operation with coordinates in `F`. -/
inductive GOp (F : Type) where
  | moveTo (p : Pnt F)
  | lineTo (p : Pnt F)
  | quadTo (p q : Pnt F)
  | cubicTo (p q r : Pnt F)
  | close

/-- The control point the next smooth command may reflect: none, that of a cubic (C or S), that of a quadratic (Q or T). -/
inductive Ctrl (F : Type) where
  | none
  | cubic (p : Pnt F)
  | quad (p : Pnt F)

/-- The current point, the start of the subpath, the last control point. -/
structure St (F : Type) where
  cur : Pnt F
  start : Pnt F
  ctrl : Ctrl F

/-- The point symmetrical to `r` with respect to `p`. -/
def mirror (p r : Pnt F) : Pnt F := (p.1 *. num 2 -. r.1, p.2 *. num 2 -. r.2)

/-- A point of a relative command is an offset from the current point. -/
def off (rel : Bool) (s : St F) (p : Pnt F) : Pnt F := if rel then (p.1 +. s.cur.1, p.2 +. s.cur.2) else p

/-- One parameter set: the operation drawn and the next state. -/
def step (rel : Bool) (s : St F) : Seg F → GOp F × St F
  | .move p => let p := off rel s p; (.moveTo p, ⟨p, p, .none⟩)
  | .line p => let p := off rel s p; (.lineTo p, { s with cur := p, ctrl := .none })
  | .horiz x => let p := (if rel then s.cur.1 +. x else x, s.cur.2); (.lineTo p, { s with cur := p, ctrl := .none })
  | .vert y => let p := (s.cur.1, if rel then s.cur.2 +. y else y); (.lineTo p, { s with cur := p, ctrl := .none })
  | .cubic p1 p2 p =>
    let p1 := off rel s p1
    let p2 := off rel s p2
    let p := off rel s p
    (.cubicTo p1 p2 p, { s with cur := p, ctrl := .cubic p2 })
  | .smooth p2 p =>
    let p1 := match s.ctrl with | .cubic r => mirror s.cur r | _ => s.cur
    let p2 := off rel s p2
    let p := off rel s p
    (.cubicTo p1 p2 p, { s with cur := p, ctrl := .cubic p2 })
  | .quad p1 p =>
    let p1 := off rel s p1
    let p := off rel s p
    (.quadTo p1 p, { s with cur := p, ctrl := .quad p1 })
  | .tquad p =>
    let p1 := match s.ctrl with | .quad r => mirror s.cur r | _ => s.cur
    let p := off rel s p
    (.quadTo p1 p, { s with cur := p, ctrl := .quad p1 })
  | .close => (.close, { s with cur := s.start, ctrl := .none })

/-- Parameter sets one after the other. -/
def exec (s : St F) : List (Bool × Seg F) → List (GOp F) × St F
  | [] => ([], s)
  | (rel, g) :: gs =>
    let (o, s) := step rel s g
    let (os, s) := exec s gs
    (o :: os, s)

/-- A command: the letter's kind, lower or upper case, and one or more parameter sets. -/
inductive Cmd (F : Type) where
  | move (rel : Bool) (p : Pnt F) (ps : List (Pnt F))
  | line (rel : Bool) (p : Pnt F) (ps : List (Pnt F))
  | horiz (rel : Bool) (x : F) (xs : List F)
  | vert (rel : Bool) (y : F) (ys : List F)
  | cubic (rel : Bool) (p : Pnt F × Pnt F × Pnt F) (ps : List (Pnt F × Pnt F × Pnt F))
  | smooth (rel : Bool) (p : Pnt F × Pnt F) (ps : List (Pnt F × Pnt F))
  | quad (rel : Bool) (p : Pnt F × Pnt F) (ps : List (Pnt F × Pnt F))
  | tquad (rel : Bool) (p : Pnt F) (ps : List (Pnt F))
  | close (rel : Bool)

/-- The letter a command is written with. -/
def Cmd.letter : Cmd F → Char
  | .move r .. => if r then 'm' else 'M'
  | .line r .. => if r then 'l' else 'L'
  | .horiz r .. => if r then 'h' else 'H'
  | .vert r .. => if r then 'v' else 'V'
  | .cubic r .. => if r then 'c' else 'C'
  | .smooth r .. => if r then 's' else 'S'
  | .quad r .. => if r then 'q' else 'Q'
  | .tquad r .. => if r then 't' else 'T'
  | .close r => if r then 'z' else 'Z'

def flat2 (ps : List (Pnt F)) : List F := ps.flatMap fun p => [p.1, p.2]
def flat4 (ps : List (Pnt F × Pnt F)) : List F := ps.flatMap fun p => [p.1.1, p.1.2, p.2.1, p.2.2]
def flat6 (ps : List (Pnt F × Pnt F × Pnt F)) : List F :=
  ps.flatMap fun p => [p.1.1, p.1.2, p.2.1.1, p.2.1.2, p.2.2.1, p.2.2.2]

/-- The numbers written after the letter. -/
def Cmd.args : Cmd F → List F
  | .move _ p ps => flat2 (p :: ps)
  | .line _ p ps => flat2 (p :: ps)
  | .horiz _ x xs => x :: xs
  | .vert _ y ys => y :: ys
  | .cubic _ p ps => flat6 (p :: ps)
  | .smooth _ p ps => flat4 (p :: ps)
  | .quad _ p ps => flat4 (p :: ps)
  | .tquad _ p ps => flat2 (p :: ps)
  | .close _ => []

/-- The parameter sets of a command; the further sets of a move are lines. -/
def Cmd.segs : Cmd F → List (Bool × Seg F)
  | .move r p ps => (r, .move p) :: ps.map fun p => (r, .line p)
  | .line r p ps => (p :: ps).map fun p => (r, .line p)
  | .horiz r x xs => (x :: xs).map fun x => (r, .horiz x)
  | .vert r y ys => (y :: ys).map fun y => (r, .vert y)
  | .cubic r p ps => (p :: ps).map fun p => (r, .cubic p.1 p.2.1 p.2.2)
  | .smooth r p ps => (p :: ps).map fun p => (r, .smooth p.1 p.2)
  | .quad r p ps => (p :: ps).map fun p => (r, .quad p.1 p.2)
  | .tquad r p ps => (p :: ps).map fun p => (r, .tquad p)
  | .close r => [(r, .close)]

/-- The path begins with a move, and so does what follows a close. `isOpen`: a subpath has been started. -/
def StartsWithMoves : Bool → List (Cmd F) → Prop
  | _, [] => True
  | _, .move .. :: cs => StartsWithMoves true cs
  | isOpen, .close _ :: cs => isOpen = true ∧ StartsWithMoves false cs
  | isOpen, _ :: cs => isOpen = true ∧ StartsWithMoves isOpen cs

/-- The drawing a path stands for. -/
def draw (cs : List (Cmd F)) : List (GOp F) :=
  (exec ⟨(num 0, num 0), (num 0, num 0), .none⟩ (cs.flatMap Cmd.segs)).1

/-- An operation stored in 26.6 fixed point, shifted by (ox, oy). -/
def GOp.store (fix : F → Int) (ox oy : F) : GOp F → Op :=
  let st (p : Pnt F) : Pt := ⟨fix (p.1 +. ox), fix (p.2 +. oy)⟩
  fun
  | .moveTo p => .moveTo (st p)
  | .lineTo p => .lineTo (st p)
  | .quadTo p q => .quadTo (st p) (st q)
  | .cubicTo p q r => .cubicTo (st p) (st q) (st r)
  | .close => .close

/-- A character that may stand between the numbers of a path: a separator that is not a letter. -/
def PathSep [GoEnv] (c : Char) : Prop := IsSep c ∧ GoEnv.isLetter c = false

/-- `t` is a way of writing the letter `k` followed by the numbers `args`: in any layout, with any spelling of the numbers
that the number reader takes for them (`num 1` is the factor of a pixel). -/
def Writes [GoEnv] (k : Char) (args : List F) (t : Str) : Prop :=
  ∃ (l : GroupList) (vs : List F), t = k :: l.text ∧ l.WF ∧ (∀ c ∈ l.last, PathSep c) ∧
    (∀ i ∈ l.items, ∀ c ∈ i.1, PathSep c) ∧ readAll (l.numbers.map Spelling.text) = some vs ∧ args = vs.map (· *. num 1)

/-- `t` is a way of writing the command: its letter, then its numbers in some layout. -/
def Written [GoEnv] (cmd : Cmd F) (t : Str) : Prop := Writes cmd.letter cmd.args t

/-- A segment of a path text: a letter other than `e` and what follows it up to the next such letter. -/
def Segment [GoEnv] (t : Str) : Prop :=
  ∃ k body, t = k :: body ∧ (GoEnv.isLetter k = true ∧ k ≠ 'e') ∧ ∀ c ∈ body, GoEnv.isLetter c = false ∨ c = 'e'

/-- A number of parameters that a command of arity `n` accepts: a positive multiple of `n`; none for arity zero. -/
def Accepts (n : Nat) (count : Nat) : Prop := if n = 0 then count = 0 else ∃ m, count = n * (m + 1)

/-- How many numbers make one parameter set of a command. -/
def arity (k : Char) : Option Nat :=
  if k ∈ ['z', 'Z'] then some 0
  else if k ∈ ['h', 'H', 'v', 'V'] then some 1
  else if k ∈ ['m', 'M', 'l', 'L', 't', 'T'] then some 2
  else if k ∈ ['s', 'S', 'q', 'Q'] then some 4
  else if k ∈ ['c', 'C'] then some 6
  else if k ∈ ['a', 'A'] then some 7
  else none

/-- The upper-case form of a relative command at the current point `cur`: every pair of a set is offset by the current
point at the start of that set, which is the last pair of the set before. -/
def shift2 : Pnt F → List (Pnt F) → List (Pnt F)
  | _, [] => []
  | c, p :: ps => let p := (p.1 +. c.1, p.2 +. c.2); p :: shift2 p ps

def shift4 : Pnt F → List (Pnt F × Pnt F) → List (Pnt F × Pnt F)
  | _, [] => []
  | c, (p, q) :: ps => let q' := (q.1 +. c.1, q.2 +. c.2); ((p.1 +. c.1, p.2 +. c.2), q') :: shift4 q' ps

def shift6 : Pnt F → List (Pnt F × Pnt F × Pnt F) → List (Pnt F × Pnt F × Pnt F)
  | _, [] => []
  | c, (p, q, r) :: ps =>
    let r' := (r.1 +. c.1, r.2 +. c.2)
    ((p.1 +. c.1, p.2 +. c.2), (q.1 +. c.1, q.2 +. c.2), r') :: shift6 r' ps

def shift1 : F → List F → List F
  | _, [] => []
  | c, x :: xs => (c +. x) :: shift1 (c +. x) xs

/-- The upper-case letter and parameters that stand for a lower-case letter and parameters at the current point. -/
inductive Absolute (cur : Pnt F) : Char → List F → Char → List F → Prop
  | move (p ps) : Absolute cur 'm' (flat2 (p :: ps)) 'M' (flat2 (shift2 cur (p :: ps)))
  | line (p ps) : Absolute cur 'l' (flat2 (p :: ps)) 'L' (flat2 (shift2 cur (p :: ps)))
  | horiz (x xs) : Absolute cur 'h' (x :: xs) 'H' (shift1 cur.1 (x :: xs))
  | vert (x xs) : Absolute cur 'v' (x :: xs) 'V' (shift1 cur.2 (x :: xs))
  | cubic (p ps) : Absolute cur 'c' (flat6 (p :: ps)) 'C' (flat6 (shift6 cur (p :: ps)))
  | smooth (p ps) : Absolute cur 's' (flat4 (p :: ps)) 'S' (flat4 (shift4 cur (p :: ps)))
  | quad (p ps) : Absolute cur 'q' (flat4 (p :: ps)) 'Q' (flat4 (shift4 cur (p :: ps)))
  | tquad (p ps) : Absolute cur 't' (flat2 (p :: ps)) 'T' (flat2 (shift2 cur (p :: ps)))
  | close : Absolute cur 'z' [] 'Z' []
  | arc (rx ry rot large sweep x y) :
    Absolute cur 'a' [rx, ry, rot, large, sweep, x, y] 'A' [rx, ry, rot, large, sweep, x +. cur.1, y +. cur.2]

/-- The letter that continues a command: further pairs after a move are lines. -/
def continues (k : Char) : Char := if k = 'm' then 'l' else if k = 'M' then 'L' else k

end GoSvg.Spec
