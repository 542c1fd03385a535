import Verif.Spec.Affine
import Verif.Spec.Attrs

/-! Specification: how a list of transform functions is written, and what the functions written mean. -/

namespace GoSvg.Spec

/-- One transform function as written: white space, the name, white space, the arguments in parentheses. -/
structure FnText (F : Type) where
  pre : Str
  name : Str
  mid : Str
  args : Str
  post : Str
  nums : List F

def FnText.text {F : Type} (t : FnText F) : Str := t.pre ++ t.name ++ t.mid ++ '(' :: t.args ++ t.post ++ [')']

/-- A name made of letters, and arguments that are the numbers `nums` in any layout and spelling. -/
structure FnText.WF {F : Type} [GoFloat F] [GoEnv] (t : FnText F) : Prop where
  pre : Blank t.pre
  mid : Blank t.mid
  post : Blank t.post
  name : t.name ≠ []
  letters : ∀ c ∈ t.name, c.isAlpha = true
  nonempty : t.args ≠ []
  no_paren : '(' ∉ t.args ∧ ')' ∉ t.args
  last : ∀ c, t.args.getLast? = some c → isSpace c = false
  nums : WritesNumbers t.nums t.args

/-- A list of functions, with nothing but white space between them. -/
def listText {F : Type} (l : List (FnText F)) (last : Str) : Str := l.flatMap FnText.text ++ last

/-- What a name with arguments means. Names in any letter case. -/
inductive Means : Str → List ℝ → Fn → Prop where
  | translate {n x y} : n.map Char.toLower = "translate".toList → Means n [x, y] (.translate x y)
  | translateX {n x} : n.map Char.toLower = "translate".toList → Means n [x] (.translate x 0)
  | scale {n x y} : n.map Char.toLower = "scale".toList → Means n [x, y] (.scale x y)
  | scaleBoth {n x} : n.map Char.toLower = "scale".toList → Means n [x] (.scale x x)
  | rotate {n a} : n.map Char.toLower = "rotate".toList → Means n [a] (.rotate a)
  | rotateAbout {n a x y} : n.map Char.toLower = "rotate".toList → Means n [a, x, y] (.rotateAbout a x y)
  | skewX {n a} : n.map Char.toLower = "skewx".toList → Means n [a] (.skewX a)
  | skewY {n a} : n.map Char.toLower = "skewy".toList → Means n [a] (.skewY a)
  | matrix {n a b c d e f} : n.map Char.toLower = "matrix".toList → Means n [a, b, c, d, e, f] (.matrix ⟨a, b, c, d, e, f⟩)

/-- The list written means the functions `fs`, in order. -/
def MeansList (l : List (FnText ℝ)) (fs : List Fn) : Prop := List.Forall₂ (fun t f => Means t.name t.nums f) l fs

end GoSvg.Spec
