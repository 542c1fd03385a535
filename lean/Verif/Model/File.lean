import Verif.Model.Parse

/-! `ParseFile`: a file is opened, parsed and closed. -/

namespace GoSvg

variable {F : Type} [GoFloat F] [GoEnv]

/-- What is done with files, by name. Simplified: the reads of `Parse` are one event. -/
inductive FileEvent where
  | opened (name : Str)
  | read (name : Str)
  | closed (name : Str)
deriving DecidableEq, Repr

/-- The files: what `os.Open` says of a name. An error, or a file with the tokens of its content and their end (see `parse`). -/
def Files : Type := Str → Except Nat (List Token × StreamEnd)

/-- What `ParseFile` gives to its caller: a nil drawing and the error of `os.Open`, or what `Parse` gives. -/
inductive FileOutcome (F : Type) where
  | notOpened (e : Nat)
  | parsed (o : Outcome F)

/-- A function body with a deferred call: the call is made when the body returns or panics, and never if it does not end. -/
def deferred (body : Outcome F × List FileEvent) (last : FileEvent) : Outcome F × List FileEvent :=
  match body with
  | (.done s e log, es) => (.done s e log, es ++ [last])
  | (.panic s, es) => (.panic s, es ++ [last])
  | (.diverge, es) => (.diverge, es)

/-- svg.go:142-149 `ParseFile`, with what it does to files. The error of `Close` is ignored by the code. -/
def parseFile (files : Files) (fuel : Nat) (mode : ErrorMode) (name : Str) : FileOutcome F × List FileEvent :=
  match files name with
  | .error e => (.notOpened e, [])
  | .ok (tokens, fin) =>
    match deferred (parse fuel mode tokens fin, [.read name]) (.closed name) with
    | (o, es) => (.parsed o, .opened name :: es)

end GoSvg
