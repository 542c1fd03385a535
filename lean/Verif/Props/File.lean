import Verif.Spec.File
import Verif.Props.Use
import Verif.Model.F64

/-! C95: files. -/

set_option linter.unusedSectionVars false

namespace GoSvg

open Spec

section Generic

variable {F : Type} [GoFloat F] [GoEnv]

/-- C95: when `ParseFile` has come to an end, by returning or with a panic, the files that are open are those that were open before, and no file has been
read that was not open, whatever the files contain; the result is that of `Parse` for the content of the file, or no drawing and the error of the
operating system. -/
theorem C95_file (files : Files) (fuel : Nat) (mode : ErrorMode) (name : Str) (fs : List Str) :
    match files name with
    | .error e => parseFile (F := F) files fuel mode name = (.notOpened e, []) ∧ openAfter fs (parseFile (F := F) files fuel mode name).2 = some fs
    | .ok (tokens, fin) => (parseFile files fuel mode name).1 = .parsed (parse (F := F) fuel mode tokens fin) ∧
      (parse (F := F) fuel mode tokens fin ≠ .diverge → openAfter fs (parseFile (F := F) files fuel mode name).2 = some fs) := by
  unfold parseFile
  cases files name with
  | error e => exact ⟨rfl, rfl⟩
  | ok x =>
    obtain ⟨tokens, fin⟩ := x
    dsimp only
    cases parse (F := F) fuel mode tokens fin with
    | done s e log => exact ⟨rfl, fun _ => by simp [deferred, openAfter]⟩
    | panic s => exact ⟨rfl, fun _ => by simp [deferred, openAfter]⟩
    | diverge => exact ⟨rfl, fun h => absurd rfl h⟩

/-- C95 with C34: for files without `use` the call ends, and no file is left open. -/
theorem C95_no_use (h : AnglesClose F) {fuel : Nat} (hf : 1 ≤ fuel) {files : Files} (hu : ∀ name tokens fin, files name = .ok (tokens, fin) → NoUse tokens)
    (mode : ErrorMode) (name : Str) (fs : List Str) : openAfter fs (parseFile (F := F) files fuel mode name).2 = some fs := by
  have key := C95_file (F := F) files fuel mode name fs
  cases hn : files name with
  | error e => rw [hn] at key; exact key.2
  | ok x =>
    obtain ⟨tokens, fin⟩ := x
    rw [hn] at key
    exact key.2 (C34_terminates_partial h hf (hu name tokens fin hn) mode fin)

end Generic

section Example

attribute [local instance] asciiEnv
attribute [local instance] dummyLibm

/-- Two files: one with an empty drawing and one with an `svg` and a `use` of a definition that uses itself. -/
def twoFiles : Files := fun name =>
  if name = "a".toList then .ok ([.start "svg".toList [], .stop "svg".toList], .eof)
  else if name = "b".toList then .ok ([.start "svg".toList [], .start "defs".toList [], .start "use".toList [⟨"id".toList, "u".toList⟩, ⟨"href".toList, "#u".toList⟩],
    .stop "use".toList, .stop "defs".toList, .start "use".toList [⟨"href".toList, "#u".toList⟩]], .eof)
  else .error 2

set_option maxRecDepth 100000 in
/-- The first is parsed and closed; a third does not exist; the second is never closed (C42). -/
theorem files_example :
    (parseFile (F := F64) twoFiles 9 .strict "a".toList).2 = [.opened "a".toList, .read "a".toList, .closed "a".toList] ∧
    (match (parseFile (F := F64) twoFiles 9 .strict "a".toList).1 with
      | .parsed (.done (some _) none []) => true
      | _ => false) = true ∧
    (parseFile (F := F64) twoFiles 9 .strict "c".toList).2 = [] ∧
    (parseFile (F := F64) twoFiles 9 .strict "b".toList).2 = [.opened "b".toList, .read "b".toList] := by
  decide +kernel

end Example

end GoSvg
