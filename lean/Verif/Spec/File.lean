import Verif.Model.File

/-! Specification: the use of files. -/

namespace GoSvg.Spec

/-- The files that are open after some events, if no file is read or closed that is not open. -/
def openAfter : List Str → List FileEvent → Option (List Str)
  | fs, [] => some fs
  | fs, .opened n :: es => openAfter (n :: fs) es
  | fs, .read n :: es => if n ∈ fs then openAfter fs es else none
  | fs, .closed n :: es => if n ∈ fs then openAfter (fs.erase n) es else none

end GoSvg.Spec
