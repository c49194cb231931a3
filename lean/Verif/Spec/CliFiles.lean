import Verif.Model.CliFiles

/-!
# Specification: files of the command line tools
-/

namespace Verif.Spec
open Verif.Py Verif.Model

/-- The place of a file of this name in a directory. -/
def Place.file (p : Place) (name : String) : Place := ⟨p.root, p.parts ++ [name.toList]⟩

/-- `dir` is what comes before the name of the file in a path: nothing, or all up to the last
slash. -/
def DirOf (dir path : Str) : Prop :=
  (∃ base, path = dir ++ base ∧ '/' ∉ base) ∧ (dir = [] ∨ dir.getLast? = some '/')

/-- Two disks differ at most in the file at one place, which has the text on the second one. -/
def OnlyFile (q : Place) (t : Str) (d d' : Disk) : Prop :=
  d'.file q = some t ∧ (∀ r, r ≠ q → d'.file r = d.file r) ∧ d'.isDir = d.isDir

end Verif.Spec
