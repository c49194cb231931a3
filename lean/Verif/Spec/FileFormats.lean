import Verif.Py.Str

/-!
# Formats of mesh files
-/

namespace Verif.Spec
open Verif.Py

/-- The format of a mesh file by its extension in small letters; other files are left to meshio. -/
def meshFormatOf (e : Str) : Option Str :=
  if e = ".dat".toList ∨ e = ".tec".toList then some "tecplot".toList
  else if e = ".f3grid".toList then some "flac3d".toList
  else if e = ".pickle".toList ∨ e = ".pkl".toList then some "pickle".toList
  else none

end Verif.Spec
