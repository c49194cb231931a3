import Verif.Model.IO

/-!
# File formats by extension

Model of `register_format` and `filetype_from_filename`
(`/repo/toughio/_common.py`, 101-119) and of the choice of a format in
`/repo/toughio/_io/input/_helpers.py`. `F` is the type of a reader, `G` of a
writer.
-/

namespace Verif.Model
open Verif.Py

/-- The three dictionaries of a family of formats (`_helpers.py`, 10-12). -/
structure Registry (F G : Type) where
  exts : List (Str × Str)
  readers : List (Str × F)
  writers : List (Str × G)

/-- `register_format` (`_common.py`, 101-112). -/
def registerFormat {F G : Type} (r : Registry F G) (fmt : Str) (extensions : List Str)
    (reader : Option F) (writer : Option G) : Registry F G where
  exts := extensions.foldl (fun d e => dictSet d e fmt) r.exts
  readers := match reader with
    | some f => dictSet r.readers fmt f
    | none => r.readers
  writers := match writer with
    | some g => dictSet r.writers fmt g
    | none => r.writers

/-- `s.rfind(c)`. -/
def rfind (c : Char) : Str → ℤ
  | [] => -1
  | d :: s => if 0 ≤ rfind c s then rfind c s + 1 else if d = c then 0 else -1

/-- `os.path.splitext(p)` (CPython `genericpath._splitext` with separator `/`). -/
def splitext (p : Str) : Str × Str :=
  let sep := rfind '/' p
  let dot := rfind '.' p
  if sep < dot ∧ ((p.take dot.toNat).drop (sep + 1).toNat).any (· ≠ '.') then
    (p.take dot.toNat, p.drop dot.toNat)
  else (p, [])

/-- `filetype_from_filename` (`_common.py`, 115-119). -/
def filetypeFromFilename (p : Str) (d : List (Str × Str)) : Str :=
  match dictGet d (lower (splitext p).2) with
  | .ok f => f
  | .error _ => []

/-- The format used by `read` and `write` of input files (`_helpers.py`, 70-78 and
110-118), without the check of types. -/
def inputFormat (file_format : Option Str) (p : Str) (d : List (Str × Str)) :
    Except PyErr Str :=
  match file_format with
  | some f => if f = "tough".toList ∨ f = "json".toList then .ok f else .error .valueError
  | none =>
    let f := filetypeFromFilename p d
    .ok (if f = [] then "tough".toList else f)

end Verif.Model
