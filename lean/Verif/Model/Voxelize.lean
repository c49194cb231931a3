import Verif.Model.Grid
import Verif.Model.Connections

/-!
# Structured grids from points

Model of `/repo/toughio/meshmaker/_voxelize.py`. Points and origin have three
coordinates; the checks of argument types are left out. The list of no points stands for
an array of no rows and three columns.
-/

namespace Verif.Mesh
open Verif.Py Verif.Model

section
variable {K : Type} [Field K] [LinearOrder K]

/-- `vor = [x0]`, `for xx in x: vor.append(2 * xx - vor[-1])` (`_voxelize.py`, 44-46). -/
def voronoi (x0 : K) : List K → List K
  | [] => [x0]
  | x :: xs => x0 :: voronoi (2 * x - x0) xs

/-- `voronoi1d` (`_voxelize.py`, 33-50). -/
def voronoi1d (x : List K) (x0 : K) : Except PyErr (List K) :=
  if 1 < x.length then
    let x := x.insertionSort (· ≤ ·)
    match x.head? with
    | some a => if a ≤ x0 then .error .valueError else .ok (voronoi x0 x)
    | none => .error .indexError
  else .ok [x0, x0 + 1]

/-- `numpy.diff`. -/
def diff (l : List K) : List K := List.zipWith (· - ·) l.tail l

/-- `voxelize` (`_voxelize.py`, 10-73). -/
def voxelize (points : List (P3 K)) (origin : P3 K) (layer : Bool) (material : Str) : Except PyErr (Mesh K ℤ) := do
  let x := unique (points.map (·.x))
  let y := unique (points.map (·.y))
  let z := unique (points.map (·.z))
  if x.length * y.length * z.length ≠ points.length then .error .valueError
  else
    let x ← voronoi1d x origin.x
    let y ← voronoi1d y origin.y
    let z ← voronoi1d z origin.z
    structuredGrid (diff x) (diff y) (some (diff z)) (some [origin.x, origin.y, origin.z]) layer material

end

end Verif.Mesh
