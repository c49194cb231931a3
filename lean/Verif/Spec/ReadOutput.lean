import Verif.Model.ReadOutput
import Verif.Spec.Geometry
import Verif.Spec.Output

/-!
# What results on a mesh mean
-/

namespace Verif.Spec
open Verif.Py Verif.Mesh

/-- The centre of the cell with label `s`. -/
noncomputable def centreOf (labels : List Str) (cs : List (P3 ℝ)) (s : Str) : P3 ℝ :=
  cs.getD (labels.idxOf s) ⟨0, 0, 0⟩

/-- The cell a flow enters: the first one if it is positive. -/
noncomputable def intoCell (e : (Str × Str) × ℝ) : Str := if 0 < e.2 then e.1.1 else e.1.2

/-- The cell a flow leaves. -/
noncomputable def fromCell (e : (Str × Str) × ℝ) : Str := if 0 < e.2 then e.1.2 else e.1.1

/-- The vector of a flow: its length is the size of the flow, its direction that from the
centre of the cell it leaves to that of the cell it enters. -/
noncomputable def flowVector (centre : Str → P3 ℝ) (e : (Str × Str) × ℝ) : P3 ℝ :=
  let a := centre (fromCell e)
  let b := centre (intoCell e)
  let k := |e.2| / dist3 a b
  ⟨k * (b.x - a.x), k * (b.y - a.y), k * (b.z - a.z)⟩

/-- The sum of the vectors of all flows that enter cell `s`. -/
noncomputable def inflow (centre : Str → P3 ℝ) (flows : List ((Str × Str) × ℝ)) (s : Str) : List ℝ :=
  let vs := (flows.filter fun e => intoCell e = s).map (flowVector centre)
  [(vs.map (·.x)).sum, (vs.map (·.y)).sum, (vs.map (·.z)).sum]

end Verif.Spec
