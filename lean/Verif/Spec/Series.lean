import Verif.Spec.Meshio
import Verif.Model.Series

/-!
# Time series: specification
-/

namespace Verif.Spec
open Verif.Py Verif.Model Verif.Mesh

variable {D T : Type}

/-- Step `i` as it is given: without times the step number, without data none. -/
def stepAt (ofNat : ℕ → T) (pd cd : Option (List (Data D))) (ts : Option (List T)) (i : ℕ) :
    T × Data D × Data D :=
  ((ts.bind (·[i]?)).getD (ofNat i), (pd.bind (·[i]?)).getD [], (cd.bind (·[i]?)).getD [])

/-- The arguments describe `n` steps. -/
structure Steps (pd cd : Option (List (Data D))) (ts : Option (List T)) (n : ℕ) : Prop where
  pos : 0 < n
  given : pd.getD [] ≠ [] ∨ cd.getD [] ≠ []
  point : ∀ l, pd = some l → l = [] ∨ l.length = n
  cell : ∀ l, cd = some l → l = [] ∨ l.length = n
  times : ∀ l, ts = some l → l.length = n

/-- `numpy.argsort` gives an order in which the times do not decrease. -/
def SortsTimes [LE T] (argsort : List T → List ℕ) : Prop :=
  ∀ ts, (argsort ts).Perm (List.range ts.length) ∧
    (argsort ts).Pairwise fun i j => ∀ s t, ts[i]? = some s → ts[j]? = some t → s ≤ t

end Verif.Spec
