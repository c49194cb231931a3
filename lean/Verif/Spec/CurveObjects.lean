import Verif.Model.CurveObjects
import Verif.Spec.Curves

/-!
# What the objects for curves are (C78)
-/

namespace Verif.Spec
open Verif.Py Verif.Curves

/-- The number a function of relative permeability has in TOUGH. -/
def toughIrp : RelKind → ℕ
  | .linear => 1
  | .pickens => 2
  | .corey => 3
  | .grant => 4
  | .fattKlikoff => 6
  | .vanGenuchtenMualem => 7
  | .verma => 8

/-- The number a function of capillary pressure has in TOUGH. -/
def toughIcp : CapKind → ℕ
  | .linear => 1
  | .pickens => 2
  | .trust => 3
  | .milly => 4
  | .vanGenuchten => 7

/-- How many parameters a function of relative permeability has. -/
def relCount : RelKind → ℕ
  | .linear => 4
  | .pickens => 1
  | .corey => 2
  | .grant => 2
  | .fattKlikoff => 1
  | .vanGenuchtenMualem => 4
  | .verma => 5

/-- How many parameters a function of capillary pressure has. -/
def capCount : CapKind → ℕ
  | .linear => 3
  | .pickens => 4
  | .trust => 5
  | .milly => 1
  | .vanGenuchten => 5

/-- The function (C49) with these parameters, in this order. -/
inductive RelMade : RelKind → List ℝ → Except PyErr RelPerm → Prop
  | linear (a b c d) : RelMade .linear [a, b, c, d] (krLinear a b c d)
  | pickens (a) : RelMade .pickens [a] (krPickens a)
  | corey (a b) : RelMade .corey [a, b] (krCorey a b)
  | grant (a b) : RelMade .grant [a, b] (krGrant a b)
  | fattKlikoff (a) : RelMade .fattKlikoff [a] (krFattKlikoff a)
  | vanGenuchtenMualem (a b c d) : RelMade .vanGenuchtenMualem [a, b, c, d] (krVanGenuchtenMualem a b c d)
  | verma (a b c d e) : RelMade .verma [a, b, c, d, e] (krVerma a b c d e)

/-- The function (C50) with these parameters, in this order. -/
inductive CapMade : CapKind → List ℝ → Except PyErr CapPres → Prop
  | linear (a b c) : CapMade .linear [a, b, c] (pcLinear a b c)
  | pickens (a b c d) : CapMade .pickens [a, b, c, d] (pcPickens a b c d)
  | trust (a b c d e) : CapMade .trust [a, b, c, d, e] (pcTrust a b c d e)
  | milly (a) : CapMade .milly [a] (pcMilly a)
  | vanGenuchten (a b c d e) : CapMade .vanGenuchten [a, b, c, d, e] (pcVanGenuchten a b c d e)

/-- The line for the parameter with that number. -/
def parameterLine (letters : String) (i : ℕ) (text : Str) : Str :=
  ("    " ++ letters ++ "(").toList ++ natStr i ++ ") = ".toList ++ text

end Verif.Spec
