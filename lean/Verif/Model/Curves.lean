import Verif.Model.IO
import Mathlib.Analysis.SpecialFunctions.Pow.Real

/-!
# Relative permeability and capillary pressure curves

Model of `/repo/toughio/relative_permeability` and `/repo/toughio/capillarity`.

Simplifications: numbers are real numbers (no rounding, no overflow, no NaN as an
argument; decimal constants have their decimal value); saturations are Python numbers
(with numpy numbers a division by zero gives `inf` or `nan` instead of an exception).
A model object is the function it evaluates; the constructor may refuse. The objects
with their parameters are in `Verif.Model.CurveObjects`.
-/

namespace Verif.Curves
open Verif.Py Verif.Model

/-- A result: a real number, or something else (a complex number, `inf` or `nan`), the
value of which is not described. -/
inductive Num
  | re (x : ℝ)
  | other

/-- `a / b` of Python numbers. -/
noncomputable def div (a b : ℝ) : Except PyErr ℝ :=
  if b = 0 then .error .zeroDivisionError else .ok (a / b)

open Classical in
/-- `a ** b` of Python numbers: zero to a negative power is refused, and a negative number
to a power that is not an integer is a complex number. -/
noncomputable def pow (a b : ℝ) : Except PyErr Num :=
  if a = 0 ∧ b < 0 then .error .zeroDivisionError
  else if a < 0 ∧ ¬ ∃ n : ℤ, b = n then .ok .other
  else .ok (.re (a ^ b))

/-- A real function of a number; complex numbers stay complex numbers. -/
def Num.map (f : ℝ → ℝ) : Num → Num
  | .re x => .re (f x)
  | .other => .other

/-- A power of a number. -/
noncomputable def Num.pow (a : Num) (b : ℝ) : Except PyErr Num :=
  match a with
  | .re x => Curves.pow x b
  | .other => .ok .other

/-- `__call__` for a single saturation (`relative_permeability/_base.py`, 39-43,
`capillarity/_base.py`, 37-41). -/
noncomputable def call {α : Type} (eval : ℝ → Except PyErr α) (sl : ℝ) : Except PyErr α :=
  if 0 ≤ sl ∧ sl ≤ 1 then eval sl else .error .valueError

/-- `__call__` for an array (`relative_permeability/_base.py`, 44-48,
`capillarity/_base.py`, 42-46); the columns of the result of the relative permeability. -/
noncomputable def callArray {α : Type} (eval : ℝ → Except PyErr α) (sl : List ℝ) : Except PyErr (List α) :=
  if (∀ s ∈ sl, 0 ≤ s) ∧ ∀ s ∈ sl, s ≤ 1 then sl.mapM eval else .error .valueError

/-! ## Relative permeability -/

/-- A relative permeability model: liquid and gas. -/
abbrev RelPerm := ℝ → Except PyErr (Num × Num)

/-- `_eval` of `Linear` (`relative_permeability/_linear.py`, 13-55). -/
noncomputable def krLinearAt (slmin sgmin slmax sgmax : ℝ) : RelPerm :=
  fun sl => do
    let kl ← (if sl ≥ slmax then .ok 1 else if sl ≤ slmin then .ok 0 else div (sl - slmin) (slmax - slmin) :
      Except PyErr ℝ)
    let sg := 1 - sl
    let kg ← (if sg ≥ sgmax then .ok 1 else if sg ≤ sgmin then .ok 0 else div (sg - sgmin) (sgmax - sgmin) :
      Except PyErr ℝ)
    .ok (.re kl, .re kg)

/-- `Linear` (`relative_permeability/_linear.py`, 13-55). -/
noncomputable def krLinear (slmin sgmin slmax sgmax : ℝ) : Except PyErr RelPerm :=
  if slmin ≥ slmax then .error .valueError
  else if sgmin ≥ sgmax then .error .valueError
  else .ok (krLinearAt slmin sgmin slmax sgmax)

/-- `_eval` of `Pickens` (`relative_permeability/_pickens.py`, 13-28). -/
noncomputable def krPickensAt (x : ℝ) : RelPerm :=
  fun sl => do
    let kl ← pow sl x
    .ok (kl, .re 1)

/-- `Pickens` (`relative_permeability/_pickens.py`, 13-28). -/
noncomputable def krPickens (x : ℝ) : Except PyErr RelPerm :=
  .ok (krPickensAt x)

/-- `_eval` of `Corey` (`relative_permeability/_corey.py`, 13-45). -/
noncomputable def krCoreyAt (slr sgr : ℝ) : RelPerm :=
  fun sl =>
    let sg := 1 - sl
    if sg < sgr then .ok (.re 1, .re 0)
    else if sg ≥ 1 - slr then .ok (.re 0, .re 1)
    else do
      let s ← div (sl - slr) (1 - slr - sgr)
      .ok (.re (s ^ 4), .re ((1 - s ^ 2) * (1 - s) ^ 2))

/-- `Corey` (`relative_permeability/_corey.py`, 13-45). -/
noncomputable def krCorey (slr sgr : ℝ) : Except PyErr RelPerm :=
  if slr + sgr ≥ 1 then .error .valueError
  else .ok (krCoreyAt slr sgr)

/-- `_eval` of `Grant` (`relative_permeability/_grant.py`, 13-45). -/
noncomputable def krGrantAt (slr sgr : ℝ) : RelPerm :=
  fun sl =>
    let sg := 1 - sl
    if sg < sgr then .ok (.re 1, .re 0)
    else if sg ≥ 1 - slr then .ok (.re 0, .re 1)
    else do
      let s ← div (sl - slr) (1 - slr - sgr)
      .ok (.re (s ^ 4), .re (1 - s ^ 4))

/-- `Grant` (`relative_permeability/_grant.py`, 13-45). -/
noncomputable def krGrant (slr sgr : ℝ) : Except PyErr RelPerm :=
  if slr + sgr ≥ 1 then .error .valueError
  else .ok (krGrantAt slr sgr)

/-- `_eval` of `FattKlikoff` (`relative_permeability/_fatt_klikoff.py`, 13-35). -/
noncomputable def krFattKlikoffAt (slr : ℝ) : RelPerm :=
  fun sl => do
    let s ← (if sl > slr then div (sl - slr) (1 - slr) else .ok 0 : Except PyErr ℝ)
    .ok (.re (s ^ 3), .re ((1 - s) ^ 3))

/-- `FattKlikoff` (`relative_permeability/_fatt_klikoff.py`, 13-35). -/
noncomputable def krFattKlikoff (slr : ℝ) : Except PyErr RelPerm :=
  if slr ≥ 1 then .error .valueError
  else .ok (krFattKlikoffAt slr)

/-- The liquid permeability of `vanGenuchtenMualem` for a positive effective saturation
(`relative_permeability/_van_genuchten_mualem.py`, 43). -/
noncomputable def liquid (m s : ℝ) : Except PyErr Num := do
  let a ← pow s (1 / 2)
  let e ← div 1 m
  let b ← pow s e
  let c ← (b.map (1 - ·)).pow m
  match a, c with
  | .re a, .re c => .ok (.re (a * (1 - c) ^ 2))
  | _, _ => .ok .other

/-- `_eval` of `vanGenuchtenMualem` (`relative_permeability/_van_genuchten_mualem.py`, 13-53). -/
noncomputable def krVanGenuchtenMualemAt (m slr sls sgr : ℝ) : RelPerm :=
  fun sl =>
    if sl ≥ sls then .ok (.re 1, .re 0)
    else do
      let s ← div (sl - slr) (sls - slr)
      let kl ← (if s > 0 then liquid m s else .ok (.re 0) : Except PyErr Num)
      let h ← div (sl - slr) (1 - slr - sgr)
      let h := min (max h 0) 1
      let kg := if sgr ≤ 0 then kl.map (1 - ·) else .re ((1 - h ^ 2) * (1 - h) ^ 2)
      .ok (kl, kg)

/-- `vanGenuchtenMualem` (`relative_permeability/_van_genuchten_mualem.py`, 13-53). -/
noncomputable def krVanGenuchtenMualem (m slr sls sgr : ℝ) : Except PyErr RelPerm :=
  .ok (krVanGenuchtenMualemAt m slr sls sgr)

/-- `_eval` of `Verma` (`relative_permeability/_verma.py`, 13-45). -/
noncomputable def krVermaAt (slr sls a b c : ℝ) : RelPerm :=
  fun sl => do
    let s ← div (sl - slr) (sls - slr)
    let s := min (max s 0) 1
    let kl := s ^ 3
    let kg := a + b * s + c * s ^ 2
    let kg := min (max kg 0) 1
    .ok (.re kl, .re kg)

/-- `Verma` (`relative_permeability/_verma.py`, 13-45). -/
noncomputable def krVerma (slr sls a b c : ℝ) : Except PyErr RelPerm :=
  .ok (krVermaAt slr sls a b c)

/-! ## Capillary pressure -/

/-- A capillary pressure model. -/
abbrev CapPres := ℝ → Except PyErr Num

/-- `_eval` of `Linear` (`capillarity/_linear.py`, 13-40). -/
noncomputable def pcLinearAt (pmax smin smax : ℝ) : CapPres :=
  fun sl =>
    if sl ≤ smin then .ok (.re (-pmax))
    else if sl ≥ smax then .ok (.re 0)
    else do
      let p ← div (-pmax * (smax - sl)) (smax - smin)
      .ok (.re p)

/-- `Linear` (`capillarity/_linear.py`, 13-40). -/
noncomputable def pcLinear (pmax smin smax : ℝ) : Except PyErr CapPres :=
  if smax ≤ smin then .error .valueError
  else .ok (pcLinearAt pmax smin smax)

/-- `_eval` of `Pickens` (`capillarity/_pickens.py`, 15-51). `numpy.log` gives a numpy number, so
zero to a negative power is `inf`; the logarithm of a number that is not positive is
`nan` or `-inf`. -/
noncomputable def pcPickensAt (p0 slr sl0 x : ℝ) : CapPres :=
  fun sl => do
    let s := max sl (1.001 * slr)
    let s := if s > 0.999 * sl0 then 0.999 * sl0 else s
    let r ← div s sl0
    let a ← div ((1 + r) * (sl0 - slr)) (sl0 + slr)
    let b := 1 - r
    let ab ← div a b
    let q ← div (b ^ 2) (a ^ 2)
    let w ← pow (1 - q) (1 / 2)
    let e ← div 1 x
    match w with
    | .other => .ok .other
    | .re w =>
      let y := ab * (1 + w)
      if y ≤ 0 then .ok .other
      else if Real.log y = 0 ∧ e < 0 then .ok .other
      else do
        let z ← pow (Real.log y) e
        .ok (z.map (-p0 * ·))

/-- `Pickens` (`capillarity/_pickens.py`, 15-51). `numpy.log` gives a numpy number, so
zero to a negative power is `inf`; the logarithm of a number that is not positive is
`nan` or `-inf`. -/
noncomputable def pcPickens (p0 slr sl0 x : ℝ) : Except PyErr CapPres :=
  if ¬ (0 < slr ∧ slr < 1) then .error .valueError
  else if sl0 < 1 then .error .valueError
  else if x = 0 then .error .valueError
  else .ok (pcPickensAt p0 slr sl0 x)

/-- `_eval` of `TRUST` (`capillarity/_trust.py`, 13-48). -/
noncomputable def pcTrustAt (p0 slr eta pe pmax : ℝ) : CapPres :=
  fun sl => do
    let p ← if sl > slr then do
        let d ← div (1 - sl) (sl - slr)
        let e ← div 1 eta
        let z ← pow d e
        .ok (z.map fun z => -pe - p0 * z)
      else .ok (.re (-|pmax|))
    match p with
    | .other => .error .typeError
    | .re p => .ok (.re (max p (-|pmax|) * if sl > 0.999 then (1 - sl) / 0.001 else 1))

/-- `TRUST` (`capillarity/_trust.py`, 13-48). -/
noncomputable def pcTrust (p0 slr eta pe pmax : ℝ) : Except PyErr CapPres :=
  if slr < 0 then .error .valueError
  else if eta = 0 then .error .valueError
  else .ok (pcTrustAt p0 slr eta pe pmax)

/-- `_eval` of `Milly` (`capillarity/_milly.py`, 13-37). -/
noncomputable def pcMillyAt (slr : ℝ) : CapPres :=
  fun sl => do
    let s := max sl (1.001 * slr)
    if s - slr ≥ 0.371 then .ok (.re (-97.783 * 1))
    else do
      let d ← div 0.371 (s - slr)
      let z ← pow (d - 1) 0.25
      match z with
      | .other => .ok .other
      | .re z => .ok (.re (-97.783 * 10 ^ (2.26 * z - 2)))

/-- `Milly` (`capillarity/_milly.py`, 13-37). -/
noncomputable def pcMilly (slr : ℝ) : Except PyErr CapPres :=
  if slr < 0 then .error .valueError
  else .ok (pcMillyAt slr)

/-- `_eval` of `vanGenuchten` (`capillarity/_van_genuchten.py`, 13-50). `max` refuses complex
numbers. -/
noncomputable def pcVanGenuchtenAt (m slr alpha pmax sls : ℝ) : CapPres :=
  fun sl =>
    if sl = 1 then .ok (.re 0)
    else do
      let p ← if sl > slr then do
          let s ← div (sl - slr) (sls - slr)
          let f ← div (-1) |alpha|
          let e ← div (-1) m
          let z ← pow s e
          let z ← (z.map (· - 1)).pow (1 - m)
          .ok (z.map (f * ·))
        else .ok (.re (-|pmax|))
      match p with
      | .other => .error .typeError
      | .re p => .ok (.re (max p (-|pmax|) * if sl > 0.999 then (1 - sl) / 0.001 else 1))

/-- `vanGenuchten` (`capillarity/_van_genuchten.py`, 13-50). `max` refuses complex
numbers. -/
noncomputable def pcVanGenuchten (m slr alpha pmax sls : ℝ) : Except PyErr CapPres :=
  if pmax < 0 then .error .valueError
  else .ok (pcVanGenuchtenAt m slr alpha pmax sls)

end Verif.Curves
