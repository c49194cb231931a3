import Verif.Props.Again
import Verif.Props.OutAgain
import Verif.Props.ResaveRange

/-!
# C03, C91, C97: numbers at the ends of the range of floats

The condition `InRange` of these claims cannot be left out.
-/

namespace Verif.Props
open Verif.Py Verif.Model Verif.Spec

/-- A multiple of the smallest positive float. -/
def tinyFlt (n : ℕ) : Flt := .fin false ((n : ℚ≥0) / 2 ^ 1074)

/-- C03. Numbers that are not in the normal range may drift: one is written as 10⁻³¹⁹, but the
nearest float is below and is written as 9.9999e-320; and the largest float becomes infinite. -/
theorem C03_range_needed :
    fmtE 4 (tinyFlt 20241) = "1.0000e-319".toList ∧ quant 4 (tinyFlt 20241) = tinyFlt 20240 ∧
    fmtE 4 (tinyFlt 20240) = "9.9999e-320".toList ∧
    fmtE 4 Mesh.largestFlt = "1.7977e+308".toList ∧ quant 4 Mesh.largestFlt = .inf false := by
  refine ⟨?_, ?_, ?_, ?_, ?_⟩ <;> decide +kernel

/-- C91. The largest float fits its column of three digits, but it is loaded as infinity. -/
theorem C91_violated_range :
    FileOk none { plainParams with
      dflt := { noRock with relPerm := some ⟨.int 1, [.flt Mesh.largestFlt]⟩ } } ∧
    Changed { plainParams with
      dflt := { noRock with relPerm := some ⟨.int 1, [.flt Mesh.largestFlt]⟩ } } := by
  decide +kernel

/-- One cell with a value. -/
def cellOf (x : Flt) : Output Str Flt :=
  ⟨some (.fin false 1), ["A1100".toList], [("P".toList, [x])]⟩

/-- C97 is violated by numbers below the normal range: a CSV file changes when it is loaded and
saved. -/
theorem C97_range_violated :
    (writeCsv (fun _ => []) .element (fun s => [s]) [cellOf (tinyFlt 2024022533074)] >>= fun lines =>
      readCsvElements lines none >>= writeCsv (fun _ => []) .element (fun s => [s])) =
      writeCsv (fun _ => []) .element (fun s => [s]) [cellOf (tinyFlt 2024022533073)] ∧
    writeCsv (fun _ => []) .element (fun s => [s]) [cellOf (tinyFlt 2024022533073)] ≠
      writeCsv (fun _ => []) .element (fun s => [s]) [cellOf (tinyFlt 2024022533074)] := by
  constructor <;> decide +kernel

end Verif.Props
