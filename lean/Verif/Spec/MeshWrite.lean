import Verif.Model.MeshWrite
import Verif.Spec.File
import Verif.Spec.Labels

/-!
# Specification of the files written for a mesh
-/

namespace Verif.Spec
open Verif.Py Verif.Model

/-! ## MESH -/

/-- A material without the blanks around its name. -/
def bare : Material → Material
  | .name s => .name (strip s)
  | .number i => .number i

/-- Two materials are the same up to blanks around the name. -/
def Same (a b : Material) : Prop := bare a = bare b

instance (a b : Material) : Decidable (Same a b) := by unfold Same; infer_instance

/-- The material under which a cell is to be written: that of `names`, if its own is
mentioned there. -/
def shownMaterial (names : List (Material × Material)) (m : Material) : Material :=
  match names.find? fun e => decide (Same e.1 m) with
  | some e => bare e.2
  | none => bare m

/-- A cell that is to be written at the end. -/
def IsLast (ends : List Material) (c : MeshCell) : Prop := ∃ m ∈ ends, Same m c.material

instance (ends : List Material) (c : MeshCell) : Decidable (IsLast ends c) := by
  unfold IsLast; infer_instance

/-- The cells in the order of the file: those at the end after the others, otherwise in
the order of the mesh. -/
def fileOrder (ends : List Material) (cells : List MeshCell) : List MeshCell :=
  (cells.filter fun c => decide (¬ IsLast ends c)) ++ cells.filter fun c => decide (IsLast ends c)

/-- A material in a record. -/
def matVal : Material → Val
  | .name s => .str s
  | .number i => .int i

/-- The volume of a cell; that of a cell with a boundary condition is multiplied by
1e50. -/
def cellVolume (c : MeshCell) : Flt :=
  if c.bound then mulF c.volume (ofDecimal false (10 ^ 50)) else c.volume

/-- The element of a cell. -/
def cellElem (names : List (Material × Material)) (c : MeshCell) : Elem where
  nseq := .none
  nadd := .none
  material := matVal (shownMaterial names c.material)
  volume := .flt (cellVolume c)
  area := .none
  permMod := .none
  center := .list [.flt c.x, .flt c.y, .flt c.z]

/-- The record of a connection. -/
def connEntry (c : MeshConn) : Conn where
  nseq := .none
  nadd := none
  direction := .int c.isot
  distances := some [.flt c.d1, .flt c.d2]
  area := .flt c.area
  angle := .flt c.angle
  emittance := .none

/-- The numbers of a cell fit their columns. -/
def CellFits (names : List (Material × Material)) (coord : Bool) (c : MeshCell) : Prop :=
  MaterialFits (matVal (shownMaterial names c.material)) ∧
    Fits (eCol 10 4) (.flt (cellVolume c)) ∧ (∀ v ∈ [c.x, c.y, c.z], Fits (eCol 10 3) (.flt v)) ∧
    (coord = true → ∀ v ∈ [c.x, c.y, c.z], Fits (eCol 20 13) (.flt v))

instance (names : List (Material × Material)) (coord : Bool) (c : MeshCell) :
    Decidable (CellFits names coord c) := by unfold CellFits; infer_instance

/-- The numbers of a connection fit their columns. -/
def MeshConnFits (c : MeshConn) : Prop :=
  Fits (dCol 5) (.int c.isot) ∧ (∀ v ∈ [c.d1, c.d2, c.area], Fits (eCol 10 4) (.flt v)) ∧
    Fits (eCol 10 3) (.flt c.angle)

instance (c : MeshConn) : Decidable (MeshConnFits c) := by unfold MeshConnFits; infer_instance

/-- A name in the arguments has been filled up to at least five characters. -/
def Filled : Material → Prop
  | .name s => padRight 5 (strip s) = s
  | .number _ => True

instance (m : Material) : Decidable (Filled m) := by unfold Filled; split <;> infer_instance

/-- The labels of the cells of a mesh. -/
structure LabelsOk (L : ℕ) (labels : List Str) : Prop where
  lower : 5 ≤ L
  upper : L ≤ 9
  nodup : labels.Nodup
  formed : ∀ s ∈ labels, WellFormed L s
  some : labels ≠ []

/-- The connections of a mesh. -/
structure ConnsGood (L : ℕ) (conns : List MeshConn) : Prop where
  lower : 5 ≤ L
  upper : L ≤ 9
  nodup : (conns.map fun c => (c.label1, c.label2)).Nodup
  formed : ∀ c ∈ conns, WellFormed L c.label1 ∧ WellFormed L c.label2
  some : conns ≠ []

/-- The elements in the file of a mesh. -/
def meshElems (names : List (Material × Material)) (ends : List Material) (coord : Bool)
    (cells : List MeshCell) : Table Elem :=
  ((fileOrder ends cells).map fun c => (.str c.label, elemFull coord (cellElem names c)),
    (fileOrder ends cells).map fun c => .str c.label)

/-- The connections in the file of a mesh. -/
def meshConns (conns : List MeshConn) : Table Conn :=
  (conns.map fun c => (.str (c.label1 ++ c.label2), connBack (connEntry c)),
    conns.map fun c => .str (c.label1 ++ c.label2))

/-! ## INCON -/

/-- A primary variable is defined if it is greater than -1e9. -/
def IsDefined (v : Flt) : Prop := gtNeg (10 ^ 9) v = true

instance (v : Flt) : Decidable (IsDefined v) := by unfold IsDefined; infer_instance

/-- Something is known of a cell: a primary variable, the porosity or user fields. -/
def HasIncon (c : MeshIncon) : Prop :=
  (∃ v ∈ c.values, IsDefined v) ∨ c.porosity ≠ none ∨ c.userx ≠ none

instance (c : MeshIncon) : Decidable (HasIncon c) := by unfold HasIncon; infer_instance

/-- The initial condition of a cell. -/
def inconEntry (c : MeshIncon) : Incon where
  porosity := match c.porosity with
    | some v => .flt v
    | none => .none
  userx := some (match c.userx with
    | some u => u.map .flt
    | none => [])
  values := some (c.values.map fun v => if IsDefined v then .flt v else .none)

/-- The initial conditions in the file of a mesh. -/
def meshIncons (cells : List MeshIncon) : Table Incon :=
  ((cells.filter fun c => decide (HasIncon c)).map fun c => (.str c.label, inconBack (inconEntry c)),
    (cells.filter fun c => decide (HasIncon c)).map fun c => .str c.label)

/-- A defined primary variable is not negative (up to 1e-9). -/
def NotNegative (v : Flt) : Prop := IsDefined v → gtNeg (rnd64q (1 / 10 ^ 9)) v = true

instance (v : Flt) : Decidable (NotNegative v) := by unfold NotNegative; infer_instance

/-- The numbers of a cell fit its records in INCON; if there are more than four primary
variables, one after the fourth is defined. -/
def MeshInconFits (c : MeshIncon) : Prop :=
  (∀ v ∈ c.porosity, Fits (eCol 15 9) (.flt v)) ∧
    (∀ u ∈ c.userx, u.length ≤ 5 ∧ ∀ v ∈ u, Fits (eCol 10 3) (.flt v)) ∧
    c.values.length ≤ 8 ∧ (∀ v ∈ c.values, Fits (eCol 20 13) (.flt v)) ∧
    (4 < c.values.length → ∃ v ∈ c.values.drop 4, IsDefined v)

instance (c : MeshIncon) : Decidable (MeshInconFits c) := by unfold MeshInconFits; infer_instance

end Verif.Spec
