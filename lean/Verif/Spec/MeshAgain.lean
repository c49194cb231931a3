import Verif.Spec.MeshWrite
import Verif.Spec.Again

/-!
# Specification: the two writers of MESH and INCON
-/

namespace Verif.Spec
open Verif.Py Verif.Model

/-- A line of the files of a mesh and the same line of the writer of input files: the
second is filled with blanks up to 80 columns unless it is the first line or the last one of a
block. -/
def SameLine (l l' : Str) : Prop :=
  l = l' ∨ l.getLast? = some '\n' ∧ l' = padRight 80 l.dropLast ++ ['\n']

instance (l l' : Str) : Decidable (SameLine l l') := by unfold SameLine; infer_instance

/-- Two files are the same up to blanks at the ends of the lines. -/
abbrev SameFile (ls ls' : List Str) : Prop := List.Forall₂ SameLine ls ls'

/-- The parameters that describe a mesh, cells in the order of its file. -/
structure GivesMesh (names : List (Material × Material)) (ends : List Material) (coord : Bool)
    (cells : List MeshCell) (conns : List MeshConn) (p : Params) : Prop where
  elements : p.elements = (fileOrder ends cells).map fun c => (.str c.label, cellElem names c)
  elementsOrder : p.elementsOrder = none
  coordinates : p.coordinates = coord
  connections : p.connections = conns.map fun c => (.str (c.label1 ++ c.label2), connEntry c)
  connectionsOrder : p.connectionsOrder = none
  eos : p.eos = []

/-- The parameters that describe the initial conditions of a mesh. -/
structure GivesIncon (cells : List MeshIncon) (p : Params) : Prop where
  entries : p.initialConditions =
    (cells.filter fun c => decide (HasIncon c)).map fun c => (.str c.label, inconEntry c)
  order : p.initialConditionsOrder = none
  eos : p.eos = []

/-- The numbers of a cell do not change when they are read; if the centre is written twice,
the digits of ELEME do not depend on the digits that COORD drops. -/
def CellTame (coord : Bool) (c : MeshCell) : Prop :=
  InRange (cellVolume c) ∧ (∀ v ∈ [c.x, c.y, c.z], InRange v) ∧
    (coord = true → ∀ v ∈ [c.x, c.y, c.z], SameDigits (.flt v))

instance (b : Bool) (c : MeshCell) : Decidable (CellTame b c) := by unfold CellTame; infer_instance

/-- The numbers of a connection do not change when they are read. -/
def MeshConnTame (c : MeshConn) : Prop :=
  InRange (fltOfInt c.isot) ∧ ∀ v ∈ [c.d1, c.d2, c.area, c.angle], InRange v

instance (c : MeshConn) : Decidable (MeshConnTame c) := by unfold MeshConnTame; infer_instance

/-- The numbers of an initial condition do not change when they are read. -/
def MeshInconTame (c : MeshIncon) : Prop :=
  (∀ v ∈ c.porosity, InRange v) ∧ (∀ u ∈ c.userx, ∀ v ∈ u, InRange v) ∧
    ∀ v ∈ c.values, IsDefined v → InRange v

instance (c : MeshIncon) : Decidable (MeshInconTame c) := by unfold MeshInconTame; infer_instance

end Verif.Spec
