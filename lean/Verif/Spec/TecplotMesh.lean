import Verif.Spec.Avsucd
import Verif.Model.TecplotMesh

/-!
# Specification of Tecplot mesh files
-/

namespace Verif.Spec
open Verif.Py Verif.Model Verif.Mesh

/-! ### variables -/

/-- The name of a variable that survives: at most two words, no special characters. -/
def TecVarName (s : Str) : Prop :=
  strip s = s ∧ (words s).length ≤ 2 ∧ ∀ c ∈ s, c ≠ '"' ∧ c ≠ '=' ∧ c ≠ ',' ∧ c ≠ '\n' ∧ c ≠ '\r'

instance (s : Str) : Decidable (TecVarName s) := by unfold TecVarName; infer_instance

/-- The name after reading: the words with underscores between them. -/
def wordsJoined (s : Str) : Str :=
  match words s with
  | [] => []
  | w :: ws => w ++ ws.flatMap fun v => '_' :: v

/-- The name of a variable as it is written, with or without quotes. -/
structure VarText where
  name : Str
  quoted : Bool
  deriving DecidableEq

/-- The text of it. -/
def VarText.text (v : VarText) : Str := if v.quoted then '"' :: (v.name ++ ['"']) else v.name

/-- A name that can be read: without quotes it must not contain blanks. -/
def VarText.Ok (v : VarText) : Prop :=
  TecVarName v.name ∧ (v.quoted = false → v.name ≠ [] ∧ ∀ c ∈ v.name, isSpace c = false)

instance (v : VarText) : Decidable v.Ok := by unfold VarText.Ok; infer_instance

/-- What separates variables or entries: blanks and commas. -/
def Separator (s : Str) : Prop := ∀ c ∈ s, isSpace c = true ∨ c = ','

instance (s : Str) : Decidable (Separator s) := by unfold Separator; infer_instance

/-- Variables, each after a separator. -/
def varsText (vs : List (Str × VarText)) : Str := vs.flatMap fun v => v.1 ++ v.2.text

/-! ### zones -/

/-- The value of an entry of a zone: a plain text, a title in quotes or a text in
parentheses. -/
inductive ZoneText
  | plain (s : Str)
  | quoted (s : Str)
  | located (s : Str)
  deriving DecidableEq

/-- How the value is written. -/
def ZoneText.text : ZoneText → Str
  | .plain s => s
  | .quoted s => '"' :: (s ++ ['"'])
  | .located s => '(' :: (s ++ [')'])

/-- An entry of a zone with the blanks before and after the sign of equality. -/
structure ZoneEntry where
  key : Str
  left : Str
  right : Str
  value : ZoneText
  deriving DecidableEq

/-- The text of an entry. -/
def ZoneEntry.text (e : ZoneEntry) : Str := e.key ++ (e.left ++ '=' :: (e.right ++ e.value.text))

/-- The keys with a number. -/
def numberKeys : List Str :=
  ["I".toList, "J".toList, "K".toList, "N".toList, "NODES".toList, "E".toList, "ELEMENTS".toList, "NV".toList]

/-- The keys with a text. -/
def textKeys : List Str :=
  ["T".toList, "F".toList, "ET".toList, "DATAPACKING".toList, "ZONETYPE".toList]

/-- The value of an entry. -/
def ZoneEntry.result (e : ZoneEntry) : Option ZVal :=
  match e.value with
  | .plain s => if e.key ∈ numberKeys then (pyInt s).map .int else some (.txt s)
  | .quoted s => some (.txt s)
  | .located s => some (.txt ('(' :: (s.filter (· ≠ ' ') ++ [')'])))

/-- A plain text that can be read. -/
def ZonePlain (s : Str) : Prop :=
  s ≠ [] ∧ (∀ c ∈ s, isSpace c = false ∧ c ≠ ',' ∧ c ≠ '=' ∧ c ≠ '"' ∧ c ≠ '(' ∧ c ≠ ')') ∧
    ¬ "VARLOCATION".toList <:+: s

instance (s : Str) : Decidable (ZonePlain s) := by unfold ZonePlain; infer_instance

/-- An entry that can be read. -/
def ZoneEntry.Ok (e : ZoneEntry) : Prop :=
  (∀ c ∈ e.left, isSpace c = true) ∧ (∀ c ∈ e.right, isSpace c = true) ∧
  match e.value with
  | .plain s => (e.key ∈ textKeys ∨ e.key ∈ numberKeys ∧ (pyInt s).isSome = true) ∧ ZonePlain s
  | .quoted s => e.key = "T".toList ∧ s ≠ [] ∧ '"' ∉ s
  | .located s => e.key = "VARLOCATION".toList ∧ '"' ∉ s ∧ '(' ∉ s ∧ ')' ∉ s

instance (e : ZoneEntry) : Decidable e.Ok := by
  unfold ZoneEntry.Ok
  match e.value with
  | .plain s => infer_instance
  | .quoted s => infer_instance
  | .located s => infer_instance

/-- A plain entry without any blank; such an entry is lost at the end of the line. -/
def ZoneEntry.Glued (e : ZoneEntry) : Prop := e.left = [] ∧ e.right = [] ∧ ∃ s, e.value = .plain s

instance (e : ZoneEntry) : Decidable e.Glued := by
  unfold ZoneEntry.Glued
  match e.value with
  | .plain s => exact decidable_of_iff (e.left = [] ∧ e.right = []) (by simp)
  | .quoted s => exact isFalse (by simp)
  | .located s => exact isFalse (by simp)

/-- An entry in parentheses. -/
def ZoneEntry.Located (e : ZoneEntry) : Prop := ∃ s, e.value = .located s

instance (e : ZoneEntry) : Decidable e.Located := by
  unfold ZoneEntry.Located
  match e.value with
  | .plain s => exact isFalse (by simp)
  | .quoted s => exact isFalse (by simp)
  | .located s => exact isTrue ⟨s, rfl⟩

/-- Entries, each followed by a separator. -/
def entriesText (es : List (ZoneEntry × Str)) : Str := es.flatMap fun e => e.1.text ++ e.2

/-- The separators are made of blanks and commas; only the last may be missing. -/
def SeparatorsOk : List (ZoneEntry × Str) → Prop
  | [] => True
  | [e] => Separator e.2
  | e :: f :: es => (e.2 ≠ [] ∧ Separator e.2) ∧ SeparatorsOk (f :: es)

/-- Entries that can be read. -/
structure ZoneOk (es : List (ZoneEntry × Str)) : Prop where
  entries : ∀ e ∈ es, e.1.Ok
  separators : SeparatorsOk es
  distinct : (es.map fun e => e.1.key).Nodup
  last : ∀ e ∈ (es.filter fun e => ¬ e.1.Located).getLast?, ¬ e.1.Glued

/-- The value of the entry with this key. -/
def zoneEntryOf (es : List (ZoneEntry × Str)) (k : Str) : Option ZVal :=
  (es.find? fun e => e.1.key = k).bind (·.1.result)

/-- The name of a cell type in this format. -/
def TecNamed (ty : Str) (t : CellType) : Prop :=
  ∃ n, (ty = n ∨ ty = "FE".toList ++ n) ∧ (n, t) ∈ [("TRIANGLE".toList, CellType.triangle), ("QUADRILATERAL".toList, .quad),
    ("TETRAHEDRON".toList, .tetra), ("BRICK".toList, .hexahedron)]

/-- Entries of a zone with cells of one type and data given point by point. -/
structure PointZone (es : List (ZoneEntry × Str)) (np nc : ℕ) (t : CellType) : Prop where
  ok : ZoneOk es
  format : ∃ ty, TecNamed ty t ∧
    (zoneEntryOf es "F".toList = some (.txt "FEPOINT".toList) ∧ zoneEntryOf es "ET".toList = some (.txt ty) ∨
      zoneEntryOf es "F".toList = none ∧ zoneEntryOf es "DATAPACKING".toList = some (.txt "POINT".toList) ∧
        zoneEntryOf es "ZONETYPE".toList = some (.txt ty))
  nodes : zoneEntryOf es "N".toList = some (.int np) ∨
    zoneEntryOf es "N".toList = none ∧ zoneEntryOf es "NODES".toList = some (.int np)
  elements : zoneEntryOf es "E".toList = some (.int nc) ∨
    zoneEntryOf es "E".toList = none ∧ zoneEntryOf es "ELEMENTS".toList = some (.int nc)

/-- The number of a row that belongs to a variable. -/
def valueOf (names : List Str) (row : List Flt) (n : Str) : Flt := row.getD (names.idxOf n) .nan

/-- The names are distinct, and exactly one is that of the first, one that of the second and
at most one that of the third coordinate. -/
structure TecNames (names : List Str) (cx cy : Str) (cz : Option Str) : Prop where
  distinct : names.Nodup
  first : names.filter (fun n => n = ['X'] ∨ n = ['x']) = [cx]
  second : names.filter (fun n => n = ['Y'] ∨ n = ['y']) = [cy]
  third : names.filter (fun n => n = ['Z'] ∨ n = ['z']) = cz.toList

/-! ### meshes -/

/-- The cell types of this format. -/
def TecSupported (t : CellType) : Prop := t ∈ [CellType.triangle, .quad, .tetra, .pyramid, .wedge, .hexahedron]

instance (t : CellType) : Decidable (TecSupported t) := by unfold TecSupported; infer_instance

/-- The solid cells among them. -/
def TecSolid (t : CellType) : Prop := t ∈ [CellType.tetra, .pyramid, .wedge, .hexahedron]

instance (t : CellType) : Decidable (TecSolid t) := by unfold TecSolid; infer_instance

/-- The supported types of the blocks. -/
def tecBlockTypes (cells : List CellBlock) : List CellType := (cells.map (·.type)).filter fun t => TecSupported t

/-- All supported blocks are of one type. -/
def TecUniform (cells : List CellBlock) : Prop := ∀ a ∈ tecBlockTypes cells, ∀ b ∈ tecBlockTypes cells, a = b

instance (cells : List CellBlock) : Decidable (TecUniform cells) := by unfold TecUniform; infer_instance

/-- Cells of this type are written: next to solid cells, plane ones are not. -/
def TecWritten (cells : List CellBlock) (t : CellType) : Prop :=
  TecSupported t ∧ ((∃ s ∈ tecBlockTypes cells, TecSolid s) → TecSolid t)

instance (cells : List CellBlock) (t : CellType) : Decidable (TecWritten cells t) := by
  unfold TecWritten; infer_instance

/-- The type under which a cell is written. -/
def tecShape (uniform : Bool) (t : CellType) : CellType :=
  if uniform then if t = .pyramid ∨ t = .wedge then .hexahedron else t
  else if TecSolid t then .hexahedron else .quad

/-- The vertices of a cell of type `t` as one of type `shape`, some of them repeated. -/
def tecVertices : CellType → CellType → List ℕ → List ℕ
  | .quad, .triangle, [a, b, c] => [a, b, c, c]
  | .hexahedron, .tetra, [a, b, c, d] => [a, b, c, c, d, d, d, d]
  | .hexahedron, .pyramid, [a, b, c, d, e] => [a, b, c, d, e, e, e, e]
  | .hexahedron, .wedge, [a, b, c, d, e, f] => [a, b, e, d, c, c, f, f]
  | _, _, c => c

/-- The cells that are written. -/
def tecCells (cells : List CellBlock) : List (CellType × List ℕ) :=
  (typedCells cells).filter fun e => TecWritten cells e.1

/-- The rows of the cells that are written. -/
def tecRowsOf {α : Type} (cells : List CellBlock) (rows : List α) : List α :=
  (((typedCells cells).zip rows).filter fun e => TecWritten cells e.1.1).map (·.2)

/-- The variables made of an array with these rows: one for every column. -/
def variablesOf (name : Str) (width : Option ℕ) (rows : List (List Flt)) : List (Str × List Flt) :=
  match width with
  | none => [(name, rows.map fun r => r.getD 0 .nan)]
  | some w => (List.range w).map fun i => (name ++ '_' :: natStr i, rows.map fun r => r.getD i .nan)

/-- The names of coordinates. -/
def IsCoordinate (s : Str) : Prop :=
  s = ['X'] ∨ s = ['Y'] ∨ s = ['Z'] ∨ s = ['x'] ∨ s = ['y'] ∨ s = ['z']

instance (s : Str) : Decidable (IsCoordinate s) := by unfold IsCoordinate; infer_instance

/-- The variables of points. -/
def pointVariables (m : AvsMesh) : List (Str × List Flt) :=
  (m.pointData.filter fun e => ¬ IsCoordinate e.1).flatMap fun e => variablesOf e.1 e.2.width e.2.rows

/-- The variables of cells. -/
def cellVariables (m : AvsMesh) : List (Str × List Flt) :=
  (m.cellData.filter fun e => ¬ IsCoordinate e.1).flatMap fun e =>
    variablesOf e.1 e.2.width (tecRowsOf m.cells e.2.rows)

/-- The name of cell data after reading: any name of the material becomes this. -/
def materialRenamed (s : Str) : Str := if IsMaterialName s then "material".toList else s

/-- Cell data after reading: the one with a name of the material is called `material` and
comes last. -/
def materialLast {β : Type} (d : List (Str × β)) : List (Str × β) :=
  (d.filter fun e => ¬ IsMaterialName e.1) ++
    (d.filter fun e => IsMaterialName e.1).map fun e => ("material".toList, e.2)

/-- A mesh that can be written and read again. The first coordinate must not have a sign. -/
structure TecMeshOk (m : AvsMesh) : Prop where
  first : ∃ mag y z ps, m.points = ⟨.fin false mag, y, z⟩ :: ps
  points : ∀ p ∈ m.points, IsDouble p.x ∧ IsDouble p.y ∧ IsDouble p.z
  cells : tecCells m.cells ≠ []
  vertices : ∀ e ∈ tecCells m.cells, vertexCount e.1 = some e.2.length
  solidFirst : (∃ s ∈ tecBlockTypes m.cells, TecSolid s) → ∀ t ∈ (tecBlockTypes m.cells).head?, TecSolid t
  pointShape : ∀ e ∈ m.pointData, e.2.rows.length = m.points.length ∧
    ∀ r ∈ e.2.rows, r.length = e.2.width.getD 1 ∧ ∀ x ∈ r, IsDouble x
  cellShape : ∀ e ∈ m.cellData, e.2.rows.length = (typedCells m.cells).length ∧
    ∀ r ∈ e.2.rows, r.length = e.2.width.getD 1 ∧ ∀ x ∈ r, IsDouble x
  names : ∀ e ∈ pointVariables m ++ cellVariables m, TecVarName e.1
  distinct : (["X".toList, "Y".toList, "Z".toList] ++
    (pointVariables m ++ cellVariables m).map fun e => wordsJoined e.1).Nodup
  material : ((cellVariables m).filter fun e => IsMaterialName (wordsJoined e.1)).length ≤ 1

/-! ### the file -/

/-- The name of the type of a zone. -/
def tecZoneName : CellType → Str
  | .triangle => "FETRIANGLE".toList
  | .quad => "FEQUADRILATERAL".toList
  | .tetra => "FETETRAHEDRON".toList
  | .hexahedron => "FEBRICK".toList
  | _ => []

/-- The coordinates of points and the data of points, with their names. -/
def coordVariables (flat : Bool) (m : AvsMesh) : List (Str × List Flt) :=
  [("X".toList, m.points.map (·.x)), ("Y".toList, m.points.map (·.y))] ++
    (if flat then [] else [("Z".toList, m.points.map (·.z))]) ++ pointVariables m

/-- Numbers in lines of twenty. -/
def numberLines (xs : List Flt) : List Str :=
  (List.range ((xs.length + 19) / 20)).map fun i => blankLine (((xs.drop (20 * i)).take 20).map fltStr)

/-- The lines of a file: the title, the names of the variables, the zone, the numbers of
every variable, and the vertices of every cell. -/
def tecFile (flat : Bool) (version : Str) (m : AvsMesh) (shape : CellType) : List Str :=
  let pv := (coordVariables flat m).length
  let cv := (cellVariables m).length
  ["TITLE = \"Written by toughio v".toList ++ version ++ "\"\n".toList,
    "VARIABLES = ".toList ++ [',', ' '].intercalate ((coordVariables flat m ++ cellVariables m).map fun e =>
      '"' :: (e.1 ++ ['"'])) ++ "\n".toList,
    "ZONE NODES = ".toList ++ natStr m.points.length ++ ", ELEMENTS = ".toList ++
      natStr (tecCells m.cells).length ++ ",\n".toList,
    "DATAPACKING = BLOCK, ZONETYPE = ".toList ++ tecZoneName shape ++ (if cv = 0 then "\n" else ",\n").toList] ++
  (if cv = 0 then [] else
    ["VARLOCATION = ([".toList ++ natStr (pv + 1) ++ (if cv = 1 then [] else '-' :: natStr (pv + cv)) ++
      "] = CELLCENTERED)\n".toList]) ++
  (coordVariables flat m ++ cellVariables m).flatMap (fun e => numberLines e.2) ++
  (tecCells m.cells).map fun e => blankLine ((tecVertices shape e.1 e.2).map fun v => natStr (v + 1))

end Verif.Spec
