import Verif.Model.MeshBlocks
import Verif.Spec.Gener
import Verif.Spec.Selec

/-!
# Specification of what ELEME, COORD, CONNE and INCON give back
-/

namespace Verif.Spec
open Verif.Py Verif.Model

/-- The rows that are written: the entries in the order of the order list, or all
entries of the dictionary. -/
def rowsFor {β : Type} (order : Option (List Val)) (d : List (Val × β)) : List (Val × β) :=
  match order with
  | some o => inOrder d o
  | none => d

/-! ## Elements -/

/-- Widths of the two sequence numbers of an element for each label length. -/
def elemWidths : ℕ → ℕ × ℕ
  | 5 => (5, 5)
  | 6 => (5, 4)
  | 7 => (4, 4)
  | 8 => (4, 3)
  | _ => (3, 3)

/-- A material: a number of at most five digits, or a name that is not one. -/
def MaterialFits : Val → Prop
  | .int i => 0 ≤ i ∧ i < 10 ^ 5
  | .str s => NameFits 5 (.str s) ∧ ∃ c ∈ s, isDigit c = false
  | _ => False

instance (v : Val) : Decidable (MaterialFits v) := by
  unfold MaterialFits; split <;> infer_instance

/-- The coordinates of a centre. -/
def centerOf : Center → List Val
  | .list l => l
  | _ => []

/-- One element fits its record. -/
def ElemFits (L : ℕ) (e : Elem) : Prop :=
  Fits (dCol (elemWidths L).1) e.nseq ∧ Fits (dCol (elemWidths L).2) e.nadd ∧
    MaterialFits e.material ∧ (∀ v ∈ [e.volume, e.area, e.permMod], Fits (eCol 10 4) v) ∧
    (centerOf e.center).length = 3 ∧ ∀ v ∈ centerOf e.center, Fits (eCol 10 3) v

instance (L : ℕ) (e : Elem) : Decidable (ElemFits L e) := by unfold ElemFits; infer_instance

/-- What comes back of an element. -/
def elemBack (e : Elem) : Elem where
  nseq := stored (dCol 5) e.nseq
  nadd := stored (dCol 5) e.nadd
  material := e.material
  volume := num 4 e.volume
  area := num 4 e.area
  permMod := num 4 e.permMod
  center := .list ((centerOf e.center).map (num 3))

/-- The text of a sequence number right-aligned in `w` characters. -/
def seqText (w : ℕ) : Val → Str
  | .int i => padLeft w (intStr i)
  | .bool b => padLeft w (intStr (if b then 1 else 0))
  | _ => []

/-- A centre that fits the record of COORD. -/
def CenterFits (c : Center) : Prop :=
  (centerOf c).length = 3 ∧ (∀ v ∈ centerOf c, Fits (eCol 20 13) v) ∧ ∃ v ∈ centerOf c, IsNumber v

instance (c : Center) : Decidable (CenterFits c) := by unfold CenterFits; infer_instance

/-! ## Connections -/

/-- Widths of the three sequence numbers of a connection for each label length. -/
def connWidths : ℕ → ℕ × ℕ
  | 5 => (5, 5)
  | 6 => (5, 4)
  | 7 => (5, 3)
  | 8 => (3, 3)
  | _ => (3, 2)

/-- The pair of a list that may be missing. -/
def pairOf : Option (List Val) → List Val
  | some l => l
  | none => [.none, .none]

/-- One connection fits its record. -/
def ConnFits (L : ℕ) (c : Conn) : Prop :=
  Fits (dCol (connWidths L).1) c.nseq ∧
    (pairOf c.nadd).length = 2 ∧ (∀ v ∈ pairOf c.nadd, Fits (dCol (connWidths L).2) v) ∧
    Fits (dCol 5) c.direction ∧ c.distances ≠ none ∧ (pairOf c.distances).length = 2 ∧
    (∀ v ∈ c.area :: pairOf c.distances, Fits (eCol 10 4) v) ∧
    ∀ v ∈ [c.angle, c.emittance], Fits (eCol 10 3) v

instance (L : ℕ) (c : Conn) : Decidable (ConnFits L c) := by unfold ConnFits; infer_instance

/-- What comes back of a connection; the pair of sequence numbers is always a
list. -/
def connBack (c : Conn) : Conn where
  nseq := stored (dCol 5) c.nseq
  nadd := some ((pairOf c.nadd).map (stored (dCol 5)))
  direction := stored (dCol 5) c.direction
  distances := some ((pairOf c.distances).map (num 4))
  area := num 4 c.area
  angle := num 3 c.angle
  emittance := num 3 c.emittance

/-- The names of connections: of at most `2 L` characters, one of exactly `2 L`
characters, none starting with three plus signs. -/
def ConnNamesFit (L : ℕ) (ks : List Val) : Prop :=
  5 ≤ L ∧ L ≤ 9 ∧ ks.Nodup ∧ (∀ k ∈ ks, NameFits (2 * L) k ∧ (textOf k).take 3 ≠ ['+', '+', '+']) ∧
    ∃ k ∈ ks, keyLen k = .ok (2 * L)

instance (L : ℕ) (ks : List Val) : Decidable (ConnNamesFit L ks) := by
  unfold ConnNamesFit; infer_instance

/-- The name of a connection is made of two labels of `L` characters, the first
one ending in digits after the fifth character and the second one not starting
with a digit. -/
def DetectablePair (L : ℕ) (k : Val) : Prop :=
  Detectable L (.str ((textOf k).take L)) ((textOf k).drop L)

instance (L : ℕ) (k : Val) : Decidable (DetectablePair L k) := by
  unfold DetectablePair; infer_instance

/-! ## Initial conditions -/

/-- One initial condition fits its records: at most five user fields, at most
eight values and if there are more than four, one of those after the fourth is
present. -/
def InconFits (c : Incon) : Prop :=
  Fits (eCol 15 9) c.porosity ∧ c.userx ≠ none ∧ (c.userx.getD []).length ≤ 5 ∧
    (∀ v ∈ c.userx.getD [], Fits (eCol 10 3) v) ∧ c.values ≠ none ∧ InitFits (c.values.getD []) ∧
    (4 < (c.values.getD []).length → ∃ v ∈ (c.values.getD []).drop 4, IsNumber v)

instance (c : Incon) : Decidable (InconFits c) := by unfold InconFits; infer_instance

/-- What comes back of an initial condition: without missing values at the end,
without the user fields if there are none. -/
def inconBack (c : Incon) : Incon where
  porosity := num 9 c.porosity
  userx := match dropTrailing ((c.userx.getD []).map (num 3)) with
    | [] => none
    | u => some u
  values := some (initBack (c.values.getD []))

/-- Entries with more than four values come before those with at most four. -/
def LongEntriesFirst (l : List (Val × Incon)) : Prop :=
  l.Pairwise fun a b => 4 < (b.2.values.getD []).length → 4 < (a.2.values.getD []).length

instance (l : List (Val × Incon)) : Decidable (LongEntriesFirst l) := by
  unfold LongEntriesFirst; infer_instance

/-- A label in INCON: not a number, not starting with three plus signs. -/
def InconLabel (k : Val) : Prop := NotNumber k ∧ (textOf k).take 3 ≠ ['+', '+', '+']

instance (k : Val) : Decidable (InconLabel k) := by unfold InconLabel; infer_instance

end Verif.Spec
