import Verif.Model.Gener
import Verif.Spec.Hist

/-!
# Specification of what GENER gives back
-/

namespace Verif.Spec
open Verif.Py Verif.Model

/-! ## Labels -/

/-- The first record starts with a label `k` of `L` characters, all digits after
the fifth, and goes on with the field text `nxt`, which does not start with a
digit. -/
def Detectable (L : ℕ) (k : Val) (nxt : Str) : Prop :=
  match k with
  | .str s => s.length = L ∧ (∀ c ∈ s.drop 5, isDigit c = true) ∧ ∀ c ∈ nxt.head?, isDigit c = false
  | _ => False

instance (L : ℕ) (k : Val) (nxt : Str) : Decidable (Detectable L k nxt) := by
  unfold Detectable; split <;> infer_instance

/-- The text of a value, empty if it is not a text. -/
def textOf : Val → Str
  | .str s => s
  | _ => []

/-- The labels of a block: of at most `L` characters, one of exactly `L`. -/
def LabelsFit (L : ℕ) (ks : List Val) : Prop :=
  5 ≤ L ∧ L ≤ 9 ∧ ks.Nodup ∧ (∀ k ∈ ks, NameFits L k) ∧ ∃ k ∈ ks, keyLen k = .ok L

instance (L : ℕ) (ks : List Val) : Decidable (LabelsFit L ks) := by
  unfold LabelsFit; infer_instance

/-! ## Sources -/

/-- The part of a field that belongs to component `i`. -/
def part {α : Type} (none : α) (f : Fld α) (i : ℕ) : α :=
  match f with
  | .none => none
  | .scalar => none
  | .list l => l.getD i none

/-- A field of a generator of `n` components is missing or a list of `n`. -/
def FldOk {α : Type} (n : ℕ) : Fld α → Prop
  | .none => True
  | .scalar => False
  | .list l => l.length = n

instance {α : Type} (n : ℕ) (f : Fld α) : Decidable (FldOk n f) := by
  unfold FldOk; split <;> infer_instance

/-- The sources of one element. -/
def sources : Gen → List Comp
  | .single c => [c]
  | .noType => []
  | .multi m => m.types.zipIdx.map fun t =>
    { name := part .none m.name t.2
      nseq := part .none m.nseq t.2
      nadd := part .none m.nadd t.2
      nads := part .none m.nads t.2
      type := t.1
      times := part (.one .none) m.times t.2
      rates := part (.one .none) m.rates t.2
      enthalpy := part (.one .none) m.enthalpy t.2
      thickness := part .none m.thickness t.2 }

/-- All fields of a generator have one entry per component. -/
def Consistent : Gen → Prop
  | .single _ => True
  | .noType => False
  | .multi m => FldOk m.types.length m.name ∧ FldOk m.types.length m.nseq ∧
      FldOk m.types.length m.nadd ∧ FldOk m.types.length m.nads ∧ FldOk m.types.length m.times ∧
      FldOk m.types.length m.rates ∧ FldOk m.types.length m.enthalpy ∧
      FldOk m.types.length m.thickness

instance (g : Gen) : Decidable (Consistent g) := by
  unfold Consistent; split <;> infer_instance

/-- Widths of the three sequence numbers for each label length. -/
def seqWidths : ℕ → ℕ × ℕ × ℕ
  | 5 => (5, 5, 5)
  | 6 => (6, 4, 4)
  | 7 => (5, 4, 4)
  | 8 => (4, 4, 4)
  | _ => (5, 3, 3)

/-- A constant that fits, or nothing. -/
def ConstFits : SoL → Prop
  | .one v => Fits (eCol 10 3) v
  | .many _ => False

instance (s : SoL) : Decidable (ConstFits s) := by unfold ConstFits; split <;> infer_instance

/-- A table of `n` numbers that fit. -/
def TableFits (n : ℕ) : SoL → Prop
  | .one _ => False
  | .many l => l.length = n ∧ ∀ v ∈ l, IsNumber v ∧ Fits (eCol 14 7) v

instance (n : ℕ) (s : SoL) : Decidable (TableFits n s) := by
  unfold TableFits; split <;> infer_instance

/-- The rate is a constant, or a table of two or more times with as many rates
and, if any, as many enthalpies. -/
def AmountsFit (c : Comp) : Prop :=
  match c.times with
  | .one t => t = .none ∧ ConstFits c.rates ∧ ConstFits c.enthalpy
  | .many t => 1 < t.length ∧ t.length < 10 ^ 5 ∧ TableFits t.length c.times ∧
      TableFits t.length c.rates ∧
      (c.enthalpy = .one .none ∨ TableFits t.length c.enthalpy)

instance (c : Comp) : Decidable (AmountsFit c) := by unfold AmountsFit; split <;> infer_instance

/-- One source fits its records. -/
def CompFits (L : ℕ) (c : Comp) : Prop :=
  Fits (sCol 5) c.name ∧ Fits (dCol (seqWidths L).1) c.nseq ∧ Fits (dCol (seqWidths L).2.1) c.nadd ∧
    Fits (dCol (seqWidths L).2.2) c.nads ∧ Fits (sCol 4) c.type ∧ Fits (eCol 10 3) c.thickness ∧
    AmountsFit c

instance (L : ℕ) (c : Comp) : Decidable (CompFits L c) := by unfold CompFits; infer_instance

/-- A table without enthalpies. -/
def Bare (c : Comp) : Prop := (∃ t ∈ [c.times], match t with
  | .one _ => False
  | .many _ => True) ∧ c.enthalpy = .one .none

instance (c : Comp) : Decidable (Bare c) := by
  unfold Bare
  have : ∀ t : SoL, Decidable (match t with
    | .one _ => False
    | .many _ => True) := fun t => by cases t <;> infer_instance
  infer_instance

/-- The sources of an element do not mix tables without enthalpies with others
that have enthalpies; a table without enthalpies comes first if there is one. -/
def NotMixed (cs : List Comp) : Prop :=
  (∀ c ∈ cs, ¬ Bare c) ∨ ((∀ c ∈ cs.head?, Bare c) ∧ ∀ c ∈ cs, c.enthalpy = .one .none)

instance (cs : List Comp) : Decidable (NotMixed cs) := by unfold NotMixed; infer_instance

/-- The generators of one element fit. -/
def GenFits (L : ℕ) (g : Gen) : Prop :=
  Consistent g ∧ sources g ≠ [] ∧ (∀ c ∈ sources g, CompFits L c) ∧ NotMixed (sources g)

instance (L : ℕ) (g : Gen) : Decidable (GenFits L g) := by unfold GenFits; infer_instance

/-- What comes back of a rate, an enthalpy or a table: four digits for a
constant, eight for a table. -/
def amountBack : SoL → SoL
  | .one v => .one (num 3 v)
  | .many l => .many (l.map (num 7))

/-- What comes back of one source. -/
def compBack (c : Comp) : Comp where
  name := stored (sCol 5) c.name
  nseq := stored (dCol 5) c.nseq
  nadd := stored (dCol 5) c.nadd
  nads := stored (dCol 5) c.nads
  type := stored (sCol 4) c.type
  times := amountBack c.times
  rates := amountBack c.rates
  enthalpy := amountBack c.enthalpy
  thickness := num 3 c.thickness

/-- The values of several sources: of one source the value itself; missing if all
are. -/
def collect {α : Type} [DecidableEq α] (none : α) (l : List α) : Out α :=
  match l with
  | [x] => .one x
  | _ => if ∀ x ∈ l, x = none then .one none else .list l

/-- What comes back of the sources of one element. -/
def genBack (cs : List Comp) : GenOut where
  name := collect .none (cs.map fun c => (compBack c).name)
  nseq := collect .none (cs.map fun c => (compBack c).nseq)
  nadd := collect .none (cs.map fun c => (compBack c).nadd)
  nads := collect .none (cs.map fun c => (compBack c).nads)
  type := collect .none (cs.map fun c => (compBack c).type)
  thickness := collect .none (cs.map fun c => (compBack c).thickness)
  times := collect (.one .none) (cs.map fun c => (compBack c).times)
  rates := collect (.one .none) (cs.map fun c => (compBack c).rates)
  enthalpy := collect (.one .none) (cs.map fun c => (compBack c).enthalpy)

end Verif.Spec
