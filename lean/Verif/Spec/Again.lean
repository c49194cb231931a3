import Verif.Model.Again
import Verif.Spec.File

/-!
# Specification: parameters whose file does not change when it is loaded and saved
-/

namespace Verif.Spec
open Verif.Py Verif.Model

/-- A value that prints the same once it was read: a number keeps its digits if
it is in range, and an empty text is not used for a missing number. -/
def Tame : Val → Prop
  | .str s => s ≠ []
  | .flt x => InRange x
  | .int i => InRange (fltOfInt i)
  | _ => True

instance (x : Flt) : Decidable (InRange x) := by unfold InRange; split <;> infer_instance

instance (v : Val) : Decidable (Tame v) := by unfold Tame; split <;> infer_instance

/-- A model with an id. -/
def ModTame (m : Mod) : Prop := m.id ≠ .none ∧ Tame m.id ∧ ∀ v ∈ m.params, Tame v

instance (m : Mod) : Decidable (ModTame m) := by unfold ModTame; infer_instance

/-- The values of a rock. -/
def RockTame (r : Rock) : Prop :=
  (∀ v ∈ [r.density, r.porosity, r.conductivity, r.specificHeat, r.compressibility, r.expansivity,
      r.conductivityDry, r.tortuosity, r.klinkenberg, r.dist3, r.dist4], Tame v) ∧
    (∀ v ∈ perm3 r.permeability, Tame v) ∧ (∀ m ∈ r.relPerm, ModTame m) ∧
    (∀ m ∈ r.cap, ModTame m) ∧ ∀ l ∈ r.initCond, ∀ v ∈ l, Tame v

instance (r : Rock) : Decidable (RockTame r) := by unfold RockTame; infer_instance

/-- The values of the options; there are time steps. -/
def OptionsTame (o : Options) : Prop :=
  (∀ v ∈ [o.nIteration, o.nCycle, o.nSecond, o.nCyclePrint, o.verbosity, o.tempDepGas,
      o.effStrengthVapor, o.tIni, o.tMax, o.tStepMax, o.tReduceFactor, o.gravity, o.meshScaleFactor,
      o.eps1, o.eps2, o.wUpstream, o.wNewton, o.derivativeFactor], Tame v) ∧
    o.tSteps.toList ≠ [] ∧ ∀ v ∈ o.tSteps.toList, v ≠ .none ∧ Tame v

instance (o : Options) : Decidable (OptionsTame o) := by unfold OptionsTame; infer_instance

/-- The default initial condition takes two records exactly if it has a value for
the second one or no value at all. -/
def InitSettled (ic : List Val) : Prop :=
  (∀ v ∈ ic, Tame v) ∧ (4 < ic.length ↔ (∃ v ∈ ic.drop 4, v ≠ .none) ∨ ∀ v ∈ ic, v = .none)

instance (ic : List Val) : Decidable (InitSettled ic) := by unfold InitSettled; infer_instance

/-- There are floats, and a single row has a value. -/
def SelecTame (s : Option (List (ℤ × Val)) × Floats) : Prop :=
  rowsOf s.2 ≠ [] ∧ (∀ r ∈ rowsOf s.2, ∀ v ∈ r, Tame v) ∧
    ((rowsOf s.2).length = 1 → ∀ r ∈ rowsOf s.2, ∃ v ∈ r, v ≠ .none)

instance (s : Option (List (ℤ × Val)) × Floats) : Decidable (SelecTame s) := by
  unfold SelecTame; infer_instance

/-- The values of a source, which has a type. -/
def CompTame (c : Comp) : Prop :=
  c.type ≠ .none ∧ c.type ≠ .str [] ∧ (∀ v ∈ [c.nseq, c.nadd, c.nads, c.thickness], Tame v) ∧
    ∀ v ∈ c.times.toList ++ c.rates.toList ++ c.enthalpy.toList, Tame v

instance (c : Comp) : Decidable (CompTame c) := by unfold CompTame; infer_instance

/-- Fourteen digits round to the same four digits as the number itself. -/
def SameDigits : Val → Prop
  | .flt x => fmtE 3 (quant 13 x) = fmtE 3 x
  | .int i => fmtE 3 (quant 13 (fltOfInt i)) = fmtE 3 (fltOfInt i)
  | _ => True

instance (v : Val) : Decidable (SameDigits v) := by unfold SameDigits; split <;> infer_instance

/-- The values of an element; if the centres are written twice, the digits of
ELEME do not depend on the digits that COORD drops. -/
def ElemTame (coords : Bool) (e : Elem) : Prop :=
  (∀ v ∈ [e.nseq, e.nadd, e.volume, e.area, e.permMod] ++ centerOf e.center, Tame v) ∧
    (coords = true → ∀ v ∈ centerOf e.center, SameDigits v)

instance (b : Bool) (e : Elem) : Decidable (ElemTame b e) := by unfold ElemTame; infer_instance

/-- The values of a connection. -/
def ConnTame (c : Conn) : Prop :=
  ∀ v ∈ [c.nseq, c.direction, c.area, c.angle, c.emittance] ++ pairOf c.nadd ++ pairOf c.distances,
    Tame v

instance (c : Conn) : Decidable (ConnTame c) := by unfold ConnTame; infer_instance

/-- The values of an initial condition. -/
def InconTame (c : Incon) : Prop :=
  ∀ v ∈ c.porosity :: (c.userx.getD [] ++ c.values.getD []), Tame v

instance (c : Incon) : Decidable (InconTame c) := by unfold InconTame; infer_instance

/-- An order list names every key. -/
def NamesAll (order : Option (List Val)) (keys : List Val) : Prop :=
  ∀ o ∈ order, ∀ k ∈ keys, k ∈ o

instance (o : Option (List Val)) (ks : List Val) : Decidable (NamesAll o ks) := by unfold NamesAll; infer_instance

/-- Parameters whose file can be loaded and saved again without a change. -/
def Settled (p : Params) : Prop :=
  (p.title.lines ≠ [] ∧ ∀ t ∈ p.title.lines, strip t = t) ∧
    (∀ e ∈ p.rocks, RockTame (mergeRock p.dflt e.2)) ∧
    (∀ m ∈ p.dflt.relPerm, ModTame m) ∧ (∀ m ∈ p.dflt.cap, ModTame m) ∧
    p.flac = none ∧ p.nComponentMass.getD 0 = 0 ∧
    (∀ s ∈ p.solver, ∀ v ∈ [(solverFull s).method, (solverFull s).relIterMax, (solverFull s).eps],
      Tame v) ∧
    p.start = true ∧ OptionsTame p.options ∧ InitSettled p.initCond ∧
    (∀ s ∈ p.selections, SelecTame s) ∧
    (p.moreOptions = [] ∨ ∃ e ∈ p.moreOptions, e.2 ≠ .none) ∧
    (∀ t ∈ p.times, ∀ v ∈ t.toList, Tame v) ∧
    (∀ e ∈ p.generators, ∀ c ∈ sources e.2, CompTame c) ∧
    (∀ l ∈ p.diffusion, ∀ r ∈ l, ∀ v ∈ r, Tame v) ∧
    (NamesAll p.elementsOrder (p.elements.map (·.1)) ∧
      ∀ e ∈ p.elements, ElemTame p.coordinates e.2) ∧
    (NamesAll p.connectionsOrder (p.connections.map (·.1)) ∧ ∀ e ∈ p.connections, ConnTame e.2) ∧
    NamesAll p.initialConditionsOrder (p.initialConditions.map (·.1)) ∧
      ∀ e ∈ p.initialConditions, InconTame e.2

instance (p : Params) : Decidable (Settled p) := by unfold Settled; infer_instance

end Verif.Spec
