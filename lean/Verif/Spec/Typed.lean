import Verif.Model.Checked

/-!
# Specification: parameters of the right types
-/

namespace Verif.Spec
open Verif.Py Verif.Model

/-- Missing or an integer; a boolean counts as one. -/
def AsInt : Val → Prop
  | .none | .int _ | .bool _ => True
  | _ => False

instance (v : Val) : Decidable (AsInt v) := by unfold AsInt; split <;> infer_instance

/-- Missing or a number. -/
def AsNum : Val → Prop
  | .str _ => False
  | _ => True

instance (v : Val) : Decidable (AsNum v) := by unfold AsNum; split <;> infer_instance

/-- Missing or a text. -/
def AsText : Val → Prop
  | .none | .str _ => True
  | _ => False

instance (v : Val) : Decidable (AsText v) := by unfold AsText; split <;> infer_instance

/-- Missing or a boolean. -/
def AsFlag : Val → Prop
  | .none | .bool _ => True
  | _ => False

instance (v : Val) : Decidable (AsFlag v) := by unfold AsFlag; split <;> infer_instance

/-- Missing, a number or a list. -/
def AsNums : SoL → Prop
  | .one v => AsNum v
  | .many _ => True

instance (v : SoL) : Decidable (AsNums v) := by unfold AsNums; split <;> infer_instance

/-- A rock, the models of FLAC left out. -/
def RockTyped (r : Rock) : Prop :=
  (∀ v ∈ [r.density, r.porosity, r.conductivity, r.specificHeat, r.compressibility, r.expansivity,
      r.conductivityDry, r.tortuosity, r.klinkenberg, r.dist3, r.dist4], AsNum v) ∧
    AsNums r.permeability ∧ (∀ m ∈ r.relPerm, AsInt m.id) ∧ ∀ m ∈ r.cap, AsInt m.id

instance (r : Rock) : Decidable (RockTyped r) := by unfold RockTyped; infer_instance

/-- The models of FLAC of a rock. -/
def FlacModelsTyped (r : Rock) : Prop :=
  (∀ m ∈ r.permModel, AsInt m.id) ∧ ∀ m ∈ r.eqPore, AsInt m.id

instance (r : Rock) : Decidable (FlacModelsTyped r) := by unfold FlacModelsTyped; infer_instance

/-- The FLAC options. -/
def FlacTyped (f : Flac) : Prop := AsFlag f.creep ∧ AsInt f.porosityModel ∧ AsInt f.version

instance (f : Flac) : Decidable (FlacTyped f) := by unfold FlacTyped; infer_instance

/-- The solver. -/
def SolverTyped (s : SolverOf (Option Val)) : Prop :=
  (∀ v ∈ s.method, AsInt v) ∧ (∀ v ∈ s.zPrecond, AsText v) ∧ (∀ v ∈ s.oPrecond, AsText v) ∧
    (∀ v ∈ s.relIterMax, AsNum v) ∧ ∀ v ∈ s.eps, AsNum v

instance (s : SolverOf (Option Val)) : Decidable (SolverTyped s) := by
  unfold SolverTyped; infer_instance

/-- The options. -/
def OptionsTyped (o : Options) : Prop :=
  (∀ v ∈ [o.nIteration, o.nCycle, o.nSecond, o.nCyclePrint, o.verbosity], AsInt v) ∧
    (∀ v ∈ [o.tempDepGas, o.effStrengthVapor, o.tIni, o.tMax, o.tStepMax, o.tReduceFactor,
      o.gravity, o.meshScaleFactor, o.eps1, o.eps2, o.wUpstream, o.wNewton, o.derivativeFactor],
      AsNum v) ∧ AsNums o.tSteps

instance (o : Options) : Decidable (OptionsTyped o) := by unfold OptionsTyped; infer_instance

/-- A generator with one type. One with a list of types has lists everywhere. -/
def GenTyped : Gen → Prop
  | .single c => AsText c.name ∧ AsText c.type ∧
      (∀ v ∈ [c.nseq, c.nadd, c.nads, c.thickness], AsNum v) ∧
      ∀ v ∈ [c.times, c.rates, c.enthalpy], AsNums v
  | _ => True

instance (g : Gen) : Decidable (GenTyped g) := by unfold GenTyped; split <;> infer_instance

/-- An element. -/
def ElemTyped (e : Elem) : Prop :=
  AsInt e.nseq ∧ AsInt e.nadd ∧ (AsText e.material ∨ AsInt e.material) ∧
    ∀ v ∈ [e.volume, e.area, e.permMod], AsNum v

instance (e : Elem) : Decidable (ElemTyped e) := by unfold ElemTyped; infer_instance

/-- A connection. -/
def ConnTyped (c : Conn) : Prop :=
  AsInt c.nseq ∧ AsInt c.direction ∧ ∀ v ∈ [c.area, c.angle, c.emittance], AsNum v

instance (c : Conn) : Decidable (ConnTyped c) := by unfold ConnTyped; infer_instance

/-- Parameters of the right types, FLAC left out. Numbered options with other
numbers than the documented ones are not looked at. -/
def TypedBut (p : Params) : Prop :=
  RockTyped (mergeRock p.dflt p.dflt) ∧ (∀ e ∈ p.rocks, RockTyped (mergeRock p.dflt e.2)) ∧
    (∀ s ∈ p.solver, SolverTyped s) ∧ OptionsTyped p.options ∧
    (∀ e ∈ p.extraOptions, 1 ≤ e.1 → e.1 ≤ 24 → AsInt e.2) ∧
    (∀ e ∈ p.moreOptions, 1 ≤ e.1 → e.1 ≤ 40 → AsInt e.2) ∧
    (∀ e ∈ p.generators, GenTyped e.2) ∧ (∀ t ∈ p.times, AsNums t) ∧
    (∀ e ∈ p.elements, ElemTyped e.2) ∧ (∀ e ∈ p.connections, ConnTyped e.2) ∧
    ∀ e ∈ p.initialConditions, AsNum e.2.porosity

instance (p : Params) : Decidable (TypedBut p) := by unfold TypedBut; infer_instance

/-- Parameters of the right types. The models of FLAC matter only if there are
FLAC options. -/
def Typed (p : Params) : Prop :=
  TypedBut p ∧ ∀ f ∈ p.flac, FlacTyped f ∧ FlacModelsTyped (mergeRock p.dflt p.dflt) ∧
    ∀ e ∈ p.rocks, FlacModelsTyped (mergeRock p.dflt e.2)

instance (p : Params) : Decidable (Typed p) := by unfold Typed; infer_instance

end Verif.Spec
