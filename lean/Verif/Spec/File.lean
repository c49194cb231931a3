import Verif.Model.File
import Verif.Spec.MeshBlocks

/-!
# Specification of whole input files
-/

namespace Verif.Spec
open Verif.Py Verif.Model

/-- The keywords of the blocks in the order of a TOUGH input file. -/
def keywords : List String :=
  ["ROCKS", "RPCAP", "FLAC", "MULTI", "SOLVR", "START", "PARAM", "SELEC", "INDOM", "MOMOP", "TIMES",
    "FOFT", "COFT", "GOFT", "GENER", "DIFFU", "OUTPU", "ELEME", "COORD", "CONNE", "INCON", "NOVER",
    "ENDCY"]

/-! ## Which blocks a file has -/

/-- The blocks that each `block` argument asks for. -/
def wanted (blk kw : String) : Bool :=
  blk = "all" || blk = "gener" && kw = "GENER" ||
    blk = "mesh" && (kw = "ELEME" || kw = "COORD" || kw = "CONNE") || blk = "incon" && kw = "INCON"

/-- The parameters have something to say about a block. -/
def present (p : Params) (kw : String) : Bool :=
  match kw with
  | "RPCAP" => [p.dflt.relPerm, p.dflt.cap].any fun m => m.any (·.id ≠ .none)
  | "FLAC" => p.flac.isSome
  | "MULTI" => p.eos ≠ [] || p.nComponent.getD 0 ≠ 0 && p.nPhase.getD 0 ≠ 0
  | "SOLVR" => p.solver.isSome
  | "START" => p.start
  | "SELEC" => p.selections.isSome
  | "INDOM" => p.rocks.any fun e => e.2.initCond.any fun l => (l.take 4).any (· ≠ .none)
  | "MOMOP" => p.moreOptions ≠ []
  | "TIMES" => p.times.isSome
  | "FOFT" => p.elementHistory.isSome
  | "COFT" => p.connectionHistory.isSome
  | "GOFT" => p.generatorHistory.isSome
  | "GENER" => p.generators ≠ []
  | "DIFFU" => p.diffusion.isSome
  | "OUTPU" => p.output.isSome
  | "ELEME" => p.elements ≠ []
  | "COORD" => p.coordinates
  | "CONNE" => p.connections ≠ []
  | "INCON" => p.initialConditions ≠ []
  | "NOVER" => p.nover
  | _ => true

/-! ## Parameters that fit -/

/-- A title is one line that does not start, after blanks, with the keyword of a
block. -/
def TitleOk (t : Str) : Prop := '\n' ∉ t ∧ ∀ kw ∈ keywords, ¬ kw.toList <+: lstrip t

instance (t : Str) : Decidable (TitleOk t) := by unfold TitleOk; infer_instance

/-- The rocks fit ROCKS, the default models RPCAP, the FLAC models FLAC. -/
def RocksOk (p : Params) : Prop :=
  (p.rocks.map (·.1)).Nodup ∧ OrderOk p.rocksOrder (p.rocks.map (·.1)) ∧
    (∀ e ∈ p.rocks, NameFits 5 e.1 ∧ RockFits (mergeRock p.dflt e.2)) ∧
    (∀ m ∈ p.dflt.relPerm, ModFits 5 7 m) ∧ (∀ m ∈ p.dflt.cap, ModFits 5 7 m) ∧
    ∀ f ∈ p.flac, Fits (dCol 5) f.porosityModel ∧ Fits (dCol 5) f.version ∧
      ∀ e ∈ p.rocks, ModFits 10 7 (flacModels (mergeRock p.dflt e.2)).1 ∧
        ModFits 5 7 (flacModels (mergeRock p.dflt e.2)).2

instance (p : Params) : Decidable (RocksOk p) := by unfold RocksOk; infer_instance

/-- The row of the table of equations of state. -/
def eosRow (eos : Str) : ℤ × ℤ × ℤ × ℤ := (eosTable.lookup eos).getD (0, 0, 0, 6)

/-- MULTI fits. -/
def MultiOk (p : Params) : Prop :=
  (p.eos = [] ∨ p.eos ∈ eosTable.map (·.1)) ∧
    Fits (dCol 5) (.int (asked p.nComponent (eosRow p.eos).1)) ∧
    Fits (dCol 5) (.int (asked p.nComponent (eosRow p.eos).1 + 1)) ∧
    Fits (dCol 5) (.int (asked p.nPhase (eosRow p.eos).2.2.1)) ∧
    ∀ i ∈ p.nComponentMass, Fits (dCol 5) (.int i)

instance (p : Params) : Decidable (MultiOk p) := by unfold MultiOk; infer_instance

/-- The solver options with their defaults; the method has none. -/
def solverFull (s : SolverOf (Option Val)) : SolverOf Val where
  method := s.method.getD .none
  zPrecond := s.zPrecond.getD (.str "Z0".toList)
  oPrecond := s.oPrecond.getD (.str "O0".toList)
  relIterMax := s.relIterMax.getD (.flt (ofDecimal false (1 / 10)))
  eps := s.eps.getD (.flt (ofDecimal false (1 / 10 ^ 6)))

/-- SOLVR fits. -/
def SolverOk (s : SolverOf (Option Val)) : Prop :=
  s.method ≠ none ∧ Fits (dCol 1) (solverFull s).method ∧ Fits (sCol 2) (solverFull s).zPrecond ∧
    Fits (sCol 2) (solverFull s).oPrecond ∧ Fits (eCol 10 4) (solverFull s).relIterMax ∧
    Fits (eCol 10 4) (solverFull s).eps

instance (s : SolverOf (Option Val)) : Decidable (SolverOk s) := by unfold SolverOk; infer_instance

/-- Time steps that fit: a list of numbers, or one, or nothing. -/
def StepsOk : SoL → Prop
  | .one v => v = .none ∨ IsNumber v ∧ Fits (eCol 10 4) v
  | .many l => (∀ v ∈ l, IsNumber v ∧ Fits (eCol 10 4) v) ∧ l.length ≤ 8 * 999999

instance (s : SoL) : Decidable (StepsOk s) := by unfold StepsOk; split <;> infer_instance

/-- PARAM fits. -/
def ParamOk (p : Params) : Prop :=
  OptionsFit p.options ∧ StepsOk p.options.tSteps ∧ DigitsOk 24 p.extraOptions ∧ InitFits p.initCond

instance (p : Params) : Decidable (ParamOk p) := by unfold ParamOk; infer_instance

/-- SELEC fits: integers with rows of floats, or without floats if the first
integer is zero. -/
def SelecOk (s : Option (List (ℤ × Val)) × Floats) : Prop :=
  s.1 ≠ none ∧ IntsOk (s.1.getD []) ∧ RowsFit (rowsOf s.2) ∧
    (rowsOf s.2 ≠ [] ∨ s.2 = .row [] ∧ valueAt (s.1.getD []) 1 = .int 0)

instance (s : Option (List (ℤ × Val)) × Floats) : Decidable (SelecOk s) := by
  unfold SelecOk; infer_instance

/-- The initial conditions of the rocks. -/
def rockInits (p : Params) : List (Val × Option (List Val)) := p.rocks.map fun e => (e.1, e.2.initCond)

/-- INDOM fits: as for the block alone, and if there is a value at all, some rock
has one among its first four. -/
def IndomOk (p : Params) : Prop :=
  (∀ e ∈ indomRows (rockInits p), IndomFits e) ∧
    LongFirst (indomRows (inOrder (rockInits p) (orderOf p.rocksOrder (p.rocks.map (·.1))))) ∧
    (indomRows (rockInits p) ≠ [] → present p "INDOM" = true)

instance (p : Params) : Decidable (IndomOk p) := by unfold IndomOk; infer_instance

/-- A name in a history block. -/
def HistName (w : ℕ) (v : Val) : Prop :=
  match v with
  | .str s => s ≠ [] ∧ s.length ≤ w ∧ rstrip s = s
  | _ => False

instance (w : ℕ) (v : Val) : Decidable (HistName w v) := by
  unfold HistName; split <;> infer_instance

/-- TIMES, FOFT, COFT, GOFT, DIFFU and OUTPU fit. -/
def OutputsOk (p : Params) : Prop :=
  (∀ t ∈ p.times, TimesFit t.toList) ∧ (∀ l ∈ p.elementHistory, ∀ v ∈ l, HistName 5 v) ∧
    (∀ l ∈ p.connectionHistory, ∀ v ∈ l, HistName 10 v) ∧
    (∀ l ∈ p.generatorHistory, ∀ v ∈ l, HistName 5 v) ∧
    (∀ l ∈ p.diffusion, ∀ r ∈ l, DiffuFits r) ∧
    ∀ o ∈ p.output, (o.1 = [] ∨ FormatFits o.1) ∧ VarsFit o.2 ∧ o.2 ≠ []

instance (p : Params) : Decidable (OutputsOk p) := by unfold OutputsOk; infer_instance

/-- The label lengths. -/
def labelLengths : List ℕ := [5, 6, 7, 8, 9]

/-- GENER fits. -/
def GenerOk (given : Option ℕ) (gens : List (Val × Gen)) : Prop :=
  gens = [] ∨ ∃ L ∈ labelLengths, LabelsFit L (gens.map (·.1)) ∧ (∀ e ∈ gens, GenFits L e.2) ∧
    (given = some L ∨ given = none ∧ ∀ e ∈ gens.head?, ∀ c ∈ (sources e.2).head?,
      Detectable L e.1 (textOf c.name))

instance (given : Option ℕ) (gens : List (Val × Gen)) : Decidable (GenerOk given gens) := by
  unfold GenerOk; infer_instance

/-- ELEME and COORD fit. -/
def ElemsOk (given : Option ℕ) (p : Params) : Prop :=
  OrderOk p.elementsOrder (p.elements.map (·.1)) ∧
    (p.elements = [] ∨ ∃ L ∈ labelLengths, LabelsFit L (p.elements.map (·.1)) ∧
      (∀ e ∈ p.elements, ElemFits L e.2) ∧
      (given = some L ∨ given = none ∧ ∀ e ∈ (rowsFor p.elementsOrder p.elements).head?,
        Detectable L e.1 (seqText (elemWidths L).1 e.2.nseq))) ∧
    (p.coordinates = true → p.elements ≠ [] ∧ ∀ e ∈ p.elements, CenterFits e.2.center)

instance (given : Option ℕ) (p : Params) : Decidable (ElemsOk given p) := by
  unfold ElemsOk; infer_instance

/-- CONNE fits. -/
def ConnsOk (given : Option ℕ) (p : Params) : Prop :=
  OrderOk p.connectionsOrder (p.connections.map (·.1)) ∧
    (p.connections = [] ∨ ∃ L ∈ labelLengths, ConnNamesFit L (p.connections.map (·.1)) ∧
      (∀ e ∈ p.connections, ConnFits L e.2) ∧
      (given = some L ∨ given = none ∧ ∀ e ∈ (rowsFor p.connectionsOrder p.connections).head?,
        DetectablePair L e.1 ∧ L < (textOf e.1).length))

instance (given : Option ℕ) (p : Params) : Decidable (ConnsOk given p) := by
  unfold ConnsOk; infer_instance

/-- INCON fits. -/
def InconsOk (given : Option ℕ) (p : Params) : Prop :=
  OrderOk p.initialConditionsOrder (p.initialConditions.map (·.1)) ∧
    (p.initialConditions = [] ∨ ∃ L ∈ labelLengths, LabelsFit L (p.initialConditions.map (·.1)) ∧
      (∀ e ∈ p.initialConditions, InconLabel e.1 ∧ InconFits e.2) ∧
      LongEntriesFirst (rowsFor p.initialConditionsOrder p.initialConditions) ∧
      (given = some L ∨ given = none ∧
        ∀ e ∈ (rowsFor p.initialConditionsOrder p.initialConditions).head?, Detectable L e.1 []))

instance (given : Option ℕ) (p : Params) : Decidable (InconsOk given p) := by
  unfold InconsOk; infer_instance

/-- All parameters fit. -/
def FileOk (given : Option ℕ) (p : Params) : Prop :=
  (∀ t ∈ p.title.lines, TitleOk t) ∧ RocksOk p ∧ MultiOk p ∧ (∀ s ∈ p.solver, SolverOk s) ∧
    ParamOk p ∧ (∀ s ∈ p.selections, SelecOk s) ∧ IndomOk p ∧ DigitsOk 40 p.moreOptions ∧
    OutputsOk p ∧ GenerOk given p.generators ∧ ElemsOk given p ∧ ConnsOk given p ∧ InconsOk given p

instance (given : Option ℕ) (p : Params) : Decidable (FileOk given p) := by
  unfold FileOk; infer_instance

/-! ## What comes back -/

/-- The title without outer blanks; one title as a text, several as a list. -/
def titleBack (t : Title) : Option Title :=
  match t.lines.map strip with
  | [] => none
  | [s] => some (.one s)
  | l => some (.many l)

/-- The initial condition of a rock, if it has a value. -/
def initOf (ic : Option (List Val)) : Option (List Val) :=
  ic.bind fun l => if l.any (· ≠ .none) then some (initBack l) else none

/-- What comes back of a rock. -/
def rockFull (p : Params) (r : RawRock) : Rock :=
  { rockBack (mergeRock p.dflt r) with
    permModel := p.flac.map fun _ => (flacBack (flacModels (mergeRock p.dflt r))).1
    eqPore := p.flac.map fun _ => (flacBack (flacModels (mergeRock p.dflt r))).2
    initCond := initOf r.initCond }

/-- The rocks in the order in which they are written. -/
def rockRows (p : Params) : List (Val × RawRock) :=
  inOrder p.rocks (orderOf p.rocksOrder (p.rocks.map (·.1)))

/-- What comes back of the time steps; without time steps an empty list, and of
an empty list the number zero. -/
def tStepsBack : SoL → SoL
  | .one .none => .many []
  | .one v => stepsBack [v]
  | .many [] => .one (.int 0)
  | .many l => stepsBack l

/-- What comes back of the selections. -/
def selecBack (s : Option (List (ℤ × Val)) × Floats) : SelecRead :=
  if rowsOf s.2 = [] then ⟨setEntries 16 (s.1.getD []), none⟩
  else ⟨setEntries 16 ((1, .int (rowsOf s.2).length) :: (s.1.getD []).filter (·.1 ≠ 1)),
    some (floatsBack (rowsOf s.2))⟩

/-- What comes back of the solver. -/
def solverBack (s : SolverOf (Option Val)) : SolverOf Val where
  method := stored (dCol 1) (solverFull s).method
  zPrecond := stored (sCol 2) (solverFull s).zPrecond
  oPrecond := stored (sCol 2) (solverFull s).oPrecond
  relIterMax := num 4 (solverFull s).relIterMax
  eps := num 4 (solverFull s).eps

/-- What comes back of an element; with COORD its centre has fourteen digits. -/
def elemFull (coords : Bool) (e : Elem) : Elem :=
  if coords then { elemBack e with center := .list ((centerOf e.center).map (num 13)) }
  else elemBack e

/-- A list that is empty stands for nothing. -/
def nonEmpty {α β : Type} (l : List α) (b : β) : Option β := if l = [] then none else some b

/-- The elements as they come back. -/
def elemsBack (p : Params) : Option (Table Elem) :=
  nonEmpty p.elements
    ((rowsFor p.elementsOrder p.elements).map fun e => (e.1, elemFull p.coordinates e.2),
      (rowsFor p.elementsOrder p.elements).map (·.1))

/-- The connections as they come back. -/
def connsBack (p : Params) : Option (Table Conn) :=
  nonEmpty p.connections
    ((rowsFor p.connectionsOrder p.connections).map fun e => (e.1, connBack e.2),
      (rowsFor p.connectionsOrder p.connections).map (·.1))

/-- The initial conditions as they come back. -/
def inconsBack (p : Params) : Option (Table Incon) :=
  nonEmpty p.initialConditions
    ((rowsFor p.initialConditionsOrder p.initialConditions).map fun e => (e.1, inconBack e.2),
      (rowsFor p.initialConditionsOrder p.initialConditions).map (·.1))

/-- The generators as they come back. -/
def genersBack (p : Params) : Option (List (Val × GenOut)) :=
  nonEmpty p.generators (p.generators.map fun e => (e.1, genBack (sources e.2)))

/-- What comes back of a whole file. -/
def fileBack (p : Params) : FileRead where
  title := titleBack p.title
  rocks := some ((rockRows p).map fun e => (e.1, rockFull p e.2), (rockRows p).map (·.1))
  dflt := some ⟨modBack? p.dflt.relPerm, modBack? p.dflt.cap, nonEmpty (initBack p.initCond) (initBack p.initCond)⟩
  flac := p.flac.map fun f => ⟨.int (if truthy f.creep then 1 else 0),
    stored (dCol 5) f.porosityModel, stored (dCol 5) f.version⟩
  multi := if present p "MULTI" then some ⟨.int (asked p.nComponent (eosRow p.eos).1), p.isothermal,
    .int (asked p.nPhase (eosRow p.eos).2.2.1)⟩ else none
  solver := p.solver.map solverBack
  start := if p.start then some true else none
  options := some (optionsBack p.options (tStepsBack p.options.tSteps), setEntries 24 p.extraOptions)
  selections := p.selections.map selecBack
  moreOptions := nonEmpty p.moreOptions (setEntries 40 p.moreOptions)
  times := p.times.map fun t => stepsBack t.toList
  elementHistory := p.elementHistory.map (·.map textOf)
  connectionHistory := p.connectionHistory.map (·.map textOf)
  generatorHistory := p.generatorHistory.map (·.map textOf)
  generators := genersBack p
  diffusion := p.diffusion.map (·.map fun r => dropTrailing (r.map (num 3)))
  output := p.output.map fun o => ⟨if o.1 = [] then none else some (upper o.1),
    some (o.2.map fun e => (lower e.1, argsBack e.2))⟩
  elements := elemsBack p
  coordinates := nonEmpty p.elements p.coordinates
  connections := connsBack p
  initialConditions := inconsBack p
  nover := if p.nover then some true else none

end Verif.Spec
