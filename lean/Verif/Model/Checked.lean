import Verif.Model.Again
import Verif.Model.Check

/-!
# Writing with the checks of the types

`/repo/toughio/_io/input/tough/_write.py`, lines 36-150: the parameters as the
dictionary that the decorators `check_parameters` see, and the writer with these
checks, which `Verif.Model.File` leaves out.
-/

namespace Verif.Model
open Verif.Py

/-- A scalar. -/
def Val.tree : Val → Tree
  | .none => .none
  | .bool b => .bool b
  | .int i => .int i
  | .flt x => .flt x
  | .str s => .str s

/-- A list of scalars. -/
def listTree (l : List Val) : Tree := .list (l.map Val.tree)

/-- A scalar or a list. -/
def SoL.tree : SoL → Tree
  | .one v => v.tree
  | .many l => listTree l

/-- `None` or a value. -/
def orNone {α : Type} (f : α → Tree) : Option α → Tree
  | some a => f a
  | none => .none

/-- A key that may be absent. -/
def ifKey {α : Type} (k : String) (f : α → Tree) : Option α → List (Key × Tree)
  | some a => [(key k, f a)]
  | none => []

/-- A label as a key. The checks do not look at labels; booleans and floats as labels
are not represented. -/
def labelKey : Val → Key
  | .str s => .str s
  | .int i => .int i
  | .none => .null
  | _ => .str []

/-- A dictionary of dictionaries. -/
def rowsTree {β : Type} (f : β → List (Key × Tree)) (d : List (Val × β)) : Tree :=
  .dict (d.map fun e => (labelKey e.1, .dict (f e.2)))

/-- A model. -/
def Mod.tree (m : Mod) : Tree :=
  .dict [(key "id", m.id.tree), (key "parameters", listTree m.params)]

/-- The scalar properties of a rock after the merge (`_write.py`, 50-60): a missing
one is `None`. -/
def Rock.scalars (r : Rock) : List (Key × Tree) :=
  [(key "density", r.density.tree), (key "porosity", r.porosity.tree),
    (key "permeability", r.permeability.tree), (key "conductivity", r.conductivity.tree),
    (key "specific_heat", r.specificHeat.tree), (key "compressibility", r.compressibility.tree),
    (key "expansivity", r.expansivity.tree), (key "conductivity_dry", r.conductivityDry.tree),
    (key "tortuosity", r.tortuosity.tree), (key "klinkenberg_parameter", r.klinkenberg.tree),
    (key "distribution_coefficient_3", r.dist3.tree),
    (key "distribution_coefficient_4", r.dist4.tree)]

/-- A rock after the merge. The two models of FLAC are always there, the other
models and the initial condition only if the user gave them. -/
def Rock.entries (r : Rock) : List (Key × Tree) :=
  r.scalars ++ [(key "permeability_model", (flacModels r).1.tree),
      (key "equivalent_pore_pressure", (flacModels r).2.tree)] ++
    ifKey "relative_permeability" Mod.tree r.relPerm ++ ifKey "capillarity" Mod.tree r.cap ++
    ifKey "initial_condition" listTree r.initCond

/-- `{"id": None, "parameters": []}` (`_common.py`, 139-140). -/
def Mod.absent : Mod := ⟨.none, []⟩

/-- `params["default"]`, completed by the defaults (`_write.py`, 46-48;
`_common.py`, 125-143). -/
def defaultEntries (d : RawRock) : List (Key × Tree) :=
  Rock.entries { mergeRock d d with
    relPerm := some (d.relPerm.getD Mod.absent)
    cap := some (d.cap.getD Mod.absent)
    initCond := some (d.initCond.getD (List.replicate 6 .none)) }

/-- The FLAC options. -/
def Flac.tree (f : Flac) : Tree :=
  .dict [(key "creep", f.creep.tree), (key "porosity_model", f.porosityModel.tree),
    (key "version", f.version.tree)]

/-- The solver. -/
def SolverOf.tree (s : SolverOf (Option Val)) : Tree :=
  .dict (ifKey "method" Val.tree s.method ++ ifKey "z_precond" Val.tree s.zPrecond ++
    ifKey "o_precond" Val.tree s.oPrecond ++ ifKey "rel_iter_max" Val.tree s.relIterMax ++
    ifKey "eps" Val.tree s.eps)

/-- The options; an option that is missing is shown as `None`, which the check
does not tell from an absent key. -/
def Options.tree (o : Options) : Tree :=
  .dict [(key "n_iteration", o.nIteration.tree), (key "n_cycle", o.nCycle.tree),
    (key "n_second", o.nSecond.tree), (key "n_cycle_print", o.nCyclePrint.tree),
    (key "verbosity", o.verbosity.tree), (key "temperature_dependence_gas", o.tempDepGas.tree),
    (key "effective_strength_vapor", o.effStrengthVapor.tree), (key "t_ini", o.tIni.tree),
    (key "t_max", o.tMax.tree), (key "t_steps", o.tSteps.tree),
    (key "t_step_max", o.tStepMax.tree), (key "t_reduce_factor", o.tReduceFactor.tree),
    (key "gravity", o.gravity.tree), (key "mesh_scale_factor", o.meshScaleFactor.tree),
    (key "eps1", o.eps1.tree), (key "eps2", o.eps2.tree), (key "w_upstream", o.wUpstream.tree),
    (key "w_newton", o.wNewton.tree), (key "derivative_factor", o.derivativeFactor.tree)]

/-- Numbered options. -/
def digitsTree (d : List (ℤ × Val)) : Tree := .dict (d.map fun e => (.int e.1, e.2.tree))

/-- The floats of SELEC, whose key may be absent. -/
def Floats.entries : Floats → List (Key × Tree)
  | .absent => []
  | .none => [(key "floats", .none)]
  | .row l => [(key "floats", listTree l)]
  | .rows l => [(key "floats", .list (l.map listTree))]

/-- SELEC. -/
def selecTree (s : Option (List (ℤ × Val)) × Floats) : Tree :=
  .dict (ifKey "integers" digitsTree s.1 ++ s.2.entries)

/-- A field of a generator with several types. What a value is that is no list is
not represented; the writer refuses it with the error of the check anyway. -/
def Fld.tree {α : Type} (f : α → Tree) : Fld α → Tree
  | .none => .none
  | .scalar => .none
  | .list l => .list (l.map f)

/-- A generator. Of one without type nothing else is represented. -/
def Gen.entries : Gen → List (Key × Tree)
  | .single c => [(key "name", c.name.tree), (key "nseq", c.nseq.tree), (key "nadd", c.nadd.tree),
      (key "nads", c.nads.tree), (key "type", c.type.tree), (key "times", c.times.tree),
      (key "rates", c.rates.tree), (key "specific_enthalpy", c.enthalpy.tree),
      (key "layer_thickness", c.thickness.tree)]
  | .multi m => [(key "name", m.name.tree Val.tree), (key "nseq", m.nseq.tree Val.tree),
      (key "nadd", m.nadd.tree Val.tree), (key "nads", m.nads.tree Val.tree),
      (key "type", listTree m.types), (key "times", m.times.tree SoL.tree),
      (key "rates", m.rates.tree SoL.tree), (key "specific_enthalpy", m.enthalpy.tree SoL.tree),
      (key "layer_thickness", m.thickness.tree Val.tree)]
  | .noType => []

/-- The arguments of an output variable. -/
def Args.tree : Args → Tree
  | .one v => v.tree
  | .list l => listTree l
  | .rows l => .list (l.map listTree)

/-- OUTPU. -/
def outpuTree (o : Str × List (Str × Args)) : Tree :=
  .dict [(key "format", .str o.1),
    (key "variables", .dict (o.2.map fun e => (.str e.1, e.2.tree)))]

/-- A centre, whose key may be absent. -/
def Center.entries : Center → List (Key × Tree)
  | .absent => []
  | .null => [(key "center", .none)]
  | .list l => [(key "center", listTree l)]

/-- An element. -/
def Elem.entries (e : Elem) : List (Key × Tree) :=
  [(key "nseq", e.nseq.tree), (key "nadd", e.nadd.tree), (key "material", e.material.tree),
    (key "volume", e.volume.tree), (key "heat_exchange_area", e.area.tree),
    (key "permeability_modifier", e.permMod.tree)] ++ e.center.entries

/-- A connection. -/
def Conn.entries (c : Conn) : List (Key × Tree) :=
  [(key "nseq", c.nseq.tree), (key "nadd", orNone listTree c.nadd),
    (key "permeability_direction", c.direction.tree),
    (key "nodal_distances", orNone listTree c.distances), (key "interface_area", c.area.tree),
    (key "gravity_cosine_angle", c.angle.tree),
    (key "radiant_emittance_factor", c.emittance.tree)]

/-- An initial condition. -/
def Incon.entries (c : Incon) : List (Key × Tree) :=
  [(key "porosity", c.porosity.tree), (key "userx", orNone listTree c.userx),
    (key "values", orNone listTree c.values)]

/-- `params` as `write_buffer` gets it (`_write.py`, 38-60). A title that is a text
was made a list (41-43). An empty dictionary of selections and an empty solver
stand for what is not given (`_common.py`, 16-17). -/
def Params.tree (p : Params) : List (Key × Tree) :=
  [(key "title", .list (p.title.lines.map .str)), (key "eos", .str p.eos),
    (key "n_component", orNone .int p.nComponent), (key "n_phase", orNone .int p.nPhase),
    (key "n_component_mass", orNone .int p.nComponentMass), (key "flac", orNone Flac.tree p.flac),
    (key "isothermal", .bool p.isothermal), (key "start", .bool p.start),
    (key "nover", .bool p.nover), (key "rocks", rowsTree Rock.entries p.merged),
    (key "rocks_order", orNone listTree p.rocksOrder), (key "options", p.options.tree),
    (key "extra_options", digitsTree p.extraOptions), (key "more_options", digitsTree p.moreOptions),
    (key "selections", (p.selections.map selecTree).getD (.dict [])),
    (key "solver", (p.solver.map SolverOf.tree).getD (.dict [])),
    (key "generators", rowsTree Gen.entries p.generators),
    (key "diffusion", orNone (fun l => .list (l.map listTree)) p.diffusion),
    (key "times", orNone SoL.tree p.times),
    (key "element_history", orNone listTree p.elementHistory),
    (key "connection_history", orNone listTree p.connectionHistory),
    (key "generator_history", orNone listTree p.generatorHistory),
    (key "output", orNone outpuTree p.output), (key "elements", rowsTree Elem.entries p.elements),
    (key "elements_order", orNone listTree p.elementsOrder),
    (key "coordinates", .bool p.coordinates),
    (key "connections", rowsTree Conn.entries p.connections),
    (key "connections_order", orNone listTree p.connectionsOrder),
    (key "initial_conditions", rowsTree Incon.entries p.initialConditions),
    (key "initial_conditions_order", orNone listTree p.initialConditionsOrder),
    (key "default", .dict (defaultEntries p.dflt))]

/-- One check after another. -/
def passAll : List (Except PyErr Unit) → Except PyErr Unit
  | [] => .ok ()
  | x :: r => x >>= fun _ => passAll r

/-- The checks of a writer, the outermost decorator first. -/
def runChecks (fn : String) (t : List (Key × Tree)) : Except PyErr Unit :=
  passAll ((decorators.filter fun e => e.1 = fn).map fun e =>
    (checkParameters e.2.1 e.2.2.1 e.2.2.2 t).2)

/-- A writer with its decorators. -/
def guarded (fn : String) (p : Params) (w : Except PyErr (List Str)) : Except PyErr (List Str) :=
  runChecks fn p.tree >>= fun _ => w

/-- The blocks of a file (`_write.py`, 104-148), as `fileParts`, with the decorators
of the writers that are called. -/
def checkedParts (p : Params) : List (String × List String × Except PyErr (List Str)) :=
  [("", ["all"], .ok (p.title.lines.map titleLine)),
    ("ROCKS", ["all"], guarded "_write_rocks" p (writeRocks p.rocksOrder p.merged)),
    ("RPCAP", ["all"], onlyIf p.hasRpcap
      (guarded "_write_rpcap" p (writeRpcap p.dflt.relPerm p.dflt.cap))),
    ("FLAC", ["all"], ifSome p.flac fun f => guarded "_write_flac" p
      (writeFlac f p.rocksOrder (p.merged.map fun e => (e.1, flacModels e.2)))),
    ("MULTI", ["all"], onlyIf p.hasMulti (writeMultiBlock p.multi)),
    ("SOLVR", ["all"], ifSome p.solver fun s => guarded "_write_solvr" p (writeSolvr s)),
    ("START", ["all"], onlyIf p.start writeStart),
    ("PARAM", ["all"],
      guarded "_write_param" p (writeParam p.options p.extraOptions p.initCond)),
    ("SELEC", ["all"], ifSome p.selections fun s =>
      guarded "_write_selec" p (writeSelec s.1 s.2)),
    ("INDOM", ["all"], onlyIf p.hasIndom
      (writeIndom p.rocksOrder (p.merged.map fun e => (e.1, e.2.initCond)))),
    ("MOMOP", ["all"], onlyIf (p.moreOptions ≠ [])
      (guarded "_write_momop" p (writeMomop p.moreOptions))),
    ("TIMES", ["all"], ifSome p.times writeTimes),
    ("FOFT", ["all"], ifSome p.elementHistory writeFoft),
    ("COFT", ["all"], ifSome p.connectionHistory writeCoft),
    ("GOFT", ["all"], ifSome p.generatorHistory writeGoft),
    ("GENER", ["all", "gener"], onlyIf (p.generators ≠ [])
      (guarded "_write_gener" p (writeGener p.generators))),
    ("DIFFU", ["all"], ifSome p.diffusion writeDiffu),
    ("OUTPU", ["all"], ifSome p.output fun o => guarded "_write_outpu" p (writeOutpu o.1 o.2)),
    ("ELEME", ["all", "mesh"], onlyIf (p.elements ≠ [])
      (guarded "_write_eleme" p (writeEleme p.elementsOrder p.elements))),
    ("COORD", ["all", "mesh"], onlyIf p.coordinates (writeCoord p.elementsOrder p.elements)),
    ("CONNE", ["all", "mesh"], onlyIf (p.connections ≠ [])
      (guarded "_write_conne" p (writeConne p.connectionsOrder p.connections))),
    ("INCON", ["all", "incon"], onlyIf (p.initialConditions ≠ [])
      (guarded "_write_incon" p (writeIncon p.initialConditionsOrder p.initialConditions))),
    ("NOVER", ["all"], onlyIf p.nover (block "NOVER" false (.ok []))),
    ("ENDCY", ["all"], .ok [endLine])]

/-- `write` and `write_buffer` with all decorators (`_write.py`, 17-150). -/
def writeChecked (p : Params) (blk : String) : Except PyErr (List Str) :=
  if blk ∉ ["all", "gener", "mesh", "incon"] then .error .valueError
  else do
    runChecks "write_buffer" p.tree
    if p.eos ≠ [] ∧ p.eos ∉ eosTable.map (·.1) then .error .valueError
    else concatM id (((checkedParts p).filter fun e => e.2.1.contains blk).map (·.2.2))

end Verif.Model
