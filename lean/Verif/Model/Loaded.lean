import Verif.Model.Checked
import Verif.Model.Json

/-!
# The dictionary that the reader returns

`/repo/toughio/_io/input/tough/_read.py`: what `read` returns, as the Python value that
`toughio.write_input` passes on to the writer of JSON files. The order of the keys, which
follows from the order of the blocks in the file, is not represented: the keys are listed in a
fixed order.
-/

namespace Verif.Model
open Verif.Py

/-- An entry of a dictionary from which `prune_nones_dict` removed the missing ones
(`_helpers.py`, 297-299). -/
def presentKey (k : String) (v : Val) : List (Key × Tree) := ifKey k Val.tree (keyed v)

/-- The same for a value or a list. -/
def presentSoL (k : String) (v : SoL) : List (Key × Tree) :=
  if v = .one .none then [] else [(key k, v.tree)]

/-- A title (`_read.py`, 54). -/
def Title.tree : Title → Tree
  | .one t => .str t
  | .many l => .list (l.map .str)

/-- A rock (`_read.py`, 141-175, 72-74 and 93-94). -/
def Rock.loaded (r : Rock) : List (Key × Tree) :=
  presentKey "density" r.density ++ (presentKey "porosity" r.porosity ++
    (presentSoL "permeability" r.permeability ++ (presentKey "conductivity" r.conductivity ++
    (presentKey "specific_heat" r.specificHeat ++ (presentKey "compressibility" r.compressibility ++
    (presentKey "expansivity" r.expansivity ++ (presentKey "conductivity_dry" r.conductivityDry ++
    (presentKey "tortuosity" r.tortuosity ++ (presentKey "klinkenberg_parameter" r.klinkenberg ++
    (presentKey "distribution_coefficient_3" r.dist3 ++ (presentKey "distribution_coefficient_4" r.dist4 ++
    (ifKey "relative_permeability" Mod.tree r.relPerm ++ (ifKey "capillarity" Mod.tree r.cap ++
    (ifKey "permeability_model" Mod.tree r.permModel ++
    (ifKey "equivalent_pore_pressure" Mod.tree r.eqPore ++
    ifKey "initial_condition" listTree r.initCond)))))))))))))))

/-- The key `default` (`_read.py`, 65-69 and 85-88). -/
def DefaultRead.loaded (d : DefaultRead) : List (Key × Tree) :=
  ifKey "relative_permeability" Mod.tree d.relPerm ++ (ifKey "capillarity" Mod.tree d.cap ++
    ifKey "initial_condition" listTree d.initCond)

/-- The FLAC options (`_read.py`, 203-207 and 227). -/
def Flac.loaded (f : Flac) : List (Key × Tree) :=
  presentKey "creep" f.creep ++ (presentKey "porosity_model" f.porosityModel ++ presentKey "version" f.version)

/-- The keys of MULTI (`_read.py`, 239-241). -/
def MultiRead.loaded (m : MultiRead) : List (Key × Tree) :=
  [(key "n_component", m.nComponent.tree)] ++ ([(key "isothermal", .bool m.isothermal)] ++
    [(key "n_phase", m.nPhase.tree)])

/-- The solver (`_read.py`, 253-259). -/
def SolverOf.loaded (s : SolverOf Val) : List (Key × Tree) :=
  [(key "method", s.method.tree)] ++ ([(key "z_precond", s.zPrecond.tree)] ++
    ([(key "o_precond", s.oPrecond.tree)] ++ ([(key "rel_iter_max", s.relIterMax.tree)] ++
    [(key "eps", s.eps.tree)])))

/-- The options (`_read.py`, 272-326 and 343). -/
def Options.loaded (o : Options) : List (Key × Tree) :=
  presentKey "n_iteration" o.nIteration ++ (presentKey "verbosity" o.verbosity ++
    (presentKey "n_cycle" o.nCycle ++ (presentKey "n_second" o.nSecond ++
    (presentKey "n_cycle_print" o.nCyclePrint ++ (presentKey "temperature_dependence_gas" o.tempDepGas ++
    (presentKey "effective_strength_vapor" o.effStrengthVapor ++ (presentKey "t_ini" o.tIni ++
    (presentKey "t_max" o.tMax ++ (presentSoL "t_steps" o.tSteps ++ (presentKey "t_step_max" o.tStepMax ++
    (presentKey "gravity" o.gravity ++ (presentKey "t_reduce_factor" o.tReduceFactor ++
    (presentKey "mesh_scale_factor" o.meshScaleFactor ++ (presentKey "eps1" o.eps1 ++
    (presentKey "eps2" o.eps2 ++ (presentKey "w_upstream" o.wUpstream ++ (presentKey "w_newton" o.wNewton ++
    presentKey "derivative_factor" o.derivativeFactor)))))))))))))))))

/-- The selections (`_read.py`, 352-367). -/
def SelecRead.loaded (s : SelecRead) : List (Key × Tree) :=
  [(key "integers", digitsTree s.integers)] ++ (s.floats.getD .absent).entries

/-- A field of a generator; one that is `None` was removed (`_read.py`, 519-528). -/
def Out.loaded {α : Type} [DecidableEq α] (k : String) (f : α → Tree) (none : α) :
    Out α → List (Key × Tree)
  | .one v => if v = none then [] else [(key k, f v)]
  | .list l => [(key k, .list (l.map f))]

/-- A generator (`_read.py`, 475-528). -/
def GenOut.loaded (g : GenOut) : List (Key × Tree) :=
  g.name.loaded "name" Val.tree .none ++ (g.nseq.loaded "nseq" Val.tree .none ++
    (g.nadd.loaded "nadd" Val.tree .none ++ (g.nads.loaded "nads" Val.tree .none ++
    (g.type.loaded "type" Val.tree .none ++ (g.thickness.loaded "layer_thickness" Val.tree .none ++
    (g.times.loaded "times" SoL.tree (.one .none) ++ (g.rates.loaded "rates" SoL.tree (.one .none) ++
    g.enthalpy.loaded "specific_enthalpy" SoL.tree (.one .none))))))))

/-- OUTPU (`_read.py`, 556-595). -/
def OutpuRead.loaded (o : OutpuRead) : List (Key × Tree) :=
  ifKey "format" .str o.format ++
    ifKey "variables" (fun v => .dict (v.map fun e : Str × Args => (.str e.1, e.2.tree))) o.vars

/-- An element (`_read.py`, 612-628 and 116-117). -/
def Elem.loaded (e : Elem) : List (Key × Tree) :=
  presentKey "nseq" e.nseq ++ (presentKey "nadd" e.nadd ++ (presentKey "material" e.material ++
    (presentKey "volume" e.volume ++ (presentKey "heat_exchange_area" e.area ++
    (presentKey "permeability_modifier" e.permMod ++ e.center.entries)))))

/-- A connection (`_read.py`, 664-682). -/
def Conn.loaded (c : Conn) : List (Key × Tree) :=
  presentKey "nseq" c.nseq ++ (ifKey "nadd" listTree c.nadd ++
    (presentKey "permeability_direction" c.direction ++ (ifKey "nodal_distances" listTree c.distances ++
    (presentKey "interface_area" c.area ++ (presentKey "gravity_cosine_angle" c.angle ++
    presentKey "radiant_emittance_factor" c.emittance)))))

/-- An initial condition (`_read.py`, 703-735). -/
def Incon.loaded (c : Incon) : List (Key × Tree) :=
  presentKey "porosity" c.porosity ++ (ifKey "userx" listTree c.userx ++
    ifKey "values" listTree c.values)

/-- A block of rows with its order, under two keys. -/
def tableLoaded {β : Type} (k order : String) (f : β → List (Key × Tree)) :
    Option (Table β) → List (Key × Tree)
  | some t => [(key k, rowsTree f t.1)] ++ [(key order, listTree t.2)]
  | none => []

/-- The options and the extra options (`_read.py`, 83-84). -/
def paramLoaded : Option (Options × List (ℤ × Val)) → List (Key × Tree)
  | some o => [(key "options", .dict o.1.loaded)] ++ [(key "extra_options", digitsTree o.2)]
  | none => []

/-- The keys of MULTI, if there is such a block (`_read.py`, 76). -/
def multiLoaded : Option MultiRead → List (Key × Tree)
  | some m => m.loaded
  | none => []

/-- A list of texts. -/
def textsTree (l : List Str) : Tree := .list (l.map .str)

/-- What `read` returns (`_read.py`, 39-128). -/
def FileRead.loaded (r : FileRead) : List (Key × Tree) :=
  ifKey "title" Title.tree r.title ++ (tableLoaded "rocks" "rocks_order" Rock.loaded r.rocks ++
    (ifKey "default" (fun d => .dict d.loaded) r.dflt ++ (ifKey "flac" (fun f => .dict f.loaded) r.flac ++
    (multiLoaded r.multi ++ (ifKey "solver" (fun s => .dict s.loaded) r.solver ++
    (ifKey "start" .bool r.start ++ (paramLoaded r.options ++
    (ifKey "selections" (fun s => .dict s.loaded) r.selections ++
    (ifKey "more_options" digitsTree r.moreOptions ++ (ifKey "times" SoL.tree r.times ++
    (ifKey "element_history" textsTree r.elementHistory ++
    (ifKey "connection_history" textsTree r.connectionHistory ++
    (ifKey "generator_history" textsTree r.generatorHistory ++
    (ifKey "generators" (rowsTree GenOut.loaded) r.generators ++
    (ifKey "diffusion" (fun l => .list (l.map listTree)) r.diffusion ++
    (ifKey "output" (fun o => .dict o.loaded) r.output ++
    (tableLoaded "elements" "elements_order" Elem.loaded r.elements ++
    (ifKey "coordinates" .bool r.coordinates ++
    (tableLoaded "connections" "connections_order" Conn.loaded r.connections ++
    (tableLoaded "initial_conditions" "initial_conditions_order" Incon.loaded r.initialConditions ++
    ifKey "nover" .bool r.nover))))))))))))))))))))

end Verif.Model
