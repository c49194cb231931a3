import Verif.Model.File

/-!
# Saving what was read

The dictionary that `read` returned, given to `write`: `params =
deepcopy(Parameters); params.update(deepcopy(parameters))`
(`/repo/toughio/_io/input/tough/_write.py`, lines 38-39). Keys that the reader
does not return keep the value of `Parameters` (`_common.py`, 1-33). As in
`Verif.Model.File` the checks of `check_parameters` are not part of `writeFile`.
-/

namespace Verif.Model
open Verif.Py

/-- An entry of a dictionary that went through `prune_nones_dict` (`_helpers.py`,
294-297): `None` is an absent key. -/
def keyed (v : Val) : Option Val := if v = .none then none else some v

/-- A rock as the reader returns it, as a dictionary of the user (`_read.py`,
141-175, 72-75 and 94-95). -/
def Rock.raw (r : Rock) : RawRock where
  density := keyed r.density
  porosity := keyed r.porosity
  permeability := if r.permeability = .one .none then none else some r.permeability
  conductivity := keyed r.conductivity
  specificHeat := keyed r.specificHeat
  compressibility := keyed r.compressibility
  expansivity := keyed r.expansivity
  conductivityDry := keyed r.conductivityDry
  tortuosity := keyed r.tortuosity
  klinkenberg := keyed r.klinkenberg
  dist3 := keyed r.dist3
  dist4 := keyed r.dist4
  relPerm := r.relPerm
  cap := r.cap
  permModel := r.permModel
  eqPore := r.eqPore
  initCond := r.initCond

/-- The key `default` as the reader returns it (`_read.py`, 65-70 and 85-89). -/
def DefaultRead.raw (d : DefaultRead) : RawRock :=
  ⟨none, none, none, none, none, none, none, none, none, none, none, none, d.relPerm, d.cap, none,
    none, d.initCond⟩

/-- An integer that was read; other values do not occur in these columns. -/
def intOpt : Val → Option ℤ
  | .int i => some i
  | _ => none

/-- A field of a generator with a list of types. A value that is not a list does
not occur, as the reader collects all fields together. -/
def Out.fld {α : Type} [DecidableEq α] (none : α) : Out α → Fld α
  | .list l => .list l
  | .one v => if v = none then .none else .scalar

/-- A field of a generator with one type. A list with one entry for each source
does not occur. -/
def Out.val {α : Type} (none : α) : Out α → α
  | .one v => v
  | .list _ => none

/-- A generator as the reader returns it (`_read.py`, 519-528). A type that is
missing is an absent key, which the writer replaces by `None`. -/
def GenOut.gen (g : GenOut) : Gen :=
  match g.type with
  | .list ts => .multi ⟨g.name.fld .none, g.nseq.fld .none, g.nadd.fld .none, g.nads.fld .none, ts,
      g.times.fld (.one .none), g.rates.fld (.one .none), g.enthalpy.fld (.one .none),
      g.thickness.fld .none⟩
  | .one (.str s) => .single ⟨g.name.val .none, g.nseq.val .none, g.nadd.val .none,
      g.nads.val .none, .str s, g.times.val (.one .none), g.rates.val (.one .none),
      g.enthalpy.val (.one .none), g.thickness.val .none⟩
  | .one _ => .noType

/-- An initial condition as the reader returns it: an absent list is replaced by
the default (`_common.py`, 119-123; `_write.py`, 949-950). -/
def Incon.again (c : Incon) : Incon :=
  ⟨c.porosity, some (c.userx.getD (List.replicate 5 .none)),
    some (c.values.getD (List.replicate 4 .none))⟩

/-- The selections as the reader returns them. -/
def SelecRead.again (s : SelecRead) : Option (List (ℤ × Val)) × Floats :=
  (some s.integers, s.floats.getD .absent)

/-- The solver as the reader returns it: all keys are there. -/
def SolverOf.again (s : SolverOf Val) : SolverOf (Option Val) :=
  ⟨some s.method, some s.zPrecond, some s.oPrecond, some s.relIterMax, some s.eps⟩

/-- `params.update(parameters)` with the dictionary that was read. -/
def FileRead.params (r : FileRead) : Params where
  title := r.title.getD (.one [])
  eos := []
  nComponent := r.multi.bind fun m => intOpt m.nComponent
  nPhase := r.multi.bind fun m => intOpt m.nPhase
  nComponentMass := none
  flac := r.flac
  isothermal := r.multi.any (·.isothermal)
  start := r.start.getD true
  nover := r.nover.getD false
  rocks := (r.rocks.map fun x => x.1.map fun e => (e.1, e.2.raw)).getD []
  rocksOrder := r.rocks.map (·.2)
  options := (r.options.map (·.1)).getD Options.empty
  extraOptions := (r.options.map (·.2)).getD []
  moreOptions := r.moreOptions.getD []
  selections := r.selections.map SelecRead.again
  solver := r.solver.map SolverOf.again
  generators := (r.generators.getD []).map fun e => (e.1, e.2.gen)
  diffusion := r.diffusion
  times := r.times
  elementHistory := r.elementHistory.map (·.map Val.str)
  connectionHistory := r.connectionHistory.map (·.map Val.str)
  generatorHistory := r.generatorHistory.map (·.map Val.str)
  output := r.output.map fun o => (o.format.getD [], o.vars.getD [])
  elements := (r.elements.map (·.1)).getD []
  elementsOrder := r.elements.map (·.2)
  coordinates := r.coordinates.getD false
  connections := (r.connections.map (·.1)).getD []
  connectionsOrder := r.connections.map (·.2)
  initialConditions := ((r.initialConditions.map (·.1)).getD []).map fun e => (e.1, e.2.again)
  initialConditionsOrder := r.initialConditions.map (·.2)
  dflt := (r.dflt.map DefaultRead.raw).getD (DefaultRead.raw ⟨none, none, none⟩)

end Verif.Model
