import Verif.Model.Tree

/-!
# Validation of parameters

Model of `dtypes`, `str_to_dtype` and `check_parameters`
(`/repo/toughio/_io/input/tough/_helpers.py`, lines 9-150 and 173-232).
-/

namespace Verif.Model
open Verif.Py

/-- The classes that occur in `str_to_dtype`. -/
inductive Cls
  | int | float | str | bool | list | tuple | ndarray | dict
  | npInt | npFloat32 | npFloat64
  deriving DecidableEq

/-- `isinstance(v, cls)`: `bool` is a subclass of `int` and `numpy.float64` one of
`float`. -/
def isInstance : Tree → Cls → Bool
  | .bool _, c => c = .bool || c = .int
  | .int _, c => c = .int
  | .npInt _, c => c = .npInt
  | .flt _, c => c = .float
  | .npFloat32 _, c => c = .npFloat32
  | .npFloat64 _, c => c = .npFloat64 || c = .float
  | .str _, c => c = .str
  | .list _, c => c = .list
  | .tuple _, c => c = .tuple
  | .array _, c => c = .ndarray
  | .dict _, c => c = .dict
  | .none, _ => false
  | .other, _ => false

/-- `str_to_dtype` (`_helpers.py`, 127-150). -/
def strToDtype : List (String × List Cls) :=
  [("int", [.int, .npInt]),
    ("float", [.float, .npFloat32, .npFloat64]),
    ("str", [.str]),
    ("bool", [.bool]),
    ("str_int", [.str, .int, .npInt]),
    ("array_like", [.list, .tuple, .ndarray]),
    ("dict", [.dict]),
    ("scalar", [.int, .float, .npInt, .npFloat32, .npFloat64]),
    ("scalar_array_like", [.int, .float, .list, .tuple, .npInt, .npFloat32, .npFloat64, .ndarray]),
    ("str_array_like", [.str, .list, .tuple, .ndarray])]

/-- One entry of `dtypes`: the type name of each known key. -/
abbrev Types := List (Key × String)

/-- Keys that are texts. -/
def textKeys (l : List (String × String)) : Types := l.map fun e => (key e.1, e.2)

/-- `dtypes["PARAMETERS"]` (`_helpers.py`, 10-42). -/
def dtParameters : Types := textKeys
  [("title", "str_array_like"), ("eos", "str"), ("n_component", "int"), ("n_phase", "int"),
    ("n_component_mass", "int"), ("flac", "dict"), ("isothermal", "bool"), ("start", "bool"),
    ("nover", "bool"), ("rocks", "dict"), ("rocks_order", "array_like"), ("options", "dict"),
    ("extra_options", "dict"), ("more_options", "dict"), ("selections", "dict"),
    ("solver", "dict"), ("generators", "dict"), ("times", "scalar_array_like"),
    ("element_history", "array_like"), ("connection_history", "array_like"),
    ("generator_history", "array_like"), ("diffusion", "array_like"), ("output", "dict"),
    ("elements", "dict"), ("elements_order", "array_like"), ("coordinates", "bool"),
    ("connections", "dict"), ("connections_order", "array_like"), ("initial_conditions", "dict"),
    ("initial_conditions_order", "array_like"), ("default", "dict")]

/-- `dtypes["ROCKS"]` (`_helpers.py`, 43-61). -/
def dtRocks : Types := textKeys
  [("density", "scalar"), ("porosity", "scalar"), ("permeability", "scalar_array_like"),
    ("conductivity", "scalar"), ("specific_heat", "scalar"), ("compressibility", "scalar"),
    ("expansivity", "scalar"), ("conductivity_dry", "scalar"), ("tortuosity", "scalar"),
    ("klinkenberg_parameter", "scalar"), ("distribution_coefficient_3", "scalar"),
    ("distribution_coefficient_4", "scalar"), ("initial_condition", "array_like"),
    ("relative_permeability", "dict"), ("capillarity", "dict"), ("permeability_model", "dict"),
    ("equivalent_pore_pressure", "dict")]

/-- `dtypes["FLAC"]` (`_helpers.py`, 62). -/
def dtFlac : Types := textKeys [("creep", "bool"), ("porosity_model", "int"), ("version", "int")]

/-- `dtypes["MODEL"]` (`_helpers.py`, 63). -/
def dtModel : Types := textKeys [("id", "int"), ("parameters", "array_like")]

/-- `dtypes["PARAM"]` (`_helpers.py`, 64-84). -/
def dtParam : Types := textKeys
  [("n_iteration", "int"), ("n_cycle", "int"), ("n_second", "int"), ("n_cycle_print", "int"),
    ("verbosity", "int"), ("temperature_dependence_gas", "scalar"),
    ("effective_strength_vapor", "scalar"), ("t_ini", "scalar"), ("t_max", "scalar"),
    ("t_steps", "scalar_array_like"), ("t_step_max", "scalar"), ("t_reduce_factor", "scalar"),
    ("gravity", "scalar"), ("mesh_scale_factor", "scalar"), ("eps1", "scalar"), ("eps2", "scalar"),
    ("w_upstream", "scalar"), ("w_newton", "scalar"), ("derivative_factor", "scalar")]

/-- `{i + 1: "int" for i in range(n)}` (`_helpers.py`, 85-86). -/
def dtDigits (n : ℕ) : Types := (List.range n).map fun i : ℕ => (.int ((i : ℤ) + 1), "int")

/-- `dtypes["SELEC"]` (`_helpers.py`, 87). -/
def dtSelec : Types := textKeys [("integers", "dict"), ("floats", "array_like")]

/-- `dtypes["SOLVR"]` (`_helpers.py`, 88-94). -/
def dtSolvr : Types := textKeys
  [("method", "int"), ("z_precond", "str"), ("o_precond", "str"), ("rel_iter_max", "scalar"),
    ("eps", "scalar")]

/-- `dtypes["GENER"]` (`_helpers.py`, 95-105). -/
def dtGener : Types := textKeys
  [("name", "str_array_like"), ("nseq", "scalar_array_like"), ("nadd", "scalar_array_like"),
    ("nads", "scalar_array_like"), ("type", "str_array_like"), ("times", "scalar_array_like"),
    ("rates", "scalar_array_like"), ("specific_enthalpy", "scalar_array_like"),
    ("layer_thickness", "scalar_array_like")]

/-- `dtypes["OUTPU"]` (`_helpers.py`, 106). -/
def dtOutpu : Types := textKeys [("format", "str"), ("variables", "dict")]

/-- `dtypes["ELEME"]` (`_helpers.py`, 107-115). -/
def dtEleme : Types := textKeys
  [("nseq", "int"), ("nadd", "int"), ("material", "str_int"), ("volume", "scalar"),
    ("heat_exchange_area", "scalar"), ("permeability_modifier", "scalar"),
    ("center", "array_like")]

/-- `dtypes["CONNE"]` (`_helpers.py`, 116-124). -/
def dtConne : Types := textKeys
  [("nseq", "int"), ("nadd", "array_like"), ("permeability_direction", "int"),
    ("nodal_distances", "array_like"), ("interface_area", "scalar"),
    ("gravity_cosine_angle", "scalar"), ("radiant_emittance_factor", "scalar")]

/-- `dtypes["INCON"]` (`_helpers.py`, 125). -/
def dtIncon : Types := textKeys
  [("porosity", "scalar"), ("userx", "array_like"), ("values", "array_like")]

/-- `v is None`. -/
def isNone : Tree → Bool
  | .none => true
  | _ => false

/-- What a check leaves behind: the keys that were reported as unknown, and
whether it raised. -/
abbrev Checked := List Key × Except PyErr Unit

/-- The loop of `_check_parameters` (`_helpers.py`, 177-197). -/
def checkEntries (types : Types) : List (Key × Tree) → Checked
  | [] => ([], .ok ())
  | (k, v) :: r =>
    match types.lookup k with
    | none => (k :: (checkEntries types r).1, (checkEntries types r).2)
    | some name =>
      match strToDtype.lookup name with
      | none => ([], .error .keyError)
      | some cs =>
        if isNone v || cs.any (isInstance v) then checkEntries types r
        else ([], .error .typeError)

/-- `_check_parameters(params)`; `.items()` of anything but a dictionary is an
`AttributeError`. -/
def checkValue (types : Types) : Tree → Checked
  | .dict d => checkEntries types d
  | _ => ([], .error .attributeError)

/-- `v[key]`; subscripting anything but a dictionary with a text is a `TypeError`
(an `IndexError` for an `ndarray` and the numbers of numpy). -/
def subscript (v : Tree) (k : Key) : Except PyErr Tree :=
  match v with
  | .dict d => match Tree.find d k with
    | some x => .ok x
    | none => .error .keyError
  | .array _ | .npInt _ | .npFloat32 _ | .npFloat64 _ => .error .indexError
  | _ => .error .typeError

/-- `for key in keys[1:]: v = v[key]` (`_helpers.py`, 214-216 and 221-223). -/
def follow (v : Tree) : List Key → Except PyErr Tree
  | [] => .ok v
  | k :: ks => subscript v k >>= fun x => follow x ks

/-- A check that is reached by a path; `KeyError` if the path does not exist. -/
def checkAt (types : Types) (v : Tree) (path : List Key) : Checked :=
  match follow v path with
  | .error e => ([], .error e)
  | .ok x => checkValue types x

/-- One check after another, `except KeyError: continue` in between
(`_helpers.py`, 210-219). -/
def checkEach (types : Types) (path : List Key) : List (Key × Tree) → Checked
  | [] => ([], .ok ())
  | (_, v) :: r =>
    match (checkAt types v path).2 with
    | .error .keyError =>
      ((checkAt types v path).1 ++ (checkEach types path r).1, (checkEach types path r).2)
    | .error e => ((checkAt types v path).1, .error e)
    | .ok () =>
      ((checkAt types v path).1 ++ (checkEach types path r).1, (checkEach types path r).2)

/-- The decorator `check_parameters(types, keys, is_list)` applied to a function
with argument `parameters` (`_helpers.py`, 201-226), before the function is
called. `parameters` itself is a dictionary. -/
def checkParameters (types : Types) (keys : List Key) (isList : Bool)
    (parameters : List (Key × Tree)) : Checked :=
  match keys with
  | [] => checkEntries types parameters
  | k :: path =>
    match Tree.find parameters k with
    | none => ([], .error .keyError)
    | some v =>
      if isList then
        match v with
        | .dict d => checkEach types path d
        | _ => ([], .error .attributeError)
      else checkAt types v path

/-- The decorators of the writers (`_write.py`, 68-930): function, type table,
keys and `is_list`. -/
def decorators : List (String × Types × List Key × Bool) :=
  [("write_buffer", dtParameters, [], false),
    ("_write_rocks", dtRocks, [key "default"], false),
    ("_write_rocks", dtRocks, [key "rocks"], true),
    ("_write_rocks", dtModel, [key "rocks", key "relative_permeability"], true),
    ("_write_rocks", dtModel, [key "rocks", key "capillarity"], true),
    ("_write_rpcap", dtModel, [key "default", key "relative_permeability"], false),
    ("_write_rpcap", dtModel, [key "default", key "capillarity"], false),
    ("_write_flac", dtFlac, [key "flac"], false),
    ("_write_flac", dtModel, [key "default", key "permeability_model"], false),
    ("_write_flac", dtModel, [key "default", key "equivalent_pore_pressure"], false),
    ("_write_flac", dtModel, [key "rocks", key "permeability_model"], true),
    ("_write_flac", dtModel, [key "rocks", key "equivalent_pore_pressure"], true),
    ("_write_solvr", dtSolvr, [key "solver"], false),
    ("_write_param", dtParam, [key "options"], false),
    ("_write_param", dtDigits 24, [key "extra_options"], false),
    ("_write_selec", dtSelec, [key "selections"], false),
    ("_write_momop", dtDigits 40, [key "more_options"], false),
    ("_write_gener", dtGener, [key "generators"], true),
    ("_write_outpu", dtOutpu, [key "output"], false),
    ("_write_eleme", dtEleme, [key "elements"], true),
    ("_write_conne", dtConne, [key "connections"], true),
    ("_write_incon", dtIncon, [key "initial_conditions"], true)]

end Verif.Model
