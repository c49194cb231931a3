import Verif.Model.Check

/-!
# Specification of the validation of parameters
-/

namespace Verif.Spec
open Verif.Py Verif.Model

/-- An integer; a boolean counts as one. -/
def IsInt : Tree → Prop
  | .int _ | .npInt _ | .bool _ => True
  | _ => False

/-- A number. -/
def IsNum : Tree → Prop
  | .flt _ | .npFloat32 _ | .npFloat64 _ => True
  | v => IsInt v

/-- A sequence. -/
def IsSeq : Tree → Prop
  | .list _ | .tuple _ | .array _ => True
  | _ => False

/-- A text. -/
def IsText : Tree → Prop
  | .str _ => True
  | _ => False

/-- A boolean. -/
def IsFlag : Tree → Prop
  | .bool _ => True
  | _ => False

/-- A dictionary. -/
def IsDict : Tree → Prop
  | .dict _ => True
  | _ => False

/-- The meaning of the type names of the documentation. -/
def Meets (name : String) (v : Tree) : Prop :=
  match name with
  | "int" => IsInt v
  | "str" => IsText v
  | "bool" => IsFlag v
  | "str_int" => IsText v ∨ IsInt v
  | "array_like" => IsSeq v
  | "dict" => IsDict v
  | "scalar" => IsNum v
  | "scalar_array_like" => IsNum v ∨ IsSeq v
  | "str_array_like" => IsText v ∨ IsSeq v
  | _ => False

/-- The type names in use. -/
def typeNames : List String :=
  ["int", "str", "bool", "str_int", "array_like", "dict", "scalar", "scalar_array_like",
    "str_array_like"]

/-- Every key of a type table has one of these names. -/
def TableOk (types : Types) : Prop := ∀ e ∈ types, e.2 ∈ typeNames

instance (types : Types) : Decidable (TableOk types) := by unfold TableOk; infer_instance

/-- Some known key holds a value that is neither missing nor of its type. -/
def Bad (types : Types) (d : List (Key × Tree)) : Prop :=
  ∃ e ∈ d, e.2 ≠ .none ∧ ∃ name, types.lookup e.1 = some name ∧ ¬ Meets name e.2

/-- The keys that the table does not know. -/
def unknown (types : Types) (d : List (Key × Tree)) : List Key :=
  (d.map (·.1)).filter fun k => (types.lookup k).isNone

/-- The value that is reached by a path of keys. -/
inductive Reach : Tree → List Key → Tree → Prop
  | here (v : Tree) : Reach v [] v
  | down {d : List (Key × Tree)} {k : Key} {x v : Tree} {path : List Key} (hk : d.lookup k = some x)
      (h : Reach x path v) : Reach (.dict d) (k :: path) v

/-- The path ends early: some dictionary on the way lacks its key. -/
inductive Lacks : Tree → List Key → Prop
  | here {d : List (Key × Tree)} {k : Key} {path : List Key} (hk : d.lookup k = none) :
      Lacks (.dict d) (k :: path)
  | down {d : List (Key × Tree)} {k : Key} {x : Tree} {path : List Key} (hk : d.lookup k = some x)
      (h : Lacks x path) : Lacks (.dict d) (k :: path)

/-- The path meets a value that is no dictionary before its end. -/
inductive Blocked : Tree → List Key → Tree → Prop
  | here {v : Tree} (k : Key) (path : List Key) (hv : ¬ IsDict v) : Blocked v (k :: path) v
  | down {d : List (Key × Tree)} {k : Key} {x v : Tree} {path : List Key} (hk : d.lookup k = some x)
      (h : Blocked x path v) : Blocked (.dict d) (k :: path) v

/-- Values of numpy. -/
def IsNumpy : Tree → Prop
  | .array _ | .npInt _ | .npFloat32 _ | .npFloat64 _ => True
  | _ => False

/-- An entry in order: no bad dictionary at the end of the path, or no end of the path. -/
def Passes (types : Types) (path : List Key) (v : Tree) : Prop :=
  (∃ d, Reach v path (.dict d) ∧ ¬ Bad types d) ∨ Lacks v path

/-- What is wrong with an entry, and the error that tells so. -/
inductive Fault (types : Types) (path : List Key) (v : Tree) : PyErr → Prop
  | bad {d : List (Key × Tree)} (h : Reach v path (.dict d)) (hb : Bad types d) : Fault types path v .typeError
  | noDict {w : Tree} (h : Reach v path w) (hw : ¬ IsDict w) : Fault types path v .attributeError
  | blocked {w : Tree} (h : Blocked v path w) (hw : ¬ IsNumpy w) : Fault types path v .typeError
  | numpy {w : Tree} (h : Blocked v path w) (hw : IsNumpy w) : Fault types path v .indexError

/-- The keys of a block by what they hold: type name and keys. -/
abbrev Kinds := List (String × List String)

/-- The entries of a type table. -/
def Kinds.entries (ks : Kinds) : Types := ks.flatMap fun e => e.2.map fun k => (key k, e.1)

/-- A rock. -/
def rockKinds : Kinds :=
  [("scalar", ["density", "porosity", "conductivity", "conductivity_dry", "specific_heat",
      "compressibility", "expansivity", "tortuosity", "klinkenberg_parameter",
      "distribution_coefficient_3", "distribution_coefficient_4"]),
    ("scalar_array_like", ["permeability"]),
    ("array_like", ["initial_condition"]),
    ("dict", ["relative_permeability", "capillarity", "permeability_model",
      "equivalent_pore_pressure"])]

/-- A curve or another model with parameters. -/
def modelKinds : Kinds := [("int", ["id"]), ("array_like", ["parameters"])]

/-- The block `FLAC`. -/
def flacKinds : Kinds := [("bool", ["creep"]), ("int", ["porosity_model", "version"])]

/-- The block `PARAM`. -/
def paramKinds : Kinds :=
  [("int", ["n_iteration", "n_cycle", "n_second", "n_cycle_print", "verbosity"]),
    ("scalar", ["temperature_dependence_gas", "effective_strength_vapor", "t_ini", "t_max",
      "t_step_max", "t_reduce_factor", "gravity", "mesh_scale_factor", "eps1", "eps2",
      "w_upstream", "w_newton", "derivative_factor"]),
    ("scalar_array_like", ["t_steps"])]

/-- The block `SELEC`. -/
def selecKinds : Kinds := [("dict", ["integers"]), ("array_like", ["floats"])]

/-- The block `SOLVR`. -/
def solvrKinds : Kinds :=
  [("int", ["method"]), ("str", ["z_precond", "o_precond"]), ("scalar", ["rel_iter_max", "eps"])]

/-- A generator: with several sources in a cell, sequences. -/
def generKinds : Kinds :=
  [("str_array_like", ["name", "type"]),
    ("scalar_array_like", ["nseq", "nadd", "nads", "times", "rates", "specific_enthalpy",
      "layer_thickness"])]

/-- The block `OUTPU`. -/
def outpuKinds : Kinds := [("str", ["format"]), ("dict", ["variables"])]

/-- An element. -/
def elemeKinds : Kinds :=
  [("int", ["nseq", "nadd"]), ("str_int", ["material"]),
    ("scalar", ["volume", "heat_exchange_area", "permeability_modifier"]),
    ("array_like", ["center"])]

/-- A connection. -/
def conneKinds : Kinds :=
  [("int", ["nseq", "permeability_direction"]), ("array_like", ["nadd", "nodal_distances"]),
    ("scalar", ["interface_area", "gravity_cosine_angle", "radiant_emittance_factor"])]

/-- Initial conditions. -/
def inconKinds : Kinds := [("scalar", ["porosity"]), ("array_like", ["userx", "values"])]

/-- All parameters. -/
def allKinds : Kinds :=
  [("str", ["eos"]), ("str_array_like", ["title"]),
    ("int", ["n_component", "n_phase", "n_component_mass"]),
    ("bool", ["isothermal", "start", "nover", "coordinates"]),
    ("dict", ["flac", "rocks", "options", "extra_options", "more_options", "selections", "solver",
      "generators", "output", "elements", "connections", "initial_conditions", "default"]),
    ("array_like", ["rocks_order", "element_history", "connection_history", "generator_history",
      "diffusion", "elements_order", "connections_order", "initial_conditions_order"]),
    ("scalar_array_like", ["times"])]

/-- The parameters that are collections of dictionaries. -/
def collections : List String :=
  ["rocks", "generators", "elements", "connections", "initial_conditions"]

end Verif.Spec
