import Verif.Model.Curves
import Verif.Model.Csv
import Verif.Model.Opts

/-!
# The objects for relative permeability and capillary pressure

Model of the classes in `/repo/toughio/relative_permeability` and
`/repo/toughio/capillarity`. An object has a class and attributes.

Simplifications: those of `Verif.Model.Curves`; arguments are given by position; the text
of a number is a parameter. For plots, what is drawn is returned instead of the axes.
-/

namespace Verif.Curves
open Verif.Py Verif.Model

/-- What the classes differ in: `_id`, `_name`, the attributes that the setter of
`parameters` assigns to, in the order of the values, and those the getter returns. -/
structure Cls where
  id : ℕ
  name : Str
  setter : List Str
  getter : List Str
  deriving DecidableEq

/-- An object with its attributes. -/
structure Obj (α : Type) where
  cls : Cls
  attrs : List (Str × α)

/-- The getter of `parameters` (e.g. `relative_permeability/_corey.py`, 47-50, `_fatt_klikoff.py`,
37-40, `_grant.py`, 47-50, `_linear.py`, 57-60, `_pickens.py`, 30-33,
`_van_genuchten_mualem.py`, 55-58, `_verma.py`, 47-50; `capillarity/_linear.py`, 42-45,
`_milly.py`, 39-42, `_pickens.py`, 53-56, `_trust.py`, 50-53, `_van_genuchten.py`, 52-55). -/
def Obj.parameters {α : Type} (o : Obj α) : Except PyErr (List α) :=
  o.cls.getter.mapM fun k => match dictGet o.attrs k with
    | .ok v => .ok v
    | .error _ => .error .attributeError

/-- The setter of `parameters` (e.g. `relative_permeability/_corey.py`, 52-57, `_fatt_klikoff.py`,
42-46, `_grant.py`, 52-57, `_linear.py`, 62-69, `_pickens.py`, 35-39,
`_van_genuchten_mualem.py`, 60-67, `_verma.py`, 52-60; `capillarity/_linear.py`, 47-53,
`_milly.py`, 44-48, `_pickens.py`, 58-65, `_trust.py`, 55-63, `_van_genuchten.py`, 57-65): what
it raises, if anything, and the object afterwards. -/
def Obj.assign {α : Type} (o : Obj α) (value : List α) : Except PyErr Unit × Obj α :=
  if value.length ≠ o.cls.setter.length then (.error .valueError, o)
  else (.ok (), { o with attrs := updateDict o.attrs (o.cls.setter.zip value) })

/-- An object right after its creation. -/
def Cls.new {α : Type} (c : Cls) (value : List α) : Except PyErr (Obj α) :=
  match Obj.assign ⟨c, []⟩ value with
  | (.ok _, o) => .ok o
  | (.error e, _) => .error e

/-- The lines of `__repr__` (`relative_permeability/_base.py`, 28-37,
`capillarity/_base.py`, 28-35); `what`, `number` and `letters` are the parts in which the
two differ. -/
def Obj.repr {α : Type} (what number letters : Str) (text : α → Str) (o : Obj α) : Except PyErr Str := do
  let p ← o.parameters
  let head := o.cls.name ++ ' ' :: what ++ " model (".toList ++ number ++ " = ".toList ++ natStr o.cls.id ++ "):".toList
  .ok (joinWith '\n' (head :: p.zipIdx.map fun e =>
    "    ".toList ++ letters ++ '(' :: natStr (e.2 + 1) ++ ") = ".toList ++ text e.1))

/-- `relative_permeability/_base.py`, 28-37. -/
def relRepr {α : Type} (text : α → Str) (o : Obj α) : Except PyErr Str :=
  o.repr "relative permeability".toList "IRP".toList "RP".toList text

/-- `capillarity/_base.py`, 28-35. -/
def capRepr {α : Type} (text : α → Str) (o : Obj α) : Except PyErr Str :=
  o.repr "capillarity".toList "ICP".toList "CP".toList text

/-! ## Relative permeability -/

/-- The classes for relative permeability (`relative_permeability/__init__.py`). -/
inductive RelKind
  | linear | pickens | corey | grant | fattKlikoff | vanGenuchtenMualem | verma
  deriving DecidableEq, Repr

/-- The attributes of the classes: `relative_permeability/_linear.py`, 10-11 and 57-69,
`_pickens.py`, 10-11 and 30-39, `_corey.py`, 10-11 and 47-57, `_grant.py`, 10-11 and 47-57,
`_fatt_klikoff.py`, 10-11 and 37-46, `_van_genuchten_mualem.py`, 10-11 and 55-67, `_verma.py`,
10-11 and 47-60. -/
def RelKind.cls : RelKind → Cls
  | .linear => ⟨1, "Linear".toList, ["_slmin".toList, "_sgmin".toList, "_slmax".toList, "_sgmax".toList],
      ["_slmin".toList, "_sgmin".toList, "_slmax".toList, "_sgmax".toList]⟩
  | .pickens => ⟨2, "Pickens".toList, ["_x".toList], ["_x".toList]⟩
  | .corey => ⟨3, "Corey".toList, ["_slr".toList, "_sgr".toList], ["_slr".toList, "_sgr".toList]⟩
  | .grant => ⟨4, "Grant".toList, ["_slr".toList, "_sgr".toList], ["_slr".toList, "_sgr".toList]⟩
  | .fattKlikoff => ⟨7, "Fatt-Klikoff".toList, ["_slr".toList], ["_slr".toList]⟩
  | .vanGenuchtenMualem => ⟨7, "van Genuchten-Mualem".toList,
      ["_m".toList, "_slr".toList, "_sls".toList, "_sgr".toList],
      ["_m".toList, "_slr".toList, "_sls".toList, "_sgr".toList]⟩
  | .verma => ⟨8, "Verma".toList, ["_slr".toList, "_sls".toList, "_a".toList, "_b".toList, "_c".toList],
      ["_slr".toList, "_sls".toList, "_a".toList, "_b".toList, "_c".toList]⟩

/-- The checks of the constructors (`relative_permeability/_linear.py`, 29-32, `_corey.py`, 27-28,
`_grant.py`, 27-28, `_fatt_klikoff.py`, 25-26); another number of arguments is refused
before. -/
noncomputable def RelKind.check (k : RelKind) (args : List ℝ) : Except PyErr Unit :=
  match k, args with
  | .linear, [slmin, sgmin, slmax, sgmax] =>
    if slmin ≥ slmax then .error .valueError else if sgmin ≥ sgmax then .error .valueError else .ok ()
  | .pickens, [_] => .ok ()
  | .corey, [slr, sgr] => if slr + sgr ≥ 1 then .error .valueError else .ok ()
  | .grant, [slr, sgr] => if slr + sgr ≥ 1 then .error .valueError else .ok ()
  | .fattKlikoff, [slr] => if slr ≥ 1 then .error .valueError else .ok ()
  | .vanGenuchtenMualem, [_, _, _, _] => .ok ()
  | .verma, [_, _, _, _, _] => .ok ()
  | _, _ => .error .typeError

/-- The defaults of `Verma` (`relative_permeability/_verma.py`, 13), for the arguments that
are not given. -/
noncomputable def RelKind.defaults : RelKind → List ℝ
  | .verma => [0.2, 0.895, 1.259, -1.7615, 0.5089]
  | _ => []

/-- `__init__` (`relative_permeability/_linear.py`, 13-33, `_pickens.py`, 13-23, `_corey.py`,
13-29, `_grant.py`, 13-29, `_fatt_klikoff.py`, 13-27, `_van_genuchten_mualem.py`, 13-31,
`_verma.py`, 13-33). -/
noncomputable def RelKind.new (k : RelKind) (args : List ℝ) : Except PyErr (Obj ℝ) := do
  let args := args ++ k.defaults.drop args.length
  k.check args
  k.cls.new args

/-- `_eval`, called with the parameters; the arguments are unpacked
(`relative_permeability/_linear.py`, 35-55, `_pickens.py`, 25-28, `_corey.py`, 31-45,
`_grant.py`, 31-45, `_fatt_klikoff.py`, 29-35, `_van_genuchten_mualem.py`, 33-53, `_verma.py`,
35-45). -/
noncomputable def RelKind.eval (k : RelKind) (args : List ℝ) : RelPerm := fun sl =>
  match k, args with
  | .linear, [slmin, sgmin, slmax, sgmax] => krLinearAt slmin sgmin slmax sgmax sl
  | .pickens, [x] => krPickensAt x sl
  | .corey, [slr, sgr] => krCoreyAt slr sgr sl
  | .grant, [slr, sgr] => krGrantAt slr sgr sl
  | .fattKlikoff, [slr] => krFattKlikoffAt slr sl
  | .vanGenuchtenMualem, [m, slr, sls, sgr] => krVanGenuchtenMualemAt m slr sls sgr sl
  | .verma, [slr, sls, a, b, c] => krVermaAt slr sls a b c sl
  | _, _ => .error .valueError

/-- `self._eval(sl, *self.parameters)` (`relative_permeability/_base.py`, 44 and 49). -/
noncomputable def RelKind.at (k : RelKind) (o : Obj ℝ) : RelPerm := fun sl => do
  let p ← o.parameters
  k.eval p sl

/-- `__call__` for an array (`relative_permeability/_base.py`, 45-49): `numpy.transpose` of the
pairs has two rows, the liquid and the gas; without saturations it has none. -/
noncomputable def RelKind.rows (k : RelKind) (o : Obj ℝ) (sl : List ℝ) : Except PyErr (List (List Num)) := do
  let l ← callArray (k.at o) sl
  .ok (if l.isEmpty then [] else [l.map (·.1), l.map (·.2)])

/-! ## Capillary pressure -/

/-- The classes for capillary pressure (`capillarity/__init__.py`). -/
inductive CapKind
  | linear | pickens | trust | milly | vanGenuchten
  deriving DecidableEq, Repr

/-- The attributes of the classes: `capillarity/_linear.py`, 10-11 and 42-53, `_pickens.py`, 12-13
and 53-65, `_trust.py`, 10-11 and 50-63, `_milly.py`, 10-11 and 39-48, `_van_genuchten.py`, 10-11
and 52-65. -/
def CapKind.cls : CapKind → Cls
  | .linear => ⟨1, "Linear".toList, ["_pmax".toList, "_smin".toList, "_smax".toList],
      ["_pmax".toList, "_smin".toList, "_smax".toList]⟩
  | .pickens => ⟨2, "Pickens".toList, ["_p0".toList, "_slr".toList, "_sl0".toList, "_x".toList],
      ["_p0".toList, "_slr".toList, "_sl0".toList, "_x".toList]⟩
  | .trust => ⟨3, "TRUST".toList, ["_p0".toList, "_slr".toList, "_eta".toList, "_pe".toList, "_pmax".toList],
      ["_p0".toList, "_slr".toList, "_eta".toList, "_pe".toList, "_pmax".toList]⟩
  | .milly => ⟨4, "Milly".toList, ["_slr".toList], ["_slr".toList]⟩
  | .vanGenuchten => ⟨7, "van Genuchten".toList,
      ["_m".toList, "_slr".toList, "_alpha".toList, "_pmax".toList, "_sls".toList],
      ["_m".toList, "_slr".toList, "_alpha".toList, "_pmax".toList, "_sls".toList]⟩

/-- The checks of the constructors (`capillarity/_linear.py`, 27-28, `_pickens.py`, 33-38,
`_trust.py`, 33-36, `_milly.py`, 25-26, `_van_genuchten.py`, 33-34); another number of
arguments is refused before. -/
noncomputable def CapKind.check (k : CapKind) (args : List ℝ) : Except PyErr Unit :=
  match k, args with
  | .linear, [_, smin, smax] => if smax ≤ smin then .error .valueError else .ok ()
  | .pickens, [_, slr, sl0, x] =>
    if ¬ (0 < slr ∧ slr < 1) then .error .valueError
    else if sl0 < 1 then .error .valueError
    else if x = 0 then .error .valueError else .ok ()
  | .trust, [_, slr, eta, _, _] =>
    if slr < 0 then .error .valueError else if eta = 0 then .error .valueError else .ok ()
  | .milly, [slr] => if slr < 0 then .error .valueError else .ok ()
  | .vanGenuchten, [_, _, _, pmax, _] => if pmax < 0 then .error .valueError else .ok ()
  | _, _ => .error .typeError

/-- `__init__` (`capillarity/_linear.py`, 13-29, `_pickens.py`, 15-39, `_trust.py`, 13-37,
`_milly.py`, 13-27, `_van_genuchten.py`, 13-35). -/
noncomputable def CapKind.new (k : CapKind) (args : List ℝ) : Except PyErr (Obj ℝ) := do
  k.check args
  k.cls.new args

/-- `_eval`, called with the parameters; the arguments are unpacked (`capillarity/_linear.py`,
31-40, `_pickens.py`, 41-51, `_trust.py`, 39-48, `_milly.py`, 29-37, `_van_genuchten.py`,
37-50). -/
noncomputable def CapKind.eval (k : CapKind) (args : List ℝ) : CapPres := fun sl =>
  match k, args with
  | .linear, [pmax, smin, smax] => pcLinearAt pmax smin smax sl
  | .pickens, [p0, slr, sl0, x] => pcPickensAt p0 slr sl0 x sl
  | .trust, [p0, slr, eta, pe, pmax] => pcTrustAt p0 slr eta pe pmax sl
  | .milly, [slr] => pcMillyAt slr sl
  | .vanGenuchten, [m, slr, alpha, pmax, sls] => pcVanGenuchtenAt m slr alpha pmax sls sl
  | _, _ => .error .valueError

/-- `self._eval(sl, *self.parameters)` (`capillarity/_base.py`, 42 and 47). -/
noncomputable def CapKind.at (k : CapKind) (o : Obj ℝ) : CapPres := fun sl => do
  let p ← o.parameters
  k.eval p sl

/-! ## Plots -/

/-- The argument `figsize`: none, a tuple or a list, a numpy array, or something else. -/
inductive Figsize
  | none
  | seq (length : ℕ)
  | array (length : ℕ)
  | other

/-- The arguments of `plot`: `n` (none if it is not an integer), whether axes are given
(`none` if `ax` is something else), `figsize`, and `plt_kws` with the texts of the values
(`none` if it is neither a dictionary nor `None`, which is the empty dictionary). -/
structure PlotArgs where
  n : Option ℤ
  ax : Option Bool
  figsize : Figsize
  kws : Option (List (Str × Str))

/-- The keywords for drawing (`relative_permeability/_base.py`, 90-92, `capillarity/_base.py`,
88-90). -/
def plotKeywords (kws : List (Str × Str)) : List (Str × Str) :=
  updateDict [("linestyle".toList, "-".toList), ("linewidth".toList, "2".toList)] kws

/-- The checks of `plot` (`relative_permeability/_base.py`, 78-100, `capillarity/_base.py`,
76-98), up to the new figure: the number of points and the keywords. The two differ in the exception for
a wrong number of points. -/
def plotChecks (wrong : PyErr) (a : PlotArgs) : Except PyErr (ℕ × List (Str × Str)) := do
  let n ← match a.n with
    | some n => if n > 1 then .ok n.toNat else .error wrong
    | .none => .error wrong
  let ax ← match a.ax with
    | some b => .ok b
    | .none => .error .typeError
  let size ← match a.figsize with
    | .other => .error .typeError
    | .none => .error .typeError
    | .seq l => .ok l
    | .array l => .ok l
  if size ≠ 2 then .error .valueError
  else
    let kws ← match a.kws with
      | some d => .ok (plotKeywords d)
      | .none => .error .typeError
    match ax, a.figsize with
    | false, .array _ => .error .valueError
    | _, _ => .ok (n, kws)

/-- `numpy.linspace(0.0, 1.0, n)` for `n > 1`. -/
noncomputable def unitSteps (n : ℕ) : List ℝ := (List.range n).map fun i : ℕ => (i : ℝ) / ((n - 1 : ℕ) : ℝ)

/-- What is drawn: a label, the abscissas, the ordinates, and the keywords. -/
structure Curve where
  label : Option Str
  xs : List ℝ
  ys : List Num
  kws : List (Str × Str)

/-- `plot` (`relative_permeability/_base.py`, 55-117). A keyword `label` is given twice. -/
noncomputable def RelKind.plot (k : RelKind) (o : Obj ℝ) (a : PlotArgs) : Except PyErr (List Curve) := do
  let (n, kws) ← plotChecks .typeError a
  let sl := unitSteps n
  let rows ← k.rows o sl
  match rows with
  | [kl, kg] =>
    if "label".toList ∈ kws.map (·.1) then .error .typeError
    else .ok [⟨some "Liquid".toList, sl, kl, kws⟩, ⟨some "Gas".toList, sl, kg, kws⟩]
  | _ => .error .valueError

/-- `plot` (`capillarity/_base.py`, 53-113). -/
noncomputable def CapKind.plot (k : CapKind) (o : Obj ℝ) (a : PlotArgs) : Except PyErr (List Curve) := do
  let (n, kws) ← plotChecks .valueError a
  let sl := unitSteps n
  let pcap ← callArray (k.at o) sl
  .ok [⟨none, sl, pcap.map (Num.map fun x => |x|), kws⟩]

end Verif.Curves
