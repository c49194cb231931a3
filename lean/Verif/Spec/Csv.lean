import Verif.Spec.Output
import Verif.Spec.Quant

/-!
# Specification of tables of outputs in text files
-/

namespace Verif.Spec
open Verif.Py Verif.Model

/-- A text that survives in a column: no comma, quote or end of line in it and no
blank around it. -/
def PlainText (s : Str) : Prop :=
  (∀ c ∈ s, c ≠ ',' ∧ c ≠ '"' ∧ c ≠ '\n' ∧ c ≠ '\r') ∧
    (∀ c ∈ s.head?, isSpace c = false) ∧ ∀ c ∈ s.getLast?, isSpace c = false

instance (s : Str) : Decidable (PlainText s) := by unfold PlainText; infer_instance

/-- The name of a variable. -/
def VarOk (s : Str) : Prop := PlainText s ∧ ¬ "ELEM".toList <+: s

instance (s : Str) : Decidable (VarOk s) := by unfold VarOk; infer_instance

/-- The texts of a label: `n` plain texts, the first not so long that it could be
taken for a time. -/
def LabelOk (n : ℕ) (ts : List Str) : Prop :=
  ts.length = n ∧ (∀ t ∈ ts, PlainText t) ∧ ∀ t ∈ ts.head?, t.length < 18 ∨ ¬ "TIME".toList <+: t

instance (n : ℕ) (ts : List Str) : Decidable (LabelOk n ts) := by unfold LabelOk; infer_instance

/-- Outputs with the same variables `ks` and `n` labels of `m` texts at every
time. -/
def SeriesOk {L : Type} (m : ℕ) (texts : L → List Str) (ks : List Str) (n : ℕ)
    (outs : List (Output L Flt)) : Prop :=
  ks.Nodup ∧ (∀ k ∈ ks, VarOk k) ∧ ∀ o ∈ outs, o.time.isSome = true ∧
    (o.data.map (·.1)).Perm ks ∧ Full o ∧ o.labels.length = n ∧ ∀ l ∈ o.labels, LabelOk m (texts l)

/-- What comes back of an output: the time with nine digits, the labels, and all
variables with thirteen digits. -/
def TableBack {L : Type} (texts : L → List Str) (o : Output L Flt) (r : Output (List Str) Flt) :
    Prop :=
  r.time = o.time.map (quant 8) ∧ r.labels = o.labels.map texts ∧
    r.data.Perm (o.data.map fun e => (e.1, e.2.map (quant 12)))

/-- The quantities by unit. -/
def unitTable : List (String × List String) :=
  [("", ["ELEM", "ELEM1", "ELEM2"]), ("(M)", ["X", "Y", "Z"]),
    ("(PA)", ["PRES", "P", "PCAP", "PCAP_GL"]), ("(DEC-C)", ["TEMP", "T"]),
    ("(KG/M**3)", ["DEN_G", "DG", "DEN_L", "DW"]), ("(W)", ["HEAT"]),
    ("(KG/S)", ["FLOW", "FLOW_G", "FLOW_L"])]

/-- `u` is the unit of the quantity `h`; quantities not listed have none. -/
def UnitOf (h u : Str) : Prop :=
  (∃ e ∈ unitTable, u = e.1.toList ∧ ∃ s ∈ e.2, h = s.toList) ∨
    (u = " (-)".toList ∧ ∀ e ∈ unitTable, ∀ s ∈ e.2, h ≠ s.toList)

end Verif.Spec
