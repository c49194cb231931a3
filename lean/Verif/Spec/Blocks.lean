import Verif.Spec.Record
import Verif.Model.Rocks

/-!
# Specification of what blocks give back

Stated with the typed dictionaries and `stored`/`quant`, without readers or
writers.
-/

namespace Verif.Spec
open Verif.Py Verif.Model

/-- A real column. -/
abbrev eCol (w p : ℕ) : Tok := ⟨.e, w, p⟩
/-- An integer column. -/
abbrev dCol (w : ℕ) : Tok := ⟨.d, w, 0⟩
/-- A text column. -/
abbrev sCol (w : ℕ) : Tok := ⟨.s, w, 0⟩

/-- What comes back of a value stored in a real column with `p` digits. -/
def num (p : ℕ) (v : Val) : Val := stored (eCol 10 p) v

/-- A name that fits `w` characters: not empty, no outer blanks. -/
def NameFits (w : ℕ) (v : Val) : Prop :=
  match v with
  | .str s => s ≠ [] ∧ s.length ≤ w ∧ strip s = s
  | _ => False

instance (w : ℕ) (v : Val) : Decidable (NameFits w v) := by
  unfold NameFits; split <;> infer_instance

/-- A model fits its record: id in a column of `w` characters and at most `n`
parameters in real columns `10.3e`. -/
def ModFits (w n : ℕ) (m : Mod) : Prop :=
  Fits (dCol w) m.id ∧ m.params.length ≤ n ∧ ∀ v ∈ m.params, Fits (eCol 10 3) v

instance (w n : ℕ) (m : Mod) : Decidable (ModFits w n m) := by
  unfold ModFits; infer_instance

/-- What comes back of a model: same id, parameters rounded, trailing missing
parameters dropped. -/
def modBack (m : Mod) : Mod := ⟨stored (dCol 5) m.id, dropTrailing (m.params.map (num 3))⟩

/-- A model without id is the same as no model. -/
def modBack? (m : Option Mod) : Option Mod :=
  m.bind fun m => if stored (dCol 5) m.id = .none then none else some (modBack m)

/-- The three components of a permeability. -/
def perm3 : SoL → List Val
  | .one v => [v, v, v]
  | .many l => l

/-- A permeability comes back as a scalar if its three stored components are the
same number, otherwise as a list. -/
def permBack (s : SoL) : SoL :=
  match (perm3 s).map (num 4) with
  | [a, b, c] => if a = b ∧ a = c ∧ a ≠ .flt .nan then .one a else .many [a, b, c]
  | l => .many l

/-- A rock fits its records. -/
def RockFits (r : Rock) : Prop :=
  (∀ v ∈ [r.density, r.porosity, r.conductivity, r.specificHeat, r.compressibility,
      r.expansivity, r.conductivityDry, r.tortuosity, r.klinkenberg, r.dist3, r.dist4],
    Fits (eCol 10 4) v) ∧
  (perm3 r.permeability).length = 3 ∧ (∀ v ∈ perm3 r.permeability, Fits (eCol 10 4) v) ∧
  (∀ m ∈ r.relPerm, ModFits 5 7 m) ∧ (∀ m ∈ r.cap, ModFits 5 7 m)

instance (r : Rock) : Decidable (RockFits r) := by
  unfold RockFits; infer_instance

/-- What the ROCKS block gives back of a rock. -/
def rockBack (r : Rock) : Rock :=
  { density := num 4 r.density
    porosity := num 4 r.porosity
    permeability := permBack r.permeability
    conductivity := num 4 r.conductivity
    specificHeat := num 4 r.specificHeat
    compressibility := num 4 r.compressibility
    expansivity := num 4 r.expansivity
    conductivityDry := num 4 r.conductivityDry
    tortuosity := num 4 r.tortuosity
    klinkenberg := num 4 r.klinkenberg
    dist3 := num 4 r.dist3
    dist4 := num 4 r.dist4
    relPerm := modBack? r.relPerm
    cap := modBack? r.cap
    permModel := none
    eqPore := none
    initCond := none }

/-- What the FLAC block gives back of the two models of a rock. -/
def flacBack (m : Mod × Mod) : Mod × Mod :=
  (⟨stored (dCol 10) m.1.id, dropTrailing (m.1.params.map (num 3))⟩,
    ⟨stored (dCol 5) m.2.id, dropTrailing (m.2.params.map (num 3))⟩)

end Verif.Spec

namespace Verif.Spec
open Verif.Py Verif.Model

/-- The keys in the order of the order list, then the remaining ones. -/
def orderOf (order : Option (List Val)) (keys : List Val) : List Val :=
  order.getD [] ++ keys.filter fun k => k ∉ order.getD []

/-- An order list is admissible: no duplicates, only known keys. -/
def OrderOk (order : Option (List Val)) (keys : List Val) : Prop :=
  ∀ o ∈ order, o.Nodup ∧ ∀ k ∈ o, k ∈ keys

instance (order : Option (List Val)) (keys : List Val) : Decidable (OrderOk order keys) := by
  unfold OrderOk; infer_instance

/-- The entries of a dictionary in the order of the keys `ks`. -/
def inOrder {β : Type} (d : List (Val × β)) (ks : List Val) : List (Val × β) :=
  ks.filterMap fun k => (d.lookup k).map fun v => (k, v)

/-- `l` lists the entries of the dictionary `d` in the order of the keys `ks`. -/
def Arranges {β : Type} (l d : List (Val × β)) (ks : List Val) : Prop :=
  l.Perm d ∧ l.map (·.1) = ks

end Verif.Spec
