import Verif.Model.Tree

/-!
# Specification of JSON parameter files
-/

namespace Verif.Spec
open Verif.Py Verif.Model

mutual
/-- The same value with lists for tuples and arrays and Python numbers for numpy
numbers. -/
def plain : Tree → Tree
  | .npInt i => .int i
  | .npFloat64 x => .flt x
  | .list l => .list (plainList l)
  | .tuple l => .list (plainList l)
  | .array t => plain t
  | .dict d => .dict (plainDict d)
  | .none => .none
  | .bool b => .bool b
  | .int i => .int i
  | .flt x => .flt x
  | .npFloat32 x => .npFloat32 x
  | .str s => .str s
  | .other => .other
/-- The entries of a list. -/
def plainList : List Tree → List Tree
  | [] => []
  | t :: r => plain t :: plainList r
/-- The entries of a dictionary. -/
def plainDict : List (Key × Tree) → List (Key × Tree)
  | [] => []
  | (k, t) :: r => (k, plain t) :: plainDict r
end

/-- A key that is a text. -/
def isText : Key → Bool
  | .str _ => true
  | _ => false

/-- A key that is an integer. -/
def isNumber : Key → Bool
  | .int _ => true
  | _ => false

mutual
/-- What an array gives as a list: numbers, texts, booleans and lists of them. -/
def isListing : Tree → Bool
  | .bool _ | .int _ | .flt _ | .str _ => true
  | .list l => areListings l
  | _ => false
/-- The entries of a list. -/
def areListings : List Tree → Bool
  | [] => true
  | t :: r => isListing t && areListings r
end

mutual
/-- A value that JSON can hold: no 32-bit float, nothing else unknown, and in
dictionaries distinct texts as keys. -/
def holds : Tree → Bool
  | .npFloat32 _ | .other => false
  | .array t => isListing t
  | .list l | .tuple l => holdsList l
  | .dict d => (d.map (·.1)).all isText && decide ((d.map (·.1)).Nodup) && holdsDict d
  | _ => true
/-- The entries of a list. -/
def holdsList : List Tree → Bool
  | [] => true
  | t :: r => holds t && holdsList r
/-- The entries of a dictionary. -/
def holdsDict : List (Key × Tree) → Bool
  | [] => true
  | (_, t) :: r => holds t && holdsDict r
end

/-- A dictionary with distinct integers as keys. -/
def isIntDict : Tree → Bool
  | .dict d => (d.map (·.1)).all isNumber && decide ((d.map (·.1)).Nodup) && holdsDict d
  | _ => false

/-- The selections: a dictionary with texts as keys, among them the integers,
which is a dictionary with integers as keys. -/
def isSelections : Tree → Bool
  | .dict d => (d.map (·.1)).all isText && decide ((d.map (·.1)).Nodup) &&
      decide (key "integers" ∈ d.map (·.1)) &&
      d.all fun e => if e.1 = key "integers" then isIntDict e.2 else holds e.2
  | _ => false

/-- Parameters that JSON can hold. -/
def jsonOk (p : List (Key × Tree)) : Bool :=
  (p.map (·.1)).all isText && decide ((p.map (·.1)).Nodup) &&
    p.all fun e =>
      if e.1 = key "extra_options" ∨ e.1 = key "more_options" then isIntDict e.2
      else if e.1 = key "selections" then isSelections e.2
      else holds e.2

/-- The same dictionary, entries in any order. -/
def SameDict (v v' : Tree) : Prop :=
  ∃ d d', v = .dict d ∧ v' = .dict d' ∧ d'.Perm (plainDict d)

/-- What comes back of one parameter. -/
def Back (k : Key) (v v' : Tree) : Prop :=
  if k = key "extra_options" ∨ k = key "more_options" then SameDict v v'
  else if k = key "selections" then
    ∃ d d', v = .dict d ∧ v' = .dict d' ∧ List.Forall₂ (fun e e' => e'.1 = e.1 ∧
      if e.1 = key "integers" then SameDict e.2 e'.2 else e'.2 = plain e.2) d d'
  else v' = plain v

end Verif.Spec
