import Verif.Model.Record

/-!
# Record formats

The table `block_to_format` of `/repo/toughio/_common.py`, lines 3-63. The texts
are parsed into tokens: `texts` in `Props/FormatTable.lean` checks the tokens
against the texts of the table.
-/

namespace Verif.Model.Fmt
open Verif.Py Verif.Model

/-- `block_to_format["ROCKS"][1]`, `_common.py` line 5. -/
def rocks1 : List Tok :=
  [⟨.s, 5, 0⟩, ⟨.d, 5, 0⟩, ⟨.e, 10, 4⟩, ⟨.e, 10, 4⟩, ⟨.e, 10, 4⟩, ⟨.e, 10, 4⟩, ⟨.e, 10, 4⟩, ⟨.e, 10, 4⟩, ⟨.e, 10, 4⟩]
/-- `block_to_format["ROCKS"][2]`, line 6. -/
def rocks2 : List Tok := List.replicate 7 ⟨.e, 10, 4⟩
/-- `block_to_format["RPCAP"]`, line 8. -/
def rpcap : List Tok :=
  [⟨.d, 5, 0⟩, ⟨.s, 5, 0⟩, ⟨.e, 10, 3⟩, ⟨.e, 10, 3⟩, ⟨.e, 10, 3⟩, ⟨.e, 10, 3⟩, ⟨.e, 10, 3⟩, ⟨.e, 10, 3⟩, ⟨.e, 10, 3⟩]
/-- `block_to_format["FLAC"][1]`, line 10. -/
def flac1 : List Tok := List.replicate 16 ⟨.d, 5, 0⟩
/-- `block_to_format["FLAC"][2]`, line 11. -/
def flac2 : List Tok :=
  [⟨.d, 10, 0⟩, ⟨.e, 10, 3⟩, ⟨.e, 10, 3⟩, ⟨.e, 10, 3⟩, ⟨.e, 10, 3⟩, ⟨.e, 10, 3⟩, ⟨.e, 10, 3⟩, ⟨.e, 10, 3⟩]
/-- `block_to_format["FLAC"][3]`, line 12. -/
def flac3 : List Tok :=
  [⟨.d, 5, 0⟩, ⟨.s, 5, 0⟩, ⟨.e, 10, 3⟩, ⟨.e, 10, 3⟩, ⟨.e, 10, 3⟩, ⟨.e, 10, 3⟩, ⟨.e, 10, 3⟩, ⟨.e, 10, 3⟩, ⟨.e, 10, 3⟩]
/-- `block_to_format["MULTI"]`, line 14. -/
def multi : List Tok := List.replicate 5 ⟨.d, 5, 0⟩
/-- `block_to_format["SELEC"][1]`, line 15. -/
def selec1 : List Tok := List.replicate 16 ⟨.d, 5, 0⟩
/-- `block_to_format["SELEC"][2]`, line 15. -/
def selec2 : List Tok := List.replicate 8 ⟨.e, 10, 3⟩
/-- `block_to_format["SOLVR"]`, line 16. -/
def solvr : List Tok :=
  [⟨.d, 1, 0⟩, ⟨.s, 2, 0⟩, ⟨.s, 2, 0⟩, ⟨.s, 3, 0⟩, ⟨.s, 2, 0⟩, ⟨.e, 10, 4⟩, ⟨.e, 10, 4⟩]
/-- `block_to_format["PARAM"][1]`, line 18. -/
def param1 : List Tok :=
  [⟨.d, 2, 0⟩, ⟨.d, 2, 0⟩, ⟨.d, 4, 0⟩, ⟨.d, 4, 0⟩, ⟨.d, 4, 0⟩, ⟨.S, 24, 0⟩, ⟨.s, 10, 0⟩, ⟨.e, 10, 4⟩, ⟨.e, 10, 4⟩]
/-- `block_to_format["PARAM"][2]`, line 19. -/
def param2 : List Tok :=
  [⟨.e, 10, 4⟩, ⟨.e, 10, 4⟩, ⟨.f, 10, 1⟩, ⟨.e, 10, 4⟩, ⟨.s, 10, 0⟩, ⟨.e, 10, 4⟩, ⟨.e, 10, 4⟩, ⟨.e, 10, 4⟩]
/-- `block_to_format["PARAM"][3]`, line 20. -/
def param3 : List Tok := List.replicate 8 ⟨.e, 10, 4⟩
/-- `block_to_format["PARAM"][4]`, line 21. -/
def param4 : List Tok :=
  [⟨.e, 10, 4⟩, ⟨.e, 10, 4⟩, ⟨.s, 10, 0⟩, ⟨.e, 10, 4⟩, ⟨.e, 10, 4⟩, ⟨.e, 10, 4⟩]
/-- `block_to_format["PARAM"][5]`, line 22. -/
def param5 : List Tok := List.replicate 4 ⟨.e, 20, 13⟩
/-- `block_to_format["INDOM"][0]`, line 24. -/
def indom0 : List Tok := List.replicate 4 ⟨.e, 20, 13⟩
/-- `block_to_format["INDOM"][5]`, line 24. -/
def indom5 : List Tok :=
  [⟨.s, 5, 0⟩]
/-- `block_to_format["MOMOP"]`, line 25. -/
def momop : List Tok :=
  [⟨.S, 40, 0⟩]
/-- `block_to_format["TIMES"][1]`, line 26. -/
def times1 : List Tok :=
  [⟨.d, 5, 0⟩, ⟨.d, 5, 0⟩, ⟨.e, 10, 4⟩, ⟨.e, 10, 4⟩]
/-- `block_to_format["TIMES"][2]`, line 26. -/
def times2 : List Tok := List.replicate 8 ⟨.e, 10, 4⟩
/-- `block_to_format["FOFT"][5]`, line 27. -/
def foft : List Tok :=
  [⟨.s, 5, 0⟩]
/-- `block_to_format["COFT"][5]`, line 28. -/
def coft : List Tok :=
  [⟨.s, 10, 0⟩]
/-- `block_to_format["GOFT"][5]`, line 29. -/
def goft : List Tok :=
  [⟨.s, 5, 0⟩]
/-- `block_to_format["GENER"][0]`, line 31. -/
def gener0 : List Tok := List.replicate 4 ⟨.e, 14, 7⟩
/-- `block_to_format["GENER"]`, lines 32-36; `none` is a `KeyError`. -/
def gener : ℕ → Option (List Tok)
  | 5 => some [⟨.s, 5, 0⟩, ⟨.s, 5, 0⟩, ⟨.d, 5, 0⟩, ⟨.d, 5, 0⟩, ⟨.d, 5, 0⟩, ⟨.d, 5, 0⟩, ⟨.s, 5, 0⟩, ⟨.s, 4, 0⟩, ⟨.d, 1, 0⟩, ⟨.e, 10, 3⟩, ⟨.e, 10, 3⟩, ⟨.e, 10, 3⟩]
  | 6 => some [⟨.s, 6, 0⟩, ⟨.s, 5, 0⟩, ⟨.d, 6, 0⟩, ⟨.d, 4, 0⟩, ⟨.d, 4, 0⟩, ⟨.d, 5, 0⟩, ⟨.s, 5, 0⟩, ⟨.s, 4, 0⟩, ⟨.d, 1, 0⟩, ⟨.e, 10, 3⟩, ⟨.e, 10, 3⟩, ⟨.e, 10, 3⟩]
  | 7 => some [⟨.s, 7, 0⟩, ⟨.s, 5, 0⟩, ⟨.d, 5, 0⟩, ⟨.d, 4, 0⟩, ⟨.d, 4, 0⟩, ⟨.d, 5, 0⟩, ⟨.s, 5, 0⟩, ⟨.s, 4, 0⟩, ⟨.d, 1, 0⟩, ⟨.e, 10, 3⟩, ⟨.e, 10, 3⟩, ⟨.e, 10, 3⟩]
  | 8 => some [⟨.s, 8, 0⟩, ⟨.s, 5, 0⟩, ⟨.d, 4, 0⟩, ⟨.d, 4, 0⟩, ⟨.d, 4, 0⟩, ⟨.d, 5, 0⟩, ⟨.s, 5, 0⟩, ⟨.s, 4, 0⟩, ⟨.d, 1, 0⟩, ⟨.e, 10, 3⟩, ⟨.e, 10, 3⟩, ⟨.e, 10, 3⟩]
  | 9 => some [⟨.s, 9, 0⟩, ⟨.s, 5, 0⟩, ⟨.d, 5, 0⟩, ⟨.d, 3, 0⟩, ⟨.d, 3, 0⟩, ⟨.d, 5, 0⟩, ⟨.s, 5, 0⟩, ⟨.s, 4, 0⟩, ⟨.d, 1, 0⟩, ⟨.e, 10, 3⟩, ⟨.e, 10, 3⟩, ⟨.e, 10, 3⟩]
  | _ => none
/-- `block_to_format["DIFFU"]`, line 38. -/
def diffu : List Tok := List.replicate 8 ⟨.e, 10, 3⟩
/-- `block_to_format["OUTPU"][1]`, line 39. -/
def outpu1 : List Tok :=
  [⟨.s, 20, 0⟩]
/-- `block_to_format["OUTPU"][2]`, line 39. -/
def outpu2 : List Tok :=
  [⟨.s, 15, 0⟩]
/-- `block_to_format["OUTPU"][3]`, line 39. -/
def outpu3 : List Tok :=
  [⟨.s, 20, 0⟩, ⟨.d, 5, 0⟩, ⟨.d, 5, 0⟩]
/-- `block_to_format["ELEME"]`, lines 40-46; `none` is a `KeyError`. -/
def eleme : ℕ → Option (List Tok)
  | 5 => some [⟨.s, 5, 0⟩, ⟨.d, 5, 0⟩, ⟨.d, 5, 0⟩, ⟨.s, 5, 0⟩, ⟨.e, 10, 4⟩, ⟨.e, 10, 4⟩, ⟨.e, 10, 4⟩, ⟨.e, 10, 3⟩, ⟨.e, 10, 3⟩, ⟨.e, 10, 3⟩]
  | 6 => some [⟨.s, 6, 0⟩, ⟨.d, 5, 0⟩, ⟨.d, 4, 0⟩, ⟨.s, 5, 0⟩, ⟨.e, 10, 4⟩, ⟨.e, 10, 4⟩, ⟨.e, 10, 4⟩, ⟨.e, 10, 3⟩, ⟨.e, 10, 3⟩, ⟨.e, 10, 3⟩]
  | 7 => some [⟨.s, 7, 0⟩, ⟨.d, 4, 0⟩, ⟨.d, 4, 0⟩, ⟨.s, 5, 0⟩, ⟨.e, 10, 4⟩, ⟨.e, 10, 4⟩, ⟨.e, 10, 4⟩, ⟨.e, 10, 3⟩, ⟨.e, 10, 3⟩, ⟨.e, 10, 3⟩]
  | 8 => some [⟨.s, 8, 0⟩, ⟨.d, 4, 0⟩, ⟨.d, 3, 0⟩, ⟨.s, 5, 0⟩, ⟨.e, 10, 4⟩, ⟨.e, 10, 4⟩, ⟨.e, 10, 4⟩, ⟨.e, 10, 3⟩, ⟨.e, 10, 3⟩, ⟨.e, 10, 3⟩]
  | 9 => some [⟨.s, 9, 0⟩, ⟨.d, 3, 0⟩, ⟨.d, 3, 0⟩, ⟨.s, 5, 0⟩, ⟨.e, 10, 4⟩, ⟨.e, 10, 4⟩, ⟨.e, 10, 4⟩, ⟨.e, 10, 3⟩, ⟨.e, 10, 3⟩, ⟨.e, 10, 3⟩]
  | _ => none
/-- `block_to_format["COORD"]`, line 47. -/
def coord : List Tok := List.replicate 3 ⟨.e, 20, 13⟩
/-- `block_to_format["CONNE"]`, lines 48-54; `none` is a `KeyError`. -/
def conne : ℕ → Option (List Tok)
  | 5 => some [⟨.s, 10, 0⟩, ⟨.d, 5, 0⟩, ⟨.d, 5, 0⟩, ⟨.d, 5, 0⟩, ⟨.d, 5, 0⟩, ⟨.e, 10, 4⟩, ⟨.e, 10, 4⟩, ⟨.e, 10, 4⟩, ⟨.e, 10, 3⟩, ⟨.e, 10, 3⟩]
  | 6 => some [⟨.s, 12, 0⟩, ⟨.d, 5, 0⟩, ⟨.d, 4, 0⟩, ⟨.d, 4, 0⟩, ⟨.d, 5, 0⟩, ⟨.e, 10, 4⟩, ⟨.e, 10, 4⟩, ⟨.e, 10, 4⟩, ⟨.e, 10, 3⟩, ⟨.e, 10, 3⟩]
  | 7 => some [⟨.s, 14, 0⟩, ⟨.d, 5, 0⟩, ⟨.d, 3, 0⟩, ⟨.d, 3, 0⟩, ⟨.d, 5, 0⟩, ⟨.e, 10, 4⟩, ⟨.e, 10, 4⟩, ⟨.e, 10, 4⟩, ⟨.e, 10, 3⟩, ⟨.e, 10, 3⟩]
  | 8 => some [⟨.s, 16, 0⟩, ⟨.d, 3, 0⟩, ⟨.d, 3, 0⟩, ⟨.d, 3, 0⟩, ⟨.d, 5, 0⟩, ⟨.e, 10, 4⟩, ⟨.e, 10, 4⟩, ⟨.e, 10, 4⟩, ⟨.e, 10, 3⟩, ⟨.e, 10, 3⟩]
  | 9 => some [⟨.s, 18, 0⟩, ⟨.d, 3, 0⟩, ⟨.d, 2, 0⟩, ⟨.d, 2, 0⟩, ⟨.d, 5, 0⟩, ⟨.e, 10, 4⟩, ⟨.e, 10, 4⟩, ⟨.e, 10, 4⟩, ⟨.e, 10, 3⟩, ⟨.e, 10, 3⟩]
  | _ => none
/-- `block_to_format["INCON"][0]`, line 56. -/
def incon0 : List Tok := List.replicate 4 ⟨.e, 20, 13⟩
/-- `block_to_format["INCON"]`, lines 57-61; `none` is a `KeyError`. -/
def incon : ℕ → Option (List Tok)
  | 5 => some [⟨.s, 5, 0⟩, ⟨.d, 5, 0⟩, ⟨.d, 5, 0⟩, ⟨.e, 15, 9⟩, ⟨.e, 10, 3⟩, ⟨.e, 10, 3⟩, ⟨.e, 10, 3⟩, ⟨.e, 10, 3⟩, ⟨.e, 10, 3⟩]
  | 6 => some [⟨.s, 6, 0⟩, ⟨.d, 5, 0⟩, ⟨.d, 4, 0⟩, ⟨.e, 15, 9⟩, ⟨.e, 10, 3⟩, ⟨.e, 10, 3⟩, ⟨.e, 10, 3⟩, ⟨.e, 10, 3⟩, ⟨.e, 10, 3⟩]
  | 7 => some [⟨.s, 7, 0⟩, ⟨.d, 4, 0⟩, ⟨.d, 4, 0⟩, ⟨.e, 15, 9⟩, ⟨.e, 10, 3⟩, ⟨.e, 10, 3⟩, ⟨.e, 10, 3⟩, ⟨.e, 10, 3⟩, ⟨.e, 10, 3⟩]
  | 8 => some [⟨.s, 8, 0⟩, ⟨.d, 4, 0⟩, ⟨.d, 3, 0⟩, ⟨.e, 15, 9⟩, ⟨.e, 10, 3⟩, ⟨.e, 10, 3⟩, ⟨.e, 10, 3⟩, ⟨.e, 10, 3⟩, ⟨.e, 10, 3⟩]
  | 9 => some [⟨.s, 9, 0⟩, ⟨.d, 3, 0⟩, ⟨.d, 3, 0⟩, ⟨.e, 15, 9⟩, ⟨.e, 10, 3⟩, ⟨.e, 10, 3⟩, ⟨.e, 10, 3⟩, ⟨.e, 10, 3⟩, ⟨.e, 10, 3⟩]
  | _ => none

/-- Every format of the table, for statements about all of them. -/
def all : List (List Tok) :=
  [rocks1, rocks2, rpcap, flac1, flac2, flac3, multi, selec1, selec2, solvr, param1, param2,
    param3, param4, param5, indom0, indom5, momop, times1, times2, foft, coft, goft, gener0,
    diffu, outpu1, outpu2, outpu3, coord, incon0] ++
  [5, 6, 7, 8, 9].filterMap gener ++ [5, 6, 7, 8, 9].filterMap eleme ++
  [5, 6, 7, 8, 9].filterMap conne ++ [5, 6, 7, 8, 9].filterMap incon

end Verif.Model.Fmt
