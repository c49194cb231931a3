import Verif.Model.Formats

/-!
# The formats of the model are those of the table

The tokens used by the model against the texts of `block_to_format`
(`/repo/toughio/_common.py`, lines 3-63).
-/

namespace Verif.Model.Fmt
open Verif.Py Verif.Model

/-- `",".join(n * [t])`. -/
def join (n : ℕ) (t : String) : List Tok := (List.replicate n (parseFmt t)).flatten

/-- The tokens above are those of the texts of the table. -/
theorem texts :
    [rocks1, rocks2, rpcap, flac1, flac2, flac3, multi, selec1, selec2, solvr, param1, param2, param3, param4, param5, indom0, indom5, momop, times1, times2, foft, coft, goft, gener0, diffu, outpu1, outpu2, outpu3, coord, incon0] =
      [parseFmt "5s,5d,10.4e,10.4e,10.4e,10.4e,10.4e,10.4e,10.4e",
        join 7 "10.4e",
        parseFmt "5d,5s,10.3e,10.3e,10.3e,10.3e,10.3e,10.3e,10.3e",
        join 16 "5d",
        parseFmt "10d,10.3e,10.3e,10.3e,10.3e,10.3e,10.3e,10.3e",
        parseFmt "5d,5s,10.3e,10.3e,10.3e,10.3e,10.3e,10.3e,10.3e",
        join 5 "5d",
        join 16 "5d",
        join 8 "10.3e",
        parseFmt "1d,2s,2s,3s,2s,10.4e,10.4e",
        parseFmt "2d,2d,4d,4d,4d,24S,10s,10.4e,10.4e",
        parseFmt "10.4e,10.4e,10.1f,10.4e,10s,10.4e,10.4e,10.4e",
        join 8 "10.4e",
        parseFmt "10.4e,10.4e,10s,10.4e,10.4e,10.4e",
        join 4 "20.13e",
        join 4 "20.13e",
        parseFmt "5s",
        parseFmt "40S",
        parseFmt "5d,5d,10.4e,10.4e",
        join 8 "10.4e",
        parseFmt "5s",
        parseFmt "10s",
        parseFmt "5s",
        join 4 "14.7e",
        join 8 "10.3e",
        parseFmt "20s",
        parseFmt "15s",
        parseFmt "20s,5d,5d",
        join 3 "20.13e",
        join 4 "20.13e"] := by
  decide +kernel

/-- The same for the formats that depend on the label length. -/
theorem texts_by_length :
    [gener 5,
      gener 6,
      gener 7,
      gener 8,
      gener 9,
      eleme 5,
      eleme 6,
      eleme 7,
      eleme 8,
      eleme 9,
      conne 5,
      conne 6,
      conne 7,
      conne 8,
      conne 9,
      incon 5,
      incon 6,
      incon 7,
      incon 8,
      incon 9] =
      [some (parseFmt "5s,5s,5d,5d,5d,5d,5s,4s,1d,10.3e,10.3e,10.3e"),
        some (parseFmt "6s,5s,6d,4d,4d,5d,5s,4s,1d,10.3e,10.3e,10.3e"),
        some (parseFmt "7s,5s,5d,4d,4d,5d,5s,4s,1d,10.3e,10.3e,10.3e"),
        some (parseFmt "8s,5s,4d,4d,4d,5d,5s,4s,1d,10.3e,10.3e,10.3e"),
        some (parseFmt "9s,5s,5d,3d,3d,5d,5s,4s,1d,10.3e,10.3e,10.3e"),
        some (parseFmt "5s,5d,5d,5s,10.4e,10.4e,10.4e,10.3e,10.3e,10.3e"),
        some (parseFmt "6s,5d,4d,5s,10.4e,10.4e,10.4e,10.3e,10.3e,10.3e"),
        some (parseFmt "7s,4d,4d,5s,10.4e,10.4e,10.4e,10.3e,10.3e,10.3e"),
        some (parseFmt "8s,4d,3d,5s,10.4e,10.4e,10.4e,10.3e,10.3e,10.3e"),
        some (parseFmt "9s,3d,3d,5s,10.4e,10.4e,10.4e,10.3e,10.3e,10.3e"),
        some (parseFmt "10s,5d,5d,5d,5d,10.4e,10.4e,10.4e,10.3e,10.3e"),
        some (parseFmt "12s,5d,4d,4d,5d,10.4e,10.4e,10.4e,10.3e,10.3e"),
        some (parseFmt "14s,5d,3d,3d,5d,10.4e,10.4e,10.4e,10.3e,10.3e"),
        some (parseFmt "16s,3d,3d,3d,5d,10.4e,10.4e,10.4e,10.3e,10.3e"),
        some (parseFmt "18s,3d,2d,2d,5d,10.4e,10.4e,10.4e,10.3e,10.3e"),
        some (parseFmt "5s,5d,5d,15.9e,10.3e,10.3e,10.3e,10.3e,10.3e"),
        some (parseFmt "6s,5d,4d,15.9e,10.3e,10.3e,10.3e,10.3e,10.3e"),
        some (parseFmt "7s,4d,4d,15.9e,10.3e,10.3e,10.3e,10.3e,10.3e"),
        some (parseFmt "8s,4d,3d,15.9e,10.3e,10.3e,10.3e,10.3e,10.3e"),
        some (parseFmt "9s,3d,3d,15.9e,10.3e,10.3e,10.3e,10.3e,10.3e")] := by
  decide +kernel

end Verif.Model.Fmt
