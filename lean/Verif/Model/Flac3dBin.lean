import Verif.Model.Flac3d
import Verif.Py.Bytes

/-!
# Binary FLAC3D mesh files

Model of the binary part of `/repo/toughio/_mesh/flac3d/_flac3d.py`. A file is the list
of its bytes.

Simplifications: those of `Model/Flac3d.lean`; of several exceptions another may come
first.
-/

namespace Verif.Mesh
open Verif.Py Verif.Model

/-! ### what is written -/

/-- `struct.pack("<{n}I", …)`. -/
def packMany (ns : List ℕ) : Except PyErr (List ℕ) := do
  let bs ← ns.mapM (packUInt 4)
  .ok bs.flatten

/-- One point of `_write_points` (`_flac3d.py`, 346-347). -/
def binPoint (e : P3 Flt × ℕ) : Except PyErr (List ℕ) := do
  let i ← packUInt 4 (e.2 + 1)
  .ok (i ++ packDouble e.1.x ++ packDouble e.1.y ++ packDouble e.1.z)

/-- `_write_points` (`_flac3d.py`, 344-347). -/
def binPoints (points : List (P3 Flt)) : Except PyErr (List ℕ) := do
  let n ← packUInt 4 points.length
  let ps ← points.zipIdx.mapM binPoint
  .ok (n ++ ps.flatten)

/-- `_write_cells` (`_flac3d.py`, 355-381) of a binary file. -/
def binCells {α : Type} (pos : α → α → α → α → Bool) (points : List α) (cells : List CellBlock) (flag : FlacFlag) :
    Except PyErr (List ℕ) := do
  let blocks ← flacTranslate pos points cells flag
  let count := match flag with
    | .zone => 0
    | .face => nCells (flacBlocks .zone cells)
  let n ← packUInt 4 (nCells blocks)
  let cs ← ((cellList blocks).zipIdx (count + 1)).mapM fun e =>
    packMany (e.2 :: e.1.2.length :: e.1.2.map (· + 1))
  .ok (n ++ cs.flatten)

/-- One group of `_write_groups` (`_flac3d.py`, 410-420). -/
def binGroup (name : Str) (data : List ℕ) : Except PyErr (List ℕ) := do
  let k ← packUInt 2 name.length
  let n ← packMany (data.length :: data)
  .ok (k ++ packText name.length (utf8 name) ++ bytesOf 2 7 ++ utf8 "Default".toList ++ n)

/-- `_write_groups` (`_flac3d.py`, 401-434) of a binary file. -/
def binGroups (m : FlacMesh) (flag : FlacFlag) : Except PyErr (List ℕ) :=
  match flacMaterial m with
  | none => packUInt 4 0
  | some mat => do
    let gs := flacGroups m.cells mat flag
    let n ← packUInt 4 gs.length
    let ls ← gs.mapM fun g => binGroup (flacLabel m.fieldData flag g.1) g.2
    .ok (n ++ ls.flatten)

/-- `write` (`_helpers.py`, 150-153, `_flac3d.py`, 314-339) of a binary file. -/
def writeFlacBin (pos : P3 Flt → P3 Flt → P3 Flt → P3 Flt → Bool) (m : FlacMesh) : Except PyErr (List ℕ) := do
  flacCheck m
  let h ← packMany [1375135718, 3]
  let p ← binPoints m.points
  let z ← binCells pos m.points m.cells .zone
  let zg ← binGroups m .zone
  let f ← binCells pos m.points m.cells .face
  let fg ← binGroups m .face
  .ok (h ++ (p ++ (z ++ (zg ++ (f ++ fg)))))

/-! ### what is read -/

/-- The points of a binary file (`_flac3d.py`, 136-140 and 216-219). -/
def readBinPoints : ℕ → List ℕ → FlacState → Except PyErr (FlacState × List ℕ)
  | 0, bs, s => .ok (s, bs)
  | n + 1, bs, s => do
    let (id, bs) ← unpackUInt 4 bs
    let (x, bs) ← unpackDouble bs
    let (y, bs) ← unpackDouble bs
    let (z, bs) ← unpackDouble bs
    readBinPoints n bs (s.addPoint id [x, y, z])

/-- The cells of one kind (`_flac3d.py`, 144-148 and 227-239). -/
def readBinCells (flag : FlacFlag) : ℕ → List ℕ → FlacState → Except PyErr (FlacState × List ℕ)
  | 0, bs, s => .ok (s, bs)
  | n + 1, bs, s => do
    let (id, bs) ← unpackUInt 4 bs
    let (nv, bs) ← unpackUInt 4 bs
    let (vs, bs) ← unpackMany nv bs
    let s ← s.addCell flag (nv = 7) id (vs.map fun v : ℕ => (v : ℤ))
    readBinCells flag n bs s

/-- A text with its length (`_flac3d.py`, 246-253). -/
def readBinText (bs : List ℕ) : Except PyErr (Str × List ℕ) := do
  let (k, bs) ← unpackUInt 2 bs
  let (t, bs) ← takeBytes k bs
  let s ← utf8Decode t
  .ok (s, bs)

/-- The groups of one kind (`_flac3d.py`, 151-162 and 244-257). -/
def readBinGroups (flag : FlacFlag) : ℕ → List ℕ → FlacState → Except PyErr (FlacState × List ℕ)
  | 0, bs, s => .ok (s, bs)
  | n + 1, bs, s => do
    let (name, bs) ← readBinText bs
    let (slot, bs) ← readBinText bs
    let (k, bs) ← unpackUInt 4 bs
    let (data, bs) ← unpackMany k bs
    let s ← s.addGroup flag name slot (data.map fun v : ℕ => (v : ℤ))
    readBinGroups flag n bs s

/-- The cells and groups of one kind (`_flac3d.py`, 142-162). -/
def readBinKind (flag : FlacFlag) (bs : List ℕ) (s : FlacState) : Except PyErr (FlacState × List ℕ) := do
  let (n, bs) ← unpackUInt 4 bs
  let (s, bs) ← readBinCells flag n bs s
  let (n, bs) ← unpackUInt 4 bs
  readBinGroups flag n bs s

/-- `read_buffer` (`_helpers.py`, 95-103, `_flac3d.py`, 110-211) of a binary file. -/
def readFlacBin (bs : List ℕ) : Except PyErr FlacRead := do
  let (_, bs) ← unpackMany 2 bs
  let (n, bs) ← unpackUInt 4 bs
  let (s, bs) ← readBinPoints n bs {}
  let (s, bs) ← readBinKind .zone bs s
  let (s, _) ← readBinKind .face bs s
  s.finish

/-- Whether a file is binary (`_flac3d.py`, 98-100). -/
def flacIsBinary (bs : List ℕ) : Bool := (bs.take 8).contains 0

end Verif.Mesh
