import Verif.Model.Formats

/-!
# Reading lines and writing blocks

Input files are lists of lines. A reader takes the lines that remain and returns
its result together with the lines it leaves; `fh.tell()` / `fh.seek(i)` of
`/repo/toughio/_io/input/tough/_read.py` is keeping and restoring that list.
-/

namespace Verif.Model
open Verif.Py

/-- `next(f)` on `iter(f.readline, "")` (`_read.py`, 60): the next line, or
`StopIteration` at the end of the file. -/
def next : List Str → Except PyErr (Str × List Str)
  | [] => .error .stopIteration
  | l :: ls => .ok (l, ls)

/-- Outcome of one turn of a `while True` loop. -/
inductive Turn (σ : Type)
  | stop (s : σ)
  | more (s : σ)

/-- A `while True` loop over lines, with a bound on the number of turns;
`diverges` if the bound is reached. -/
def loop {σ : Type} (step : σ → List Str → Except PyErr (Turn σ × List Str)) :
    ℕ → σ → List Str → Except PyErr (σ × List Str)
  | 0, _, _ => .error .diverges
  | n + 1, s, ls =>
    match step s ls with
    | .error e => .error e
    | .ok (.stop s', ls') => .ok (s', ls')
    | .ok (.more s', ls') => loop step n s' ls'

/-- A `while True` loop each turn of which reads at least one line, so that one
turn more than there are lines is never needed. -/
def whileTrue {σ : Type} (step : σ → List Str → Except PyErr (Turn σ × List Str))
    (s : σ) (ls : List Str) : Except PyErr (σ × List Str) :=
  loop step (ls.length + 1) s ls

/-- `for _ in range(n)` with a body that reads lines and adds to a list. -/
def times {α : Type} (body : List Str → Except PyErr (α × List Str)) :
    ℕ → List Str → Except PyErr (List α × List Str)
  | 0, ls => .ok ([], ls)
  | n + 1, ls => do
    let (x, ls) ← body ls
    let (xs, ls) ← times body n ls
    .ok (x :: xs, ls)

/-- `range(i)` for an integer bound. -/
def rangeLen (i : ℤ) : ℕ := i.toNat

/-- `not line.strip()`. -/
def isBlank (l : Str) : Bool := (strip l).isEmpty

/-- `header` (`/repo/toughio/_io/input/tough/_common.py`, 160). -/
def header : Str :=
  "----1----*----2----*----3----*----4----*----5----*----6----*----7----*----8".toList

/-- The header line of a block, `"{:5}{}\n".format(keyword, header)`
(`_helpers.py`, 161-162). -/
def headLine (kw : String) : Str := padRight 5 kw.toList ++ header ++ ['\n']

/-- The decorator `block(keyword, multi)` (`_helpers.py`, 153-170): header line,
body, and a blank line if `multi`. -/
def block (kw : String) (multi : Bool) (body : Except PyErr (List Str)) :
    Except PyErr (List Str) := do
  let b ← body
  .ok (headLine kw :: b ++ (if multi then [['\n']] else []))

/-- `d[k] = v` on an insertion-ordered dictionary. -/
def dictSet {κ β : Type} [DecidableEq κ] (d : List (κ × β)) (k : κ) (v : β) : List (κ × β) :=
  match d with
  | [] => [(k, v)]
  | (k', v') :: r => if k' = k then (k, v) :: r else (k', v') :: dictSet r k v

/-- `d[k]`. -/
def dictGet {κ β : Type} [DecidableEq κ] (d : List (κ × β)) (k : κ) : Except PyErr β :=
  match d.lookup k with
  | some v => .ok v
  | none => .error .keyError

/-- A list of `write_record` calls, concatenated. -/
def concatM {α β : Type} (f : α → Except PyErr (List β)) : List α → Except PyErr (List β)
  | [] => .ok []
  | a :: r => do
    let x ← f a
    let y ← concatM f r
    .ok (x ++ y)

/-- A scalar or a list of scalars. -/
inductive SoL
  | one (v : Val)
  | many (l : List Val)
  deriving DecidableEq

end Verif.Model
