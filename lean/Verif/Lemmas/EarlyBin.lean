import Verif.Lemmas.Flac3dBin

/-!
# Lemmas on binary FLAC3D mesh files that end early
-/

namespace Verif.Mesh
open Verif.Py Verif.Model Verif.Spec

/-- The same outcome with more bytes left. -/
def extendBytes {α : Type} (b : List ℕ) (r : Except PyErr (α × List ℕ)) : Except PyErr (α × List ℕ) :=
  match r with
  | .ok x => .ok (x.1, x.2 ++ b)
  | .error e => .error e

/-- The first outcome is a lack of bytes, or the second is the same with more bytes left. -/
def Bp {α : Type} (b : List ℕ) (r r' : Except PyErr (α × List ℕ)) : Prop :=
  r = .error .structError ∨ r' = extendBytes b r

variable {α β : Type} {b : List ℕ}

theorem bp_ok (x : α) (bs : List ℕ) : Bp b (.ok (x, bs)) (.ok (x, bs ++ b)) := .inr rfl

theorem bp_error (e : PyErr) : Bp b (.error e : Except PyErr (α × List ℕ)) (.error e) := .inr rfl

theorem bp_bind {r r' : Except PyErr (α × List ℕ)} {f f' : α × List ℕ → Except PyErr (β × List ℕ)} (h : Bp b r r')
    (hf : ∀ x bs, Bp b (f (x, bs)) (f' (x, bs ++ b))) : Bp b (r >>= f) (r' >>= f') := by
  rcases h with rfl | rfl
  · exact .inl rfl
  · cases r with
    | error e => exact .inr rfl
    | ok x => exact hf x.1 x.2

theorem bp_then {a : Except PyErr α} {f f' : α → Except PyErr (β × List ℕ)} (hf : ∀ x, Bp b (f x) (f' x)) :
    Bp b (a >>= f) (a >>= f') := by
  cases a with
  | error e => exact .inr rfl
  | ok x => exact hf x

theorem bp_take (k : ℕ) (bs : List ℕ) : Bp b (takeBytes k bs) (takeBytes k (bs ++ b)) := by
  rw [takeBytes, takeBytes]
  split
  · exact .inl rfl
  · next h =>
    have h : k ≤ bs.length := not_lt.1 h
    rw [if_neg (by rw [List.length_append]; omega), List.take_append_of_le_length h, List.drop_append_of_le_length h]
    exact bp_ok _ _

theorem bp_uint (k : ℕ) (bs : List ℕ) : Bp b (unpackUInt k bs) (unpackUInt k (bs ++ b)) :=
  bp_bind (bp_take k bs) fun _ _ => bp_ok _ _

theorem bp_double (bs : List ℕ) : Bp b (unpackDouble bs) (unpackDouble (bs ++ b)) :=
  bp_bind (bp_take 8 bs) fun _ _ => bp_ok _ _

theorem bp_many (n : ℕ) (bs : List ℕ) : Bp b (unpackMany n bs) (unpackMany n (bs ++ b)) := by
  induction n generalizing bs with
  | zero => exact bp_ok _ _
  | succ n ih => exact bp_bind (bp_uint 4 bs) fun _ bs => bp_bind (ih bs) fun _ _ => bp_ok _ _

theorem bp_points (n : ℕ) (bs : List ℕ) (s : FlacState) : Bp b (readBinPoints n bs s) (readBinPoints n (bs ++ b) s) := by
  induction n generalizing bs s with
  | zero => exact bp_ok _ _
  | succ n ih =>
    exact bp_bind (bp_uint 4 bs) fun _ bs => bp_bind (bp_double bs) fun _ bs => bp_bind (bp_double bs) fun _ bs =>
      bp_bind (bp_double bs) fun _ bs => ih bs _

theorem bp_cells (flag : FlacFlag) (n : ℕ) (bs : List ℕ) (s : FlacState) :
    Bp b (readBinCells flag n bs s) (readBinCells flag n (bs ++ b) s) := by
  induction n generalizing bs s with
  | zero => exact bp_ok _ _
  | succ n ih =>
    exact bp_bind (bp_uint 4 bs) fun _ bs => bp_bind (bp_uint 4 bs) fun _ bs => bp_bind (bp_many _ bs) fun _ bs =>
      bp_then fun _ => ih bs _

theorem bp_text (bs : List ℕ) : Bp b (readBinText bs) (readBinText (bs ++ b)) :=
  bp_bind (bp_uint 2 bs) fun _ bs => bp_bind (bp_take _ bs) fun _ _ => bp_then fun _ => bp_ok _ _

theorem bp_groups (flag : FlacFlag) (n : ℕ) (bs : List ℕ) (s : FlacState) :
    Bp b (readBinGroups flag n bs s) (readBinGroups flag n (bs ++ b) s) := by
  induction n generalizing bs s with
  | zero => exact bp_ok _ _
  | succ n ih =>
    exact bp_bind (bp_text bs) fun _ bs => bp_bind (bp_text bs) fun _ bs => bp_bind (bp_uint 4 bs) fun _ bs =>
      bp_bind (bp_many _ bs) fun _ bs => bp_then fun _ => ih bs _

theorem bp_kind (flag : FlacFlag) (bs : List ℕ) (s : FlacState) :
    Bp b (readBinKind flag bs s) (readBinKind flag (bs ++ b) s) :=
  bp_bind (bp_uint 4 bs) fun _ bs => bp_bind (bp_cells flag _ bs s) fun _ bs => bp_bind (bp_uint 4 bs) fun _ bs =>
    bp_groups flag _ bs _

/-- What is read of a binary file before the end of `read_buffer`, and what is left of it. -/
def binState (bs : List ℕ) : Except PyErr (FlacState × List ℕ) := do
  let (_, bs) ← unpackMany 2 bs
  let (n, bs) ← unpackUInt 4 bs
  let (s, bs) ← readBinPoints n bs {}
  let (s, bs) ← readBinKind .zone bs s
  readBinKind .face bs s

theorem bp_state (bs : List ℕ) : Bp b (binState bs) (binState (bs ++ b)) :=
  bp_bind (bp_many 2 bs) fun _ bs => bp_bind (bp_uint 4 bs) fun _ bs => bp_bind (bp_points _ bs _) fun _ bs =>
    bp_bind (bp_kind _ bs _) fun _ bs => bp_kind _ bs _

theorem readFlacBin_state (bs : List ℕ) : readFlacBin bs = binState bs >>= fun x => x.1.finish := by
  simp only [readFlacBin, binState, bind_assoc]

/-- A binary file is refused for a lack of bytes, or bytes added to it do not matter. -/
theorem readFlacBin_more (bs b : List ℕ) :
    readFlacBin bs = .error .structError ∨ readFlacBin (bs ++ b) = readFlacBin bs := by
  rw [readFlacBin_state, readFlacBin_state]
  rcases bp_state (b := b) bs with h | h
  · rw [h]
    exact .inl rfl
  · rw [h]
    cases binState bs with
    | error e => exact .inr rfl
    | ok x => exact .inr rfl

/-- If all bytes of a file are read, no byte at its end may be missing. -/
theorem readFlacBin_cut {a b : List ℕ} (hb : b ≠ []) {s : FlacState} (h : binState (a ++ b) = .ok (s, [])) :
    readFlacBin a = .error .structError := by
  rw [readFlacBin_state]
  rcases bp_state (b := b) a with h1 | h1
  · rw [h1]
    rfl
  · rw [h] at h1
    cases hs : binState a with
    | error e => rw [hs] at h1; cases h1
    | ok x =>
      rw [hs] at h1
      injection h1 with h1
      have := (Prod.mk.inj h1).2
      simp [hb] at this

/-- Of a written file that can be read all bytes are read. -/
theorem writeFlacBin_all (pos : P3 Flt → P3 Flt → P3 Flt → P3 Flt → Bool) {m : FlacMesh} (h : FlacOk m) (hb : BinOk m)
    (hn : ∀ mat, materialOfCells m = some mat → BinNames m mat) {bs : List ℕ} (hw : writeFlacBin pos m = .ok bs)
    {s : FlacState} {rest : List ℕ} (hs : binState bs = .ok (s, rest)) : rest = [] := by
  obtain ⟨zb, fb, hz2, hz3, hf2, hf3, hw'⟩ := writeFlacBin_parts pos h hb hn
  rw [hw'] at hw
  cases hw
  have hzl : (cellList zb).length = (cornersOf 3 m.cells).length := by
    have := hz3.length_eq
    rw [List.length_map] at this
    exact this.symm
  have hfl : (cellList fb).length = (cornersOf 2 m.cells).length := by
    rw [← hf3, List.length_map]
  have htotal : (cellList zb).length + (cellList fb).length ≤ (typedCells m.cells).length := by
    rw [hzl, hfl, cornersOf_length 3 (by decide), cornersOf_length 2 (by decide)]
    have : (typedCells m.cells).length = (dimsOf m.cells).length := by rw [dimsOf, List.length_map]
    rw [this]
    generalize dimsOf m.cells = D
    induction D with
    | nil => simp
    | cons d D ih =>
      rw [List.count_cons, List.count_cons, List.length_cons]
      by_cases h3 : d = 3
      · subst h3
        simp
        omega
      · by_cases h2 : d = 2
        · subst h2
          simp
          omega
        · simp [h2, h3]
          omega
  have hc := hb.cells
  have hp := hb.points
  obtain ⟨gz1, gz2, gz3, gz4, gz5⟩ := namedGroups_ok h hb hn .zone
  obtain ⟨gf1, gf2, gf3, gf4, gf5⟩ := namedGroups_ok h hb hn .face
  have hu := unpackMany_append (ns := [1375135718, 3]) (by decide)
  have hlast := readBinKind_ok .face hp (cellList zb).length (by omega) hf2 gf1 gf2 gf3 gf4 gf5 []
  rw [List.append_nil] at hlast
  rw [binState, show (2 : ℕ) = [1375135718, 3].length from rfl, hu, ok_bind] at hs
  simp only at hs
  rw [List.append_assoc, unpackUInt_append (by omega), ok_bind] at hs
  simp only at hs
  rw [readBinPoints_ok hb.doubles 0 (by omega), bind_assoc] at hs
  obtain ⟨s1, -, hs⟩ := bind_eq_ok.1 hs
  rw [ok_bind] at hs
  simp only at hs
  rw [readBinKind_ok .zone hp 0 (by omega) hz2 gz1 gz2 gz3 gz4 gz5, bind_assoc] at hs
  obtain ⟨s2, -, hs⟩ := bind_eq_ok.1 hs
  rw [ok_bind] at hs
  simp only at hs
  rw [hlast] at hs
  obtain ⟨s3, -, hs⟩ := bind_eq_ok.1 hs
  injection hs with hs
  exact (Prod.mk.inj hs).2.symm

/-- A written file that lacks bytes at its end. -/
theorem writeFlacBin_cut (pos : P3 Flt → P3 Flt → P3 Flt → P3 Flt → Bool) {m : FlacMesh} (h : FlacOk m) (hb : BinOk m)
    (hg : ∀ mat, materialOfCells m = some mat → BinGroupsOk m mat) {bs : List ℕ} (hw : writeFlacBin pos m = .ok bs)
    {k : ℕ} (hk : k < bs.length) : readFlacBin (bs.take k) = .error .structError := by
  obtain ⟨bs', r, hw', hr, -⟩ := writeFlacBin_read pos h hb hg
  rw [hw'] at hw
  cases hw
  rw [readFlacBin_state] at hr
  obtain ⟨⟨s, rest⟩, hs, -⟩ := bind_eq_ok.1 hr
  have := writeFlacBin_all pos h hb (fun mat hm => ⟨(hg mat hm).known, (hg mat hm).ascii, (hg mat hm).short⟩) hw' hs
  subst this
  rw [← List.take_append_drop k bs] at hs
  exact readFlacBin_cut (by simpa using hk) hs

end Verif.Mesh
