import Verif.Lemmas.Flac3dText
import Verif.Lemmas.EarlyAvs

/-!
# FLAC3D text files that end early
-/

namespace Verif.Mesh
open Verif.Py Verif.Model Verif.Spec

theorem take_zipIdx {α : Type} (l : List α) (n k : ℕ) : (l.zipIdx n).take k = (l.take k).zipIdx n := by
  induction l generalizing n k with
  | nil => simp
  | cons x l ih =>
    cases k with
    | zero => rfl
    | succ k => rw [List.zipIdx_cons, List.take_succ_cons, List.take_succ_cons, List.zipIdx_cons, ih]

/-- The first lines of cells. -/
theorem consumes_firstCells (flag : FlacFlag) {np : ℕ} {zs : List (CellType × List ℕ)}
    (h : ∀ e ∈ zs, CellWritten flag np e.1 e.2) (a : ℕ) {ls : List Str}
    (hls : (zs.zipIdx (a + 1)).mapM (flacCellLine flag) = .ok ls) (j : ℕ) :
    Consumes (fun _ => True) (ls.take j) (cellRecs flag a (zs.take j)) := by
  obtain ⟨ls', h1, h2⟩ := consumes_cells flag (zs := zs.take j) (fun e he => h e (List.mem_of_mem_take he)) a
  have h3 : ((zs.zipIdx (a + 1)).take j).mapM (flacCellLine flag) = .ok (ls.take j) := by
    rw [← List.take_append_drop j (zs.zipIdx (a + 1)), List.mapM_append] at hls
    obtain ⟨u, hu, hls⟩ := bind_eq_ok.1 hls
    obtain ⟨v, hv, hls⟩ := bind_eq_ok.1 hls
    cases hls
    have hl := (mapM_eq_ok hu).length_eq
    rw [List.length_take] at hl
    rw [hu]
    rcases Nat.le_total j (zs.zipIdx (a + 1)).length with hj | hj
    · rw [List.take_left' (by omega)]
    · rw [List.drop_eq_nil_of_le hj] at hv
      cases hv
      rw [List.reverse_nil, List.append_nil, List.take_of_length_le (by omega)]
  rw [take_zipIdx, h1] at h3
  cases h3
  exact h2

/-- The lines of a written file up to the zones. -/
theorem writeFlac_start (p : ℕ) (pos : P3 Flt → P3 Flt → P3 Flt → P3 Flt → Bool) (version date : Str) {m : FlacMesh}
    (h : FlacOk m) {ls : List Str} (hw : writeFlac p pos version date m = .ok ls) :
    ∃ (zs : List (CellType × List ℕ)) (lz rest : List Str), ls = ("* FLAC3D grid produced by toughio v".toList ++ version ++ ['\n']) ::
        ("* ".toList ++ date ++ ['\n']) :: "* GRIDPOINTS\n".toList ::
        (m.points.zipIdx.map (flacPointLine p) ++ ("* ZONES\n".toList :: (lz ++ rest))) ∧
      (∀ e ∈ zs, CellWritten .zone m.points.length e.1 e.2) ∧
      List.Forall₂ (Oriented pos m.points) (cornersOf 3 m.cells) (zs.map fun e => (e.1, perm (flacOrderBack e.1) e.2)) ∧
      (zs.zipIdx (0 + 1)).mapM (flacCellLine .zone) = .ok lz := by
  obtain ⟨zb, hz1, hz2, hz3, hz4⟩ := translate_zones pos h
  obtain ⟨lz, hlz1, hlz2⟩ := consumes_cells .zone hz2 0
  have hzones : flacCellLines pos m.points m.cells .zone = .ok ("* ZONES\n".toList :: lz) := by
    rw [flacCellLines, hz1, ok_bind]
    simp only
    rw [hlz1]
    rfl
  rw [writeFlac, flacCheck_ok h, ok_bind, hzones, ok_bind] at hw
  obtain ⟨faces, -, hw⟩ := bind_eq_ok.1 hw
  cases hw
  exact ⟨cellList zb, lz, _, rfl, hz2, hz3, hlz1⟩

/-- The head of a file says nothing. -/
theorem consumes_head (version date : Str) {t : List Str} {recs : List FRec} (h : Consumes Stop t recs) :
    Consumes Stop (("* FLAC3D grid produced by toughio v".toList ++ version ++ ['\n']) ::
      ("* ".toList ++ date ++ ['\n']) :: "* GRIDPOINTS\n".toList :: t) recs := by
  have t' : ∀ rest : List Str, Stop rest → True := fun _ _ => trivial
  have hP := (Consumes.comment (l := "* GRIDPOINTS\n".toList) (words_star "GRIDPOINTS".toList)).append h t'
  have hD := (Consumes.comment (l := "* ".toList ++ date ++ ['\n']) (words_star date)).append hP t'
  exact (Consumes.comment (l := "* FLAC3D grid produced by toughio v".toList ++ version ++ ['\n'])
      (words_star ("FLAC3D grid produced by toughio v".toList ++ version))).append hD t'

theorem Consumes.weaken {P Q : List Str → Prop} {t : List Str} {r : List FRec} (h : Consumes P t r)
    (hp : ∀ rest, Q rest → P rest) : Consumes Q t r := by
  obtain ⟨k, hk, h⟩ := h
  exact ⟨k, hk, fun n rest s hr => h n rest s (hp rest hr)⟩

/-- Only points have been read. -/
theorem writeFlac_cut_points (p : ℕ) (pos : P3 Flt → P3 Flt → P3 Flt → P3 Flt → Bool) (version date : Str) {m : FlacMesh}
    (h : FlacOk m) {ls : List Str} (hw : writeFlac p pos version date m = .ok ls) {k : ℕ} (hk : k ≤ m.points.length) :
    readFlac (ls.take (3 + k)) = .ok ⟨(m.points.take k).map (readPoint p), [], none, []⟩ := by
  obtain ⟨zs, lz, rest, rfl, h2, h3, h4⟩ := writeFlac_start p pos version date h hw
  rw [Nat.add_comm, List.take_succ_cons, List.take_succ_cons, List.take_succ_cons,
    List.take_append_of_le_length (by simpa using hk), ← List.map_take, take_zipIdx]
  rw [read_consumed (consumes_head version date ((consumes_points p (m.points.take k)).weaken fun _ _ => trivial)),
    fold_points, ok_bind, FlacState.finish]
  have hr : rectangular ((m.points.take k).map (readPoint p)) = true := rectangular_of (n := 3) (by
    intro x hx
    obtain ⟨q, _, rfl⟩ := List.mem_map.1 hx
    rfl)
  simp only [if_true, ok_bind, hr, Bool.not_true, Bool.false_eq_true, if_false]
  rfl

/-- All points and some of the zones have been read. -/
theorem writeFlac_cut_zones (p : ℕ) (pos : P3 Flt → P3 Flt → P3 Flt → P3 Flt → Bool) (version date : Str) {m : FlacMesh}
    (h : FlacOk m) {ls : List Str} (hw : writeFlac p pos version date m = .ok ls) {k : ℕ}
    (hk : k ≤ (cornersOf 3 m.cells).length) :
    ∃ r, readFlac (ls.take (4 + m.points.length + k)) = .ok r ∧ r.points = m.points.map (readPoint p) ∧
      List.Forall₂ (Oriented pos m.points) ((cornersOf 3 m.cells).take k) (typedCells r.cells) ∧
      r.group = none ∧ r.fieldData = [] := by
  obtain ⟨zs, lz, rest, rfl, h2, h3, h4⟩ := writeFlac_start p pos version date h hw
  have hl : lz.length = zs.length := by
    have := (mapM_eq_ok h4).length_eq
    simpa using this.symm
  have hl2 := h3.length_eq
  rw [List.length_map] at hl2
  have hlen : (m.points.zipIdx.map (flacPointLine p)).length = m.points.length := by simp
  rw [show 4 + m.points.length + k = (m.points.length + (k + 1)) + 1 + 1 + 1 by omega, List.take_succ_cons,
    List.take_succ_cons, List.take_succ_cons, ← hlen, List.take_length_add_append, List.take_succ_cons,
    List.take_append_of_le_length (by omega)]
  have t' : ∀ rest : List Str, Stop rest → True := fun _ _ => trivial
  have hc := (consumes_points p m.points).append
    ((Consumes.comment (l := "* ZONES\n".toList) (words_star "ZONES".toList)).append
      ((consumes_firstCells .zone h2 0 h4 k).weaken t') t') t'
  have hread := read_consumed (consumes_head version date hc)
  obtain ⟨s, cells, r1, r2, r3, r4, r5⟩ := read_recs (xs := m.points.map (readPoint p)) (zs := zs.take k) (fs := [])
    (zg := []) (fg := []) [] (by
      intro x hx
      obtain ⟨q, _, rfl⟩ := List.mem_map.1 hx
      rfl) (fun e he => by
        rw [List.length_map]
        exact ⟨(h2 e (List.mem_of_mem_take he)).count, (h2 e (List.mem_of_mem_take he)).vertices⟩)
    (by simp) (by simp) (by simp) (by simp) (by simp) (by simp) (fun _ => 0) (fun h => absurd rfl h)
    (fun h => absurd rfl h) (fun h => absurd rfl h)
  have hrecs : allRecs (m.points.map (readPoint p)) (zs.take k) [] [] [] [] =
      pointRecs (m.points.map (readPoint p)) ++ ([] ++ cellRecs .zone 0 (zs.take k)) := by
    simp [allRecs, groupRecs, cellRecs]
  rw [hrecs] at r1
  rw [r1, ok_bind, r2] at hread
  refine ⟨_, hread, rfl, ?_, rfl, rfl⟩
  simp only
  rw [r3, List.append_nil, List.map_take]
  exact List.forall₂_take k h3

end Verif.Mesh
