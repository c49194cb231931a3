import Verif.Lemmas.Avsucd
import Verif.Lemmas.Petrasim

/-!
# Lemmas on AVS-UCD mesh files that end early
-/

namespace Verif.Mesh
open Verif.Py Verif.Model Verif.Spec

theorem words_empty : words (strip []) = [] := rfl

/-- Beyond the end of the file rows are empty. -/
theorem avsRows_gen (n : ℕ) (ls : List Str) : avsRows n ls =
    (((ls.take n).map fun l => words (strip l)) ++ List.replicate (n - ls.length) [], ls.drop n) := by
  induction n generalizing ls with
  | zero => simp [avsRows]
  | succ n ih =>
    rw [avsRows]
    cases ls with
    | nil =>
      simp only [nextLine, ih, words_empty]
      simp [List.replicate_succ]
    | cons l ls =>
      simp only [nextLine, ih]
      simp

theorem avsRows_enough {n : ℕ} {ls : List Str} (h : [] ∉ (avsRows n ls).1) : n ≤ ls.length := by
  rw [avsRows_gen] at h
  by_contra hn
  apply h
  apply List.mem_append_right
  rw [List.mem_replicate]
  exact ⟨by omega, rfl⟩

theorem avsRows_more {n : ℕ} {ls : List Str} (h : n ≤ ls.length) (b : List Str) :
    avsRows n (ls ++ b) = ((avsRows n ls).1, (avsRows n ls).2 ++ b) := by
  rw [avsRows_gen, avsRows_gen, List.take_append_of_le_length h, List.drop_append_of_le_length h,
    Nat.sub_eq_zero_of_le h, Nat.sub_eq_zero_of_le (by rw [List.length_append]; omega)]

theorem avsReadNodes_rows {rows : List (List Str)} {x : List (ℤ × ℕ) × List (List Flt)} (h : avsReadNodes rows = .ok x) :
    [] ∉ rows ∧ rows ≠ [] := by
  rw [avsReadNodes] at h
  obtain ⟨data, hd, h⟩ := bind_eq_ok.1 h
  split at h
  · cases h
  split at h
  · cases h
  · next hne =>
    obtain ⟨ids, hi, h⟩ := bind_eq_ok.1 h
    have hf := mapM_eq_ok hd
    constructor
    · intro hm
      obtain ⟨i, hi1, hi2⟩ := List.getElem_of_mem hm
      have hl := hf.length_eq
      have h1 := List.forall₂_iff_get.1 hf |>.2 i hi1 (by omega)
      simp only [List.get_eq_getElem] at h1
      rw [hi2] at h1
      have h2 : data[i] = [] := by
        simpa [List.mapM_nil, pure, Except.pure] using h1.symm
      have h3 : data[i] ∈ data := List.getElem_mem _
      obtain ⟨y, hy⟩ := mapM_mem hi h3
      rw [h2] at hy
      cases hy
    · rintro rfl
      cases hf
      exact hne rfl

theorem avsReadCell_nil (ids : List (ℤ × ℕ)) : avsReadCell ids [] = .error .indexError := rfl

theorem avsLabels_rest {k : ℕ} {ls : List Str} {x : List Str × List Str} (h : avsLabels k ls = .ok x) : x.2 = ls.drop k := by
  induction k generalizing ls x with
  | zero => cases h; simp
  | succ k ih =>
    rw [avsLabels] at h
    cases ls with
    | nil =>
      simp only [nextLine] at h
      obtain ⟨t, -, h⟩ := bind_eq_ok.1 h
      obtain ⟨y, hy, h⟩ := bind_eq_ok.1 h
      cases h
      simpa using ih hy
    | cons l ls =>
      simp only [nextLine] at h
      obtain ⟨t, -, h⟩ := bind_eq_ok.1 h
      obtain ⟨y, hy, h⟩ := bind_eq_ok.1 h
      cases h
      simpa using ih hy

theorem avsLabels_more {k : ℕ} {ls : List Str} {x : List Str × List Str} (h : avsLabels k ls = .ok x) (hk : k ≤ ls.length)
    (b : List Str) : avsLabels k (ls ++ b) = .ok (x.1, x.2 ++ b) := by
  induction k generalizing ls x with
  | zero => cases h; rfl
  | succ k ih =>
    cases ls with
    | nil => simp at hk
    | cons l ls =>
      rw [List.cons_append, avsLabels]
      rw [avsLabels] at h
      simp only [nextLine] at h ⊢
      obtain ⟨t, ht, h⟩ := bind_eq_ok.1 h
      obtain ⟨y, hy, h⟩ := bind_eq_ok.1 h
      cases h
      rw [ht, ok_bind, ih hy (by simpa using hk), ok_bind]

theorem foldlM_mem {α β : Type} {f : β → α → Except PyErr β} {xs : List α} {s t : β} (h : xs.foldlM f s = .ok t)
    {x : α} (hx : x ∈ xs) : ∃ s' t', f s' x = .ok t' := by
  induction xs generalizing s with
  | nil => simp at hx
  | cons y ys ih =>
    rw [List.foldlM_cons] at h
    obtain ⟨u, hu, h⟩ := bind_eq_ok.1 h
    rcases List.mem_cons.1 hx with rfl | hx
    · exact ⟨s, u, hu⟩
    · exact ih h hx

theorem avsReadData_more {junk : Flt} {n : ℕ} {ids : List (ℤ × ℕ)} {ls : List Str} {x : List (Str × NArray) × List Str}
    (hn : n ≠ 0) (h : avsReadData junk n ids ls = .ok x) (b : List Str) :
    avsReadData junk n ids (ls ++ b) = .ok (x.1, x.2 ++ b) := by
  rw [avsReadData] at h
  simp only at h
  obtain ⟨sizes, hs, h⟩ := bind_eq_ok.1 h
  obtain ⟨⟨labels, ls'⟩, hl, h⟩ := bind_eq_ok.1 h
  obtain ⟨arrays, ha, h⟩ := bind_eq_ok.1 h
  simp only at h
  obtain ⟨data, hd, h⟩ := bind_eq_ok.1 h
  cases h
  have hr : [] ∉ (avsRows n ls').1 := by
    intro hm
    obtain ⟨s', t', hst⟩ := foldlM_mem hd hm
    cases hst
  have hle := avsRows_enough hr
  have hdrop := avsLabels_rest hl
  simp only at hdrop
  cases ls with
  | nil =>
    rw [nextLine] at hdrop
    simp only [List.drop_nil] at hdrop
    rw [hdrop] at hle
    simp at hle
    exact absurd hle hn
  | cons l ls =>
    have hk : sizes.length ≤ ls.length := by
      rw [hdrop, nextLine, List.length_drop] at hle
      simp only at hle
      omega
    have hl' := avsLabels_more hl hk b
    rw [List.cons_append, avsReadData]
    simp only [nextLine] at hs hl' ⊢
    rw [hs, ok_bind, hl', ok_bind]
    simp only
    rw [ha, ok_bind, avsRows_more hle]
    simp only
    rw [hd, ok_bind]

theorem avsStart_more (ls b : List Str) : avsStart ls = ([], []) ∨
    avsStart (ls ++ b) = ((avsStart ls).1, (avsStart ls).2 ++ b) := by
  induction ls with
  | nil => exact .inl rfl
  | cons l ls ih =>
    rw [List.cons_append, avsStart, avsStart]
    split
    · exact ih
    · exact .inr rfl

/-- Lines added to a file that can be read do not matter. -/
theorem readAvs_more {junk : Flt} {ls : List Str} {r : AvsRead} (h : readAvs junk ls = .ok r) (b : List Str) :
    readAvs junk (ls ++ b) = .ok r := by
  rcases avsStart_more ls b with h0 | h0
  · rw [readAvs, h0] at h
    cases h
  rw [readAvs] at h ⊢
  rw [h0]
  generalize avsStart ls = st at h
  obtain ⟨l, ls⟩ := st
  simp only at h ⊢
  obtain ⟨⟨np, nc, nnd, ncd⟩, hc, h⟩ := bind_eq_ok.1 h
  rw [hc, ok_bind]
  simp only at h ⊢
  obtain ⟨⟨pids, points⟩, hp, h⟩ := bind_eq_ok.1 h
  obtain ⟨hp1, hp2⟩ := avsReadNodes_rows hp
  rw [avsRows_more (avsRows_enough hp1)]
  simp only at h ⊢
  rw [hp, ok_bind]
  have hnp : np.toNat ≠ 0 := by
    intro h0
    rw [h0] at hp2
    exact hp2 rfl
  simp only at h ⊢
  obtain ⟨cs, hcs, h⟩ := bind_eq_ok.1 h
  have hc1 : [] ∉ (avsRows nc.toNat (avsRows np.toNat ls).2).1 := by
    intro hm
    obtain ⟨y, hy⟩ := mapM_mem hcs hm
    cases hy
  rw [avsRows_more (avsRows_enough hc1)]
  simp only at h ⊢
  rw [hcs, ok_bind]
  obtain ⟨blocks, hb, h⟩ := bind_eq_ok.1 h
  rw [hb, ok_bind]
  obtain ⟨⟨pdata, ls1⟩, hpd, h⟩ := bind_eq_ok.1 h
  obtain ⟨⟨cdata, ls2⟩, hcd, h⟩ := bind_eq_ok.1 h
  have hpd' : (if nnd ≠ 0 then avsReadData junk np.toNat pids ((avsRows nc.toNat (avsRows np.toNat ls).2).2 ++ b)
      else .ok ([], (avsRows nc.toNat (avsRows np.toNat ls).2).2 ++ b) : Except PyErr (List (Str × NArray) × List Str)) =
      .ok (pdata, ls1 ++ b) := by
    split at hpd
    · next hnnd => rw [if_pos hnnd, avsReadData_more hnp hpd]
    · next hnnd => rw [if_neg hnnd]; cases hpd; rfl
  simp only at h ⊢
  rw [hpd', ok_bind]
  simp only at h hcd ⊢
  have hnc : nc.toNat ≠ 0 := by
    intro h0
    rw [h0] at hcs
    cases hcs
    cases hb
    rw [List.reverse_nil, if_pos rfl] at h
    cases h
  have hcd' : (if ncd ≠ 0 then avsReadData junk nc.toNat (updateDict [] ((cs.map (·.id)).zipIdx)) (ls1 ++ b)
      else .ok ([], ls1 ++ b) : Except PyErr (List (Str × NArray) × List Str)) = .ok (cdata, ls2 ++ b) := by
    split at hcd
    · next hncd => rw [if_pos hncd, avsReadData_more hnc hcd]
    · next hncd => rw [if_neg hncd]; cases hcd; rfl
  rw [hcd', ok_bind]
  exact h

/-! ### written files -/

theorem avsReadNodes_cut {points : List (P3 Flt)} (hlen : points.length < 2 ^ 53)
    (hd : ∀ p ∈ points, IsDouble p.x ∧ IsDouble p.y ∧ IsDouble p.z) {j : ℕ} (hj : j < points.length) :
    avsReadNodes ((((avsNodes points).take j).map fun l => words (strip l)) ++ List.replicate (points.length - j) []) =
      .error (if j = 0 then .indexError else .valueError) := by
  have h1 : (((avsNodes points).take j).map fun l => words (strip l)).mapM (fun r => r.mapM toFloat) =
      .ok ((points.zipIdx.take j).map fun e => Flt.fin false ((e.2 + 1 : ℕ) : ℚ≥0) :: coords e.1) := by
    rw [List.map_take, avsNodes_words hd, ← List.map_take, List.mapM_map]
    apply mapM_ok
    intro e he
    have he := List.mem_of_mem_take he
    obtain ⟨i1, i2, i3⟩ := hd e.1 (List.fst_mem_of_mem_zipIdx he)
    have hi : e.2 + 1 < 2 ^ 53 := by
      have := List.snd_lt_of_mem_zipIdx he
      omega
    show List.mapM toFloat [natStr (e.2 + 1), fltStr e.1.x, fltStr e.1.y, fltStr e.1.z] = _
    simp only [List.mapM_cons, List.mapM_nil, toFloat_natStr hi, toFloat_fltStr i1, toFloat_fltStr i2,
      toFloat_fltStr i3]
    rfl
  have h2 : (List.replicate (points.length - j) ([] : List Str)).mapM (fun r => r.mapM toFloat) =
      .ok (List.replicate (points.length - j) ([] : List Flt)) := by
    rw [mapM_ok (g := fun _ => ([] : List Flt))]
    · simp
    · intro r hr
      rw [(List.mem_replicate.1 hr).2]
      rfl
  rw [avsReadNodes, List.mapM_append, h1, ok_bind, h2, ok_bind]
  obtain ⟨d, hd'⟩ : ∃ d, points.length - j = d + 1 := ⟨points.length - j - 1, by omega⟩
  rw [hd', List.replicate_succ]
  by_cases h0 : j = 0
  · subst h0
    rw [if_pos rfl]
    simp only [List.take_zero, List.map_nil, List.nil_append, pure, Except.pure, ok_bind]
    have hr : rectangular (([] : List Flt) :: List.replicate d []) = true :=
      rectangular_of (n := 0) fun r hr => by
        rw [← List.replicate_succ] at hr
        rw [(List.mem_replicate.1 hr).2]
        rfl
    rw [hr]
    rfl
  · rw [if_neg h0]
    obtain ⟨j, rfl⟩ := Nat.exists_eq_succ_of_ne_zero h0
    cases points with
    | nil => simp at hj
    | cons p ps =>
      rw [List.zipIdx_cons, List.take_succ_cons, List.map_cons, List.cons_append]
      simp only [pure, Except.pure, ok_bind]
      have hr : rectangular ((Flt.fin false ((0 + 1 : ℕ) : ℚ≥0) :: coords p) ::
          (List.map (fun e : P3 Flt × ℕ => Flt.fin false ((e.2 + 1 : ℕ) : ℚ≥0) :: coords e.1) ((ps.zipIdx (0 + 1)).take j) ++
            [] :: List.replicate d [])) = false := by
        rw [rectangular]
        rw [← Bool.not_eq_true, List.all_eq_true]
        intro hall
        have := hall [] (by simp)
        simp at this
      rw [hr]
      rfl

theorem foldlM_bad {α β : Type} {f : β → α → Except PyErr β} {xs : List α} {x : α} {e : PyErr}
    (hbad : ∀ s, f s x = .error e) {s t : β} (hs : xs.foldlM f s = .ok t) (ys : List α) :
    (xs ++ x :: ys).foldlM f s = .error e := by
  rw [List.foldlM_append, hs, ok_bind, List.foldlM_cons, hbad]
  rfl

theorem mapM_error_at {α β : Type} {f : α → Except PyErr β} {xs : List α} {x : α} {e : PyErr}
    (hbad : f x = .error e) {t : List β} (hs : xs.mapM f = .ok t) (ys : List α) :
    (xs ++ x :: ys).mapM f = .error e := by
  rw [List.mapM_append, hs, ok_bind, List.mapM_cons, hbad]
  rfl

theorem mapM_take {α β : Type} {f : α → Except PyErr β} {xs : List α} {t : List β} (hs : xs.mapM f = .ok t) (j : ℕ) :
    ∃ u, (xs.take j).mapM f = .ok u := by
  rw [← List.take_append_drop j xs, List.mapM_append] at hs
  obtain ⟨u, hu, -⟩ := bind_eq_ok.1 hs
  exact ⟨u, hu⟩

theorem foldlM_take {α β : Type} {f : β → α → Except PyErr β} {xs : List α} {s t : β} (hs : xs.foldlM f s = .ok t) (j : ℕ) :
    ∃ u, (xs.take j).foldlM f s = .ok u := by
  rw [← List.take_append_drop j xs, List.foldlM_append] at hs
  obtain ⟨u, hu, -⟩ := bind_eq_ok.1 hs
  exact ⟨u, hu⟩

theorem avsLabel_total (l : Str) : ∃ t, avsLabel l = .ok t := by
  rw [avsLabel]
  cases h : splitOn ',' (strip l) with
  | nil => exact absurd h (splitOn_ne _ _)
  | cons t ts => exact ⟨_, rfl⟩

theorem avsLabels_total (k : ℕ) (ls : List Str) : ∃ ts, avsLabels k ls = .ok (ts, ls.drop k) := by
  have : ∃ x, avsLabels k ls = .ok x := by
    induction k generalizing ls with
    | zero => exact ⟨_, rfl⟩
    | succ k ih =>
      rw [avsLabels]
      obtain ⟨t, ht⟩ := avsLabel_total (nextLine ls).1
      obtain ⟨x, hx⟩ := ih (nextLine ls).2
      simp only
      rw [ht, ok_bind, hx, ok_bind]
      exact ⟨_, rfl⟩
  obtain ⟨⟨ts, r⟩, hx⟩ := this
  have := avsLabels_rest hx
  simp only at this
  exact ⟨ts, by rw [hx, this]⟩

/-- Data that end early. -/
theorem avsReadData_cut {junk : Flt} {n : ℕ} {ids : List (ℤ × ℕ)} {ls : List Str} {x : List (Str × NArray)}
    (hn : n ≠ 0) (h : avsReadData junk n ids ls = .ok (x, [])) {j : ℕ} (hj : j < ls.length) :
    avsReadData junk n ids (ls.take j) = .error .indexError := by
  rw [avsReadData] at h
  simp only at h
  obtain ⟨sizes, hs, h⟩ := bind_eq_ok.1 h
  obtain ⟨⟨labels, ls'⟩, hl, h⟩ := bind_eq_ok.1 h
  obtain ⟨arrays, ha, h⟩ := bind_eq_ok.1 h
  simp only at h
  obtain ⟨data, hd, h⟩ := bind_eq_ok.1 h
  have hdrop := avsLabels_rest hl
  simp only at hdrop
  have hend : (avsRows n ls').2 = [] := by
    injection h with h
    exact (Prod.mk.inj h).2
  rw [avsRows_gen] at hend
  simp only at hend
  have hlen : ls'.length ≤ n := List.drop_eq_nil_iff.1 hend
  obtain ⟨n, rfl⟩ := Nat.exists_eq_succ_of_ne_zero hn
  cases ls with
  | nil => simp at hj
  | cons l ls =>
    simp only [nextLine] at hs hl hdrop
    cases j with
    | zero =>
      rw [List.take_zero, avsReadData]
      simp only [nextLine]
      rfl
    | succ j =>
      rw [List.take_succ_cons, avsReadData]
      simp only [nextLine]
      obtain ⟨ts, hts⟩ := avsLabels_total sizes.length (ls.take j)
      rw [hs, ok_bind, hts, ok_bind]
      simp only
      rw [ha, ok_bind]
      have hj : j < ls.length := by simpa using hj
      obtain ⟨d, hdd⟩ : ∃ d, n + 1 - (List.drop sizes.length (ls.take j)).length = d + 1 := by
        refine ⟨n - (List.drop sizes.length (ls.take j)).length, ?_⟩
        have h1 : (List.drop sizes.length (ls.take j)).length ≤ n := by
          rw [List.length_drop, List.length_take]
          rw [hdrop, List.length_drop] at hlen
          omega
        omega
      rw [avsRows_gen, hdd, List.replicate_succ]
      simp only
      by_cases hjk : j ≤ sizes.length
      · rw [List.drop_eq_nil_of_le (by rw [List.length_take]; omega)]
        rfl
      · have hts' := avsLabels_more hts (by rw [List.length_take]; omega) (ls.drop j)
        rw [List.take_append_drop] at hts'
        rw [hts'] at hl
        injection hl with hl
        obtain ⟨rfl, -⟩ := Prod.mk.inj hl
        rw [avsRows_gen] at hd
        simp only at hd
        have hsub : ((List.drop sizes.length (ls.take j)).take (n + 1)).map (fun l => words (strip l)) =
            (((ls'.take (n + 1)).map fun l => words (strip l)) ++ List.replicate (n + 1 - ls'.length) []).take
              (j - sizes.length) := by
          rw [List.take_of_length_le (l := ls') hlen, List.drop_take, hdrop]
          have hle : ((ls.drop sizes.length).map fun l => words (strip l)).length = ls.length - sizes.length := by
            rw [List.length_map, List.length_drop]
          rw [List.take_append_of_le_length (by rw [hle]; omega), ← List.map_take]
          congr 1
          apply List.take_of_length_le
          rw [List.length_take, List.length_drop]
          rw [hdrop, List.length_drop] at hlen
          omega
        obtain ⟨u, hu⟩ := foldlM_take hd (j - sizes.length)
        rw [hsub, foldlM_bad (x := []) (e := .indexError) (fun _ => rfl) hu]
        rfl

/-- What is raised for a written file with `np` points of which `k` lines are left. -/
theorem readAvs_cut (version : Str) {m : AvsMesh} (h : AvsOk m) {ls : List Str} (hw : writeAvs version m = .ok ls) {k : ℕ}
    (hk : k < ls.length) (junk : Flt) :
    readAvs junk (ls.take k) = .error (if k = 2 ∨ 2 + m.points.length ≤ k then .indexError else .valueError) := by
  obtain ⟨mats, hml, hms, hw'⟩ := writeAvs_eq version h.toAvsPlain
  rw [hw'] at hw
  cases hw
  clear hw' hms
  match k with
  | 0 =>
    rw [if_neg (by omega)]
    rfl
  | 1 =>
    have : "# Written by toughio v".toList ++ version ++ ['\n'] =
      '#' :: (" Written by toughio v".toList ++ version ++ ['\n']) := rfl
    rw [List.take_succ_cons, List.take_zero, readAvs, this, avsStart, if_pos (strip_hash _), if_neg (by omega)]
    rfl
  | k + 2 =>
    have hco : CellsOk m.points.length m.cells := h.vertices
    obtain ⟨blocks, hb, hb1, hb2, hb3⟩ := blocks_read hco mats
    have hcids : updateDict [] ((((typedCells m.cells).zipIdx.map (readCell mats)).map (·.id)).zipIdx) =
        numbering (nCells m.cells) := by
      rw [← numbering_eq, ← typedCells_length]
      congr 2
      apply List.ext_getElem
      · simp
      · intro i j1 j2
        simp [readCell]
    have hnc : nCells m.cells ≠ 0 := by
      intro h0
      obtain ⟨b, hbm, hbd⟩ := h.cells
      obtain ⟨c, hc⟩ := List.exists_mem_of_ne_nil _ hbd
      have : (b.type, c) ∈ typedCells m.cells := List.mem_flatMap.2 ⟨b, hbm, List.mem_map.2 ⟨c, hc, rfl⟩⟩
      rw [← typedCells_length, List.length_eq_zero_iff] at h0
      rw [h0] at this
      cases this
    have hnp : m.points.length ≠ 0 := by
      intro h0
      exact h.points.1 (List.length_eq_zero_iff.1 h0)
    have hnl : (avsNodes m.points).length = m.points.length := by simp [avsNodes]
    have hclen : ((typedCells m.cells).zipIdx.map fun e => spacedLine (cellWords mats e)).length = nCells m.cells := by
      simp [typedCells_length]
    have hreadc := avsReadCells_eq hco mats
    have hk : k < (avsNodes m.points ++ ((typedCells m.cells).zipIdx.map fun e => spacedLine (cellWords mats e)) ++
          optLines m.points.length m.pointData ++ optLines (nCells m.cells) (otherData m)).length := by
      simpa using hk
    rw [List.take_succ_cons, List.take_succ_cons, readAvs, avsStart_eq]
    simp only
    rw [avsCounts_eq, ok_bind]
    simp only [Int.toNat_natCast]
    rw [List.append_assoc, List.append_assoc] at hk ⊢
    by_cases hk1 : k < m.points.length
    · rw [List.take_append_of_le_length (by omega), avsRows_gen]
      simp only
      rw [List.length_take, hnl, Nat.min_eq_left hk1.le, List.take_take, Nat.min_eq_right hk1.le,
        avsReadNodes_cut h.points.2.1 h.points.2.2 hk1]
      by_cases h0 : k = 0
      · subst h0
        rfl
      · rw [if_neg h0, if_neg (by omega)]
        rfl
    rw [if_pos (by omega)]
    obtain ⟨k, rfl⟩ := Nat.exists_eq_add_of_le (not_lt.1 hk1)
    rw [← hnl, List.take_length_add_append, hnl, avsRows_eq hnl]
    simp only
    rw [avsReadNodes_eq h.points.1 h.points.2.1 h.points.2.2, ok_bind]
    simp only
    rw [List.length_append, hnl, Nat.add_lt_add_iff_left] at hk
    by_cases hk2 : k < nCells m.cells
    · rw [List.take_append_of_le_length (by omega), avsRows_gen]
      simp only
      obtain ⟨d, hd⟩ : ∃ d, nCells m.cells - k = d + 1 := ⟨nCells m.cells - k - 1, by omega⟩
      rw [List.length_take, hclen, Nat.min_eq_left hk2.le, List.take_take, Nat.min_eq_right hk2.le, hd,
        List.replicate_succ]
      obtain ⟨u, hu⟩ := mapM_take hreadc k
      rw [← List.map_take] at hu
      rw [mapM_error_at (x := []) (avsReadCell_nil _) hu]
      rfl
    obtain ⟨k, rfl⟩ := Nat.exists_eq_add_of_le (not_lt.1 hk2)
    rw [← hclen, List.take_length_add_append, hclen, avsRows_eq hclen]
    simp only
    rw [hreadc, ok_bind, hb, ok_bind, hcids]
    rw [List.length_append, hclen, Nat.add_lt_add_iff_left] at hk
    have hpd := readData_eq junk h.pointData []
    have hcd := readData_eq junk h.cellData []
    rw [List.append_nil] at hpd hcd
    rw [typedCells_length] at hcd
    by_cases hk3 : k < (optLines m.points.length m.pointData).length
    · rw [List.take_append_of_le_length hk3.le]
      by_cases h0 : totalCols m.pointData = 0
      · rw [optLines, if_neg (by simpa using h0)] at hk3
        simp at hk3
      · rw [if_pos (by exact_mod_cast h0)] at hpd ⊢
        have := avsReadData_cut hnp hpd hk3
        rw [this]
        rfl
    · obtain ⟨k, rfl⟩ := Nat.exists_eq_add_of_le (not_lt.1 hk3)
      rw [List.take_length_add_append, readData_eq junk h.pointData, ok_bind]
      simp only
      rw [List.length_append, Nat.add_lt_add_iff_left] at hk
      by_cases h0 : totalCols (otherData m) = 0
      · rw [optLines, if_neg (by simpa using h0)] at hk
        simp at hk
      · rw [if_pos (by exact_mod_cast h0)] at hcd ⊢
        rw [avsReadData_cut hnc hcd hk]
        rfl

end Verif.Mesh
