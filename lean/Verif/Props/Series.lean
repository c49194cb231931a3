import Verif.Lemmas.Series
import Verif.Props.Meshio

/-!
# C73: time series
-/

namespace Verif.Props
open Verif.Py Verif.Model Verif.Mesh Verif.Spec

variable {K D T : Type}

/-- C73. A time series that has been written is read back with the same points, cells and
steps, in the order of the times; a step has the number of its place as time if no times
are given. In the file every array of cell data is cut into parts, which belong to the
blocks of cells if it has one row for every cell. -/
theorem C73_new [LE T] (argsort : List T → List ℕ) (ha : SortsTimes argsort) (ofNat : ℕ → T)
    (points : List (P3 K)) (cells : List CellBlock) (pd cd : Option (List (Data D))) (ts : Option (List T))
    (n : ℕ) (h : Steps pd cd ts n) :
    ∃ f r, writeSeries argsort ofNat points cells pd cd ts = .ok f ∧ readSeries f = .ok r ∧
      r.points = points ∧ r.cells = cells ∧
      r.steps.Perm ((List.range n).map (stepAt ofNat pd cd ts)) ∧ r.steps.Pairwise (fun a b => a.1 ≤ b.1) ∧
      f.points = points ∧ f.cells = cells ∧
      List.Forall₂ (fun s p => p.1 = s.1 ∧ p.2.1 = s.2.1 ∧
        List.Forall₂ (fun kv q => q.1 = kv.1 ∧ q.2.flatten = kv.2 ∧ (cells ≠ [] →
          kv.2.length = (typedCells cells).length → q.2.map List.length = cells.map (·.data.length)))
          s.2.2 p.2.2) r.steps f.steps := by
  let ord := stepOrder argsort ofNat ts n
  refine ⟨⟨points, cells, ord.map fun i => cutStep cells (stepAt ofNat pd cd ts i)⟩,
    ⟨points, cells, ord.map (stepAt ofNat pd cd ts)⟩, ?_, ?_, rfl, rfl, (stepOrder_perm ha h ofNat).map _,
    stepOrder_sorted ha h ofNat, rfl, rfl, ?_⟩
  · rw [writeSeries, seriesSteps_ok ha ofNat cells h]
    rfl
  · unfold readSeries
    simp only
    rw [mapM_of_forall₂ (ys := ord.map (stepAt ofNat pd cd ts))]
    · rfl
    · rw [List.forall₂_map_left_iff, List.forall₂_map_right_iff, List.forall₂_same]
      intro i _
      exact joinStep_cut cells _
  · show List.Forall₂ _ (ord.map _) (ord.map _)
    rw [List.forall₂_map_left_iff, List.forall₂_map_right_iff, List.forall₂_same]
    intro i _
    refine ⟨rfl, rfl, ?_⟩
    show List.Forall₂ _ _ (List.map _ _)
    rw [List.forall₂_map_right_iff, List.forall₂_same]
    intro kv _
    refine ⟨rfl, cut_flatten cells kv.2, fun hc hl => ?_⟩
    show (cut cells kv.2).map List.length = _
    rw [cut_eq]
    exact (split_ok hc (by rw [nCells_typed]; exact hl)).2

/-- Sorting by insertion is one way to sort. -/
def sortIdx (ts : List ℤ) : List ℕ :=
  (ts.zipIdx.insertionSort fun a b => a.1 ≤ b.1).map (·.2)

theorem sortIdx_sorts : SortsTimes sortIdx := by
  intro ts
  have hp : (ts.zipIdx.insertionSort fun a b => a.1 ≤ b.1).Perm ts.zipIdx := List.perm_insertionSort _ _
  refine ⟨?_, ?_⟩
  · have := hp.map (·.2)
    rw [List.zipIdx_map_snd] at this
    rw [List.range_eq_range']
    exact this
  · unfold sortIdx
    rw [List.pairwise_map]
    have hs : (ts.zipIdx.insertionSort fun a b => a.1 ≤ b.1).Pairwise fun a b => a.1 ≤ b.1 :=
      List.pairwise_insertionSort _ _
    refine List.Pairwise.imp_of_mem ?_ hs
    intro a b hma hmb hab s t hs ht
    have h1 := List.mem_zipIdx (hp.mem_iff.1 hma)
    have h2 := List.mem_zipIdx (hp.mem_iff.1 hmb)
    have e1 : a.1 = s := by
      have := h1.2.2
      rw [List.getElem?_eq_getElem (by omega)] at hs
      injection hs with hs
      rw [this, ← hs]
      simp
    have e2 : b.1 = t := by
      have := h2.2.2
      rw [List.getElem?_eq_getElem (by omega)] at ht
      injection ht with ht
      rw [this, ← ht]
      simp
    rw [← e1, ← e2]
    exact hab

/-- Two steps on two triangles and a quad, the later one first. -/
def twoSteps : List (Data ℤ) := [[("P".toList, [4, 5, 6])], [("P".toList, [1, 2, 3]), ("S".toList, [0, 0, 1])]]

example : Steps (T := ℤ) none (some twoSteps) (some [20, 10]) 2 ∧
    writeSeries sortIdx (fun n => (n : ℤ)) (K := ℚ) [] twoTypes.cells none (some twoSteps) (some [20, 10]) =
      .ok ⟨[], twoTypes.cells, [(10, [], [("P".toList, [[1, 2], [3]]), ("S".toList, [[0, 0], [1]])]),
        (20, [], [("P".toList, [[4, 5], [6]])])]⟩ := by
  refine ⟨⟨by decide, by decide, by simp, ?_, ?_⟩, by decide⟩
  · rintro l ⟨⟩; exact .inr rfl
  · rintro l ⟨⟩; rfl

/-- One step with old-style cells. -/
theorem old_step {cells : List CellBlock} (hc : cells ≠ []) (s : T × Data D × Data D) (hn : (s.2.2.map (·.1)).Nodup) :
    ∃ od nd cd', oldData cells (cutStep cells s).2.2 = .ok od ∧
      newData ((grouped cells).map fun c => (c.type, c.data)) od = .ok nd ∧
      joinStep (s.1, s.2.1, nd) = .ok (s.1, s.2.1, cd') ∧
      cd'.Perm (s.2.2.map fun kv => (kv.1, (regroup (cells.map (·.type)) (cut cells kv.2)).flatten)) := by
  have hty : (((grouped cells).map fun c => (c.type, c.data)).map (·.1)) = firsts (cells.map (·.type)) := by
    unfold grouped
    rw [List.map_map, List.map_map]
    exact List.map_id _
  by_cases h0 : s.2.2 = []
  · refine ⟨[], [], [], ?_, ?_, ?_, ?_⟩
    · unfold oldData cutStep
      rw [if_pos (by simp [h0])]
    · rfl
    · rfl
    · rw [h0]; exact .refl _
  · have hod := oldData_ok (cells := cells) (cd := (cutStep cells s).2.2) (by
      intro e he
      obtain ⟨a, -, rfl⟩ := List.mem_map.1 he
      exact cut_length hc a.2) (by simpa [cutStep] using h0)
    obtain ⟨r, hr1, hr2⟩ := newData_ok (cells := cells) (cd := (cutStep cells s).2.2) hc
      (by simp only [cutStep]; rw [List.map_map]; exact hn) hty
    simp only [cutStep] at hr2
    rw [List.map_map] at hr2
    refine ⟨_, r, r.map fun kv => (kv.1, kv.2.flatten), hod, hr1, ?_, ?_⟩
    · unfold joinStep
      simp only
      rw [mapM_ok (g := fun kv : Str × List (List D) => (kv.1, kv.2.flatten))]
      · rfl
      · intro kv hkv
        obtain ⟨a, -, rfl⟩ := List.mem_map.1 (hr2.mem_iff.1 hkv)
        unfold concatPieces
        rw [if_neg]
        · rfl
        · intro hn
          simp only [Function.comp_apply, regroup] at hn
          rw [List.map_eq_nil_iff] at hn
          obtain ⟨c, hcm⟩ := List.exists_mem_of_ne_nil _ hc
          have : c.type ∈ firsts (cells.map (·.type)) := mem_firsts.2 (List.mem_map_of_mem hcm)
          rw [hn] at this
          simp at this
    · refine (hr2.map _).trans ?_
      rw [List.map_map]
      exact List.Perm.of_eq rfl

theorem old_series [LE T] (argsort : List T → List ℕ) (ha : SortsTimes argsort) (ofNat : ℕ → T)
    (points : List (P3 K)) (cells : List CellBlock) (pd cd : Option (List (Data D))) (ts : Option (List T))
    (n : ℕ) (h : Steps pd cd ts n) (hc : cells ≠ [])
    (hr : ∀ a ∈ typedCells cells, ∀ b ∈ typedCells cells, a.1 = b.1 → a.2.length = b.2.length)
    (hn : ∀ i < n, ((stepAt ofNat pd cd ts i).2.2.map (·.1)).Nodup) :
    ∃ f r, writeSeriesOld argsort ofNat points cells pd cd ts = .ok f ∧ readSeriesOld f = .ok r ∧
      r.points = points ∧ r.cells = grouped cells ∧
      List.Forall₂ (fun s p => p.1 = s.1 ∧ p.2.1 = s.2.1 ∧
        p.2.2.Perm (s.2.2.map fun kv => (kv.1, (regroup (cells.map (·.type)) (cut cells kv.2)).flatten)))
        ((stepOrder argsort ofNat ts n).map (stepAt ofNat pd cd ts)) r.steps := by
  have hrect : ∀ t, rectangular ((cells.filter fun c => c.type = t).flatMap (·.data)) = true := by
    intro t
    have hall : ∀ d ∈ (cells.filter fun c => c.type = t).flatMap (·.data), (t, d) ∈ typedCells cells := by
      intro d hd
      obtain ⟨c, hcm, hdc⟩ := List.mem_flatMap.1 hd
      obtain ⟨h1, h2⟩ := List.mem_filter.1 hcm
      have ht : c.type = t := by simpa using h2
      exact List.mem_flatMap.2 ⟨c, h1, List.mem_map.2 ⟨d, hdc, by rw [ht]⟩⟩
    cases hl : (cells.filter fun c => c.type = t).flatMap (·.data) with
    | nil => rfl
    | cons x xs =>
      rw [hl] at hall
      rw [rectangular, List.all_eq_true]
      intro y hy
      have := hr _ (hall y (List.mem_cons_of_mem _ hy)) _ (hall x List.mem_cons_self) rfl
      simpa using this
  have hoc := oldCells_ok hrect
  set oc : OldCells := (grouped cells).map fun c => (c.type, c.data) with hocd
  set ord := stepOrder argsort ofNat ts n with hord
  have hmem : ∀ k ∈ ord, k < n := fun k hk => List.mem_range.1 ((stepOrder_perm ha h ofNat).mem_iff.1 hk)
  have hstep : ∀ i, ∃ od nd cd', i ∈ ord → oldData cells (cutStep cells (stepAt ofNat pd cd ts i)).2.2 = .ok od ∧
      newData oc od = .ok nd ∧
      joinStep ((stepAt ofNat pd cd ts i).1, (stepAt ofNat pd cd ts i).2.1, nd) =
        .ok ((stepAt ofNat pd cd ts i).1, (stepAt ofNat pd cd ts i).2.1, cd') ∧
      cd'.Perm ((stepAt ofNat pd cd ts i).2.2.map fun kv =>
        (kv.1, (regroup (cells.map (·.type)) (cut cells kv.2)).flatten)) := by
    intro i
    by_cases hi : i ∈ ord
    · obtain ⟨od, nd, cd', h1⟩ := old_step hc (stepAt ofNat pd cd ts i) (hn i (hmem i hi))
      exact ⟨od, nd, cd', fun _ => h1⟩
    · exact ⟨[], [], [], fun h => absurd h hi⟩
  choose od nd cd' hs using hstep
  have hne : ord ≠ [] := by
    intro h0
    have := (stepOrder_perm ha h ofNat).length_eq
    rw [← hord, h0, List.length_range] at this
    have := h.pos
    simp at *
    omega
  refine ⟨⟨points, oc, ord.map fun i => ((stepAt ofNat pd cd ts i).1, (stepAt ofNat pd cd ts i).2.1, od i)⟩,
    ⟨points, grouped cells, ord.map fun i => ((stepAt ofNat pd cd ts i).1, (stepAt ofNat pd cd ts i).2.1, cd' i)⟩,
    ?_, ?_, rfl, rfl, ?_⟩
  · unfold writeSeriesOld
    rw [seriesSteps_ok ha ofNat cells h, ok_bind]
    rw [mapM_of_forall₂ (ys := ord.map fun i => (oc, od i))]
    · rw [ok_bind]
      cases hord' : ord with
      | nil => exact absurd hord' hne
      | cons a l =>
        simp only [List.map_cons]
        rw [← hord, hord']
        simp only [List.map_cons, List.zipWith_cons_cons]
        congr 2
        rw [List.zipWith_map_left, List.zipWith_map_right, List.zipWith_self]
        rfl
    · rw [List.forall₂_map_left_iff, List.forall₂_map_right_iff, List.forall₂_same]
      intro i hi
      rw [hoc, ok_bind, (hs i hi).1]
      rfl
  · unfold readSeriesOld
    simp only
    rw [mapM_of_forall₂ (ys := ord.map fun i => ((stepAt ofNat pd cd ts i).1, (stepAt ofNat pd cd ts i).2.1, nd i)), ok_bind,
      mapM_of_forall₂ (ys := ord.map fun i => ((stepAt ofNat pd cd ts i).1, (stepAt ofNat pd cd ts i).2.1, cd' i)), ok_bind,
      hocd, newCells_old]
    · rw [List.forall₂_map_left_iff, List.forall₂_map_right_iff, List.forall₂_same]
      intro i hi
      exact (hs i hi).2.2.1
    · rw [List.forall₂_map_left_iff, List.forall₂_map_right_iff, List.forall₂_same]
      intro i hi
      rw [(hs i hi).2.1]
      rfl
  · simp only
    rw [List.forall₂_map_left_iff, List.forall₂_map_right_iff, List.forall₂_same]
    intro i hi
    exact ⟨rfl, rfl, (hs i hi).2.2.2⟩

/-- C73. The same with meshio 2, where the cells are put together by type: the cells and
all cell data of all steps are moved in the same way. -/
theorem C73_old [LE T] (argsort : List T → List ℕ) (ha : SortsTimes argsort) (ofNat : ℕ → T)
    (points : List (P3 K)) (cells : List CellBlock) (pd cd : Option (List (Data D))) (ts : Option (List T))
    (n : ℕ) (h : Steps pd cd ts n) (hc : cells ≠ [])
    (hr : ∀ a ∈ typedCells cells, ∀ b ∈ typedCells cells, a.1 = b.1 → a.2.length = b.2.length)
    (hn : ∀ i < n, ((stepAt ofNat pd cd ts i).2.2.map (·.1)).Nodup)
    (hl : ∀ i < n, ∀ kv ∈ (stepAt ofNat pd cd ts i).2.2, kv.2.length = (typedCells cells).length) :
    ∃ f r ord steps, ∃ moved : List D → List D, writeSeriesOld argsort ofNat points cells pd cd ts = .ok f ∧ readSeriesOld f = .ok r ∧
      r.points = points ∧ (r.cells.map (·.type)).Nodup ∧ TypeOrder cells ord ∧
      Moved ord (typedCells cells) (typedCells r.cells) ∧
      steps.Perm ((List.range n).map (stepAt ofNat pd cd ts)) ∧ steps.Pairwise (fun a b => a.1 ≤ b.1) ∧
      (∀ s ∈ steps, ∀ kv ∈ s.2.2, Moved ord kv.2 (moved kv.2)) ∧
      List.Forall₂ (fun s p => p.1 = s.1 ∧ p.2.1 = s.2.1 ∧ p.2.2.Perm (s.2.2.map fun kv => (kv.1, moved kv.2)))
        steps r.steps ∧
      ((cells.map (·.type)).Nodup → r.cells = cells ∧ ∀ s ∈ steps, ∀ kv ∈ s.2.2, moved kv.2 = kv.2) := by
  obtain ⟨f, r, h1, h2, h3, h4, h5⟩ := old_series argsort ha ofNat points cells pd cd ts n h hc hr hn
  have hty : (grouped cells).map (·.type) = firsts (cells.map (·.type)) := by
    unfold grouped
    rw [List.map_map]
    exact List.map_id _
  have hsz : ∀ s ∈ (stepOrder argsort ofNat ts n).map (stepAt ofNat pd cd ts), ∀ kv ∈ s.2.2,
      kv.2.length = (typedCells cells).length := by
    intro s hs
    obtain ⟨i, hi, rfl⟩ := List.mem_map.1 hs
    exact hl i (List.mem_range.1 ((stepOrder_perm ha h ofNat).mem_iff.1 hi))
  have hcut : ∀ v : List D, v.length = (typedCells cells).length → (cut cells v).map List.length = cells.map (·.data.length) := by
    intro v hv
    rw [cut_eq]
    exact (split_ok hc (by rw [nCells_typed]; exact hv)).2
  refine ⟨f, r, groupOrder cells, _, fun v => (regroup (cells.map (·.type)) (cut cells v)).flatten, h1, h2, h3, ?_, groupOrder_ok hc, ?_, (stepOrder_perm ha h ofNat).map _,
    stepOrder_sorted ha h ofNat, ?_, h5, ?_⟩
  · rw [h4, hty]; exact firsts_nodup _
  · rw [h4, typedCells_grouped]
    have := groupOrder_moved hc (P := typedPieces cells) (by
      unfold typedPieces
      rw [List.map_map]
      apply List.map_congr_left
      intro c _
      simp)
    rw [typedPieces_flatten] at this
    exact this
  · intro s hs kv hkv
    have := groupOrder_moved hc (hcut kv.2 (hsz s hs kv hkv))
    rw [cut_flatten] at this
    exact this
  · intro hd
    refine ⟨by rw [h4, grouped_of_nodup hd], fun s _ kv _ => ?_⟩
    simp only
    rw [regroup_of_nodup hd, cut_flatten]
    rw [cut_length hc, List.length_map]

example : threeBlocks.cells ≠ [] ∧ ∀ i < 2, ((stepAt (fun n => (n : ℤ)) none (some twoSteps) none i).2.2.map (·.1)).Nodup ∧
    ∀ kv ∈ (stepAt (fun n => (n : ℤ)) none (some twoSteps) none i).2.2, kv.2.length = (typedCells threeBlocks.cells).length := by
  decide

/-- C73. Without data, or if the numbers of steps are different, nothing is written. -/
theorem C73_refuses (argsort : List T → List ℕ) (ofNat : ℕ → T) (points : List (P3 K)) (cells : List CellBlock)
    (pd cd : Option (List (Data D))) (ts : Option (List T))
    (h : (pd.getD [] = [] ∧ cd.getD [] = []) ∨
      (pd.getD [] ≠ [] ∧ cd.getD [] ≠ [] ∧ (pd.getD []).length ≠ (cd.getD []).length) ∨
      (∃ l, ts = some l ∧ ∀ d, (pd = some d ∨ cd = some d) → d ≠ [] → l.length ≠ d.length)) :
    writeSeries argsort ofNat points cells pd cd ts = .error .valueError ∧
      writeSeriesOld argsort ofNat points cells pd cd ts = .error .valueError := by
  have : seriesSteps argsort ofNat cells pd cd ts = .error .valueError := by
    unfold seriesSteps
    simp only
    generalize hnt : (if pd.getD [] ≠ [] then (pd.getD []).length else (cd.getD []).length) = nt
    by_cases h0 : pd.getD [] = [] ∧ cd.getD [] = []
    · rw [if_pos h0]
    rw [if_neg h0]
    by_cases h1 : pd.getD [] ≠ [] ∧ (pd.getD []).length ≠ nt
    · rw [if_pos h1]
    rw [if_neg h1]
    by_cases h2 : cd.getD [] ≠ [] ∧ (cd.getD []).length ≠ nt
    · rw [if_pos h2]
    rw [if_neg h2]
    rcases h with h | ⟨h3, h4, h5⟩ | ⟨l, rfl, hl⟩
    · exact absurd h h0
    · rw [if_pos h3] at hnt
      exact absurd ⟨h4, fun e => h5 (hnt.trans e.symm)⟩ h2
    · rw [if_pos]
      simp only [badTimes, decide_eq_true_eq, ← hnt]
      by_cases h3 : pd.getD [] = []
      · rw [if_neg (by simpa using h3)]
        have h4 : cd.getD [] ≠ [] := fun h4 => h0 ⟨h3, h4⟩
        cases cd with
        | none => exact absurd rfl h4
        | some d => exact hl d (.inr rfl) h4
      · rw [if_pos h3]
        cases pd with
        | none => exact absurd rfl h3
        | some d => exact hl d (.inl rfl) h3
  constructor
  · rw [writeSeries, this]; rfl
  · rw [writeSeriesOld, this]; rfl

example : writeSeries sortIdx (fun n => (n : ℤ)) (K := ℚ) [] twoTypes.cells (some [[]]) (some twoSteps) none =
    .error .valueError := by decide

/-- C73 is violated by cell data of a wrong length: other than in a mesh (C43) they are not
refused but written, in parts that do not belong to the blocks. -/
theorem C73_length_violated : ∃ f : SeriesFile ℚ ℤ ℤ (List CellBlock) (List (Str × List (List ℤ))),
    writeSeries sortIdx (fun n => (n : ℤ)) [] twoTypes.cells none (some [[("P".toList, [1, 2, 3, 4, 5])]]) none = .ok f ∧
      f.steps = [(0, [], [("P".toList, [[1, 2], [3, 4, 5]])])] ∧ twoTypes.cells.map (·.data.length) = [2, 1] :=
  ⟨⟨[], twoTypes.cells, [(0, [], [("P".toList, [[1, 2], [3, 4, 5]])])]⟩, by decide, rfl, by decide⟩

end Verif.Props
