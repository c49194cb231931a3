import Verif.Spec.Mesh
import Verif.Lemmas.Layout
import Verif.Lemmas.Registry
import Verif.Lemmas.Output
import Mathlib.Data.List.Basic
import Mathlib.Tactic.Linarith
import Mathlib.Tactic.Ring
import Mathlib.Tactic.FieldSimp

/-!
# Helper lemmas about meshes
-/

namespace Verif.Mesh
open Verif.Py Verif.Model Verif.Spec

/-! ## Splitting -/

theorem cumsum_length {α : Type} [Add α] (l : List α) : (cumsum l).length = l.length := by
  induction l with
  | nil => rfl
  | cons x l ih => simp [cumsum, ih]

theorem cumsum_getLast {l : List ℕ} (h : l ≠ []) : (cumsum l).getLast? = some l.sum := by
  induction l with
  | nil => exact absurd rfl h
  | cons x l ih =>
    cases l with
    | nil => simp [cumsum]
    | cons y l =>
      have := ih (by simp)
      rw [cumsum, List.getLast?_cons, List.getLast?_map, this]
      simp

/-- The slices between consecutive sums. -/
theorem slices {α : Type} : ∀ (l : List ℕ) (arr : List α) (a : ℕ), arr.length = a + l.sum →
    let s := List.zipWith (fun st en => (arr.take en).drop st) (a :: (cumsum l).map (a + ·))
      ((cumsum l).map (a + ·))
    s.flatten = arr.drop a ∧ s.map List.length = l
  | [], arr, a, h => by
    simp only [List.sum_nil, Nat.add_zero] at h
    simp [cumsum, h]
  | x :: l, arr, a, h => by
    rw [List.sum_cons] at h
    have ih := slices l arr (a + x) (by omega)
    simp only [cumsum, List.map_cons, List.map_map, List.zipWith_cons_cons, List.flatten_cons] at ih ⊢
    have e : ((fun b => a + b) ∘ fun b => x + b) = fun b => a + x + b := by
      funext b; simp only [Function.comp]; omega
    rw [e]
    refine ⟨?_, ?_⟩
    · rw [ih.1]
      rw [List.drop_take, ← List.drop_drop]
      have : a + x - a = x := by omega
      rw [this, List.take_append_drop]
    · rw [ih.2]
      congr 1
      simp
      omega

theorem split_ok {α : Type} {cells : List CellBlock} {arr : List α} (hc : cells ≠ [])
    (h : arr.length = nCells cells) :
    (npSplit arr (cumsum (cells.map (·.data.length))).dropLast).flatten = arr ∧
      (npSplit arr (cumsum (cells.map (·.data.length))).dropLast).map List.length =
        cells.map (·.data.length) := by
  have hne : cells.map (·.data.length) ≠ [] := by simpa using hc
  have h0 := slices (cells.map (·.data.length)) arr 0 (by simpa [nCells] using h)
  have e : (cumsum (cells.map (·.data.length))).dropLast ++ [arr.length] =
      cumsum (cells.map (·.data.length)) := by
    have h1 := cumsum_getLast hne
    have h2 : arr.length = (cells.map (·.data.length)).sum := h
    rw [← h2] at h1
    exact List.dropLast_append_getLast? _ h1
  simp only [npSplit, e, List.tail_cons]
  simpa using h0

/-! ## Selections -/

theorem mem_whereTrue (mask : List Bool) (i : ℕ) : i ∈ whereTrue mask ↔ mask[i]? = some true := by
  unfold whereTrue
  simp only [List.mem_map, List.mem_filter, Prod.exists, List.mem_zipIdx_iff_getElem?]
  constructor
  · rintro ⟨b, j, ⟨h, hb⟩, rfl⟩
    rw [h]
    simpa using hb
  · intro h
    exact ⟨true, i, ⟨h, rfl⟩, rfl⟩

theorem whereTrue_sorted (mask : List Bool) : (whereTrue mask).Pairwise (· < ·) := by
  unfold whereTrue
  rw [List.pairwise_map]
  refine List.Pairwise.filter _ ?_
  rw [← List.pairwise_map (f := Prod.snd) (R := (· < ·))]
  rw [show (mask.zipIdx.map Prod.snd) = List.range' 0 mask.length from List.zipIdx_map_snd 0 mask]
  exact List.pairwise_lt_range'

theorem foldl_set_get {α : Type} (idx : List ℕ) (data : List α) (v : α) (j : ℕ) :
    (idx.foldl (fun d i => d.set i v) data)[j]? =
      if j ∈ idx ∧ j < data.length then some v else data[j]? := by
  induction idx generalizing data with
  | nil => simp
  | cons i idx ih =>
    rw [List.foldl_cons, ih, List.length_set]
    by_cases h1 : j ∈ idx ∧ j < data.length
    · simp [h1]
    · rw [if_neg h1, List.getElem?_set]
      by_cases h2 : i = j
      · subst h2
        by_cases h3 : i < data.length
        · simp [h3]
        · simp [h3]
      · rw [if_neg h2, if_neg]
        rintro ⟨h3, h4⟩
        rcases List.mem_cons.1 h3 with h5 | h5
        · exact h2 h5.symm
        · exact h1 ⟨h5, h4⟩

theorem foldl_set_length {α : Type} (idx : List ℕ) (data : List α) (v : α) :
    (idx.foldl (fun d i => d.set i v) data).length = data.length := by
  induction idx generalizing data with
  | nil => rfl
  | cons i idx ih => rw [List.foldl_cons, ih, List.length_set]

theorem assignAt_ok {data : List ℤ} {idx : List ℕ} (v : ℤ) (h : ∀ i ∈ idx, i < data.length) :
    ∃ d, assignAt data idx v = .ok d ∧ Assigned (· ∈ idx) v data d := by
  refine ⟨_, if_pos (by simpa using h), foldl_set_length _ _ _, fun i hi => ⟨fun hm => ?_, fun hm => ?_⟩⟩
  · rw [foldl_set_get, if_pos ⟨hm, hi⟩]
  · rw [foldl_set_get, if_neg (fun h' => hm h'.1)]

theorem le_foldl_max (xs : List ℤ) (x : ℤ) : x ≤ xs.foldl max x ∧ ∀ y ∈ xs, y ≤ xs.foldl max x := by
  induction xs generalizing x with
  | nil => simp
  | cons a xs ih =>
    rw [List.foldl_cons]
    obtain ⟨h1, h2⟩ := ih (max x a)
    refine ⟨le_trans (le_max_left _ _) h1, fun y hy => ?_⟩
    rcases List.mem_cons.1 hy with rfl | hy
    · exact le_trans (le_max_right _ _) h1
    · exact h2 y hy

theorem foldl_max_mem (xs : List ℤ) (x : ℤ) : xs.foldl max x ∈ x :: xs := by
  induction xs generalizing x with
  | nil => simp
  | cons a xs ih =>
    rw [List.foldl_cons]
    rcases List.mem_cons.1 (ih (max x a)) with h | h
    · rw [h]
      rcases max_choice x a with h | h <;> rw [h] <;> simp
    · exact List.mem_cons_of_mem _ (List.mem_cons_of_mem _ h)

theorem maxInt_ok {l : List ℤ} (h : l ≠ []) :
    ∃ v, maxInt l = .ok v ∧ v ∈ l ∧ ∀ x ∈ l, x ≤ v := by
  cases l with
  | nil => exact absurd rfl h
  | cons x xs =>
    refine ⟨_, rfl, foldl_max_mem _ _, fun y hy => ?_⟩
    rcases List.mem_cons.1 hy with rfl | hy
    · exact (le_foldl_max xs y).1
    · exact (le_foldl_max xs x).2 y hy

theorem dictSet_mem {κ β : Type} [DecidableEq κ] {d : List (κ × β)} (hd : (d.map (·.1)).Nodup)
    (k : κ) (v : β) (k' : κ) (e : β) :
    (k', e) ∈ dictSet d k v ↔ (k' = k ∧ e = v) ∨ (k' ≠ k ∧ (k', e) ∈ d) := by
  induction d with
  | nil => simp [dictSet]
  | cons a d ih =>
    obtain ⟨a1, a2⟩ := a
    rw [List.map_cons, List.nodup_cons] at hd
    rw [dictSet]
    by_cases h : a1 = k
    · subst h
      rw [if_pos rfl]
      simp only [List.mem_cons, Prod.mk.injEq]
      constructor
      · rintro (h | h)
        · exact .inl h
        · right
          refine ⟨?_, .inr h⟩
          rintro rfl
          exact hd.1 (List.mem_map_of_mem (f := (·.1)) h)
      · rintro (h | ⟨h1, h2 | h2⟩)
        · exact .inl h
        · exact absurd h2.1 h1
        · exact .inr h2
    · rw [if_neg h, List.mem_cons, ih hd.2, List.mem_cons, Prod.mk.injEq]
      constructor
      · rintro (⟨rfl, rfl⟩ | h | ⟨h1, h2⟩)
        · exact .inr ⟨h, .inl ⟨rfl, rfl⟩⟩
        · exact .inl h
        · exact .inr ⟨h1, .inr h2⟩
      · rintro (h | ⟨h1, h2 | h2⟩)
        · exact .inr (.inl h)
        · exact .inl h2
        · exact .inr (.inr ⟨h1, h2⟩)

theorem lookup_eq_some_of_mem {κ β : Type} [DecidableEq κ] {d : List (κ × β)}
    (hd : (d.map (·.1)).Nodup) {k : κ} {v : β} : d.lookup k = some v ↔ (k, v) ∈ d := by
  induction d with
  | nil => simp
  | cons a d ih =>
    obtain ⟨a1, a2⟩ := a
    rw [List.map_cons, List.nodup_cons] at hd
    rw [List.lookup_cons]
    by_cases h : k = a1
    · subst h
      simp only [beq_self_eq_true, Option.some.injEq, List.mem_cons, Prod.mk.injEq, true_and]
      constructor
      · rintro rfl; exact .inl rfl
      · rintro (rfl | h)
        · rfl
        · exact absurd (List.mem_map_of_mem (f := (·.1)) h) hd.1
    · have : (k == a1) = false := by simpa using h
      rw [this]
      simp only [List.mem_cons, Prod.mk.injEq]
      rw [ih hd.2]
      constructor
      · exact .inr
      · rintro (h' | h')
        · exact absurd h'.1 h
        · exact h'

theorem dictGet_eq_ok {κ β : Type} [DecidableEq κ] {d : List (κ × β)}
    (hd : (d.map (·.1)).Nodup) {k : κ} {v : β} : dictGet d k = .ok v ↔ (k, v) ∈ d := by
  rw [← lookup_eq_some_of_mem hd]
  unfold dictGet
  cases d.lookup k <;> simp

/-! ## Centres -/

section
variable {K : Type} [Field K]

theorem rowsAt_ok {α : Type} {pts : List α} {c : List ℕ} {ps : List α} (h : rowsAt pts c = .ok ps) :
    List.Forall₂ (fun i q => pts[i]? = some q) c ps := by
  refine (mapM_eq_ok h).imp fun i q hq => ?_
  cases hp : pts[i]? with
  | none => rw [hp] at hq; cases hq
  | some p => rw [hp] at hq; cases hq; rfl

theorem rowsAt_total {α : Type} {pts : List α} {c : List ℕ} (h : ∀ i ∈ c, i < pts.length) :
    ∃ ps, rowsAt pts c = .ok ps := by
  refine mapM_exists fun i hi => ?_
  rw [List.getElem?_eq_getElem (h i hi)]
  exact ⟨_, rfl⟩

theorem mean_isCenter [CharZero K] {pts : List (P3 K)} {c : List ℕ} {ps : List (P3 K)} (hc : c ≠ [])
    (h : List.Forall₂ (fun i q => pts[i]? = some q) c ps) : IsCenter pts c (mean ps) := by
  have hl : ps.length = c.length := h.length_eq.symm
  have h0 : (ps.length : K) ≠ 0 := by
    rw [Nat.cast_ne_zero, hl]
    simpa using hc
  refine ⟨hc, ps, h, ?_, ?_, ?_⟩ <;> rw [← hl] <;> simp only [mean] <;> field_simp

theorem forall₂_mem_left {α β : Type} {R : α → β → Prop} {l : List α} {r : List β}
    (h : List.Forall₂ R l r) {x : α} (hx : x ∈ l) : ∃ y ∈ r, R x y := by
  induction h with
  | nil => simp at hx
  | cons h1 _ ih =>
    rcases List.mem_cons.1 hx with rfl | hx
    · exact ⟨_, List.mem_cons_self, h1⟩
    · obtain ⟨y, hy, hr⟩ := ih hx
      exact ⟨y, List.mem_cons_of_mem _ hy, hr⟩

theorem forall₂_mem_right {α β : Type} {R : α → β → Prop} {l : List α} {r : List β}
    (h : List.Forall₂ R l r) {y : β} (hy : y ∈ r) : ∃ x ∈ l, R x y := by
  induction h with
  | nil => simp at hy
  | cons h1 _ ih =>
    rcases List.mem_cons.1 hy with rfl | hy
    · exact ⟨_, List.mem_cons_self, h1⟩
    · obtain ⟨x, hx, hr⟩ := ih hy
      exact ⟨x, List.mem_cons_of_mem _ hx, hr⟩

theorem forall₂_flatMap {α β γ : Type} {R : α → β → Prop} {f : γ → List α} {l : List γ}
    {r : List (List β)} (h : List.Forall₂ (fun x y => List.Forall₂ R (f x) y) l r) :
    List.Forall₂ R (l.flatMap f) r.flatten := by
  induction h with
  | nil => exact .nil
  | cons h1 _ ih => rw [List.flatMap_cons, List.flatten_cons]; exact List.rel_append h1 ih

theorem isCenter_unique [CharZero K] {pts : List (P3 K)} {c : List ℕ} {p q : P3 K}
    (hp : IsCenter pts c p) (hq : IsCenter pts c q) : p = q := by
  obtain ⟨hc, ps, h1, h2, h3, h4⟩ := hp
  obtain ⟨-, qs, g1, g2, g3, g4⟩ := hq
  have e : ps = qs := by
    clear h2 h3 h4 g2 g3 g4 hc
    induction h1 generalizing qs with
    | nil => cases g1; rfl
    | cons a _ ih =>
      cases g1 with
      | cons b g => rw [ih _ g]; rw [a] at b; cases b; rfl
  subst e
  have h0 : (c.length : K) ≠ 0 := by
    rw [Nat.cast_ne_zero]
    simpa using hc
  exact P3.ext (mul_right_cancel₀ h0 (h2.trans g2.symm)) (mul_right_cancel₀ h0 (h3.trans g3.symm))
    (mul_right_cancel₀ h0 (h4.trans g4.symm))

theorem centers_ok [CharZero K] {D : Type} {m : Mesh K D} {cs : List (P3 K)}
    (hv : ∀ c ∈ allCells m.cells, c ≠ []) (h : centers m = .ok cs) :
    List.Forall₂ (IsCenter m.points) (allCells m.cells) cs := by
  unfold centers at h
  by_cases h0 : m.cells = []
  · rw [if_pos h0] at h; cases h
  · rw [if_neg h0, bind_eq_ok] at h
    obtain ⟨r, h1, h2⟩ := h
    cases h2
    refine forall₂_flatMap ?_
    have h3 := mapM_eq_ok h1
    rw [List.forall₂_iff_get] at h3 ⊢
    refine ⟨h3.1, fun i hi hr => ?_⟩
    have h4 := mapM_eq_ok (h3.2 i hi hr)
    rw [List.forall₂_iff_get] at h4 ⊢
    refine ⟨h4.1, fun j hj hs => ?_⟩
    have h5 := h4.2 j hj hs
    rw [bind_eq_ok] at h5
    obtain ⟨ps, h6, h7⟩ := h5
    injection h7 with h7
    rw [← h7]
    refine mean_isCenter (hv _ ?_) (rowsAt_ok h6)
    exact List.mem_flatMap.2 ⟨_, List.get_mem _ ⟨i, hi⟩, List.get_mem _ ⟨j, hj⟩⟩

theorem centers_total {D : Type} {m : Mesh K D} (h0 : m.cells ≠ [])
    (hv : ValidCells m.points m.cells) : ∃ cs, centers m = .ok cs := by
  have : ∃ r, (m.cells.mapM fun b => b.data.mapM fun c => (do
      let ps ← rowsAt m.points c
      .ok (mean ps) : Except PyErr (P3 K))) = .ok r := by
    refine mapM_exists fun b hb => mapM_exists fun c hc => ?_
    obtain ⟨ps, h⟩ := rowsAt_total (hv c (List.mem_flatMap.2 ⟨b, hb, hc⟩)).2
    exact ⟨mean ps, by rw [h]; rfl⟩
  obtain ⟨r, hr⟩ := this
  exact ⟨r.flatten, by rw [centers, if_neg h0, hr]; rfl⟩

variable [LinearOrder K]

theorem maskAxis_iff {x0 dx : Option K} (h : LengthOk x0 dx) (x : K) :
    maskAxis x0 dx x = true ↔ InInterval x0 dx x := by
  obtain ⟨h1, h2⟩ := h
  unfold maskAxis InInterval
  cases x0 with
  | none =>
    rw [h2 rfl]
    simp [Ext.below, Ext.above]
  | some a =>
    cases dx with
    | none => simp [Ext.below, Ext.above]
    | some d =>
      have hd : d ≠ 0 := by rintro rfl; exact h1 rfl
      simp [Ext.below, Ext.above, Ext.add, hd]

/-- The fold of `argmin` finds the first least element. -/
theorem argmin_fold (xs : List K) (best : ℕ × K) (n : ℕ) (hb : best.1 < n) :
    let r := (xs.zipIdx n).foldl (fun (best : ℕ × K) e => if e.1 < best.2 then (e.2, e.1) else best) best
    (r = best ∨ ∃ i, r.1 = n + i ∧ xs[i]? = some r.2 ∧ r.2 < best.2 ∧
        ∀ j < i, ∀ y, xs[j]? = some y → r.2 < y) ∧
      (r.2 ≤ best.2) ∧ ∀ y ∈ xs, r.2 ≤ y := by
  induction xs generalizing best n with
  | nil => simp
  | cons x xs ih =>
    simp only [List.zipIdx_cons, List.foldl_cons]
    by_cases hx : x < best.2
    · rw [if_pos hx]
      obtain ⟨h1, h2, h3⟩ := ih (n, x) (n + 1) (Nat.lt_succ_self n)
      refine ⟨.inr ?_, le_trans h2 hx.le, ?_⟩
      · rcases h1 with h1 | ⟨i, e, h4, h5, h6⟩
        · refine ⟨0, ?_, ?_, ?_, ?_⟩
          · rw [h1]; rfl
          · rw [h1]; rfl
          · rw [h1]; exact hx
          · intro j hj; omega
        · refine ⟨i + 1, by rw [e]; omega, by simpa using h4, lt_trans h5 hx, fun j hj y hy => ?_⟩
          cases j with
          | zero =>
            rw [List.getElem?_cons_zero] at hy
            injection hy with hy
            rw [← hy]; exact h5
          | succ j => exact h6 j (by omega) y (by simpa using hy)
      · intro y hy
        rcases List.mem_cons.1 hy with rfl | hy
        · exact h2
        · exact h3 y hy
    · rw [if_neg hx]
      obtain ⟨h1, h2, h3⟩ := ih best (n + 1) (by omega)
      refine ⟨?_, h2, ?_⟩
      · rcases h1 with h1 | ⟨i, e, h4, h5, h6⟩
        · exact .inl h1
        · refine .inr ⟨i + 1, by rw [e]; omega, by simpa using h4, h5, fun j hj y hy => ?_⟩
          cases j with
          | zero =>
            rw [List.getElem?_cons_zero] at hy
            injection hy with hy
            rw [← hy]; exact lt_of_lt_of_le h5 (not_lt.1 hx)
          | succ j => exact h6 j (by omega) y (by simpa using hy)
      · intro y hy
        rcases List.mem_cons.1 hy with rfl | hy
        · exact le_trans h2 (not_lt.1 hx)
        · exact h3 y hy

theorem argmin_ok {l : List K} {i : ℕ} (h : argmin l = .ok i) :
    ∃ v, l[i]? = some v ∧ (∀ y ∈ l, v ≤ y) ∧ ∀ j < i, ∀ y, l[j]? = some y → v < y := by
  cases l with
  | nil => cases h
  | cons x xs =>
    rw [argmin] at h
    injection h with h
    obtain ⟨h1, h2, h3⟩ := argmin_fold xs (0, x) 1 (by simp)
    subst h
    generalize (xs.zipIdx 1).foldl (fun (best : ℕ × K) e => if e.1 < best.2 then (e.2, e.1) else best)
      (0, x) = r at h1 h2 h3
    refine ⟨r.2, ?_, ?_, ?_⟩
    · rcases h1 with rfl | ⟨i, e, h4, -, -⟩
      · rfl
      · rw [e, Nat.add_comm]; simpa using h4
    · intro y hy
      rcases List.mem_cons.1 hy with rfl | hy
      · exact h2
      · exact h3 y hy
    · intro j hj y hy
      rcases h1 with rfl | ⟨i, e, h4, h5, h6⟩
      · exact absurd hj (Nat.not_lt_zero j)
      · cases j with
        | zero =>
          rw [List.getElem?_cons_zero] at hy
          injection hy with hy
          rw [← hy]; exact h5
        | succ j => exact h6 j (by omega) y (by simpa using hy)

theorem dist2_eq [IsStrictOrderedRing K] (p q : P3 K) : dist2 p q = sqDist p q := by
  unfold dist2 sqDist; ring

end

end Verif.Mesh
