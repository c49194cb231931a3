import Verif.Spec.OutAgain
import Verif.Lemmas.NumStable
import Verif.Props.Tecplot

/-!
# Lemmas on output files that are loaded and saved
-/

namespace Verif.Props
open Verif.Py Verif.Model Verif.Spec

/-- The order of the columns is settled once the coordinates come first. -/
theorem varOrder_idem (ks : List Str) : varOrder (varOrder ks) = varOrder ks := by
  have hxyz : ("X".toList : Str) ≠ "Y".toList ∧ ("X".toList : Str) ≠ "Z".toList ∧
      ("Y".toList : Str) ≠ "Z".toList := by decide
  obtain ⟨h1, h2, h3⟩ := hxyz
  have hmem : ∀ k : Str, k ∈ varOrder ks ↔ k ∈ ks := by
    intro k
    unfold varOrder
    simp only [List.mem_append, List.mem_filter, decide_eq_true_eq]
    generalize hX : ("X".toList : Str) = X at *
    generalize hY : ("Y".toList : Str) = Y at *
    generalize hZ : ("Z".toList : Str) = Z at *
    constructor
    · rintro (((h | h) | h) | h)
      · split at h
        · rw [List.mem_singleton] at h; subst h; assumption
        · cases h
      · split at h
        · rw [List.mem_singleton] at h; subst h; assumption
        · cases h
      · split at h
        · rw [List.mem_singleton] at h; subst h; assumption
        · cases h
      · exact h.1
    · intro h
      by_cases g1 : k = X
      · subst g1; simp [h]
      by_cases g2 : k = Y
      · subst g2; simp [h]
      by_cases g3 : k = Z
      · subst g3; simp [h]
      · exact Or.inr ⟨h, by tauto⟩
  have key : ∀ ks' : List Str, (∀ k, k ∈ ks' ↔ k ∈ ks) → varOrder ks' =
      (if "X".toList ∈ ks then ["X".toList] else []) ++
      (if "Y".toList ∈ ks then ["Y".toList] else []) ++
      (if "Z".toList ∈ ks then ["Z".toList] else []) ++
      ks'.filter fun k => ¬ (k = "X".toList ∨ k = "Y".toList ∨ k = "Z".toList) := by
    intro ks' h
    unfold varOrder
    simp only [h]
  rw [key _ hmem, key ks fun k => Iff.rfl]
  refine congrArg _ ?_
  generalize hX : ("X".toList : Str) = X at *
  generalize hY : ("Y".toList : Str) = Y at *
  generalize hZ : ("Z".toList : Str) = Z at *
  rw [List.filter_append, List.filter_append, List.filter_append, List.filter_filter]
  have e : ∀ (a : Str), (a = X ∨ a = Y ∨ a = Z) →
      ((if a ∈ ks then [a] else []).filter fun k => decide (¬ (k = X ∨ k = Y ∨ k = Z))) = [] := by
    intro a ha
    split
    · rw [List.filter_singleton, decide_eq_false (not_not.2 ha)]
      rfl
    · rfl
  rw [e X (by simp), e Y (by simp), e Z (by simp)]
  simp

/-- `r` is what was read of `o`; times are printed with `p` decimals. -/
structure Alike {L L' : Type} (p : ℕ) (texts : L → List Str) (texts' : L' → List Str)
    (o : Output L Flt) (r : Output L' Flt) : Prop where
  time : ∃ t t', o.time = some t ∧ r.time = some t' ∧ fmtE p t' = fmtE p t
  labels : r.labels.map texts' = o.labels.map texts
  data : r.data.Perm (o.data.map fun e => (e.1, e.2.map (quant 12)))
  vals : ∀ e ∈ o.data, ∀ x ∈ e.2, InRange x

section
variable {L L' : Type} {p : ℕ} {texts : L → List Str} {texts' : L' → List Str}
  {o : Output L Flt} {r : Output L' Flt}

theorem Alike.length (h : Alike p texts texts' o r) : r.labels.length = o.labels.length := by
  simpa using congrArg List.length h.labels

theorem Alike.keys (h : Alike p texts texts' o r) : (r.data.map (·.1)).Perm (o.data.map (·.1)) := by
  have := h.data.map (·.1)
  rwa [List.map_map] at this

theorem Alike.full (h : Alike p texts texts' o r) (ho : Full o) : Full r := by
  intro e he
  obtain ⟨e', he', rfl⟩ := List.mem_map.1 (h.data.subset he)
  rw [h.length, List.length_map]
  exact ho e' he'

theorem Alike.cell (h : Alike p texts texts' o r) (hnd : (o.data.map (·.1)).Nodup) (ho : Full o)
    {k : Str} (hk : k ∈ o.data.map (·.1)) {i : ℕ} (hi : i < o.labels.length) :
    fmtE 12 (cellOf r.data i k) = fmtE 12 (cellOf o.data i k) := by
  obtain ⟨⟨k', v⟩, hm, rfl⟩ := List.mem_map.1 hk
  have hl := ho _ hm
  simp only at hl
  unfold cellOf
  rw [varOf_of_mem hnd hm, varOf_of_mem (h.keys.nodup_iff.2 hnd)
    (h.data.symm.subset (List.mem_map.2 ⟨_, hm, rfl⟩)), List.getElem?_map,
    List.getElem?_eq_getElem (show i < v.length by omega)]
  exact fmtE_quant 12 (by decide) _ (h.vals _ hm _ (List.getElem_mem _))

/-- The numbers of a row are printed the same. -/
theorem Alike.cells (h : Alike p texts texts' o r) (hnd : (o.data.map (·.1)).Nodup) (ho : Full o)
    {vars : List Str} (hv : ∀ k ∈ vars, k ∈ o.data.map (·.1)) {i : ℕ} (hi : i < o.labels.length)
    {β : Type} (f : Str → β) :
    ((vars.map (cellOf r.data i)).map fun x => f (fmtE 12 x)) =
      (vars.map (cellOf o.data i)).map fun x => f (fmtE 12 x) := by
  rw [List.map_map, List.map_map]
  refine List.map_congr_left fun k hk => ?_
  simp only [Function.comp]
  rw [h.cell hnd ho (hv k hk) hi]

/-- Lines made of labels and rows. -/
theorem zipIdx_congr {β : Type} (xs : List L) (ys : List L') (f : L × ℕ → β) (g : L' × ℕ → β)
    (hl : ys.length = xs.length)
    (h : ∀ i (h1 : i < xs.length) (h2 : i < ys.length), g (ys[i], i) = f (xs[i], i)) :
    ys.zipIdx.map g = xs.zipIdx.map f := by
  refine List.ext_getElem (by simp [hl]) fun i h1 h2 => ?_
  simp only [List.getElem_map, List.getElem_zipIdx, Nat.zero_add]
  exact h i (by simpa using h2) (by simpa using h1)

theorem Alike.label (h : Alike p texts texts' o r) {i : ℕ} (h1 : i < o.labels.length)
    (h2 : i < r.labels.length) : texts' r.labels[i] = texts o.labels[i] := by
  have := congrArg (fun l => l[i]?) h.labels
  simpa [List.getElem?_map, h1, h2] using this

end

theorem stepLines_alike {L L' : Type} {texts : L → List Str} {texts' : L' → List Str}
    {o : Output L Flt} {r : Output L' Flt} (h : Alike 8 texts texts' o r)
    (hnd : (o.data.map (·.1)).Nodup) (ho : Full o) {vars : List Str}
    (hv : ∀ k ∈ vars, k ∈ o.data.map (·.1)) :
    stepLines texts' vars r = stepLines texts vars o := by
  obtain ⟨t, t', e1, e2, e3⟩ := h.time
  have ht : timeText t' = timeText t := by unfold timeText; rw [e3]
  unfold stepLines
  rw [e1, e2]
  simp only [Option.getD_some]
  rw [ht]
  refine congrArg (List.cons _) ?_
  refine zipIdx_congr _ _ _ _ h.length fun i h1 h2 => ?_
  unfold rowLine
  simp only
  rw [h.label h1 h2, h.cells hnd ho hv h1 (padLeft 20)]

theorem petraLines_alike {o r : Output Str Flt} (h : Alike 12 (fun s => [s]) (fun s => [s]) o r)
    (hnd : (o.data.map (·.1)).Nodup) (ho : Full o) {vars : List Str}
    (hv : ∀ k ∈ vars, k ∈ o.data.map (·.1)) : petraLines vars r = petraLines vars o := by
  obtain ⟨t, t', e1, e2, e3⟩ := h.time
  unfold petraLines
  rw [e1, e2]
  refine zipIdx_congr _ _ _ _ h.length fun i h1 h2 => ?_
  unfold petraText
  simp only [Option.getD_some, e3]
  have := h.label h1 h2
  simp only [List.cons.injEq, and_true] at this
  rw [this, h.cells hnd ho hv h1 (padLeft 20)]

theorem tecLines_alike {texts texts' : Str → List Str} {o r : Output Str Flt}
    (h : Alike 7 texts texts' o r) (hnd : (o.data.map (·.1)).Nodup) (ho : Full o) {vars : List Str}
    (hv : ∀ k ∈ vars, k ∈ o.data.map (·.1)) : tecLines vars r = tecLines vars o := by
  obtain ⟨t, t', e1, e2, e3⟩ := h.time
  unfold tecLines
  have ht : ∀ n, zoneLine t' n = zoneLine t n := by intro n; unfold zoneLine; rw [e3]
  rw [e1, e2, h.length]
  simp only [Option.getD_some]
  rw [ht]
  refine congrArg (List.cons _) ?_
  refine List.map_congr_left fun i hi => ?_
  unfold tecRow
  rw [List.flatMap, List.flatMap, h.cells hnd ho hv (List.mem_range.1 hi) (padLeft 20)]

theorem flatMap_of_forall₂ {α β γ : Type} {R : α → β → Prop} {f : α → List γ} {g : β → List γ}
    {xs : List α} {ys : List β} (h : List.Forall₂ R xs ys) (hfg : ∀ x ∈ xs, ∀ y, R x y → g y = f x) :
    ys.flatMap g = xs.flatMap f := by
  induction h with
  | nil => rfl
  | cons h1 _ ih =>
    rw [List.flatMap_cons, List.flatMap_cons, hfg _ (by simp) _ h1,
      ih fun x hx => hfg x (List.mem_cons_of_mem _ hx)]

theorem forall₂_with {α β : Type} {R S : α → β → Prop} {xs : List α} {ys : List β}
    (h : List.Forall₂ R xs ys) (hs : ∀ x ∈ xs, ∀ y, R x y → S x y) : List.Forall₂ S xs ys := by
  induction h with
  | nil => exact .nil
  | cons h1 _ ih => exact .cons (hs _ (by simp) _ h1) (ih fun x hx => hs x (List.mem_cons_of_mem _ hx))

theorem forall_right {α β : Type} {R : α → β → Prop} {xs : List α} {ys : List β}
    (h : List.Forall₂ R xs ys) {y : β} (hy : y ∈ ys) : ∃ x ∈ xs, R x y := by
  induction h with
  | nil => cases hy
  | cons h1 _ ih =>
    rcases List.mem_cons.1 hy with rfl | hy
    · exact ⟨_, by simp, h1⟩
    · obtain ⟨x, hx, hxy⟩ := ih hy
      exact ⟨x, by simp [hx], hxy⟩

/-- The variables of what was read are in the order in which they are written. -/
theorem keys_again {L L' : Type} {outs : List (Output L Flt)} (hne : outs ≠ [])
    {rs : List (Output L' Flt)} (hrs : rs ≠ []) {vars : List Str}
    (hv : vars = varOrder ((outs.getLast hne).data.map (·.1)))
    (hk : ∀ r ∈ rs, r.data.map (·.1) = vars) :
    varOrder ((rs.getLast hrs).data.map (·.1)) = vars := by
  rw [hk _ (List.getLast_mem hrs), hv, varOrder_idem]

theorem ne_nil_of_forall₂ {α β : Type} {R : α → β → Prop} {xs : List α} {ys : List β}
    (h : List.Forall₂ R xs ys) (hx : xs ≠ []) : ys ≠ [] := by
  cases h with
  | nil => exact absurd rfl hx
  | cons => simp

/-- What was read of a CSV, Petrasim or Tecplot file is written to CSV as the outputs were. -/
theorem writeCsv_alike {L L' : Type} (repr : Flt → Str) (type : OutType) (texts : L → List Str)
    (texts' : L' → List Str) (ks : List Str) (n : ℕ) (outs : List (Output L Flt)) (hne : outs ≠ [])
    (h : SeriesOk (labelHeaders type).length texts ks n outs) (rs : List (Output L' Flt))
    (hr : List.Forall₂ (Alike 8 texts texts') outs rs)
    (hk : ∀ r ∈ rs, r.data.map (·.1) = varOrder ((outs.getLast hne).data.map (·.1))) :
    writeCsv repr type texts' rs = writeCsv repr type texts outs := by
  have hrs := ne_nil_of_forall₂ hr hne
  obtain ⟨vars, hv, hp, -, -, hw⟩ := writeCsv_eq repr type texts ks n outs hne h
  have h' : SeriesOk (labelHeaders type).length texts' ks n rs := by
    refine ⟨h.1, h.2.1, fun r hr' => ?_⟩
    obtain ⟨o, ho, ha⟩ := forall_right hr hr'
    obtain ⟨h1, h2, h3, h4, h5⟩ := h.2.2 o ho
    obtain ⟨t, t', -, e2, -⟩ := ha.time
    refine ⟨by rw [e2]; rfl, ha.keys.trans h2, ha.full h3, ha.length.trans h4, fun l hl => ?_⟩
    have : texts' l ∈ o.labels.map texts := by
      rw [← ha.labels]; exact List.mem_map_of_mem hl
    obtain ⟨l', hl', e⟩ := List.mem_map.1 this
    rw [← e]; exact h5 l' hl'
  obtain ⟨vars', hv', -, -, -, hw'⟩ := writeCsv_eq repr type texts' ks n rs hrs h'
  have : vars' = vars := by
    rw [hv', keys_again hne hrs hv fun r hr => by rw [hk r hr, hv]]
  subst this
  rw [hw, hw', flatMap_of_forall₂ hr fun o ho r ha => ?_]
  obtain ⟨h1, h2, h3, h4, h5⟩ := h.2.2 o ho
  exact stepLines_alike ha (h2.nodup_iff.2 h.1) h3 fun k hk => (hp o ho).subset hk

/-- The same for Petrasim. -/
theorem writePetrasim_alike (ks : List Str) (outs : List (Output Str Flt)) (hne : outs ≠ [])
    (h : PetraOk ks outs) (rs : List (Output Str Flt))
    (hr : List.Forall₂ (Alike 12 (fun s => [s]) (fun s => [s])) outs rs)
    (hk : ∀ r ∈ rs, r.data.map (·.1) = varOrder ((outs.getLast hne).data.map (·.1))) :
    writePetrasim rs = writePetrasim outs := by
  have hrs := ne_nil_of_forall₂ hr hne
  obtain ⟨vars, hv, hp, hw⟩ := writePetrasim_eq ks outs hne h
  have h' : PetraOk ks rs := by
    refine ⟨h.1, h.2.1, h.2.2.1, fun r hr' => ?_⟩
    obtain ⟨o, ho, ha⟩ := forall_right hr hr'
    obtain ⟨h1, h2, h3, h4⟩ := h.2.2.2 o ho
    obtain ⟨t, t', e1, e2, e3⟩ := ha.time
    refine ⟨?_, ha.keys.trans h2, ha.full h3, fun l hl => ?_⟩
    · have e : quant 12 t' = quant 12 t := by
        have a := pyFloat_fmtE 12 t'
        rw [e3, pyFloat_fmtE] at a
        exact (Option.some.inj a).symm
      unfold outTime at h1 ⊢
      rw [e1] at h1
      rw [e2]
      simp only [Option.bind_some] at h1 ⊢
      rw [e]; exact h1
    · have : [l] ∈ o.labels.map fun s => [s] := by
        rw [← ha.labels]; exact List.mem_map_of_mem (f := fun s : Str => [s]) hl
      obtain ⟨l', hl', e⟩ := List.mem_map.1 this
      simp only [List.cons.injEq, and_true] at e
      rw [← e]; exact h4 l' hl'
  obtain ⟨vars', hv', -, hw'⟩ := writePetrasim_eq ks rs hrs h'
  have : vars' = vars := by
    rw [hv', keys_again hne hrs hv fun r hr => by rw [hk r hr, hv]]
  subst this
  rw [hw, hw', flatMap_of_forall₂ hr fun o ho r ha => ?_]
  obtain ⟨h1, h2, h3, h4⟩ := h.2.2.2 o ho
  exact petraLines_alike ha (h2.nodup_iff.2 h.2.1) h3 fun k hk => h2.symm.subset (hp.subset hk)

/-- The same for Tecplot. -/
theorem writeTecplot_alike (texts texts' : Str → List Str) (ks : List Str)
    (outs : List (Output Str Flt)) (hne : outs ≠ []) (h : TecOk ks outs) (rs : List (Output Str Flt))
    (hr : List.Forall₂ (Alike 7 texts texts') outs rs)
    (hk : ∀ r ∈ rs, r.data.map (·.1) = varOrder ((outs.getLast hne).data.map (·.1))) :
    writeTecplot rs = writeTecplot outs := by
  have hrs := ne_nil_of_forall₂ hr hne
  obtain ⟨vars, hv, hp, hw⟩ := writeTecplot_eq ks outs hne h
  have h' : TecOk ks rs := by
    refine ⟨h.1, h.2.1, h.2.2.1, h.2.2.2.1, fun r hr' => ?_⟩
    obtain ⟨o, ho, ha⟩ := forall_right hr hr'
    obtain ⟨h1, h2, h3, h4, h5⟩ := h.2.2.2.2 o ho
    obtain ⟨t, t', e1, e2, e3⟩ := ha.time
    refine ⟨by rw [e2]; rfl, ha.keys.trans h2, ha.full h3, fun h0 => h4 ?_, fun e he x hx => ?_⟩
    · have := ha.length
      rw [h0] at this
      exact List.eq_nil_of_length_eq_zero this.symm
    · obtain ⟨e', he', rfl⟩ := List.mem_map.1 (ha.data.subset he)
      obtain ⟨x', hx', rfl⟩ := List.mem_map.1 hx
      unfold TecNum
      rw [fmtE_quant 12 (by decide) _ (ha.vals _ he' _ hx')]
      exact h5 e' he' x' hx'
  obtain ⟨vars', hv', -, hw'⟩ := writeTecplot_eq ks rs hrs h'
  have : vars' = vars := by
    rw [hv', keys_again hne hrs hv fun r hr => by rw [hk r hr, hv]]
  subst this
  rw [hw, hw', flatMap_of_forall₂ hr fun o ho r ha => ?_]
  obtain ⟨h1, h2, h3, h4⟩ := h.2.2.2.2 o ho
  exact tecLines_alike ha (h2.nodup_iff.2 h.2.2.1) h3 fun k hk => h2.symm.subset (hp.subset hk)

/-- The labels play no part in Tecplot files. -/
theorem writeTecplot_labels (rs : List (Output Str Flt)) (f : Output Str Flt → List Str) :
    writeTecplot (rs.map fun r => ⟨r.time, f r, r.data⟩) = writeTecplot rs := by
  have hs : ∀ hs, tecStep hs ∘ (fun r : Output Str Flt => (⟨r.time, f r, r.data⟩ : Output Str Flt)) =
      tecStep hs := by
    intro hs; funext r; rfl
  have hc : ∀ (g : Output Str Flt → Except PyErr (List Str)) (h : Output Str Flt → Output Str Flt)
      (l : List (Output Str Flt)), concatM g (l.map h) = concatM (g ∘ h) l := by
    intro g h l
    induction l with
    | nil => rfl
    | cons a l ih => rw [List.map_cons, concatM, concatM, ih]; rfl
  unfold writeTecplot
  rw [List.getLast?_map]
  cases rs.getLast? with
  | none => rfl
  | some last =>
    simp only [Option.map_some]
    congr 1
    funext hs'
    rw [hc, hs]

end Verif.Props
