import Verif.Model.Extract
import Verif.Spec.Extract
import Verif.Props.Listing
import Verif.Props.Csv
import Verif.Props.Petrasim
import Verif.Props.Tecplot
import Verif.Lemmas.Save
import Verif.Lemmas.Geometry

/-!
# Lemmas about extracting outputs
-/

namespace Verif.Model
open Verif.Py Verif.Mesh Verif.Spec Verif.Props

theorem dictSet_perm {β : Type} {d : List (Str × β)} (h : (d.map (·.1)).Nodup) (k : Str) (v : β) :
    (dictSet d k v).Perm ((k, v) :: d.filter fun e => e.1 ≠ k) := by
  induction d with
  | nil => exact List.Perm.refl _
  | cons e d ih =>
    obtain ⟨k', v'⟩ := e
    rw [List.map_cons, List.nodup_cons] at h
    rw [dictSet]
    split
    next hk =>
      subst hk
      have : d.filter (fun e => e.1 ≠ k') = d := by
        rw [List.filter_eq_self]
        intro e he
        simp only [ne_eq, decide_not, Bool.not_eq_eq_eq_not, Bool.not_true, decide_eq_false_iff_not]
        intro hk
        exact h.1 (List.mem_map.2 ⟨e, he, hk⟩)
      rw [List.filter_cons_of_neg (by simp), this]
    next hk =>
      rw [List.filter_cons_of_pos (by simpa using hk)]
      exact ((ih h.2).cons _).trans (.swap _ _ _)

theorem updateDict_perm {β : Type} (pts : List (Str × β)) {d : List (Str × β)} (h : (d.map (·.1)).Nodup)
    (hp : (pts.map (·.1)).Nodup) :
    (updateDict d pts).Perm (pts ++ d.filter fun e => e.1 ∉ pts.map (·.1)) := by
  induction pts generalizing d with
  | nil => simp [updateDict]
  | cons p pts ih =>
    obtain ⟨k, v⟩ := p
    rw [List.map_cons, List.nodup_cons] at hp
    have hs := dictSet_perm h k v
    have hn : ((dictSet d k v).map (·.1)).Nodup := by
      rw [(hs.map _).nodup_iff, List.map_cons, List.nodup_cons]
      refine ⟨?_, ?_⟩
      · simp
      · exact h.sublist (List.filter_sublist.map _)
    have := ih hn hp.2
    refine (this : (updateDict d ((k, v) :: pts)).Perm _).trans ?_
    have h2 := (hs.filter fun e => e.1 ∉ pts.map (·.1)).append_left pts
    refine h2.trans ?_
    rw [List.filter_cons_of_pos (by simpa using hp.1), List.filter_filter]
    refine List.perm_middle.trans (List.Perm.of_eq ?_)
    rw [List.cons_append]
    congr 2
    apply List.filter_congr
    intro e _
    simp only [List.map_cons, List.mem_cons, not_or, Bool.decide_and]
    rw [Bool.and_comm]

/-- The columns of coordinates. -/
def axisColumns (cs : List (P3 Flt)) : List (Str × List Flt) :=
  [("X".toList, cs.map (·.x)), ("Y".toList, cs.map (·.y)), ("Z".toList, cs.map (·.z))]

theorem located_perm {cs : List (P3 Flt)} {data : List (Str × List Flt)} (h : (data.map (·.1)).Nodup) :
    (updateDict data (axisColumns cs)).Perm (located cs data) :=
  updateDict_perm (axisColumns cs) h (by simp only [axisColumns, List.map_cons, List.map_nil]; decide)

theorem pointColumns_of {cs : List (P3 Flt)} (h : cs ≠ []) :
    pointColumns (cs.map fun c => [c.x, c.y, c.z]) = .ok (axisColumns cs) := by
  unfold pointColumns
  rw [if_pos]
  · congr 1
    have hl : ((cs.map fun c => [c.x, c.y, c.z]).headD []).length = 3 := by
      cases cs with
      | nil => exact absurd rfl h
      | cons c cs => rfl
    rw [hl]
    simp [axisColumns, List.filterMap_map, Function.comp_def]
  · apply rectangular_of_length (k := 3)
    intro r hr
    obtain ⟨c, _, rfl⟩ := List.mem_map.1 hr
    rfl

theorem centerOf_of {elems : List (Val × Elem)} {l : Str} {c : P3 Flt} (h : CenterIs elems l c) :
    centerOf elems l = .ok [.flt c.x, .flt c.y, .flt c.z] := by
  obtain ⟨e, h1, h2⟩ := h
  unfold centerOf
  rw [h1]
  simp only [h2]

theorem cellPoints_of (null : Except PyErr Flt) {elems : List (Val × Elem)} {ls : List Str} {cs : List (P3 Flt)}
    (h : List.Forall₂ (CenterIs elems) ls cs) (hne : ls ≠ []) : cellPoints null elems ls = .ok (axisColumns cs) := by
  have h1 : ls.mapM (centerOf elems) = .ok (cs.map fun c => [Val.flt c.x, .flt c.y, .flt c.z]) := by
    apply mapM_of_forall₂
    rw [List.forall₂_map_right_iff]
    exact h.imp fun _ _ => centerOf_of
  have hc : cs ≠ [] := by
    rintro rfl
    cases h
    exact hne rfl
  have h2 : (cs.map fun c => [Val.flt c.x, .flt c.y, .flt c.z]).mapM (fun c => c.mapM (coordinate null)) =
      .ok (cs.map fun c => [c.x, c.y, c.z]) := by
    apply mapM_of_forall₂
    rw [List.forall₂_map_left_iff, List.forall₂_map_right_iff, List.forall₂_same]
    intro c _
    rfl
  unfold cellPoints
  rw [h1, ok_bind, if_neg (by simpa using hc), h2, ok_bind, pointColumns_of hc]

/-! ## What is read -/

theorem filterMap_length {α β : Type} {f : α → Option β} {l : List α} (h : ∀ x ∈ l, (f x).isSome = true) :
    (l.filterMap f).length = l.length := by
  induction l with
  | nil => rfl
  | cons x l ih =>
    obtain ⟨y, hy⟩ := Option.isSome_iff_exists.1 (h x (by simp))
    rw [List.filterMap_cons_some hy, List.length_cons, List.length_cons, ih fun z hz => h z (List.mem_cons_of_mem _ hz)]

theorem listing_keys {key : Str} {L m n : ℕ} {vars : List Str} {s : ListingStep} (h : StepFits key L m n vars s) :
    s.output.data.map (·.1) = vars := by
  obtain ⟨-, -, -, -, -, -, -, -, -, hv, -⟩ := h
  rw [← hv]
  unfold ListingStep.output
  simp only [List.map_map, Function.comp_def]
  have e : (fun x : Spaced × ℕ => x.1.text) = (fun v : Spaced => v.text) ∘ Prod.fst := rfl
  rw [e, ← List.map_map, List.zipIdx_map_fst]

theorem listing_full {key : Str} {L m n : ℕ} {vars : List Str} {s : ListingStep} (h : StepFits key L m n vars s) :
    ∀ e ∈ s.output.data, e.2.length = s.rows.length := by
  obtain ⟨-, -, -, -, -, -, -, -, -, hv, hr, -⟩ := h
  intro e he
  obtain ⟨⟨v, i⟩, hv', rfl⟩ := List.mem_map.1 he
  apply filterMap_length
  intro r hr'
  have hi : i < s.vars.length := (List.mem_zipIdx hv').2.1 |> fun h => by simpa using h
  have : i < r.cells.length := by rw [(hr r hr').2.2.2.2.2.2, ← hv, List.length_map]; exact hi
  simp [this]

theorem listing_time {key : Str} {L m n : ℕ} {vars : List Str} {s : ListingStep} (h : StepFits key L m n vars s) :
    s.output.time.isSome = true := h.2.2.2.1

/-- The outputs with coordinates. -/
def withAxes {α : Type} (cs : List (P3 Flt)) (ls : List α) (s : ListingStep) : Output α Flt :=
  ⟨s.output.time, ls, updateDict s.output.data (axisColumns cs)⟩

theorem elementOutput_labels {ls : List Str} {s : ListingStep} (h : s.rows.map (·.labels) = ls.map fun l => [l]) :
    (elementOutput s).labels = ls := by
  unfold elementOutput
  simp only
  have : (s.rows.filterMap fun r => r.labels.head?) = (s.rows.map (·.labels)).filterMap List.head? := by
    rw [List.filterMap_map]
    rfl
  rw [this, h, List.filterMap_map]
  simp [Function.comp_def]

/-- What the command does with a file of elements. -/
theorem extract_elements (repr : Flt → Str) (mean : List Flt → Flt) {a : ExtractArgs} (hl : a.labelLength = none)
    (hc : a.connection = false) {vars : List Str} {ls : List Str} {pre : List Str} {steps : List ListingStep}
    (h : ListingFile "ELEM.".toList 1 vars (ls.map fun l => [l]) pre steps)
    (ht : outputType (listingLines pre steps) = .ok (.element, .tough)) {mesh : List Str} {p : FileRead}
    {elems : Table Elem} (hm : readFile none mesh = .ok p) (he : p.elements = some elems) {cs : List (P3 Flt)}
    (hcs : List.Forall₂ (CenterIs elems.1) ls cs) :
    extract repr mean a (some (listingLines pre steps)) (some mesh) =
      writeOutputs a (writeElements repr a.format) (writeElements repr .csv) (steps.map (withAxes cs ls)) := by
  obtain ⟨L, hL, hf⟩ := h.fits
  have hls : ls ≠ [] := by
    rintro rfl
    exact h.rows rfl
  have hr := C63_elements_partial L _ hL (List.length_pos_iff.2 h.rows) vars h.names pre h.before steps h.some hf none
  simp only at hr
  have hlast : (steps.map elementOutput).getLast? = some (elementOutput (steps.getLast h.some)) := by
    rw [List.getLast?_map, List.getLast?_eq_getLast_of_ne_nil h.some, Option.map_some]
  unfold extract
  rw [if_neg (by simp [hc])]
  simp only [hl]
  rw [hm, ok_bind, he]
  simp only
  rw [ht, ok_bind]
  simp only [hc]
  rw [if_neg (by simp)]
  unfold extractElements
  rw [hl, listingLines, hr, ok_bind, hlast]
  simp only
  rw [elementOutput_labels (h.labels _ (List.getLast_mem h.some)), cellPoints_of _ hcs hls, ok_bind]
  congr 1
  unfold addPoints
  rw [List.map_map]
  apply List.map_congr_left
  intro s hs
  simp only [Function.comp, withAxes]
  rw [elementOutput_labels (h.labels s hs)]
  rfl

theorem withAxes_perm {L m n : ℕ} {α : Type} {key : Str} {vars : List Str} {ls : List α} {cs : List (P3 Flt)} {s : ListingStep}
    (hn : vars.Nodup) (h : StepFits key L m n vars s) : (withAxes cs ls s).data.Perm (located cs s.output.data) :=
  located_perm (by rw [listing_keys h]; exact hn)

theorem withAxes_keys {L m n : ℕ} {α : Type} {key : Str} {vars : List Str} {ls : List α} {cs : List (P3 Flt)} {s : ListingStep}
    (hn : vars.Nodup) (h : StepFits key L m n vars s) :
    ((withAxes cs ls s).data.map (·.1)).Perm (axes ++ vars.filter (· ∉ axes)) := by
  refine ((withAxes_perm hn h).map _).trans (List.Perm.of_eq ?_)
  rw [located, List.map_append]
  congr 1
  rw [← listing_keys h, List.filter_map]
  rfl

theorem withAxes_full {L m : ℕ} {α : Type} {key : Str} {vars : List Str} {ls : List α} {cs : List (P3 Flt)} {s : ListingStep}
    (hn : vars.Nodup) (h : StepFits key L m ls.length vars s) (hcs : ls.length = cs.length) : Full (withAxes cs ls s) := by
  intro e he
  rw [(withAxes_perm hn h).mem_iff, located, List.mem_append] at he
  change e.2.length = ls.length
  rcases he with he | he
  · simp only [List.mem_cons, List.not_mem_nil, or_false] at he
    rcases he with rfl | rfl | rfl <;> simp [hcs]
  · rw [listing_full h e (List.mem_of_mem_filter he)]
    exact h.2.2.2.2.2.2.2.2.2.2.2.1

theorem axes_ok : ∀ k ∈ axes, VarOk k ∧ FieldText k ∧ TecName k := by decide

theorem all_names {P : Str → Prop} {vars : List Str} (ha : ∀ k ∈ axes, P k) (hv : ∀ k ∈ vars, P k) :
    ∀ k ∈ axes ++ vars.filter (· ∉ axes), P k := by
  intro k hk
  rcases List.mem_append.1 hk with hk | hk
  · exact ha k hk
  · exact hv k (List.mem_of_mem_filter hk)

theorem names_nodup {vars : List Str} (h : vars.Nodup) : (axes ++ vars.filter (· ∉ axes)).Nodup := by
  rw [List.nodup_append]
  refine ⟨by decide, h.filter _, ?_⟩
  intro a ha b hb hab
  subst hab
  have := (List.mem_filter.1 hb).2
  simp [ha] at this

/-- The outputs with coordinates can be written as CSV. -/
theorem series_withAxes {L m k : ℕ} {α : Type} {texts : α → List Str} {key : Str} {vars : List Str} {ls : List α}
    {cs : List (P3 Flt)} {steps : List ListingStep}
    (hn : vars.Nodup) (hf : ∀ s ∈ steps, StepFits key L m ls.length vars s) (hcs : ls.length = cs.length)
    (hv : ∀ k ∈ vars, VarOk k) (hlab : ∀ l ∈ ls, LabelOk k (texts l)) :
    SeriesOk k texts (axes ++ vars.filter (· ∉ axes)) ls.length (steps.map (withAxes cs ls)) := by
  refine ⟨names_nodup hn, all_names (fun k hk => (axes_ok k hk).1) hv, ?_⟩
  intro o ho
  obtain ⟨s, hs, rfl⟩ := List.mem_map.1 ho
  exact ⟨listing_time (hf s hs), withAxes_keys hn (hf s hs), withAxes_full hn (hf s hs) hcs, rfl, hlab⟩

theorem splitName_inj {name : Str} {i j : ℕ} (h : splitName name i = splitName name j) : i = j := by
  unfold splitName at h
  have h1 := List.append_cancel_left (List.append_cancel_right h)
  injection h1 with _ h2
  have := congrArg digVal h2
  rw [digVal_natStr, digVal_natStr] at this
  omega

/-! ## Connections -/

theorem meanCenter_of (mean : List Flt → Flt) {elems : List (Val × Elem)} {l1 l2 : Str} {c1 c2 : P3 Flt}
    (h1 : CenterIs elems l1 c1) (h2 : CenterIs elems l2 c2) :
    meanCenter mean elems [l1, l2] = .ok [mean [c1.x, c2.x], mean [c1.y, c2.y], mean [c1.z, c2.z]] := by
  unfold meanCenter
  have e : [l1, l2].mapM (centerOf elems) = .ok [[.flt c1.x, .flt c1.y, .flt c1.z], [.flt c2.x, .flt c2.y, .flt c2.z]] := by
    rw [List.mapM_cons, centerOf_of h1, ok_bind, List.mapM_cons, centerOf_of h2]
    rfl
  rw [e]
  rfl

end Verif.Model
