import Verif.Spec.Early
import Verif.Lemmas.Csv
import Verif.Lemmas.Petrasim
import Verif.Lemmas.Tecplot
import Verif.Lemmas.Listing
import Verif.Lemmas.Layout

/-!
# Lemmas about output files that end early
-/

namespace Verif.Model
open Verif.Py Verif.Spec

/-! ### the first lines -/

theorem take_flatMap {α β : Type} (f : α → List β) (l : List α) (k m : ℕ) :
    (l.flatMap f).take (((l.take k).map fun a => (f a).length).sum + m) =
      (l.take k).flatMap f ++ ((l.drop k).flatMap f).take m := by
  conv_lhs => rw [← List.take_append_drop k l, List.flatMap_append]
  have : ((((l.take k) ++ (l.drop k)).take k).map fun a => (f a).length).sum =
      ((l.take k).flatMap f).length := by
    rw [List.take_append_drop, List.length_flatMap]
  rw [this, List.take_length_add_append]

theorem take_flatMap_in {α β : Type} (f : α → List β) (l : List α) {k : ℕ} {a : α} (ha : l[k]? = some a)
    {m : ℕ} (hm : m ≤ (f a).length) :
    (l.flatMap f).take (((l.take k).map fun a => (f a).length).sum + m) =
      (l.take k).flatMap f ++ (f a).take m := by
  rw [take_flatMap]
  obtain ⟨hk, rfl⟩ := List.getElem?_eq_some_iff.1 ha
  rw [List.drop_eq_getElem_cons hk, List.flatMap_cons, List.take_append_of_le_length hm]

/-! ### shorter outputs -/

theorem lookup_take {κ α : Type} [BEq κ] (j : ℕ) (d : List (κ × List α)) (k : κ) :
    (d.map fun e => (e.1, e.2.take j)).lookup k = (d.lookup k).map (·.take j) := by
  induction d with
  | nil => rfl
  | cons e d ih =>
    rw [List.map_cons, List.lookup_cons, List.lookup_cons, ih]
    cases k == e.1 <;> rfl

theorem varOf_shorten (j : ℕ) (d : List (Str × List Flt)) (k : Str) :
    varOf (d.map fun e => (e.1, e.2.take j)) k = (varOf d k).take j := by
  unfold varOf dictGet
  rw [@lookup_take Str Flt instBEqOfDecidableEq]
  generalize @List.lookup Str (List Flt) instBEqOfDecidableEq k d = x
  cases x <;> simp

theorem cellOf_shorten {j i : ℕ} (h : i < j) (d : List (Str × List Flt)) (k : Str) :
    cellOf (d.map fun e => (e.1, e.2.take j)) i k = cellOf d i k := by
  unfold cellOf
  rw [varOf_shorten, List.getElem?_take_of_lt h]

theorem zipIdx_shorten {L α : Type} (o : Output L Flt) (vars : List Str) (j : ℕ) (f : L → ℕ → List Flt → α) :
    ((shorten j o).labels.zipIdx.map fun e => f e.1 e.2 (vars.map (cellOf (shorten j o).data e.2))) =
      (o.labels.zipIdx.map fun e => f e.1 e.2 (vars.map (cellOf o.data e.2))).take j := by
  refine List.ext_getElem (by simp [shorten]) fun i h1 h2 => ?_
  have hi : i < j := by simp [shorten] at h1; omega
  have : vars.map (cellOf (shorten j o).data i) = vars.map (cellOf o.data i) :=
    List.map_congr_left fun k _ => cellOf_shorten hi _ _
  simp only [List.getElem_map, List.getElem_take, List.getElem_zipIdx, Nat.zero_add]
  rw [this]
  congr 1
  simp [shorten]

theorem stepLines_shorten {L : Type} (texts : L → List Str) (vars : List Str) (o : Output L Flt) (j : ℕ) :
    stepLines texts vars (shorten j o) = (stepLines texts vars o).take (j + 1) := by
  unfold stepLines
  rw [List.take_succ_cons, ← zipIdx_shorten o vars j fun l _ xs => rowLine (texts l) xs]
  rfl

theorem petraLines_shorten (vars : List Str) (o : Output Str Flt) (j : ℕ) :
    petraLines vars (shorten j o) = (petraLines vars o).take j := by
  unfold petraLines
  rw [← zipIdx_shorten o vars j fun l i xs => petraText (o.time.getD .nan) l i xs ++ ['\n']]
  rfl

theorem shorten_keys {L : Type} (j : ℕ) (o : Output L Flt) :
    (shorten j o).data.map (·.1) = o.data.map (·.1) := by
  simp [shorten]

theorem shorten_full {L : Type} (j : ℕ) {o : Output L Flt} (h : Full o) : Full (shorten j o) := by
  intro e he
  obtain ⟨e', he', rfl⟩ := List.mem_map.1 he
  simp [shorten, h e' he']

theorem stepLines_length {L : Type} (texts : L → List Str) (vars : List Str) (o : Output L Flt) :
    (stepLines texts vars o).length = o.labels.length + 1 := by
  simp [stepLines]

theorem petraLines_length (vars : List Str) (o : Output Str Flt) :
    (petraLines vars o).length = o.labels.length := by
  simp [petraLines]

theorem tecLines_length (vars : List Str) (o : Output Str Flt) :
    (tecLines vars o).length = o.labels.length + 1 := by
  simp [tecLines]

/-! ### Tecplot -/

theorem tecLines_head (vars : List Str) {o : Output Str Flt} {t : Flt} (ht : o.time = some t) :
    strip (upper ((tecLines vars o).headD [])) =
      zoneText (padLeft 14 (upper (fmtE 7 t))) o.labels.length := by
  unfold tecLines
  rw [List.headD_cons, strip_zoneLine, ht]
  rfl

theorem zoneText_ne (u : Str) (n : ℕ) : zoneText u n ≠ [] := by
  unfold zoneText
  simp

/-- The outputs read so far stay, whatever follows. -/
theorem tecLoop_then {vars : List Str} {outs : List (Output Str Flt)} {o : Output Str Flt}
    (h : ∀ o' ∈ o :: outs, o'.time.isSome = true ∧
      ∀ (i : ℕ), i < o'.labels.length → ∀ k ∈ vars, TecNum (cellOf o'.data i k))
    {rest : List Str} (hrest : strip (upper (rest.headD [])) ≠ []) {r : Except PyErr (List TecOut)}
    (hr : ∀ z f, tecLoop vars (f + 1) z (strip (upper (rest.headD []))) rest.tail = r)
    (zone : Option (Option Flt × ℤ)) (fuel : ℕ) (hf : outs.length + 1 < fuel) :
    tecLoop vars fuel zone (strip (upper ((tecLines vars o).headD [])))
      ((tecLines vars o).tail ++ (outs.flatMap (tecLines vars) ++ rest)) =
      (do let rs ← r; .ok ((o :: outs).map (tecRead vars) ++ rs)) := by
  induction outs generalizing o zone fuel with
  | nil =>
    obtain ⟨f, rfl⟩ : ∃ f, fuel = f + 1 + 1 := ⟨fuel - 2, by simp at hf; omega⟩
    obtain ⟨h1, h3⟩ := h o (by simp)
    obtain ⟨t, ht⟩ := Option.isSome_iff_exists.1 h1
    have e := tecTurn (vars := vars)
      (rows := (List.range o.labels.length).map fun i => vars.map (cellOf o.data i)) (by
        intro xs hxs x hx
        obtain ⟨i, hi, rfl⟩ := List.mem_map.1 hxs
        obtain ⟨k, hk, rfl⟩ := List.mem_map.1 hx
        exact h3 i (List.mem_range.1 hi) k hk) (by
        intro xs hxs
        obtain ⟨i, hi, rfl⟩ := List.mem_map.1 hxs
        simp) t zone (f + 1) rest
    have e2 : (tecLines vars o).tail = ((List.range o.labels.length).map fun i =>
        vars.map (cellOf o.data i)).map tecRow := by
      unfold tecLines
      rw [List.tail_cons, List.map_map]
      rfl
    rw [tecLines_head vars ht, e2, List.flatMap_nil, List.nil_append]
    rw [List.length_map, List.length_range] at e
    rw [e, if_neg hrest, hr, tecRead_eq vars ht]
    rfl
  | cons o' outs ih =>
    obtain ⟨f, rfl⟩ : ∃ f, fuel = f + 1 := ⟨fuel - 1, by simp at hf; omega⟩
    obtain ⟨h1, h3⟩ := h o (by simp)
    obtain ⟨t, ht⟩ := Option.isSome_iff_exists.1 h1
    have e := tecTurn (vars := vars)
      (rows := (List.range o.labels.length).map fun i => vars.map (cellOf o.data i)) (by
        intro xs hxs x hx
        obtain ⟨i, hi, rfl⟩ := List.mem_map.1 hxs
        obtain ⟨k, hk, rfl⟩ := List.mem_map.1 hx
        exact h3 i (List.mem_range.1 hi) k hk) (by
        intro xs hxs
        obtain ⟨i, hi, rfl⟩ := List.mem_map.1 hxs
        simp) t zone f ((o' :: outs).flatMap (tecLines vars) ++ rest)
    have e2 : (tecLines vars o).tail = ((List.range o.labels.length).map fun i =>
        vars.map (cellOf o.data i)).map tecRow := by
      unfold tecLines
      rw [List.tail_cons, List.map_map]
      rfl
    have e3 : ((o' :: outs).flatMap (tecLines vars) ++ rest).headD [] = (tecLines vars o').headD [] := by
      rw [List.flatMap_cons]
      unfold tecLines
      rfl
    have e4 : ((o' :: outs).flatMap (tecLines vars) ++ rest).tail =
        (tecLines vars o').tail ++ (outs.flatMap (tecLines vars) ++ rest) := by
      rw [List.flatMap_cons, List.append_assoc]
      unfold tecLines
      rfl
    obtain ⟨t', ht'⟩ := Option.isSome_iff_exists.1 (h o' (by simp)).1
    rw [List.length_map, List.length_range] at e
    rw [tecLines_head vars ht, e2, e, e3, e4, if_neg (by
      rw [tecLines_head vars ht']
      exact zoneText_ne _ _), ih (fun x hx => h x (List.mem_cons_of_mem _ hx)) _ _ (by
      simp at hf; omega), tecRead_eq vars ht]
    cases r <;> rfl

theorem tecRows_nil (n : ℕ) : tecRows n [] = .ok (List.replicate n ⟨[], []⟩, []) := by
  induction n with
  | zero => rfl
  | succ n ih =>
    rw [tecRows, List.headD_nil, List.tail_nil, ih]
    rfl

theorem tecRows_cut {rows : List (List Flt)} (h : ∀ xs ∈ rows, ∀ x ∈ xs, TecNum x) (n : ℕ) :
    tecRows (rows.length + n) (rows.map tecRow) =
      .ok ((rows.map fun xs => ⟨[], xs.map (quant 12)⟩) ++ List.replicate n ⟨[], []⟩, []) := by
  induction rows with
  | nil =>
    rw [List.length_nil, Nat.zero_add, List.map_nil, tecRows_nil]
    rfl
  | cons xs rows ih =>
    rw [List.length_cons, show rows.length + 1 + n = (rows.length + n) + 1 by omega, tecRows, List.map_cons]
    simp only [List.headD_cons, List.tail_cons]
    rw [tecRow_read (h xs (by simp)), ok_bind, ih fun ys hy => h ys (List.mem_cons_of_mem _ hy)]
    rfl

theorem tecLoop_zone {vars : List Str} (t : Flt) (n : ℕ) (zone : Option (Option Flt × ℤ)) (f : ℕ)
    {ls ls' : List Str} {rows : List CsvRow} (h : tecRows n ls = .ok (rows, ls')) :
    tecLoop vars (f + 1) zone (zoneText (padLeft 14 (upper (fmtE 7 t))) n) ls =
      if (rows.all fun r => r.vals.length = nColumns rows) = true then
        if strip (upper (ls'.headD [])) = [] then
          .ok [⟨some (quant 7 t), columnsOf vars rows⟩]
        else (do
          let outs ← tecLoop vars f (some (some (quant 7 t), (n : ℤ))) (strip (upper (ls'.headD []))) ls'.tail
          .ok (⟨some (quant 7 t), columnsOf vars rows⟩ :: outs))
      else .error .valueError := by
  rw [tecLoop, if_pos (by
    unfold zoneText startsWith
    rw [List.isPrefixOf_iff_prefix, List.append_assoc, List.append_assoc]
    exact (by decide : "ZONE".toList <+: "ZONE T=\"".toList).trans (List.prefix_append _ _)),
    tecZoneOf_text, ok_bind, ok_bind]
  simp only [Int.toNat_natCast]
  rw [h, ok_bind]

/-- A table of which only some rows are there. -/
theorem tecLoop_cut {vars : List Str} (hv : vars ≠ []) {o : Output Str Flt} {t : Flt} (ht : o.time = some t)
    (hc : ∀ (i : ℕ), i < o.labels.length → ∀ k ∈ vars, TecNum (cellOf o.data i k)) {j : ℕ} (hj : 0 < j)
    (hjn : j < o.labels.length) (z : Option (Option Flt × ℤ)) (f : ℕ) :
    tecLoop vars (f + 1) z (strip (upper (((tecLines vars o).take (j + 1)).headD [])))
      ((tecLines vars o).take (j + 1)).tail = .error .valueError := by
  have e1 : ((tecLines vars o).take (j + 1)).headD [] = (tecLines vars o).headD [] := by
    unfold tecLines; rfl
  have e2 : ((tecLines vars o).take (j + 1)).tail =
      ((List.range j).map fun i => vars.map (cellOf o.data i)).map tecRow := by
    unfold tecLines
    rw [List.take_succ_cons, List.tail_cons, List.map_map, ← List.map_take, List.take_range,
      Nat.min_eq_left hjn.le]
    rfl
  have e3 := tecRows_cut (rows := (List.range j).map fun i => vars.map (cellOf o.data i)) (by
    intro xs hxs x hx
    obtain ⟨i, hi, rfl⟩ := List.mem_map.1 hxs
    obtain ⟨k, hk, rfl⟩ := List.mem_map.1 hx
    exact hc i ((List.mem_range.1 hi).trans hjn) k hk) (o.labels.length - j)
  rw [List.length_map, List.length_range, show j + (o.labels.length - j) = o.labels.length by omega] at e3
  rw [e1, e2, tecLines_head vars ht, tecLoop_zone t _ z f e3, if_neg]
  rw [List.all_eq_true]
  intro hall
  obtain ⟨j', rfl⟩ : ∃ j', j = j' + 1 := ⟨j - 1, by omega⟩
  have := hall ⟨[], []⟩ (List.mem_append_right _ (List.mem_replicate.2 ⟨by omega, rfl⟩))
  rw [List.range_succ_eq_map] at this
  simp [nColumns] at this
  exact hv (List.length_eq_zero_iff.1 this.symm)

/-- A table without its rows. -/
theorem tecLoop_bare {vars : List Str} {o : Output Str Flt} {t : Flt} (ht : o.time = some t)
    (z : Option (Option Flt × ℤ)) (f : ℕ) :
    tecLoop vars (f + 1) z (strip (upper (((tecLines vars o).take 1).headD [])))
      ((tecLines vars o).take 1).tail = .ok [⟨some (quant 7 t), []⟩] := by
  have e1 : ((tecLines vars o).take 1).headD [] = (tecLines vars o).headD [] := by
    unfold tecLines; rfl
  have e2 : ((tecLines vars o).take 1).tail = [] := by
    unfold tecLines; rfl
  have hn : nColumns (List.replicate o.labels.length ⟨[], []⟩) = 0 := by
    cases o.labels.length <;> rfl
  rw [e1, e2, tecLines_head vars ht, tecLoop_zone t _ z f (tecRows_nil _), if_pos, if_pos (by decide)]
  · congr 3
    unfold columnsOf
    rw [hn]
    simp [updateDict]
  · rw [List.all_eq_true]
    intro r hr
    rw [(List.mem_replicate.1 hr).2, hn]
    rfl

/-! ### main output files -/

theorem listRows_cut (type : OutType) : ∀ (ls : List Str) (len : Option ℕ) (line : Str),
    (∀ l ∈ ls, startsWith (l.drop 1) "@@@@@".toList = false) →
    listRows type none len line ls = .error .stopIteration := by
  intro ls
  induction ls with
  | nil =>
    intro len line _
    rw [listRows_eq]
    cases isRow line <;> cases len <;> rfl
  | cons l ls ih =>
    intro len line h
    rw [listRows_eq]
    have hl := h l (by simp)
    have ih' := fun len line => ih len line fun l hl => h l (List.mem_cons_of_mem _ hl)
    rw [List.drop_one] at hl
    cases isRow line <;> cases len <;>
      (simp [firstLength, ih', Bind.bind, Except.bind]; exact hl)

theorem nextFilled_cut : ∀ ls : List Str, nextFilled ls = .error .stopIteration ∨
    ∃ l ls', nextFilled ls = .ok (l, ls') ∧ ∀ x ∈ ls', x ∈ ls := by
  intro ls
  induction ls with
  | nil => exact .inl rfl
  | cons l ls ih =>
    rw [nextFilled]
    split
    · exact .inr ⟨l, ls, rfl, fun x hx => List.mem_cons_of_mem _ hx⟩
    · rcases ih with h | ⟨a, b, h1, h2⟩
      · exact .inl h
      · exact .inr ⟨a, b, h1, fun x hx => List.mem_cons_of_mem _ (h2 x hx)⟩

theorem findTable_none {key : Str} {ls : List Str} (h : ∀ l ∈ ls, ¬ key <+: strip l) :
    findTable key ls = .error .valueError := by
  induction ls with
  | nil => rfl
  | cons l ls ih =>
    rw [findTable, if_neg, ih fun l hl => h l (List.mem_cons_of_mem _ hl)]
    rw [startsWith, List.isPrefixOf_iff_prefix]
    exact h l (by simp)

/-- What is printed for one time, cut before the end of its table. -/
theorem listStep_cut {type : OutType} {L n : ℕ} (hL : 5 ≤ L) {vars : List Str} {s : ListingStep}
    (h : StepFits (tableKey type) L (labelHeaders type).length n vars s) (len : Option ℕ) {m : ℕ}
    (hm : m + 2 ≤ s.upToTable) :
    listStep type none len (s.lines.tail.take m) =
      .error (if m = 0 ∨ s.before.length + 2 ≤ m then .stopIteration else .valueError) := by
  obtain ⟨-, ht1, ht2, ht3, hb, hh1, hh2, hh3, hh4, hv, hr1, hr2, hbt, hlast, -⟩ := h
  have hpos : 0 < (labelHeaders type).length := by cases type <;> decide
  obtain ⟨t, ht⟩ := Option.isSome_iff_exists.1 ht3
  have e1 : words (strip (blanks s.timeGap ++ (s.timeText ++ s.timeRest))) =
      s.timeText :: words s.timeRest := by
    rw [words_strip, words_spaces_append (blanks_space _), words_token ht1.1 ht1.2 ht2]
  have e2 : strip (blanks s.headGap ++ (s.head ++ (spacedText (s.heads ++ s.vars) ++ ['\n']))) =
      rstrip (s.head ++ (spacedText (s.heads ++ s.vars) ++ ['\n'])) := by
    rw [strip_spaces_append (blanks_space _), strip, lstrip_eq_self]
    obtain ⟨h0, h1⟩ := hh1
    cases hs : s.head with
    | nil => exact absurd hs h0
    | cons c l => simpa using h1 c (by rw [hs]; simp)
  have e4 : s.head <+: strip (blanks s.headGap ++ (s.head ++ (spacedText (s.heads ++ s.vars) ++ ['\n']))) := by
    rw [e2]
    exact prefix_rstrip hh1 _
  cases m with
  | zero => rfl
  | succ m =>
    have el : s.lines.tail.take (m + 1) = (blanks s.timeGap ++ (s.timeText ++ s.timeRest)) ::
        (s.before ++ (blanks s.headGap ++ (s.head ++ (spacedText (s.heads ++ s.vars) ++ ['\n']))) ::
        (s.table.map tableLine ++ s.last :: s.after)).take m := by
      simp only [ListingStep.lines, List.tail_cons, List.take_succ_cons]
    rw [el]
    unfold listStep listTime
    simp only [e1, rowAt, List.getElem?_cons_zero, toFloat, ht, ok_bind]
    by_cases hb2 : m ≤ s.before.length
    · rw [List.take_append_of_le_length hb2, findTable_none fun l hl => hb l (List.mem_of_mem_take hl),
        if_neg (by omega)]
      rfl
    · obtain ⟨i, rfl⟩ : ∃ i, m = s.before.length + (i + 1) := ⟨m - s.before.length - 1, by omega⟩
      unfold ListingStep.upToTable at hm
      rw [List.take_length_add_append, List.take_succ_cons, List.take_append_of_le_length (by
        rw [List.length_map]; omega), findTable_eq hb (hh2.trans e4), ok_bind, if_pos (by omega)]
      have hno : ∀ l ∈ (s.table.map tableLine).take i, startsWith (l.drop 1) "@@@@@".toList = false := by
        intro l hl
        obtain ⟨x, hx, rfl⟩ := List.mem_map.1 (List.mem_of_mem_take hl)
        cases x with
        | inl r => exact not_end_row (hr1 r (List.mem_filterMap.2 ⟨_, hx, rfl⟩)) hpos hL
        | inr l =>
          rw [← Bool.not_eq_true, startsWith, List.isPrefixOf_iff_prefix]
          exact (hbt l hx).2
      simp only
      rcases nextFilled_cut ((s.table.map tableLine).take i) with h | ⟨l, ls', h, hsub⟩
      · rw [h]; rfl
      · rw [h, ok_bind]
        simp only
        rw [listRows_cut type ls' len l fun x hx => hno x (hsub x hx)]
        rfl

theorem listLoop_cut {type : OutType} {L : ℕ} (hL : 5 ≤ L) (hL9 : L ≤ 9) {n0 : ℕ} {vars0 : List Str}
    {s0 : ListingStep} (h0 : StepFits (tableKey type) L (labelHeaders type).length n0 vars0 s0) {m : ℕ}
    (hm : m + 2 ≤ s0.upToTable) :
    ∀ (steps : List ListingStep) (k : ℕ) (len : Option ℕ) (headers : Option (List Str)),
      (∀ s ∈ steps, ∃ n vars, 0 < n ∧ StepFits (tableKey type) L (labelHeaders type).length n vars s) →
      (len = none ∨ len = some L) → (steps.flatMap (·.lines)).length + 1 ≤ k →
      listLoop type none k len headers (steps.flatMap (·.lines) ++ s0.lines.take (m + 1)) =
        .error (if m = 0 ∨ s0.before.length + 2 ≤ m then .stopIteration else .valueError) := by
  intro steps
  induction steps with
  | nil =>
    intro k len headers _ _ hk
    obtain ⟨k', rfl⟩ : ∃ k', k = k' + 1 := ⟨k - 1, by simp at hk; omega⟩
    have el : s0.lines.take (m + 1) = s0.total :: s0.lines.tail.take m := by
      simp [ListingStep.lines]
    rw [List.flatMap_nil, List.nil_append, el, listLoop_eq h0.1, listStep_cut hL h0 len hm]
    rfl
  | cons s steps ih =>
    intro k len headers h hlen hk
    obtain ⟨n, vars, hn, hs⟩ := h s (by simp)
    obtain ⟨len', t, hl, ht, he⟩ := listStep_eq hL hL9 hn hs hlen
      (steps.flatMap (·.lines) ++ s0.lines.take (m + 1))
    have el : (s :: steps).flatMap (·.lines) ++ s0.lines.take (m + 1) =
        s.total :: (s.lines.tail ++ (steps.flatMap (·.lines) ++ s0.lines.take (m + 1))) := by
      simp [ListingStep.lines]
    have hlenk : s.after.length + (steps.flatMap (·.lines)).length + 2 ≤ k := by
      have e : (s :: steps).flatMap (·.lines) = s.total :: (s.lines.tail ++ steps.flatMap (·.lines)) := by
        simp [ListingStep.lines]
      rw [e, List.length_cons, List.length_append] at hk
      have : s.after.length ≤ s.lines.tail.length := by
        simp [ListingStep.lines]
        omega
      omega
    obtain ⟨k', rfl⟩ : ∃ k', k = k' + s.after.length + 1 := ⟨k - s.after.length - 1, by omega⟩
    rw [el, listLoop_eq hs.1, he, ok_bind]
    simp only
    rw [listLoop_skip hs.2.2.2.2.2.2.2.2.2.2.2.2.2.2,
      ih k' len' _ (fun s hs => h s (by simp [hs])) hl (by omega)]
    rfl

end Verif.Model
