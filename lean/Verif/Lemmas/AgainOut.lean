import Verif.Lemmas.AgainOpts

/-! Helper lemmas: selections, more options and output blocks of a file that was read. -/

set_option linter.unusedSimpArgs false

namespace Verif.Model
open Verif.Py Verif.Spec Verif.Props

variable {p : Params}

/-! ### SELEC -/

/-- The integers of SELEC as they are written. -/
theorem selec_vals {d : List (ℤ × Val)} (hn : (d.map (·.1)).Nodup)
    (hr : ∀ e ∈ d, 1 ≤ e.1 ∧ e.1 ≤ 16) (v : Val) :
    sortedVals (dictSet (updateDict (noOptions 16) d) 1 v) =
      (List.range 16).map fun k : ℕ => if (k : ℤ) + 1 = 1 then v else valueAt d ((k : ℤ) + 1) := by
  have hkeys : (updateDict (noOptions 16) d).map (·.1) =
      (List.range 16).map fun k : ℕ => (k : ℤ) + 1 := by
    rw [updateDict_keys, noOptions_keys]
    intro e he
    rw [noOptions_keys, List.mem_map]
    have := hr e he
    exact ⟨(e.1 - 1).toNat, by simp; omega, by omega⟩
  rw [sortedVals_of_keys 16]
  · apply List.map_congr_left
    intro k _
    unfold valueAt
    rw [lookup_dictSet]
    split
    · rfl
    · rw [lookup_updateDict _ _ hn]
      cases hl : d.lookup ((k : ℤ) + 1) with
      | none => simpa using lookup_noOptions 16 ((k : ℤ) + 1)
      | some v => rfl
  · rw [dictSet_keys, hkeys]
    rw [hkeys]
    simp only [List.mem_map, List.mem_range]
    exact ⟨0, by norm_num, by norm_num⟩

theorem selecRows_eq {fl : Floats} (hne : rowsOf fl ≠ []) (hr : ∀ r ∈ rowsOf fl, r.length ≤ 8) :
    selecRows fl = .ok (rowsOf fl) := by
  match fl with
  | .absent | .none | .row [] => exact absurd rfl hne
  | .row (a :: l) =>
    have := hr (a :: l) (by simp [rowsOf])
    simp only [selecRows, rowsOf, this, if_true]
  | .rows l =>
    have : l.all (·.length ≤ 8) = true := by
      rw [List.all_eq_true]; intro r h
      exact decide_eq_true (hr r h)
    simp only [selecRows, rowsOf, this, if_true]

theorem dropTrailing_le (l : List Val) : (dropTrailing l).length ≤ l.length := by
  obtain ⟨k, h1, -⟩ := isPruned_dropTrailing l
  have := congrArg List.length h1
  simp at this
  omega

theorem rowsOf_floatsBack {rows : List (List Val)}
    (h : ∀ r, rows = [r] → dropTrailing (r.map (num 3)) ≠ []) :
    rowsOf (floatsBack rows) = rows.map fun r => dropTrailing (r.map (num 3)) := by
  match rows with
  | [] => rfl
  | [r] =>
    have := h r rfl
    show rowsOf (.row (dropTrailing (r.map (num 3)))) = [dropTrailing (r.map (num 3))]
    cases hd : dropTrailing (r.map (num 3)) with
    | nil => exact absurd hd this
    | cons a l => rfl
  | a :: b :: l => rfl

theorem drop3_nil_iff {r : List Val} (ht : ∀ v ∈ r, Tame v) :
    dropTrailing (r.map (num 3)) = [] ↔ ∀ v ∈ r, v = .none := by
  rw [dropTrailing_nil_iff]
  simp only [List.mem_map, forall_exists_index, and_imp, forall_apply_eq_imp_iff₂]
  exact ⟨fun h v hv => (num_none_iff (ht v hv)).1 (h v hv),
    fun h v hv => (num_none_iff (ht v hv)).2 (h v hv)⟩

theorem again_selec (hs : ∀ s ∈ p.selections, SelecOk s) (ht : ∀ s ∈ p.selections, SelecTame s) :
    ifSome (fileBack p).params.selections (fun s => writeSelec s.1 s.2) =
      ifSome p.selections fun s => writeSelec s.1 s.2 := by
  have e : (fileBack p).params.selections = p.selections.map fun s => (selecBack s).again := by
    simp [FileRead.params, fileBack, Option.map_map, Function.comp_def]
  rw [e]
  cases hc : p.selections with
  | none => rfl
  | some s =>
    obtain ⟨h0, h1, h2, -⟩ := hs s (by simp [hc])
    obtain ⟨t1, t2, t3⟩ := ht s (by simp [hc])
    obtain ⟨d, fl⟩ := s
    obtain ⟨d, rfl⟩ := Option.ne_none_iff_exists'.1 h0
    dsimp only [Option.getD_some] at *
    show writeSelec (selecBack (some d, fl)).again.1 (selecBack (some d, fl)).again.2 =
      writeSelec (some d) fl
    set rows := rowsOf fl with hrows
    set d' : List (ℤ × Val) := (1, .int rows.length) :: d.filter (·.1 ≠ 1) with hd'
    have hb : selecBack (some d, fl) = ⟨setEntries 16 d', some (floatsBack rows)⟩ := by
      unfold selecBack
      rw [if_neg t1]
      rfl
    rw [hb]
    show writeSelec (some (setEntries 16 d')) (floatsBack rows) = _
    have hone : ∀ r, rows = [r] → dropTrailing (r.map (num 3)) ≠ [] := by
      intro r hr he
      obtain ⟨v, hv, hne⟩ := t3 (by rw [hr]; rfl) r (by rw [hr]; simp)
      exact hne ((drop3_nil_iff (t2 r (by rw [hr]; simp))).1 he v hv)
    have hro := rowsOf_floatsBack hone
    have r1 : selecRows fl = .ok rows := selecRows_eq t1 fun r hr => (h2.2 r hr).1
    have r2 : selecRows (floatsBack rows) =
        .ok (rows.map fun r => dropTrailing (r.map (num 3))) := by
      rw [← hro]
      refine selecRows_eq (by rw [hro]; simpa using t1) ?_
      rw [hro]
      intro r hr
      obtain ⟨x, hx, rfl⟩ := List.mem_map.1 hr
      have := dropTrailing_le (x.map (num 3))
      have := (h2.2 x hx).1
      simp at *
      omega
    have k1 := selec_vals h1.1 (fun e he => ⟨(h1.2 e he).1, (h1.2 e he).2.1⟩) (.int rows.length)
    obtain ⟨s1, s2⟩ := setEntries_keys 16 d'
    have k2 := selec_vals s1 (fun e he => ⟨(s2 e he).1, (s2 e he).2.1⟩) (.int rows.length)
    have k3 : sortedVals (dictSet (updateDict (noOptions 16) (setEntries 16 d')) 1
        (.int rows.length)) =
        sortedVals (dictSet (updateDict (noOptions 16) d) 1 (.int rows.length)) := by
      rw [k1, k2]
      refine List.map_congr_left fun k hk => ?_
      split
      · rfl
      · rename_i hne
        rw [valueAt_setEntries d' (List.mem_range.1 hk), hd', valueAt_filter, if_neg hne]
    have k4 : (rows.map fun r => dropTrailing (r.map (num 3))).mapM (writeRecord Fmt.selec2) =
        rows.mapM (writeRecord Fmt.selec2) := by
      rw [mapM_map]
      exact mapM_congr fun r hr => writeRow_drop (n := 8) (w := 10) (p := 3) (by decide) (by decide)
        (h2.2 r hr).2 (t2 r hr)
    unfold writeSelec
    simp only [ok_bind, r1, r2, if_neg t1, List.map_eq_nil_iff, List.length_map, k3, k4]

/-! ### MOMOP -/

theorem again_momop (hd : DigitsOk 40 p.moreOptions)
    (ht : p.moreOptions = [] ∨ ∃ e ∈ p.moreOptions, e.2 ≠ .none) :
    onlyIf ((fileBack p).params.moreOptions ≠ []) (writeMomop (fileBack p).params.moreOptions) =
      onlyIf (p.moreOptions ≠ []) (writeMomop p.moreOptions) := by
  by_cases hc : p.moreOptions = []
  · have : (fileBack p).params.moreOptions = [] := by
      simp [FileRead.params, fileBack, nonEmpty, hc]
    rw [this, hc]
  · have e : (fileBack p).params.moreOptions = setEntries 40 p.moreOptions := by
      simp [FileRead.params, fileBack, nonEmpty, hc]
    have hne : setEntries 40 p.moreOptions ≠ [] := by
      obtain ⟨x, hx, hn⟩ := ht.resolve_left hc
      obtain ⟨h1, h2, -⟩ := hd.2 x hx
      have hv : valueAt p.moreOptions x.1 = x.2 := by
        have := dictGet_mem (k := x.1) (v := x.2) hd.1 hx
        unfold dictGet at this
        unfold valueAt
        cases hl : p.moreOptions.lookup x.1 with
        | none => rw [hl] at this; cases this
        | some v => rw [hl] at this; cases this; rfl
      intro h0
      have : x.1 = ((x.1.toNat - 1 : ℕ) : ℤ) + 1 := by omega
      have h3 := valueAt_setEntries (n := 40) p.moreOptions (k := x.1.toNat - 1) (by omega)
      rw [← this, hv, h0] at h3
      exact hn h3.symm
    rw [e]
    have h1 : decide (setEntries 40 p.moreOptions ≠ []) = true := decide_eq_true hne
    have h2 : decide (p.moreOptions ≠ []) = true := decide_eq_true hc
    unfold onlyIf writeMomop
    rw [if_pos h1, if_pos h2, optText_setEntries hd]

/-! ### TIMES, FOFT, COFT, GOFT -/

theorem again_times (hf : ∀ t ∈ p.times, TimesFit t.toList)
    (ht : ∀ t ∈ p.times, ∀ v ∈ t.toList, Tame v) :
    ifSome (fileBack p).params.times writeTimes = ifSome p.times writeTimes := by
  have e : (fileBack p).params.times = p.times.map fun t => stepsBack t.toList := rfl
  rw [e]
  cases hc : p.times with
  | none => rfl
  | some t =>
    have h1 := hf t (by simp [hc])
    have h2 := ht t (by simp [hc])
    have h3 : writeMulti Fmt.times2 (t.toList.map (num 4)) = writeMulti Fmt.times2 t.toList :=
      writeMulti_num (n := 8) (w := 10) (p := 4) (by decide) (by decide) (by decide)
        (fun v hv => (h1.2 v hv).2) h2
    show writeTimes (stepsBack t.toList) = writeTimes t
    unfold writeTimes
    rw [steps_toList, List.length_map, h3]

theorem again_names {w : ℕ} {o : Option (List Val)} (h : ∀ l ∈ o, ∀ v ∈ l, HistName w v) :
    (o.map (·.map textOf)).map (·.map Val.str) = o := by
  cases o with
  | none => rfl
  | some l =>
    simp only [Option.map_some, List.map_map, Option.some.injEq]
    conv_rhs => rw [← List.map_id l]
    refine List.map_congr_left fun v hv => ?_
    have := h l rfl v hv
    cases v <;> first | rfl | exact this.elim

/-! ### DIFFU -/

theorem writeMulti_one {f : List Tok} {vs : List Val} (h0 : vs ≠ []) (hl : vs.length ≤ f.length) :
    writeMulti f vs = (do let l ← writeRecord f vs; .ok [l]) := by
  have hp : 0 < f.length := lt_of_lt_of_le (List.length_pos_iff.2 h0) hl
  unfold writeMulti
  rw [chunks_cons _ hp _ h0, List.drop_eq_nil_of_le hl, chunks_nil _ hp, List.take_of_length_le hl]
  cases hr : writeRecord f vs <;> simp [List.mapM_cons, hr] <;> rfl

theorem again_diffu (hf : ∀ l ∈ p.diffusion, ∀ r ∈ l, DiffuFits r)
    (ht : ∀ l ∈ p.diffusion, ∀ r ∈ l, ∀ v ∈ r, Tame v) :
    ifSome (fileBack p).params.diffusion writeDiffu = ifSome p.diffusion writeDiffu := by
  have e : (fileBack p).params.diffusion =
    p.diffusion.map (·.map fun r => dropTrailing (r.map (num 3))) := rfl
  rw [e]
  cases hc : p.diffusion with
  | none => rfl
  | some l =>
    show writeDiffu (l.map fun r => dropTrailing (r.map (num 3))) = writeDiffu l
    unfold writeDiffu
    rw [concatM_map]
    congr 1
    refine concatM_congr fun r hr => ?_
    obtain ⟨h1, ⟨v, hv, hn⟩, h3⟩ := hf l (by simp [hc]) r hr
    have h4 := ht l (by simp [hc]) r hr
    have hlen := dropTrailing_le (r.map (num 3))
    rw [List.length_map] at hlen
    have hne : dropTrailing (r.map (num 3)) ≠ [] := by
      intro h
      have := (drop3_nil_iff h4).1 h v hv
      rw [this] at hn
      exact hn
    rw [writeMulti_one hne (by simp [Fmt.diffu]; omega),
      writeMulti_one (by rintro rfl; simp at hv) (by simp [Fmt.diffu]; omega)]
    have : writeRecord Fmt.diffu (dropTrailing (r.map (num 3))) = writeRecord Fmt.diffu r :=
      writeRow_drop (n := 8) (w := 10) (p := 3) (by decide) (by decide) h3 h4
    rw [this]

/-! ### OUTPU -/

theorem upperC_upperC (c : Char) : upperC (upperC c) = upperC c := by
  by_cases h : (97 ≤ c.toNat ∧ c.toNat ≤ 122)
  · exact char_of_toNat c (fun c => upperC (upperC c) = upperC c) 97 122 h.1 h.2 (by decide)
  · have : upperC c = c := by
      unfold upperC
      rw [if_neg (by simpa using h)]
    rw [this, this]

theorem upperC_lowerC (c : Char) : upperC (lowerC c) = upperC c := by
  by_cases h : (65 ≤ c.toNat ∧ c.toNat ≤ 90)
  · exact char_of_toNat c (fun c => upperC (lowerC c) = upperC c) 65 90 h.1 h.2 (by decide)
  · have : lowerC c = c := by
      unfold lowerC
      rw [if_neg (by simpa using h)]
    rw [this]

theorem upper_upper (s : Str) : upper (upper s) = upper s := by
  simp [upper, upperC_upperC, Function.comp_def]

theorem upper_lower (s : Str) : upper (lower s) = upper s := by
  simp [lower, upper, upperC_lowerC, Function.comp_def]

theorem outpu_row {s : Str} {r : List Val} (hs : TextFits 20 s) (hr : RowOk r) :
    writeRecord Fmt.outpu3 (.str (upper s) :: dropTrailing r) =
      writeRecord Fmt.outpu3 (.str (upper s) :: r) := by
  have hl : (upper s).length ≤ 20 := by simpa [upper] using hs.2.1
  refine writeRecord_alike (by decide) ⟨⟨hl, by rw [strip_upper, hs.2.2]⟩, ?_⟩ ⟨rfl, ?_⟩
  · exact allFit_replicate 2 (dCol 5) r fun v hv => fits_int5 (hr.2 v hv)
  · exact alike_drop (by decide) (Alike.refl _ _)

theorem outpu_rowBack {s : Str} {r : List Val} (hs : TextFits 20 s) (hr : RowOk r) :
    (do let rows ← argRows (rowBack r)
        rows.mapM fun r => writeRecord Fmt.outpu3 (.str (upper s) :: r)) =
      [r].mapM fun r => writeRecord Fmt.outpu3 (.str (upper s) :: r) := by
  obtain ⟨x, hx, he⟩ : ∃ x, argRows (rowBack r) = .ok [x] ∧
      writeRecord Fmt.outpu3 (.str (upper s) :: x) =
        writeRecord Fmt.outpu3 (.str (upper s) :: dropTrailing r) := by
    unfold rowBack
    split <;> rename_i h
    · refine ⟨[.none], rfl, ?_⟩
      rw [h]
      exact (outpu_row (r := [.none]) hs (by decide)).symm
    · rename_i v
      exact ⟨[v], rfl, by rw [h]⟩
    · rename_i h0
      cases hd : dropTrailing r with
      | nil => exact absurd hd h0
      | cons a l => exact ⟨_, rfl, rfl⟩
  rw [hx, ok_bind]
  have e := he.trans (outpu_row hs hr)
  simp only [List.mapM_cons, e]

theorem writeVar_back {e : Str × Args} (hs : TextFits 20 e.1) (ha : ArgsOk e.2) :
    writeVar (lower e.1, argsBack e.2) = writeVar e := by
  obtain ⟨s, a⟩ := e
  unfold writeVar
  simp only [upper_lower]
  match a, ha with
  | .one v, _ => rfl
  | .list (v :: l), ha => exact outpu_rowBack hs ha.2
  | .rows [r], ha => exact outpu_rowBack hs (ha.2 r (by simp))
  | .rows (a :: b :: l), ha =>
    show (((a :: b :: l).map dropTrailing).mapM fun r => writeRecord Fmt.outpu3 (.str (upper s) :: r)) =
      (a :: b :: l).mapM fun r => writeRecord Fmt.outpu3 (.str (upper s) :: r)
    rw [mapM_map]
    exact mapM_congr fun r hr => outpu_row hs (ha.2 r hr)

theorem again_outpu (ho : ∀ o ∈ p.output, (o.1 = [] ∨ FormatFits o.1) ∧ VarsFit o.2 ∧ o.2 ≠ []) :
    ifSome (fileBack p).params.output (fun o => writeOutpu o.1 o.2) =
      ifSome p.output fun o => writeOutpu o.1 o.2 := by
  have e : (fileBack p).params.output = p.output.map fun o =>
      ((if o.1 = [] then none else some (upper o.1)).getD [],
        o.2.map fun e => (lower e.1, argsBack e.2)) := by
    simp [FileRead.params, fileBack, Option.map_map, Function.comp_def]
  rw [e]
  cases hc : p.output with
  | none => rfl
  | some o =>
    obtain ⟨h1, h2, h3⟩ := ho o (by simp [hc])
    show writeOutpu ((if o.1 = [] then none else some (upper o.1)).getD [])
      (o.2.map fun e => (lower e.1, argsBack e.2)) = writeOutpu o.1 o.2
    have k1 : concatM writeVar (o.2.map fun e => (lower e.1, argsBack e.2)) =
        concatM writeVar o.2 := by
      rw [concatM_map]
      exact concatM_congr fun e he => writeVar_back (h2.2.1 e he).1 (h2.2.1 e he).2
    unfold writeOutpu
    by_cases hf : o.1 = []
    · simp only [hf, if_true, Option.getD_none, List.map_eq_nil_iff, k1]
    · have : upper o.1 ≠ [] := by simpa [upper] using hf
      simp only [if_neg hf, Option.getD_some, if_neg this, upper_upper, List.map_eq_nil_iff, k1]

end Verif.Model
