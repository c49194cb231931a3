import Verif.Lemmas.AgainRocks

/-! Helper lemmas: title and option blocks of a file that was read. -/

set_option linter.unusedSimpArgs false

namespace Verif.Model
open Verif.Py Verif.Spec Verif.Props

variable {p : Params}

theorem again_title (h : p.title.lines ≠ []) (hs : ∀ t ∈ p.title.lines, strip t = t) :
    (fileBack p).params.title.lines = p.title.lines := by
  show ((titleBack p.title).getD (.one [])).lines = _
  have e : p.title.lines.map strip = p.title.lines := by
    conv_rhs => rw [← List.map_id p.title.lines]
    exact List.map_congr_left hs
  unfold titleBack
  rw [e]
  generalize p.title.lines = l at h
  match l, h with
  | [s], _ => rfl
  | s :: s' :: l, _ => rfl

/-! ### Entries by number -/

theorem lookup_entries (n : ℕ) (d : List (ℤ × Val)) (j : ℕ) (l : List ℕ) :
    valueAt ((l.map fun k : ℕ => ((k : ℤ) + 1, valueAt d ((k : ℤ) + 1))).filter (·.2 ≠ .none))
      ((j : ℤ) + 1) = if j ∈ l then valueAt d ((j : ℤ) + 1) else .none := by
  induction l with
  | nil => rfl
  | cons k l ih =>
    rw [List.map_cons, List.filter_cons]
    by_cases hkj : k = j
    · subst hkj
      rw [if_pos (show k ∈ k :: l by simp)]
      split
      · simp [valueAt, List.lookup_cons]
      · rename_i h
        have h : valueAt d ((k : ℤ) + 1) = .none := by simpa using h
        rw [ih, h]
        split <;> rfl
    · have h1 : (j ∈ k :: l) ↔ j ∈ l := by
        simp only [List.mem_cons]
        constructor
        · rintro (rfl | h)
          · exact absurd rfl hkj
          · exact h
        · exact Or.inr
      simp only [h1]
      rw [← ih]
      split
      · have h2 : ((j : ℤ) + 1 == (k : ℤ) + 1) = false := by simp; omega
        simp only [valueAt, List.lookup_cons, h2]
      · rfl

theorem valueAt_setEntries {n : ℕ} (d : List (ℤ × Val)) {k : ℕ} (hk : k < n) :
    valueAt (setEntries n d) ((k : ℤ) + 1) = valueAt d ((k : ℤ) + 1) := by
  unfold setEntries
  rw [lookup_entries n, if_pos (List.mem_range.2 hk)]

theorem setEntries_keys (n : ℕ) (d : List (ℤ × Val)) :
    ((setEntries n d).map (·.1)).Nodup ∧ ∀ e ∈ setEntries n d, 1 ≤ e.1 ∧ e.1 ≤ n ∧
      e.2 = valueAt d e.1 := by
  constructor
  · unfold setEntries
    refine List.Nodup.sublist (List.Sublist.map _ List.filter_sublist) ?_
    rw [List.map_map]
    exact keys_nodup n
  · intro e he
    obtain ⟨k, hk, rfl⟩ := List.mem_map.1 (List.mem_filter.1 he).1
    have := List.mem_range.1 hk
    exact ⟨by simp, by simp; omega, rfl⟩

theorem setEntries_digits {n : ℕ} {d : List (ℤ × Val)} (h : DigitsOk n d) :
    DigitsOk n (setEntries n d) := by
  obtain ⟨h1, h2⟩ := setEntries_keys n d
  refine ⟨h1, fun e he => ⟨(h2 e he).1, (h2 e he).2.1, ?_⟩⟩
  rw [(h2 e he).2.2]
  exact valueAt_digit h _

theorem optText_setEntries {n : ℕ} {d : List (ℤ × Val)} (h : DigitsOk n d) :
    optText n (setEntries n d) = optText n d := by
  rw [optText_eq h, optText_eq (setEntries_digits h)]
  congr 1
  refine List.map_congr_left fun k hk => ?_
  rw [valueAt_setEntries d (List.mem_range.1 hk)]

/-! ### MULTI -/

theorem eos_facts : ∀ e ∈ eosTable, e.2.1 ≠ 0 ∧ e.2.2.2.1 ≠ 0 ∧ e.2.2.2.2 = 6 := by decide

theorem orElse0_asked (x : Option ℤ) (y : ℤ) : orElse0 x y = asked x y := by
  cases x with
  | none => rfl
  | some i => simp [orElse0, asked]

theorem eosValues_eq {eos : Str} (h : eos = [] ∨ eos ∈ eosTable.map (·.1)) :
    eosValues eos = .ok (eosRow eos) ∧ (eosRow eos).2.2.2 = 6 ∧
      (eos ≠ [] → (eosRow eos).1 ≠ 0 ∧ (eosRow eos).2.2.1 ≠ 0) := by
  rcases h with rfl | h
  · exact ⟨rfl, rfl, fun h => absurd rfl h⟩
  · obtain ⟨e, he, rfl⟩ := List.mem_map.1 h
    have hg : dictGet eosTable e.1 = .ok e.2 := dictGet_mem (by decide) he
    have hr : eosRow e.1 = e.2 := by
      have : ∀ e ∈ eosTable, eosRow e.1 = e.2 := by decide +kernel
      exact this e he
    have hne : e.1 ≠ [] := by
      have : ∀ e ∈ eosTable, e.1 ≠ [] := by decide
      exact this e he
    have hf := eos_facts e he
    refine ⟨?_, by rw [hr]; exact hf.2.2, fun _ => by rw [hr]; exact ⟨hf.1, hf.2.1⟩⟩
    rw [eosValues, if_neg hne, hg, hr]

theorem asked_ne {x : Option ℤ} {y : ℤ} (h : isSet x = true ∨ y ≠ 0) : asked x y ≠ 0 := by
  unfold asked
  split
  · rename_i hx
    rcases h with h | h
    · simp [isSet, hx] at h
    · exact h
  · assumption

theorem again_diffusion : (fileBack p).params.hasDiffusion = p.hasDiffusion := by
  show ((p.diffusion.map fun l => l.map fun r => dropTrailing (r.map (num 3))).any (· ≠ [])) =
    p.diffusion.any (· ≠ [])
  cases p.diffusion with
  | none => rfl
  | some l => cases l <;> simp

theorem present_multi : present p "MULTI" = p.hasMulti := by
  simp [present, Params.hasMulti, isSet]

theorem fileBack_multi : (fileBack p).multi = if p.hasMulti = true then
    some ⟨.int (asked p.nComponent (eosRow p.eos).1), p.isothermal,
      .int (asked p.nPhase (eosRow p.eos).2.2.1)⟩ else none := by
  rw [← present_multi]
  rfl

theorem again_multi (hm : MultiOk p) (h0 : p.nComponentMass.getD 0 = 0) :
    onlyIf (fileBack p).params.hasMulti (writeMultiBlock (fileBack p).params.multi) =
      onlyIf p.hasMulti (writeMultiBlock p.multi) := by
  obtain ⟨h1, -⟩ := hm
  obtain ⟨e1, e2, e3⟩ := eosValues_eq h1
  have hmass : massValues p.nComponentMass = [] := by
    cases hn : p.nComponentMass with
    | none => rfl
    | some i => rw [hn] at h0; simp at h0; simp [massValues, h0]
  cases hc : p.hasMulti with
  | false =>
    have hm : (fileBack p).multi = none := by rw [fileBack_multi, hc]; rfl
    have : (fileBack p).params.hasMulti = false := by
      unfold FileRead.params
      rw [hm]; rfl
    rw [this]; rfl
  | true =>
    have hset : (isSet p.nComponent = true ∨ (eosRow p.eos).1 ≠ 0) ∧
        (isSet p.nPhase = true ∨ (eosRow p.eos).2.2.1 ≠ 0) := by
      unfold Params.hasMulti at hc
      by_cases he : p.eos = []
      · simp [he] at hc
        exact ⟨.inl hc.1, .inl hc.2⟩
      · exact ⟨.inr (e3 he).1, .inr (e3 he).2⟩
    have ha := asked_ne hset.1
    have hb := asked_ne hset.2
    have hm : (fileBack p).multi = some ⟨.int (asked p.nComponent (eosRow p.eos).1), p.isothermal,
        .int (asked p.nPhase (eosRow p.eos).2.2.1)⟩ := by rw [fileBack_multi, hc]; rfl
    have e4 : writeMultiBlock p.multi = block "MULTI" false (do
        let l ← writeRecord Fmt.multi [.int (asked p.nComponent (eosRow p.eos).1),
          .int (if p.isothermal then asked p.nComponent (eosRow p.eos).1
            else asked p.nComponent (eosRow p.eos).1 + 1),
          .int (asked p.nPhase (eosRow p.eos).2.2.1), .int (if p.hasDiffusion then 8 else 6)]
        .ok [l]) := by
      simp only [writeMultiBlock, Params.multi, e1, ok_bind, hmass, orElse0_asked, e2]
      rfl
    rw [e4]
    generalize asked p.nComponent (eosRow p.eos).1 = a at ha hm
    generalize asked p.nPhase (eosRow p.eos).2.2.1 = b at hb hm
    have hmul : (fileBack p).params.multi = ⟨[], some a, some b, none, p.isothermal,
        p.hasDiffusion⟩ := by
      unfold Params.multi
      rw [again_diffusion]
      unfold FileRead.params
      rw [hm]; rfl
    have hh : (fileBack p).params.hasMulti = true := by
      unfold FileRead.params
      rw [hm]
      simp [Params.hasMulti, isSet, intOpt, ha, hb]
    have e0 : eosValues [] = .ok (0, 0, 0, 6) := rfl
    have o1 : orElse0 (some a) 0 = a := by rw [orElse0_asked]; simp [asked, ha]
    have o2 : orElse0 (some b) 0 = b := by rw [orElse0_asked]; simp [asked, hb]
    rw [hh, hmul]
    simp only [onlyIf, if_true, writeMultiBlock, e0, ok_bind, o1, o2]
    rfl

/-! ### SOLVR -/

theorem again_solvr (hs : ∀ s ∈ p.solver, SolverOk s) (ht : ∀ s ∈ p.solver,
      ∀ v ∈ [(solverFull s).method, (solverFull s).relIterMax, (solverFull s).eps], Tame v) :
    ifSome (fileBack p).params.solver writeSolvr = ifSome p.solver writeSolvr := by
  have e : (fileBack p).params.solver = p.solver.map fun s => (solverBack s).again := by
    simp [FileRead.params, fileBack, Option.map_map, Function.comp_def]
  rw [e]
  cases hc : p.solver with
  | none => rfl
  | some s =>
    obtain ⟨h0, h1, h2, h3, h4, h5⟩ := hs s (by simp [hc])
    have ht := ht s (by simp [hc])
    simp only [List.mem_cons, List.not_mem_nil, or_false, forall_eq_or_imp, forall_eq] at ht
    obtain ⟨m, hm⟩ := Option.ne_none_iff_exists'.1 h0
    have hmm : (solverFull s).method = m := by simp [solverFull, hm]
    show writeSolvr (solverBack s).again = writeSolvr s
    have e1 : writeRecord Fmt.solvr [stored (dCol 1) (solverFull s).method, .none,
        stored (sCol 2) (solverFull s).zPrecond, .none, stored (sCol 2) (solverFull s).oPrecond,
        num 4 (solverFull s).relIterMax, num 4 (solverFull s).eps] =
        writeRecord Fmt.solvr [(solverFull s).method, .none, (solverFull s).zPrecond, .none,
          (solverFull s).oPrecond, (solverFull s).relIterMax, (solverFull s).eps] :=
      writeRecord_alike (by decide)
        ⟨h1, by simp [Fits], h2, by simp [Fits], h3, h4, h5, trivial⟩
        ⟨toStr_dcol h1 ht.1, rfl, toStr_scol h2, rfl, toStr_scol h3,
          toStr_num (by decide) h4 ht.2.1, toStr_num (by decide) h5 ht.2.2, trivial⟩
    have e2 : writeSolvr (solverBack s).again = block "SOLVR" false (do
        let l ← writeRecord Fmt.solvr [stored (dCol 1) (solverFull s).method, .none,
          stored (sCol 2) (solverFull s).zPrecond, .none, stored (sCol 2) (solverFull s).oPrecond,
          num 4 (solverFull s).relIterMax, num 4 (solverFull s).eps]
        .ok [l]) := rfl
    have e3 : writeSolvr s = block "SOLVR" false (do
        let l ← writeRecord Fmt.solvr [(solverFull s).method, .none, (solverFull s).zPrecond, .none,
          (solverFull s).oPrecond, (solverFull s).relIterMax, (solverFull s).eps]
        .ok [l]) := by
      unfold writeSolvr
      rw [hm, hmm]
      simp only [ok_bind, solverFull]
      have : ((1 : ℚ) / 1000000) = 1 / 10 ^ 6 := by norm_num
      rw [this]
      rfl
    rw [e2, e3, e1]

/-! ### PARAM -/

theorem steps_toList (l : List Val) : (stepsBack l).toList = l.map (num 4) := by
  unfold stepsBack
  split <;> rename_i h
  · rw [h]; rfl
  · rfl

theorem steps_settled {s : SoL} (h : s.toList ≠ []) (hn : ∀ v ∈ s.toList, v ≠ .none) :
    (tStepsBack s).toList = s.toList.map (num 4) := by
  cases s with
  | one v =>
    have hv : v ≠ .none := hn v (by simp [SoL.toList])
    have : tStepsBack (.one v) = stepsBack [v] := by
      cases v <;> first | rfl | exact absurd rfl hv
    rw [this, steps_toList]; rfl
  | many l =>
    cases l with
    | nil => exact absurd rfl h
    | cons a l => exact steps_toList (a :: l)

theorem params_initCond : (fileBack p).params.initCond =
    if initBack p.initCond = [] then List.replicate 6 .none else initBack p.initCond := by
  show (fileBack p).params.dflt.initCond.getD _ = _
  rw [params_dflt]
  simp only [DefaultRead.raw, nonEmpty]
  split
  · rfl
  · rfl

theorem writeRecord_nones (n k : ℕ) (w q : ℕ) :
    (n : ℕ) * w ≤ 80 → writeRecord (List.replicate n (eCol w q)) (List.replicate k .none) =
      writeRecord (List.replicate n (eCol w q)) [] := by
  intro h
  refine writeRecord_alike (by simpa [width] using h) (allFit_replicate _ _ _ (by simp)) ?_
  have : ∀ n k, Alike (List.replicate n (eCol w q)) [] (List.replicate k .none) := by
    intro n
    induction n with
    | zero => intro k; trivial
    | succ n ih =>
      intro k
      cases k with
      | zero => trivial
      | succ k => exact ⟨rfl, ih k⟩
  exact this n k

theorem fits_linecount {n : ℤ} (hn : n.natAbs < 10 ^ 6) : Fits ⟨.f, 10, 1⟩ (.int n) := by
  refine ⟨?_, hn⟩
  rw [fltOfInt_eq hn, fmtF_nat]
  have h6 : (natStr n.natAbs).length ≤ 6 := by
    simp only [natStr, padDigits_length, numDigits]
    have : Nat.log 10 n.natAbs < 6 := by
      by_cases h0 : n.natAbs = 0
      · rw [h0]; simp
      · exact Nat.log_lt_of_lt_pow h0 hn
    omega
  have h1 : (signStr (decide (n < 0))).length ≤ 1 := by
    unfold signStr; split <;> simp
  simp only [List.length_append, if_neg (one_ne_zero), List.length_cons, List.length_replicate]
  omega

/-- The records of the default initial condition. -/
theorem again_init {ic : List Val} (hf : InitFits ic) (hi : InitSettled ic) :
    let ic' := if initBack ic = [] then List.replicate 6 .none else initBack ic
    writeRecord Fmt.param5 (ic'.take 4) = writeRecord Fmt.param5 (ic.take 4) ∧
      (4 < ic'.length ↔ 4 < ic.length) ∧
      writeRecord Fmt.param5 (ic'.drop 4) = writeRecord Fmt.param5 (ic.drop 4) := by
  obtain ⟨i1, i2⟩ := hi
  have t := init_take hf i1
  have d := init_drop hf i1
  dsimp only
  split
  · rename_i h
    have hn := (init_nil i1).1 h
    rw [h] at t d
    rw [List.take_nil] at t
    rw [List.drop_nil] at d
    refine ⟨?_, ?_, ?_⟩
    · exact (writeRecord_nones 4 4 20 13 (by decide)).trans t
    · rw [i2]
      exact ⟨fun _ => .inr hn, fun _ => by simp⟩
    · exact (writeRecord_nones 4 2 20 13 (by decide)).trans d
  · rename_i h
    refine ⟨t, ?_, d⟩
    rw [init_length i1, i2]
    exact ⟨.inl, fun h' => h'.resolve_right fun h' => h ((init_nil i1).2 h')⟩

theorem again_param (hp : ParamOk p) (ho : OptionsTame p.options) (hi : InitSettled p.initCond) :
    writeParam (fileBack p).params.options (fileBack p).params.extraOptions
        (fileBack p).params.initCond =
      writeParam p.options p.extraOptions p.initCond := by
  obtain ⟨h1, h2, h3, h4⟩ := hp
  obtain ⟨o1, o2, o3⟩ := ho
  obtain ⟨i1, i2, i3⟩ := again_init h4 hi
  have eo : (fileBack p).params.options = optionsBack p.options (tStepsBack p.options.tSteps) := rfl
  have ee : (fileBack p).params.extraOptions = setEntries 24 p.extraOptions := rfl
  rw [eo, ee, params_initCond]
  have n4 : ∀ v, Fits (eCol 10 4) v → Tame v → toStr (eCol 10 4) (num 4 v) = toStr (eCol 10 4) v :=
    fun v h1 h2 => toStr_num (by decide) h1 h2
  obtain ⟨f1, f2, f3⟩ := h1
  simp only [List.mem_cons, List.not_mem_nil, or_false, forall_eq_or_imp, forall_eq] at f1 f2 f3 o1
  obtain ⟨a1, a2⟩ := f1
  obtain ⟨b1, b2, b3⟩ := f2
  obtain ⟨c1, c2, c3, c4, c5, c6, c7, c8, c9, c10, c11, c12, c13⟩ := f3
  obtain ⟨t1, t2, t3, t4, t5, t6, t7, t8, t9, t10, t11, t12, t13, t14, t15, t16, t17, t18⟩ := o1
  have hsl := steps_settled o2 fun v hv => (o3 v hv).1
  have hsf : ∀ v ∈ p.options.tSteps.toList, Fits (eCol 10 4) v := by
    intro v hv
    cases hs : p.options.tSteps with
    | one x =>
      rw [hs] at h2 hv o3
      have hx : v = x := by simpa [SoL.toList] using hv
      subst hx
      have := (o3 v hv).1
      have h2 : v = .none ∨ IsNumber v ∧ Fits (eCol 10 4) v := h2
      exact (h2.resolve_left this).2
    | many l =>
      rw [hs] at h2 hv
      exact (h2.1 v hv).2
  have em := optText_setEntries h3
  -- the records
  have e3 : writeMulti Fmt.param3 (p.options.tSteps.toList.map (num 4)) =
      writeMulti Fmt.param3 p.options.tSteps.toList :=
    writeMulti_num (n := 8) (w := 10) (p := 4) (by decide) (by decide) (by decide) hsf
      fun v hv => (o3 v hv).2
  have e4 : writeRecord Fmt.param4 [num 4 p.options.eps1, num 4 p.options.eps2, .none,
      num 4 p.options.wUpstream, num 4 p.options.wNewton, num 4 p.options.derivativeFactor] =
      writeRecord Fmt.param4 [p.options.eps1, p.options.eps2, .none, p.options.wUpstream,
        p.options.wNewton, p.options.derivativeFactor] :=
    writeRecord_alike (by decide) ⟨c9, c10, by simp [Fits], c11, c12, c13, trivial⟩
      ⟨n4 _ c9 t14, n4 _ c10 t15, rfl, n4 _ c11 t16, n4 _ c12 t17, n4 _ c13 t18, trivial⟩
  have hlen : p.options.tSteps.toList.length ≤ 8 * 999999 := by
    cases hs : p.options.tSteps with
    | one x => simp [SoL.toList]
    | many l => rw [hs] at h2; exact h2.2
  have e2 : writeRecord Fmt.param2 [num 4 p.options.tIni,
      num 4 p.options.tMax, .int (minusLines p.options.tSteps.toList.length),
      num 4 p.options.tStepMax, .none,
      num 4 p.options.gravity, num 4 p.options.tReduceFactor, num 4 p.options.meshScaleFactor] =
      writeRecord Fmt.param2 [p.options.tIni, p.options.tMax,
        .int (minusLines p.options.tSteps.toList.length),
        p.options.tStepMax, .none, p.options.gravity, p.options.tReduceFactor,
        p.options.meshScaleFactor] := by
    refine writeRecord_alike (by decide)
      ⟨c3, c4, fits_linecount (by unfold minusLines; omega), c5, by simp [Fits], c7, c6, c8, trivial⟩
      ⟨n4 _ c3 t8, n4 _ c4 t9, rfl, n4 _ c5 t10, rfl, n4 _ c7 t12, n4 _ c6 t11, n4 _ c8 t13, trivial⟩
  have e1 : ∀ m : Str, m.length = 24 → writeRecord Fmt.param1 [stored (dCol 2) p.options.nIteration,
      stored (dCol 2) p.options.verbosity, stored (dCol 4) p.options.nCycle,
      stored (dCol 4) p.options.nSecond, stored (dCol 4) p.options.nCyclePrint, .str m, .none,
      num 4 p.options.tempDepGas, num 4 p.options.effStrengthVapor] =
      writeRecord Fmt.param1 [p.options.nIteration, p.options.verbosity, p.options.nCycle,
        p.options.nSecond, p.options.nCyclePrint, .str m, .none, p.options.tempDepGas,
        p.options.effStrengthVapor] := fun m hm =>
    writeRecord_alike (by decide)
      ⟨a1, a2, b1, b2, b3, ⟨hm, by rintro rfl; simp at hm⟩, by simp [Fits], c1, c2, trivial⟩
      ⟨toStr_dcol a1 t1, toStr_dcol a2 t5, toStr_dcol b1 t2, toStr_dcol b2 t3, toStr_dcol b3 t4,
        rfl, rfl, n4 _ c1 t6, n4 _ c2 t7, trivial⟩
  obtain ⟨m, hm, hml⟩ : ∃ m, optText 24 p.extraOptions = .ok m ∧ m.length = 24 :=
    ⟨_, optText_eq h3, by simp⟩
  unfold writeParam
  simp only [optionsBack, hsl, em, hm, ok_bind, List.length_map, e1 m hml, e2, e3, e4, i1, i3]
  simp only [i2]

end Verif.Model
