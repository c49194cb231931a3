import Verif.Lemmas.Param
import Verif.Lemmas.Order

/-!
# Properties of the MULTI, SOLVR, PARAM, SELEC, INDOM and MOMOP blocks (C12-C18)
-/

set_option linter.unusedSimpArgs false

namespace Verif.Props
open Verif.Py Verif.Model Verif.Spec

/-! ## C12: MULTI -/

/-- C12. With an equation of state of the table, or none and explicit numbers,
the MULTI record holds the numbers of components, equations, phases and secondary
parameters asked for, and reading it gives back the number of components, the
number of phases and the isothermal flag. -/
theorem C12_multi_round_trip (m : Multi) (e : ℤ × ℤ × ℤ × ℤ)
    (he : (m.eos = [] ∧ e = (0, 0, 0, 6)) ∨ (m.eos, e) ∈ eosTable)
    (h0 : Fits (dCol 5) (.int (asked m.nComponent e.1)))
    (h1 : Fits (dCol 5) (.int (asked m.nComponent e.1 + 1)))
    (h2 : Fits (dCol 5) (.int (asked m.nPhase e.2.2.1)))
    (h3 : ∀ i ∈ m.nComponentMass, Fits (dCol 5) (.int i)) :
    ∃ line, writeMultiBlock m = .ok [headLine "MULTI", line] ∧
      readRecord Fmt.multi line = .ok
        [.int (asked m.nComponent e.1),
          .int (asked m.nComponent e.1 + if m.isothermal then 0 else 1),
          .int (asked m.nPhase e.2.2.1), .int (if m.diffusion then 8 else 6),
          if asked m.nComponentMass 0 = 0 then .none else .int (asked m.nComponentMass 0)] ∧
      ∀ rest, readMulti (line :: rest) = .ok
        (⟨.int (asked m.nComponent e.1), m.isothermal, .int (asked m.nPhase e.2.2.1)⟩, rest) := by
  have hor : ∀ x d, orElse0 x d = asked x d := by
    intro x d
    cases x with
    | none => simp [orElse0, asked]
    | some i => simp [orElse0, asked]
  have hv : eosValues m.eos = .ok e := by
    unfold eosValues
    rcases he with ⟨h, rfl⟩ | h
    · simp [h]
    · have hne : m.eos ≠ [] := by
        intro h0
        rw [h0] at h
        have : ∀ x ∈ eosTable, x.1 ≠ [] := by decide
        exact this _ h rfl
      rw [if_neg hne]
      exact dictGet_mem (by decide) h
  have h6 : e.2.2.2 = 6 := by
    rcases he with ⟨-, rfl⟩ | h
    · rfl
    · have : ∀ x ∈ eosTable, x.2.2.2.2 = 6 := by decide
      exact this _ h
  obtain ⟨tail, ht, hfit, hst⟩ : ∃ tail : List Val,
      massValues m.nComponentMass = tail ∧ AllFit [dCol 5] tail ∧
      storedAll [dCol 5] tail =
        [if asked m.nComponentMass 0 = 0 then Val.none else .int (asked m.nComponentMass 0)] := by
    cases hm : m.nComponentMass with
    | none => exact ⟨[], rfl, by simp [AllFit], by simp [storedAll, stored, asked]⟩
    | some i =>
      by_cases hi : i = 0
      · exact ⟨[], by simp [massValues, hi], by simp [AllFit], by simp [storedAll, stored, asked, hi]⟩
      · exact ⟨[.int i], by simp [massValues, hi], by simp [AllFit]; exact h3 i (by simp [hm]),
          by simp [storedAll, stored, asked, hi]⟩
  have h8 : Fits (dCol 5) (.int (if m.diffusion then 8 else 6)) := by
    cases m.diffusion <;> decide
  have h1' : Fits (dCol 5) (.int (if m.isothermal then asked m.nComponent e.1
      else asked m.nComponent e.1 + 1)) := by
    split <;> assumption
  have hall : AllFit Fmt.multi ([.int (asked m.nComponent e.1),
      .int (if m.isothermal then asked m.nComponent e.1 else asked m.nComponent e.1 + 1),
      .int (asked m.nPhase e.2.2.1), .int (if m.diffusion then 8 else 6)] ++ tail) :=
    ⟨h0, h1', h2, h8, hfit⟩
  have hw : width Fmt.multi ≤ 80 := by decide
  have hread := readRecord_lineOf hw hall
  have hs : storedAll Fmt.multi ([.int (asked m.nComponent e.1),
      .int (if m.isothermal then asked m.nComponent e.1 else asked m.nComponent e.1 + 1),
      .int (asked m.nPhase e.2.2.1), .int (if m.diffusion then 8 else 6)] ++ tail) =
      [.int (asked m.nComponent e.1),
        .int (asked m.nComponent e.1 + if m.isothermal then 0 else 1),
        .int (asked m.nPhase e.2.2.1), .int (if m.diffusion then 8 else 6)] ++
        storedAll [dCol 5] tail := by
    have : (if m.isothermal then asked m.nComponent e.1 else asked m.nComponent e.1 + 1) =
        asked m.nComponent e.1 + if m.isothermal then 0 else 1 := by split <;> simp
    rw [this]
    rfl
  rw [hs, hst] at hread
  refine ⟨_, ?_, hread, ?_⟩
  · unfold writeMultiBlock block
    rw [hv]
    simp only [ok_bind, hor, h6, ht, writeRecord_eq hall]
    rfl
  · intro rest
    simp only [readMulti, next_cons, ok_bind, hread, entry]
    simp only [List.cons_append, List.nil_append, List.getD_cons_zero, List.getD_cons_succ]
    congr 3
    cases m.isothermal <;> simp

example : let m : Multi := ⟨"eco2n".toList, none, some 2, none, true, true⟩
    (m.eos, ((3 : ℤ), (4 : ℤ), (3 : ℤ), (6 : ℤ))) ∈ eosTable ∧
      Fits (dCol 5) (.int (asked m.nComponent 3)) ∧ asked m.nPhase 3 = 2 := by
  decide

/-! ## C13: SOLVR -/

/-- C13. Solver options that are all given are read back unchanged up to the
rounding of their columns. -/
theorem C13_solvr_round_trip (s : SolverOf Val) (h1 : Fits (dCol 1) s.method)
    (h2 : Fits (sCol 2) s.zPrecond) (h3 : Fits (sCol 2) s.oPrecond)
    (h4 : Fits (eCol 10 4) s.relIterMax) (h5 : Fits (eCol 10 4) s.eps) :
    ∃ line, writeSolvr ⟨some s.method, some s.zPrecond, some s.oPrecond, some s.relIterMax,
        some s.eps⟩ = .ok [headLine "SOLVR", line] ∧
      ∀ rest, readSolvr (line :: rest) = .ok
        (⟨stored (dCol 1) s.method, stored (sCol 2) s.zPrecond, stored (sCol 2) s.oPrecond,
          num 4 s.relIterMax, num 4 s.eps⟩, rest) := by
  have hall : AllFit Fmt.solvr
      [s.method, .none, s.zPrecond, .none, s.oPrecond, s.relIterMax, s.eps] :=
    ⟨h1, by simp [Fits], h2, by simp [Fits], h3, h4, h5, trivial⟩
  have hw : width Fmt.solvr ≤ 80 := by decide
  refine ⟨lineOf Fmt.solvr
    [s.method, .none, s.zPrecond, .none, s.oPrecond, s.relIterMax, s.eps], ?_, ?_⟩
  · unfold writeSolvr block
    simp only [Option.getD_some, ok_bind, writeRecord_eq hall]
    rfl
  · intro rest
    simp only [readSolvr, next_cons, ok_bind, readRecord_lineOf hw hall]
    rfl

example : Fits (dCol 1) (.int 5) ∧ Fits (sCol 2) (.str "Z1".toList) ∧
    Fits (eCol 10 4) (.flt (.fin false (1 / 10))) := by decide +kernel

/-- C13. The code violates the documented defaults: a solver dictionary without
the key `method` is not given the default method, writing fails with
`KeyError`. -/
theorem C13_violated (z o r e : Option Val) : writeSolvr ⟨none, z, o, r, e⟩ = .error .keyError := by
  rfl

/-- C13, partial: what is missing is the default of `method`. If `method` is
given, the other options take the documented defaults: writing without them is
the same as writing `Z0`, `O0`, `0.1` and `1e-6`. -/
theorem C13_partial (m : Val) (z o r e : Option Val) :
    writeSolvr ⟨some m, z, o, r, e⟩ =
      writeSolvr ⟨some m, some (z.getD (.str "Z0".toList)), some (o.getD (.str "O0".toList)),
        some (r.getD (.flt (ofDecimal false (1 / 10)))),
        some (e.getD (.flt (ofDecimal false (1 / 10 ^ 6))))⟩ := by
  simp only [writeSolvr, Option.getD_some]
  norm_num
  rfl

example : (writeSolvr ⟨some (.int 4), none, none, none, none⟩).isOk = true := by decide +kernel

/-! ## C14, C15: PARAM -/

/-- C14. All options, the 24 extra option digits, the time steps (any non-empty
list of numbers) and the default initial condition (up to eight values) are read
back, and the reader leaves exactly the lines after the block. If the initial
condition has at most four values the reader looks at the next line, which must
not start with a number; the headers of all blocks are of this kind
(`C14_headers`). -/
theorem C14_param_round_trip (o : Options) (mop : List (ℤ × Val)) (ic : List Val) (t : List Val)
    (hop : OptionsFit o) (hmop : DigitsOk 24 mop) (hic : InitFits ic)
    (hts : o.tSteps = .many t ∨ ∃ v, o.tSteps = .one v ∧ t = [v]) (ht0 : t ≠ [])
    (ht : ∀ v ∈ t, IsNumber v ∧ Fits (eCol 10 4) v) (htl : t.length ≤ 8 * 999999) :
    ∃ body, writeParam o mop ic = .ok (headLine "PARAM" :: body) ∧
      ∀ nxt rest, (ic.length ≤ 4 → ¬ NumberText (strip (nxt.take 20)) ∧ strip (nxt.take 20) ≠ []) →
        readParam (body ++ nxt :: rest) = .ok
          (⟨optionsBack o (stepsBack t), setEntries 24 mop,
            if initBack ic = [] then none else some (initBack ic)⟩, nxt :: rest) := by
  have htt : o.tSteps.toList = t := by
    rcases hts with h | ⟨v, h, rfl⟩ <;> rw [h] <;> rfl
  have hpos : 0 < t.length := List.length_pos_iff.2 ht0
  have hlen : minusLines t.length = -((chunks 8 t).length : ℤ) := by
    rw [chunks_length]; unfold minusLines; omega
  have h3 : Fmt.param3.length = 8 := rfl
  have hch := mem_chunks 8 (by norm_num) t
  have hw := writeMulti_eq (f := Fmt.param3) (vs := t) (fun c hc =>
    allFit_replicate 8 (eCol 10 4) _ (fun v hv => (ht v ((hch c hc).2.2 v hv)).2))
  rw [h3] at hw
  have hlen' := chunks_length 8 t
  refine param_core o mop ic ((chunks 8 t).map (lineOf Fmt.param3)) (stepsBack t) hop hmop hic
    (by rw [htt, hlen]; omega) (by rw [htt, hlen]; omega) (by rw [htt]; exact hw) ?_
  intro rest
  rw [htt, hlen]
  have hne : ¬ (0 ≤ -((chunks 8 t).length : ℤ)) := by omega
  have ht := times_lines (body := fun ls => do
      let (line, ls) ← next ls
      let d ← readRecord Fmt.param3 line
      .ok (pruneNones d, ls)) (lineOf Fmt.param3) (fun c => c.map (num 4)) (chunks 8 t)
    (fun c hc rest => by
      have hr := readRow 8 (w := 10) (p := 4) (c := c) (by decide) (hch c hc).2.1
        (fun v hv => (ht v ((hch c hc).2.2 v hv)).2)
      rw [show Fmt.param3 = List.replicate 8 (eCol 10 4) from rfl]
      simp only [next_cons, ok_bind, hr]
      rw [pruneRow 4 _ (fun v hv => (ht v ((hch c hc).2.2 v hv)).1)]) rest
  have hfl : ((chunks 8 t).map fun c => c.map (num 4)).flatten = t.map (num 4) := by
    rw [← List.map_flatten, chunks_flatten 8 (by norm_num)]
  have hrl : rangeLen (-(-((chunks 8 t).length : ℤ))) = (chunks 8 t).length := by
    simp [rangeLen]
  simp only [readSteps, hne, if_false, hrl, ht, ok_bind, hfl, stepsBack]
  generalize t.map (num 4) = l
  rcases l with _ | ⟨a, _ | ⟨b, l⟩⟩ <;> rfl

example : let o : Options := { Options.empty with
      nIteration := .int 8, tMax := .flt (.fin false 3153600000), gravity := .flt (.fin false (981 / 100)),
      tSteps := .many [.flt (.fin false 1), .int 10, .flt (.fin false 1000)] }
    OptionsFit o ∧ DigitsOk 24 [(1, .int 1), (16, .int 4), (21, .none)] ∧
      InitFits [.flt (.fin false 100000), .flt (.fin true (1 / 2)), .none, .int 20] ∧
      (∀ v ∈ o.tSteps.toList, IsNumber v ∧ Fits (eCol 10 4) v) := by
  decide +kernel

/-- C14. The header line of every block satisfies the condition on the line
after PARAM. -/
theorem C14_headers : ∀ kw ∈ ["ROCKS", "RPCAP", "FLAC", "MULTI", "SOLVR", "START", "PARAM", "SELEC",
    "INDOM", "MOMOP", "TIMES", "FOFT", "COFT", "GOFT", "GENER", "DIFFU", "OUTPU", "ELEME", "COORD",
    "CONNE", "INCON", "NOVER", "ENDCY"],
    ¬ NumberText (strip ((headLine kw).take 20)) ∧ strip ((headLine kw).take 20) ≠ [] := by
  decide +kernel

/-- C15. What happens to unset time steps: after the first write and read they
are an empty list, after the second the number 0; the other options are as
stored. -/
theorem C15_what_happens (o : Options) (mop : List (ℤ × Val)) (ic : List Val)
    (hop : OptionsFit o) (hmop : DigitsOk 24 mop) (hic : InitFits ic) (s' : SoL)
    (hs : (o.tSteps = .one .none ∧ s' = .many []) ∨ (o.tSteps = .many [] ∧ s' = .one (.int 0))) :
    ∃ body, writeParam o mop ic = .ok (headLine "PARAM" :: body) ∧
      ∀ nxt rest, (ic.length ≤ 4 → ¬ NumberText (strip (nxt.take 20)) ∧ strip (nxt.take 20) ≠ []) →
        readParam (body ++ nxt :: rest) = .ok
          (⟨optionsBack o s', setEntries 24 mop,
            if initBack ic = [] then none else some (initBack ic)⟩, nxt :: rest) := by
  rcases hs with ⟨h, rfl⟩ | ⟨h, rfl⟩
  · refine param_core o mop ic [lineOf Fmt.param3 [.none]] _ hop hmop hic (by rw [h]; decide)
      (by rw [h]; decide) (by rw [h]; decide +kernel) ?_
    intro rest
    rw [h]
    have hr := readRow 8 (w := 10) (p := 4) (c := [.none]) (by decide) (by simp)
      (by intro v hv; simp at hv; subst hv; decide)
    simp only [SoL.toList, minusLines, List.length_singleton]
    norm_num [readSteps, rangeLen, times]
    rw [show Fmt.param3 = List.replicate 8 (eCol 10 4) from rfl, hr]
    have hp : pruneNones (List.map (num 4) [Val.none] ++
        List.replicate (8 - [Val.none].length) Val.none) = [] := by decide +kernel
    simp only [ok_bind, hp]
  · refine param_core o mop ic [] _ hop hmop hic (by rw [h]; decide) (by rw [h]; decide)
      (by rw [h]; decide) ?_
    intro rest
    rw [h]
    rfl

example : OptionsFit Options.empty ∧ DigitsOk 24 [] ∧ InitFits [.none, .none, .none, .none] := by
  decide +kernel

/-- C15. The code violates the stability of unset time steps: there are options
without time steps that come back with an empty list of time steps, and these
come back with the time step 0. -/
theorem C15_violated :
    (∃ body r rest, writeParam Options.empty [] [] = .ok (headLine "PARAM" :: body) ∧
      readParam (body ++ [headLine "ENDCY"]) = .ok (r, rest) ∧
      r.options.tSteps ≠ Options.empty.tSteps ∧
      r.options = { Options.empty with tSteps := .many [] }) ∧
    (∃ body r rest, writeParam { Options.empty with tSteps := .many [] } [] [] =
        .ok (headLine "PARAM" :: body) ∧
      readParam (body ++ [headLine "ENDCY"]) = .ok (r, rest) ∧
      r.options = { Options.empty with tSteps := .one (.int 0) }) := by
  have hh : ∀ ic : List Val, ic.length ≤ 4 → ¬ NumberText (strip ((headLine "ENDCY").take 20)) ∧
      strip ((headLine "ENDCY").take 20) ≠ [] := fun _ _ => C14_headers "ENDCY" (by simp)
  constructor
  · obtain ⟨body, h1, h2⟩ := C15_what_happens Options.empty [] [] (by decide +kernel)
      (by decide +kernel) (by decide +kernel) (.many []) (Or.inl ⟨rfl, rfl⟩)
    exact ⟨body, _, _, h1, h2 _ [] (hh []), by decide, by decide +kernel⟩
  · obtain ⟨body, h1, h2⟩ := C15_what_happens { Options.empty with tSteps := .many [] } [] []
      (by decide +kernel) (by decide +kernel) (by decide +kernel) (.one (.int 0)) (Or.inr ⟨rfl, rfl⟩)
    exact ⟨body, _, _, h1, h2 _ [] (hh []), by decide +kernel⟩

/-- C15, partial: what is missing is the stability of the time steps themselves.
Every other option of a dictionary without time steps is not disturbed. -/
theorem C15_partial (o : Options) (mop : List (ℤ × Val)) (ic : List Val)
    (hop : OptionsFit o) (hmop : DigitsOk 24 mop) (hic : InitFits ic)
    (hs : o.tSteps = .one .none ∨ o.tSteps = .many []) :
    ∃ body, writeParam o mop ic = .ok (headLine "PARAM" :: body) ∧
      ∀ nxt rest, (ic.length ≤ 4 → ¬ NumberText (strip (nxt.take 20)) ∧ strip (nxt.take 20) ≠ []) →
        ∃ r, readParam (body ++ nxt :: rest) = .ok (r, nxt :: rest) ∧
          { r.options with tSteps := o.tSteps } = optionsBack o o.tSteps ∧
          r.extra = setEntries 24 mop := by
  rcases hs with h | h
  · obtain ⟨body, h1, h2⟩ := C15_what_happens o mop ic hop hmop hic _ (Or.inl ⟨h, rfl⟩)
    exact ⟨body, h1, fun nxt rest hx => ⟨_, h2 nxt rest hx, rfl, rfl⟩⟩
  · obtain ⟨body, h1, h2⟩ := C15_what_happens o mop ic hop hmop hic _ (Or.inr ⟨h, rfl⟩)
    exact ⟨body, h1, fun nxt rest hx => ⟨_, h2 nxt rest hx, rfl, rfl⟩⟩

/-! ## C18: MOMOP -/

/-- C15. A file in which the number of time steps is blank, `nan` or infinite is refused. -/
theorem C15_steps_unreadable {l1 l2 : Str} {d1 d2 : List Val} {mop : List (ℤ × Val)} (ls : List Str)
    (h1 : readRecord Fmt.param1 l1 = .ok d1) (hm : readDigits (entry d1 5) = .ok mop)
    (h2 : readRecord Fmt.param2 l2 = .ok d2) :
    (entry d2 2 = .none → readParam (l1 :: l2 :: ls) = .error .typeError) ∧
    (entry d2 2 = .flt .nan → readParam (l1 :: l2 :: ls) = .error .valueError) ∧
    ∀ neg, entry d2 2 = .flt (.inf neg) → readParam (l1 :: l2 :: ls) = .error .overflowError := by
  have h : ∀ e, intOf (entry d2 2) = .error e → readParam (l1 :: l2 :: ls) = .error e := by
    intro e he
    unfold readParam
    rw [show next (l1 :: l2 :: ls) = .ok (l1, l2 :: ls) from rfl, ok_bind]
    simp only
    rw [h1, ok_bind, hm, ok_bind, show next (l2 :: ls) = .ok (l2, ls) from rfl, ok_bind]
    simp only
    rw [h2, ok_bind, he]
    rfl
  exact ⟨fun he => h _ (by rw [he]; rfl), fun he => h _ (by rw [he]; rfl), fun neg he => h _ (by rw [he]; rfl)⟩

example : ∃ d1 d2 mop, readRecord Fmt.param1 (" 8 2".toList ++ List.replicate 76 ' ') = .ok d1 ∧
    readDigits (entry d1 5) = .ok mop ∧
    readRecord Fmt.param2 (List.replicate 20 ' ' ++ "       inf".toList ++ List.replicate 50 ' ') = .ok d2 ∧
    entry d2 2 = .flt (.inf false) :=
  ⟨_, _, _, rfl, rfl, rfl, by decide +kernel⟩

/-- C18. Each of the 40 option digits is read back under its index, unset options
stay unset, and the reader takes one line. -/
theorem C18_momop_round_trip (d : List (ℤ × Val)) (h : DigitsOk 40 d) :
    ∃ line, writeMomop d = .ok [headLine "MOMOP", line] ∧
      ∀ rest, readMomop (line :: rest) = .ok (setEntries 40 d, rest) := by
  set m : Str := (List.range 40).map fun k : ℕ => optChar (valueAt d ((k : ℤ) + 1)) with hm
  have hml : m.length = 40 := by simp [hm]
  have hne : m ≠ [] := by intro h; rw [h] at hml; simp at hml
  have hfit : AllFit Fmt.momop [.str m] := ⟨⟨hml, hne⟩, trivial⟩
  refine ⟨lineOf Fmt.momop [.str m], ?_, ?_⟩
  · unfold writeMomop block
    simp only [optText_eq h, ok_bind, ← hm, writeRecord_eq hfit]
    rfl
  · intro rest
    simp only [readMomop, next_cons, ok_bind, readRecord_lineOf (by decide) hfit]
    have : entry (storedAll Fmt.momop [.str m]) 0 = .str m := by
      show stored ⟨.S, 40, 0⟩ (.str m) = _
      simp [stored, hne]
    rw [this, hm, readDigits_eq h]
    rfl

/-- The text printed for an option: a blank if it is unset, `str` of it otherwise. -/
def shown : Val → Str
  | .none => [' ']
  | .bool true => "True".toList
  | .bool false => "False".toList
  | .int i => intStr i
  | .str s => s
  | .flt _ => []

/-- C18. The texts of the options stand one after the other, whatever their lengths: an option that is
not one character moves those after it. -/
theorem C18_text (d : List (ℤ × Val)) (hn : (d.map (·.1)).Nodup) (hd : ∀ e ∈ d, 1 ≤ e.1 ∧ e.1 ≤ 40 ∧ ∀ x, e.2 ≠ .flt x) :
    writeMomop d = block "MOMOP" false (do
      let l ← writeRecord Fmt.momop [.str ((List.range 40).flatMap fun k : ℕ => shown (valueAt d ((k : ℤ) + 1)))]
      .ok [l]) := by
  have h : optText 40 d = .ok ((List.range 40).flatMap fun k : ℕ => shown (valueAt d ((k : ℤ) + 1))) := by
    unfold optText
    rw [sortedVals_update 40 d hn (fun e he => ⟨(hd e he).1, (hd e he).2.1⟩), concatM_ok (g := shown)]
    · rw [List.flatMap_map]
    · intro v hv
      obtain ⟨k, -, rfl⟩ := List.mem_map.1 hv
      have hf : ∀ x, valueAt d ((k : ℤ) + 1) ≠ .flt x := by
        intro x hx
        unfold valueAt at hx
        cases hl : d.lookup ((k : ℤ) + 1) with
        | none => rw [hl] at hx; cases hx
        | some v =>
          rw [hl] at hx
          obtain ⟨l1, l2, rfl, -⟩ := List.lookup_eq_some_iff.1 hl
          exact (hd ((k : ℤ) + 1, v) (by simp)).2.2 x hx
      revert hf
      cases valueAt d ((k : ℤ) + 1) with
      | flt x => exact fun h => absurd rfl (h x)
      | bool b => cases b <;> exact fun _ => rfl
      | none => exact fun _ => rfl
      | int i => exact fun _ => rfl
      | str s => exact fun _ => rfl
  unfold writeMomop
  rw [h, ok_bind]

/-- `{1: False, 2: 3}` is read as `{6: 3}`, `{1: 12, 2: 3}` as `{1: 1, 2: 2, 3: 3}`. -/
example : (do
      let ls ← writeMomop [(1, .bool false), (2, .int 3)]
      readMomop (ls.drop 1)) = .ok ([(6, .int 3)], []) ∧
    (do
      let ls ← writeMomop [(1, .int 12), (2, .int 3)]
      readMomop (ls.drop 1)) = .ok ([(1, .int 1), (2, .int 2), (3, .int 3)], []) := by decide +kernel

/-- C18, C14. The entries read back are exactly the digits that were set. -/
theorem C18_entries (n : ℕ) (d : List (ℤ × Val)) (h : DigitsOk n d) (k : ℤ) (v : Val) :
    (k, v) ∈ setEntries n d ↔ (k, v) ∈ d ∧ v ≠ .none := by
  unfold setEntries
  simp only [List.mem_filter, List.mem_map, List.mem_range, Prod.mk.injEq, ne_eq, decide_not,
    Bool.not_eq_true', decide_eq_false_iff_not]
  constructor
  · rintro ⟨⟨j, hj, rfl, rfl⟩, h2⟩
    refine ⟨?_, h2⟩
    unfold valueAt at h2 ⊢
    cases hl : d.lookup ((j : ℤ) + 1) with
    | none => rw [hl] at h2; exact absurd rfl h2
    | some v =>
      obtain ⟨l1, l2, rfl, -⟩ := List.lookup_eq_some_iff.1 hl
      simp
  · rintro ⟨hm, h2⟩
    refine ⟨⟨(k - 1).toNat, ?_, ?_, ?_⟩, h2⟩
    · have := h.2 _ hm; simp only at this; omega
    · have := h.2 _ hm; simp only at this; omega
    · have hk : (((k - 1).toNat : ℕ) : ℤ) + 1 = k := by
        have := h.2 _ hm; simp only at this; omega
      rw [hk]
      have := dictGet_mem h.1 hm
      unfold dictGet at this
      unfold valueAt
      cases hl : d.lookup k with
      | none => rw [hl] at this; cases this
      | some w => rw [hl] at this; cases this; rfl

example : DigitsOk 40 [(40, .int 9), (1, .int 0), (7, .none)] ∧
    setEntries 40 [(40, .int 9), (1, .int 0), (7, .none)] = [(1, .int 0), (40, .int 9)] := by
  decide +kernel

end Verif.Props
