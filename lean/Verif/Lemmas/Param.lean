import Verif.Lemmas.Opts

/-! Helper lemmas about the PARAM block. -/

set_option linter.unusedSimpArgs false

namespace Verif.Model
open Verif.Py Verif.Spec

/-- Writing and reading PARAM, for time steps whose lines are known. -/
theorem param_core (o : Options) (mop : List (ℤ × Val)) (ic : List Val) (lines : List Str)
    (steps : SoL) (hop : OptionsFit o) (hmop : DigitsOk 24 mop) (hic : InitFits ic)
    (hn : (minusLines o.tSteps.toList.length).natAbs < 10 ^ 6)
    (hl : (minusLines o.tSteps.toList.length) ≤ 0)
    (hw : writeMulti Fmt.param3 o.tSteps.toList = .ok lines)
    (hr : ∀ rest, readSteps (minusLines o.tSteps.toList.length) (lines ++ rest) =
      .ok (steps, rest)) :
    ∃ body, writeParam o mop ic = .ok (headLine "PARAM" :: body) ∧
      ∀ nxt rest, (ic.length ≤ 4 → ¬ NumberText (strip (nxt.take 20)) ∧ strip (nxt.take 20) ≠ []) →
        readParam (body ++ nxt :: rest) = .ok
          (⟨optionsBack o steps, setEntries 24 mop,
            if initBack ic = [] then none else some (initBack ic)⟩, nxt :: rest) := by
  obtain ⟨hd2, hd4, he⟩ := hop
  simp only [List.mem_cons, List.not_mem_nil, or_false, forall_eq_or_imp, forall_eq] at hd2 hd4 he
  set m : Str := (List.range 24).map fun k : ℕ => optChar (valueAt mop ((k : ℤ) + 1)) with hm
  have hml : m.length = 24 := by simp [hm]
  have hfm : Fits ⟨.S, 24, 0⟩ (.str m) := by
    refine ⟨hml, ?_⟩
    intro h; rw [h] at hml; simp at hml
  have a1 : AllFit Fmt.param1 [o.nIteration, o.verbosity, o.nCycle, o.nSecond, o.nCyclePrint,
      .str m, .none, o.tempDepGas, o.effStrengthVapor] :=
    ⟨hd2.1, hd2.2, hd4.1, hd4.2.1, hd4.2.2, hfm, by simp [Fits], he.1, he.2.1, trivial⟩
  set n := minusLines o.tSteps.toList.length with hnn
  have hfn : Fits ⟨.f, 10, 1⟩ (.int n) := by
    refine ⟨?_, hn⟩
    rw [fltOfInt_eq hn, fmtF_nat]
    have h6 : (natStr n.natAbs).length ≤ 6 := by
      simp only [natStr, padDigits_length, numDigits]
      have : Nat.log 10 n.natAbs < 6 := by
        by_cases h0 : n.natAbs = 0
        · rw [h0]; simp
        · exact Nat.log_lt_of_lt_pow h0 hn
      omega
    have h1 : (signStr (decide (n < 0))).length ≤ 1 := by
      unfold signStr; split <;> simp
    simp only [List.length_append, if_neg (one_ne_zero), List.length_cons, List.length_replicate]
    omega
  have a2 : AllFit Fmt.param2 [o.tIni, o.tMax, .int n, o.tStepMax, .none, o.gravity,
      o.tReduceFactor, o.meshScaleFactor] := by
    refine ⟨he.2.2.1, he.2.2.2.1, hfn, he.2.2.2.2.1, by simp [Fits], he.2.2.2.2.2.2.1,
      he.2.2.2.2.2.1, he.2.2.2.2.2.2.2.1, trivial⟩
  have a4 : AllFit Fmt.param4 [o.eps1, o.eps2, .none, o.wUpstream, o.wNewton,
      o.derivativeFactor] := by
    obtain ⟨-, -, -, -, -, -, -, -, b1, b2, b3, b4, b5⟩ := he
    exact ⟨b1, b2, by simp [Fits], b3, b4, b5, trivial⟩
  have a5 : AllFit Fmt.param5 (ic.take 4) :=
    allFit_replicate 4 (eCol 20 13) _ (fun v hv => hic.2 v (List.mem_of_mem_take hv))
  have a6 : AllFit Fmt.param5 (ic.drop 4) :=
    allFit_replicate 4 (eCol 20 13) _ (fun v hv => hic.2 v (List.mem_of_mem_drop hv))
  have w1 : width Fmt.param1 ≤ 80 := by decide
  have w2 : width Fmt.param2 ≤ 80 := by decide
  have w4 : width Fmt.param4 ≤ 80 := by decide
  have w5 : width Fmt.param5 ≤ 80 := by decide
  have hint : intOf (stored ⟨.f, 10, 1⟩ (.int n)) = .ok n := by
    simp only [stored, fltOfInt_eq hn, intOf]
    rw [Nat.floor_natCast]
    by_cases h0 : n < 0
    · rw [if_pos (by simpa using h0)]; congr 1; omega
    · rw [if_neg (by simpa using h0)]; congr 1; omega
  refine ⟨lineOf Fmt.param1 [o.nIteration, o.verbosity, o.nCycle, o.nSecond, o.nCyclePrint,
      .str m, .none, o.tempDepGas, o.effStrengthVapor] ::
    lineOf Fmt.param2 [o.tIni, o.tMax, .int n, o.tStepMax, .none, o.gravity,
      o.tReduceFactor, o.meshScaleFactor] :: lines ++
    lineOf Fmt.param4 [o.eps1, o.eps2, .none, o.wUpstream, o.wNewton, o.derivativeFactor] ::
    lineOf Fmt.param5 (ic.take 4) ::
      (if 4 < ic.length then [lineOf Fmt.param5 (ic.drop 4)] else []), ?_, ?_⟩
  · unfold writeParam block
    simp only [optText_eq hmop, ok_bind, ← hm, writeRecord_eq a1, ← hnn, writeRecord_eq a2, hw,
      writeRecord_eq a4, writeRecord_eq a5, writeRecord_eq a6]
    by_cases h4 : 4 < ic.length <;> simp [h4]
  · intro nxt rest hnxt
    have hinit : readInit (lineOf Fmt.param5 (ic.take 4) ::
        ((if 4 < ic.length then [lineOf Fmt.param5 (ic.drop 4)] else []) ++ nxt :: rest)) = .ok
        (((ic.take 4).map (num 13) ++ List.replicate (4 - (ic.take 4).length) .none) ++
          (if 4 < ic.length then (ic.drop 4).map (num 13) ++
            List.replicate (4 - (ic.drop 4).length) .none else []), nxt :: rest) := by
      have r5 := readRow 4 (w := 20) (p := 13) (c := ic.take 4) (by decide) (by simp)
        (fun v hv => hic.2 v (List.mem_of_mem_take hv))
      have r6 := readRow 4 (w := 20) (p := 13) (c := ic.drop 4) (by decide)
        (by rw [List.length_drop]; have := hic.1; omega)
        (fun v hv => hic.2 v (List.mem_of_mem_drop hv))
      rw [← param5_eq] at r5 r6
      by_cases h4 : 4 < ic.length
      · simp only [readInit, next_cons, ok_bind, r5, h4, if_true, List.cons_append,
          List.nil_append, r6]
      · obtain ⟨hx1, hx2⟩ := hnxt (by omega)
        have hx : readRecord Fmt.param5 nxt = .error .valueError :=
          readRecord_nonNumber (w := 20) (p := 13) (by norm_num) (t := [' ', ' ', ' ']) rfl hx2 hx1 rfl
        simp only [readInit, next_cons, ok_bind, r5, h4, if_false, List.nil_append, hx,
          List.append_nil]
    simp only [readParam, List.cons_append, List.append_assoc, next_cons, ok_bind,
      readRecord_lineOf w1 a1, readRecord_lineOf w2 a2]
    have e5 : entry (storedAll Fmt.param1 [o.nIteration, o.verbosity, o.nCycle, o.nSecond,
        o.nCyclePrint, .str m, .none, o.tempDepGas, o.effStrengthVapor]) 5 = .str m := by
      show stored ⟨.S, 24, 0⟩ (.str m) = _
      simp only [stored]
      rw [if_neg hfm.2]
    have e2 : entry (storedAll Fmt.param2 [o.tIni, o.tMax, .int n, o.tStepMax, .none, o.gravity,
        o.tReduceFactor, o.meshScaleFactor]) 2 = stored ⟨.f, 10, 1⟩ (.int n) := rfl
    rw [e5, e2, hint, hm, readDigits_eq hmop]
    simp only [ok_bind, hr, next_cons, readRecord_lineOf w4 a4, hinit, pruneDict_setEntries]
    have hprune : pruneNones (((ic.take 4).map (num 13) ++
        List.replicate (4 - (ic.take 4).length) .none) ++
          (if 4 < ic.length then (ic.drop 4).map (num 13) ++
            List.replicate (4 - (ic.drop 4).length) .none else [])) = initBack ic := by
      by_cases h4 : 4 < ic.length
      · rw [if_pos h4]; exact prune_two 13 4 ic (by have := hic.1; omega) h4
      · rw [if_neg h4, List.append_nil]; exact prune_one 13 4 ic (by omega)
    have hany := any_ne_none (((ic.take 4).map (num 13) ++
        List.replicate (4 - (ic.take 4).length) .none) ++
          (if 4 < ic.length then (ic.drop 4).map (num 13) ++
            List.replicate (4 - (ic.drop 4).length) .none else []))
    rw [hprune] at hany
    rw [hany, hprune]
    by_cases h0 : initBack ic = [] <;> simp [h0] <;> rfl

end Verif.Model
