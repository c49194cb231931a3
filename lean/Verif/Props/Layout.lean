import Verif.Lemmas.Layout
import Verif.Lemmas.Output
import Verif.Props.Gener
import Verif.Props.MeshBlocks

/-!
# Records follow the layout of TOUGH (C55)

Which columns hold which quantity, record by record. Round trips alone do not say
this: a reader and a writer with the same mistake agree with each other.
-/

set_option linter.unusedSimpArgs false

namespace Verif.Props
open Verif.Py Verif.Model Verif.Spec

/-! ## ROCKS -/

/-- The number of additional records of a rock: two more with models, one with a
property of the second record, and a blank otherwise. -/
def nadSpec (r : Rock) : Val :=
  if r.relPerm ≠ none ∨ r.cap ≠ none then .int 2
  else if ∃ v ∈ [r.compressibility, r.expansivity, r.conductivityDry, r.tortuosity, r.klinkenberg,
    r.dist3, r.dist4], v ≠ .none then .int 1
  else .none

/-- C55. First record of a rock: name, number of additional records, density,
porosity, three permeabilities, wet conductivity, specific heat. -/
theorem C55_rocks_1 (k : Val) (r : Rock) (a b c : Val) (hk : NameFits 5 k) (hr : RockFits r)
    (hp : perm3 r.permeability = [a, b, c]) (lines : List Str) (hw : writeRock k r = .ok lines) :
    ∃ l rest, lines = l :: rest ∧ Layout l [(0, sCol 5, k), (5, dCol 5, nadSpec r),
      (10, eCol 10 4, r.density), (20, eCol 10 4, r.porosity), (30, eCol 10 4, a),
      (40, eCol 10 4, b), (50, eCol 10 4, c), (60, eCol 10 4, r.conductivity),
      (70, eCol 10 4, r.specificHeat)] := by
  have hl : permList r.permeability = .ok (a, b, c) := by
    obtain ⟨a', b', c', h1, h2⟩ := permList_eq hr.2.1
    rw [hp] at h2
    simp only [List.cons.injEq, and_true] at h2
    rw [h1, h2.1, h2.2.1, h2.2.2]
  rw [writeRock_eq hk hr hp hl] at hw
  injection hw with hw
  refine ⟨_, _, hw.symm, ?_⟩
  have hf := allFit_rec1 hk hr hp
  have h := layout_record (writeRecord_eq hf) (allFill_of_fit hf)
  have hnad : (if r.nad = 0 then .str [] else .int r.nad : Val) = nadSpec r ∨
      (r.nad = 0 ∧ nadSpec r = .none) := by
    have hsec : r.hasSecondary = true ↔ ∃ v ∈ [r.compressibility, r.expansivity, r.conductivityDry,
        r.tortuosity, r.klinkenberg, r.dist3, r.dist4], v ≠ .none := by
      unfold Rock.hasSecondary Rock.secondary
      rw [List.any_eq_true]
      simp only [decide_eq_true_eq]
    have hmod : (r.relPerm.isSome || r.cap.isSome) = true ↔ r.relPerm ≠ none ∨ r.cap ≠ none := by
      rw [Bool.or_eq_true, Option.isSome_iff_ne_none, Option.isSome_iff_ne_none]
    unfold nadSpec Rock.nad
    by_cases h1 : r.relPerm ≠ none ∨ r.cap ≠ none
    · left; rw [if_pos h1, if_pos (hmod.2 h1)]; rfl
    · rw [if_neg h1, if_neg (fun h => h1 (hmod.1 h))]
      by_cases h2 : r.hasSecondary = true
      · left; rw [if_pos h2, if_pos (hsec.1 h2)]; rfl
      · right
        rw [if_neg h2, if_neg (fun h => h2 (hsec.2 h))]
        exact ⟨rfl, rfl⟩
  intro x hx
  simp only [List.mem_cons, List.not_mem_nil, or_false] at hx
  have hin : ∀ y ∈ place 0 Fmt.rocks1 (rockRec1 k r (a, b, c)), Shows y.2.1
    (columns (lineOf Fmt.rocks1 (rockRec1 k r (a, b, c))) y.1 y.2.1.w) y.2.2 := h
  simp only [place, Fmt.rocks1, rockRec1, List.mem_cons, List.not_mem_nil, or_false,
    forall_eq_or_imp, forall_eq] at hin
  obtain ⟨h0, h1, h2, h3, h4, h5, h6, h7, h8⟩ := hin
  rcases hx with rfl | rfl | rfl | rfl | rfl | rfl | rfl | rfl | rfl
  · exact h0
  · rcases hnad with e | ⟨e, e'⟩
    · rw [← e]; exact h1
    · simp only [e, if_true] at h1
      rw [e']
      simp only [rockRec1, Fmt.rocks1, e, if_true]
      exact h1
  all_goals assumption

/-- C55. Second record of a rock, when it is not blank: compressibility,
expansivity, dry conductivity, tortuosity, Klinkenberg parameter and the two
distribution coefficients. -/
theorem C55_rocks_2 (k : Val) (r : Rock) (hk : NameFits 5 k) (hr : RockFits r) (lines : List Str)
    (hw : writeRock k r = .ok lines) (hs : ∃ v ∈ r.secondary, v ≠ .none) :
    ∃ l, lines[1]? = some l ∧ Layout l [(0, eCol 10 4, r.compressibility),
      (10, eCol 10 4, r.expansivity), (20, eCol 10 4, r.conductivityDry),
      (30, eCol 10 4, r.tortuosity), (40, eCol 10 4, r.klinkenberg), (50, eCol 10 4, r.dist3),
      (60, eCol 10 4, r.dist4)] := by
  obtain ⟨a, b, c, hl, hp⟩ := permList_eq hr.2.1
  rw [writeRock_eq hk hr hp hl] at hw
  injection hw with hw
  have hsec : r.hasSecondary = true := by
    unfold Rock.hasSecondary
    rw [List.any_eq_true]
    obtain ⟨v, hv, hn⟩ := hs
    exact ⟨v, hv, by simpa using hn⟩
  refine ⟨lineOf Fmt.rocks2 r.secondary, ?_, ?_⟩
  · rw [← hw]; simp [rockLines, hsec]
  · have hf := allFit_rec2 hr
    exact layout_record (writeRecord_eq hf) (allFill_of_fit hf)

/-- C55. A model: its number in the first five columns, its parameters in columns
of ten characters from the eleventh column on. -/
theorem C55_model (m : Mod) (h : ModFits 5 7 m) (l : Str) (hw : writeMod (some m) = .ok l) :
    Layout l ((0, dCol 5, m.id) :: series 10 (eCol 10 3) m.params) := by
  have h' := layout_record hw (allFill_of_fit (allFit_rpcap h))
  have e : place 0 Fmt.rpcap (m.id :: .none :: m.params) =
      (0, dCol 5, m.id) :: (5, sCol 5, .none) :: series 10 (eCol 10 3) m.params := by
    have := place_replicate 10 7 (eCol 10 3) m.params h.2.1
    rw [← this]; rfl
  rw [e] at h'
  refine layout_sub h' fun c hc => ?_
  simp only [List.mem_cons] at hc ⊢
  tauto

/-- C55. The models of a rock are on its third and fourth lines: relative
permeability, then capillarity. -/
theorem C55_rocks_3 (k : Val) (r : Rock) (hk : NameFits 5 k) (hr : RockFits r) (lines : List Str)
    (hw : writeRock k r = .ok lines) (hs : r.relPerm ≠ none ∨ r.cap ≠ none) :
    ∃ l1 l2 l3 l4, lines = [l1, l2, l3, l4] ∧ writeMod r.relPerm = .ok l3 ∧
      writeMod r.cap = .ok l4 := by
  obtain ⟨a, b, c, hl, hp⟩ := permList_eq hr.2.1
  rw [writeRock_eq hk hr hp hl] at hw
  injection hw with hw
  have hnad : r.nad = 2 := by
    unfold Rock.nad
    rw [if_pos]
    rw [Bool.or_eq_true, Option.isSome_iff_ne_none, Option.isSome_iff_ne_none]
    exact hs
  have e3 := writeMod_eq hr.2.2.2.1
  have e4 := writeMod_eq hr.2.2.2.2
  rw [← hw]
  unfold rockLines
  by_cases h : r.hasSecondary = true
  · exact ⟨_, _, _, _, by rw [if_pos h, if_pos hnad]; rfl, e3, e4⟩
  · exact ⟨_, _, _, _, by rw [if_neg h, if_pos hnad, if_pos hnad]; rfl, e3, e4⟩

/-! ## MULTI -/

/-- C55. The numbers of components, equations, phases and secondary parameters
stand in columns of five characters. -/
theorem C55_multi (m : Multi) (lines : List Str) (hw : writeMultiBlock m = .ok lines)
    (v : ℤ × ℤ × ℤ × ℤ) (hv : eosValues m.eos = .ok v)
    (hs : ∀ i ∈ [orElse0 m.nComponent v.1, orElse0 m.nComponent v.1 + 1, orElse0 m.nPhase v.2.2.1,
      v.2.2.2], 0 ≤ i ∧ i < 10 ^ 5) :
    ∃ h l, lines = [h, l] ∧ Layout l [(0, dCol 5, .int (orElse0 m.nComponent v.1)),
      (5, dCol 5, .int (if m.isothermal then orElse0 m.nComponent v.1
        else orElse0 m.nComponent v.1 + 1)),
      (10, dCol 5, .int (orElse0 m.nPhase v.2.2.1)),
      (15, dCol 5, .int (if m.diffusion then 8 else v.2.2.2))] := by
  unfold writeMultiBlock block at hw
  rw [hv] at hw
  simp only [bind_eq_ok, ok_bind] at hw
  obtain ⟨b, ⟨l, hl, e⟩, e'⟩ := hw
  injection e with e; subst e
  injection e' with e'
  refine ⟨_, l, e'.symm, ?_⟩
  have hfit : ∀ i : ℤ, 0 ≤ i ∧ i < 10 ^ 5 → Fits (dCol 5) (.int i) := fun i hi =>
    ⟨intStr_length_le hi.1 hi.2, by omega⟩
  simp only [List.mem_cons, List.not_mem_nil, or_false, forall_eq_or_imp, forall_eq] at hs
  obtain ⟨s1, s2, s3, s4⟩ := hs
  have f2 : Fits (dCol 5) (.int (if m.isothermal then orElse0 m.nComponent v.1
      else orElse0 m.nComponent v.1 + 1)) := by
    split
    · exact hfit _ s1
    · exact hfit _ s2
  have f4 : Fits (dCol 5) (.int (if m.diffusion then 8 else v.2.2.2)) := by
    split
    · exact hfit _ (by norm_num)
    · exact hfit _ s4
  have h4 : ∀ (us : List Tok) (ws : List Val) (txt : Str), recText
      ([dCol 5, dCol 5, dCol 5, dCol 5] ++ us) ([.int (orElse0 m.nComponent v.1),
        .int (if m.isothermal then orElse0 m.nComponent v.1 else orElse0 m.nComponent v.1 + 1),
        .int (orElse0 m.nPhase v.2.2.1), .int (if m.diffusion then 8 else v.2.2.2)] ++ ws) = .ok txt →
      ∃ t1 t2, recText [dCol 5, dCol 5, dCol 5, dCol 5] [.int (orElse0 m.nComponent v.1),
        .int (if m.isothermal then orElse0 m.nComponent v.1 else orElse0 m.nComponent v.1 + 1),
        .int (orElse0 m.nPhase v.2.2.1), .int (if m.diffusion then 8 else v.2.2.2)] = .ok t1 ∧
        txt = t1 ++ t2 := by
    intro us ws txt h
    simp only [List.cons_append, List.nil_append, recText, bind_eq_ok] at h ⊢
    obtain ⟨x1, g1, y1, ⟨x2, g2, y2, ⟨x3, g3, y3, ⟨x4, g4, y4, g5, e4⟩, e3⟩, e2⟩, e1⟩ := h
    injection e1 with e1; injection e2 with e2; injection e3 with e3; injection e4 with e4
    refine ⟨x1 ++ (x2 ++ (x3 ++ (x4 ++ []))), y4, ?_, ?_⟩
    · exact ⟨x1, g1, _, ⟨x2, g2, _, ⟨x3, g3, _, ⟨x4, g4, [], rfl, rfl⟩, rfl⟩, rfl⟩, rfl⟩
    · rw [← e1, ← e2, ← e3, ← e4]; simp
  simp only [writeRecord, bind_eq_ok] at hl
  obtain ⟨txt, ht, e⟩ := hl
  injection e with e
  obtain ⟨t1, t2, g1, g2⟩ := h4 [dCol 5] _ txt ht
  have := layout_text g1 ⟨fills_of_fits (hfit _ s1), fills_of_fits f2, fills_of_fits (hfit _ s3),
    fills_of_fits f4, trivial⟩ [] (t2 ++ (blanks (80 - txt.length) ++ ['\n']))
  rw [← e, g2]
  simpa [recLine, padRight, List.append_assoc, place, g2] using this

/-! ## PARAM -/

theorem param_lines {o : Options} {mop : List (ℤ × Val)} {ic : List Val} {lines : List Str}
    (hw : writeParam o mop ic = .ok lines) :
    ∃ m l1 l2 l3 l4 l5 l6, optText 24 mop = .ok m ∧
      writeRecord Fmt.param1 [o.nIteration, o.verbosity, o.nCycle, o.nSecond, o.nCyclePrint,
        .str m, .none, o.tempDepGas, o.effStrengthVapor] = .ok l1 ∧
      writeRecord Fmt.param2 [o.tIni, o.tMax, .int (minusLines o.tSteps.toList.length),
        o.tStepMax, .none, o.gravity, o.tReduceFactor, o.meshScaleFactor] = .ok l2 ∧
      writeMulti Fmt.param3 o.tSteps.toList = .ok l3 ∧
      writeRecord Fmt.param4 [o.eps1, o.eps2, .none, o.wUpstream, o.wNewton, o.derivativeFactor] =
        .ok l4 ∧
      writeRecord Fmt.param5 (ic.take 4) = .ok l5 ∧
      (4 < ic.length → ∃ l, l6 = [l] ∧ writeRecord Fmt.param5 (ic.drop 4) = .ok l) ∧
      (¬ 4 < ic.length → l6 = []) ∧
      lines = headLine "PARAM" :: l1 :: l2 :: (l3 ++ l4 :: l5 :: l6) := by
  unfold writeParam block at hw
  simp only [bind_eq_ok] at hw
  obtain ⟨b, ⟨m, h0, l1, h1, l2, h2, l3, h3, l4, h4, l5, h5, e⟩, e'⟩ := hw
  injection e' with e'
  by_cases h : 4 < ic.length
  · rw [if_pos h] at e
    simp only [bind_eq_ok] at e
    obtain ⟨l, hl, l6, e0, e⟩ := e
    injection e0 with e0
    subst e0
    injection e with e
    refine ⟨m, l1, l2, l3, l4, l5, [l], h0, h1, h2, h3, h4, h5, fun _ => ⟨l, rfl, hl⟩,
      fun h' => absurd h h', ?_⟩
    rw [← e', ← e]; simp
  · rw [if_neg h] at e
    simp only [bind_eq_ok] at e
    obtain ⟨l6, e0, e⟩ := e
    injection e0 with e0
    subst e0
    injection e with e
    refine ⟨m, l1, l2, l3, l4, l5, [], h0, h1, h2, h3, h4, h5, fun h' => absurd h' h,
      fun _ => rfl, ?_⟩
    rw [← e', ← e]; simp

/-- C55. First record of PARAM, without the option digits. -/
theorem C55_param_1 (o : Options) (mop : List (ℤ × Val)) (ic : List Val) (lines : List Str)
    (ho : OptionsFit o) (hm : DigitsOk 24 mop) (hw : writeParam o mop ic = .ok lines) :
    ∃ h l rest, lines = h :: l :: rest ∧ Layout l [(0, dCol 2, o.nIteration),
      (2, dCol 2, o.verbosity), (4, dCol 4, o.nCycle), (8, dCol 4, o.nSecond),
      (12, dCol 4, o.nCyclePrint), (50, eCol 10 4, o.tempDepGas),
      (60, eCol 10 4, o.effStrengthVapor)] ∧
      columns l 16 24 = (List.range 24).map fun k : ℕ => optChar (valueAt mop ((k : ℤ) + 1)) := by
  obtain ⟨m', l1, l2, l3, l4, l5, l6, h0, h1, h2, h3, h4, h5, h6, h7, e'⟩ := param_lines hw
  rw [optText_eq hm] at h0
  injection h0 with h0
  subst h0
  refine ⟨_, l1, _, e', ?_⟩
  obtain ⟨hd2, hd4, he⟩ := ho
  simp only [List.mem_cons, List.not_mem_nil, or_false, forall_eq_or_imp, forall_eq] at hd2 hd4 he
  generalize hmm : (List.range 24).map (fun k : ℕ => optChar (valueAt mop ((k : ℤ) + 1))) = m at h1 ⊢
  have hml : m.length = 24 := by simp [← hmm]
  have hfm : Fits ⟨.S, 24, 0⟩ (.str m) := by
    refine ⟨hml, ?_⟩
    intro h; rw [h] at hml; simp at hml
  have a1 : AllFit Fmt.param1 [o.nIteration, o.verbosity, o.nCycle, o.nSecond, o.nCyclePrint,
      .str m, .none, o.tempDepGas, o.effStrengthVapor] :=
    ⟨hd2.1, hd2.2, hd4.1, hd4.2.1, hd4.2.2, hfm, by simp [Fits], he.1, he.2.1, trivial⟩
  have hlay := layout_record h1 (allFill_of_fit a1)
  constructor
  · refine layout_sub hlay fun c hc => ?_
    simp only [List.mem_cons, List.not_mem_nil, or_false, place, Fmt.param1] at hc ⊢
    tauto
  · have := hlay (16, ⟨.S, 24, 0⟩, .str m) (by simp [place, Fmt.param1])
    simp only [Shows, hml] at this
    simpa using this

theorem minusLines_eq (n : ℕ) : minusLines n = -(((n + 7) / 8 : ℕ) : ℤ) := by
  unfold minusLines
  push_cast
  omega

theorem fits_lines {n : ℤ} (hn : n.natAbs < 10 ^ 6) : Fits ⟨.f, 10, 1⟩ (.int n) := by
  refine ⟨?_, hn⟩
  rw [fltOfInt_eq hn, fmtF_nat]
  have h6 : (natStr n.natAbs).length ≤ 6 := by
    simp only [natStr, padDigits_length, numDigits]
    have : Nat.log 10 n.natAbs < 6 := by
      by_cases h0 : n.natAbs = 0
      · rw [h0]; simp
      · exact Nat.log_lt_of_lt_pow h0 hn
    omega
  have h1 : (signStr (decide (n < 0))).length ≤ 1 := by
    unfold signStr; split <;> simp
  simp only [List.length_append, if_neg (one_ne_zero), List.length_cons, List.length_replicate]
  omega

/-- C55. Second record of PARAM: start and end of the simulation, minus the number
of lines of eight time steps, largest time step, gravity, reduction factor and mesh
scale. -/
theorem C55_param_2 (o : Options) (mop : List (ℤ × Val)) (ic : List Val) (lines : List Str)
    (ho : OptionsFit o) (hn : o.tSteps.toList.length < 10 ^ 6)
    (hw : writeParam o mop ic = .ok lines) :
    ∃ l, lines[2]? = some l ∧ Layout l [(0, eCol 10 4, o.tIni), (10, eCol 10 4, o.tMax),
      (20, ⟨.f, 10, 1⟩, .int (-(((o.tSteps.toList.length + 7) / 8 : ℕ) : ℤ))),
      (30, eCol 10 4, o.tStepMax), (50, eCol 10 4, o.gravity), (60, eCol 10 4, o.tReduceFactor),
      (70, eCol 10 4, o.meshScaleFactor)] := by
  obtain ⟨m, l1, l2, l3, l4, l5, l6, h0, h1, h2, h3, h4, h5, h6, h7, e'⟩ := param_lines hw
  refine ⟨l2, by rw [e']; rfl, ?_⟩
  obtain ⟨-, -, he⟩ := ho
  simp only [List.mem_cons, List.not_mem_nil, or_false, forall_eq_or_imp, forall_eq] at he
  rw [minusLines_eq] at h2
  have hfn : Fits ⟨.f, 10, 1⟩ (.int (-(((o.tSteps.toList.length + 7) / 8 : ℕ) : ℤ))) :=
    fits_lines (by omega)
  have a2 : AllFit Fmt.param2 [o.tIni, o.tMax, .int (-(((o.tSteps.toList.length + 7) / 8 : ℕ) : ℤ)),
      o.tStepMax, .none, o.gravity, o.tReduceFactor, o.meshScaleFactor] :=
    ⟨he.2.2.1, he.2.2.2.1, hfn, he.2.2.2.2.1, by simp [Fits], he.2.2.2.2.2.2.1,
      he.2.2.2.2.2.1, he.2.2.2.2.2.2.2.1, trivial⟩
  refine layout_sub (layout_record h2 (allFill_of_fit a2)) fun c hc => ?_
  simp only [List.mem_cons, List.not_mem_nil, or_false, place, Fmt.param2] at hc ⊢
  tauto

/-- C55. Record of PARAM after the time steps: convergence criteria, upstream and
Newton weights, increment factor. -/
theorem C55_param_4 (o : Options) (mop : List (ℤ × Val)) (ic : List Val) (lines : List Str)
    (ho : OptionsFit o) (hw : writeParam o mop ic = .ok lines) :
    ∃ l, lines[3 + (o.tSteps.toList.length + 7) / 8]? = some l ∧ Layout l [(0, eCol 10 4, o.eps1),
      (10, eCol 10 4, o.eps2), (30, eCol 10 4, o.wUpstream), (40, eCol 10 4, o.wNewton),
      (50, eCol 10 4, o.derivativeFactor)] := by
  obtain ⟨m, l1, l2, l3, l4, l5, l6, h0, h1, h2, h3, h4, h5, h6, h7, e'⟩ := param_lines hw
  have hlen : l3.length = (o.tSteps.toList.length + 7) / 8 := by
    unfold writeMulti at h3
    rw [← (mapM_eq_ok h3).length_eq, chunks_length]
    rfl
  refine ⟨l4, ?_, ?_⟩
  · rw [e', ← hlen]
    simp [Nat.add_comm 3]
  obtain ⟨-, -, he⟩ := ho
  simp only [List.mem_cons, List.not_mem_nil, or_false, forall_eq_or_imp, forall_eq] at he
  have a4 : AllFit Fmt.param4 [o.eps1, o.eps2, .none, o.wUpstream, o.wNewton,
      o.derivativeFactor] := by
    obtain ⟨-, -, -, -, -, -, -, -, b1, b2, b3, b4, b5⟩ := he
    exact ⟨b1, b2, by simp [Fits], b3, b4, b5, trivial⟩
  refine layout_sub (layout_record h4 (allFill_of_fit a4)) fun c hc => ?_
  simp only [List.mem_cons, List.not_mem_nil, or_false, place, Fmt.param4] at hc ⊢
  tauto

/-- C55. The two lines of RPCAP: relative permeability, then capillarity. -/
theorem C55_rpcap (a b : Mod) (h1 : ModFits 5 7 a) (h2 : ModFits 5 7 b) (lines : List Str)
    (hw : writeRpcap (some a) (some b) = .ok lines) :
    ∃ h l1 l2, lines = [h, l1, l2] ∧
      Layout l1 ((0, dCol 5, a.id) :: series 10 (eCol 10 3) a.params) ∧
      Layout l2 ((0, dCol 5, b.id) :: series 10 (eCol 10 3) b.params) := by
  unfold writeRpcap block at hw
  simp only [bind_eq_ok] at hw
  obtain ⟨x, ⟨l1, hl1, l2, hl2, e1⟩, e2⟩ := hw
  injection e1 with e1; subst e1
  injection e2 with e2
  exact ⟨_, l1, l2, e2.symm, C55_model a h1 l1 hl1, C55_model b h2 l2 hl2⟩

/-- C55. The default initial condition stands on the last one or two lines of
PARAM, four values of twenty columns by line. -/
theorem C55_param_5 (o : Options) (mop : List (ℤ × Val)) (ic : List Val) (lines : List Str)
    (hl : ic.length ≤ 8) (hi : ∀ v ∈ ic, Fits (eCol 20 13) v)
    (hw : writeParam o mop ic = .ok lines) :
    ∃ pre l5 l6, lines = pre ++ l5 :: l6 ∧ pre.length = 4 + (o.tSteps.toList.length + 7) / 8 ∧
      Layout l5 (series 0 (eCol 20 13) (ic.take 4)) ∧
      (4 < ic.length → ∃ l, l6 = [l] ∧ Layout l (series 0 (eCol 20 13) (ic.drop 4))) ∧
      (¬ 4 < ic.length → l6 = []) := by
  obtain ⟨m, l1, l2, l3, l4, l5, l6, h0, h1, h2, h3, h4, h5, h6, h7, e'⟩ := param_lines hw
  have hlen : l3.length = (o.tSteps.toList.length + 7) / 8 := by
    unfold writeMulti at h3
    rw [← (mapM_eq_ok h3).length_eq, chunks_length]
    rfl
  have key : ∀ (vs : List Val) (l : Str), vs.length ≤ 4 → (∀ v ∈ vs, Fits (eCol 20 13) v) →
      writeRecord Fmt.param5 vs = .ok l → Layout l (series 0 (eCol 20 13) vs) := by
    intro vs l hvl hv hw
    have := layout_record hw (allFill_of_fit (allFit_replicate 4 (eCol 20 13) vs hv))
    rwa [show Fmt.param5 = List.replicate 4 (eCol 20 13) from rfl,
      place_replicate 0 4 (eCol 20 13) vs hvl] at this
  refine ⟨headLine "PARAM" :: l1 :: l2 :: (l3 ++ [l4]), l5, l6, by rw [e']; simp, ?_,
    key _ l5 (by simp) (fun v hv => hi v (List.mem_of_mem_take hv)) h5, ?_, h7⟩
  · simp [hlen]; omega
  · intro h
    obtain ⟨l, e, hl'⟩ := h6 h
    exact ⟨l, e, key _ l (by simp; omega) (fun v hv => hi v (List.mem_of_mem_drop hv)) hl'⟩

/-! ## Tables -/

/-- C55. A table spread over lines of `n` equal columns: value `i` is on line
`i / n` in column `i % n`. -/
theorem C55_tables (n : ℕ) (hn : 0 < n) (t : Tok) (vs : List Val) (lines : List Str)
    (hv : ∀ v ∈ vs, Fits t v) (hw : writeMulti (List.replicate n t) vs = .ok lines) (i : ℕ) (v : Val)
    (hi : vs[i]? = some v) :
    ∃ l, lines[i / n]? = some l ∧ Shows t (columns l (t.w * (i % n)) t.w) v := by
  unfold writeMulti at hw
  rw [List.length_replicate] at hw
  have hil : i < vs.length := by
    by_contra h
    rw [List.getElem?_eq_none (by omega)] at hi
    cases hi
  have hlt : i / n < (chunks n vs).length := by
    rw [chunks_length, Nat.div_lt_iff_lt_mul hn]
    have := Nat.div_add_mod (vs.length + n - 1) n
    have := Nat.mod_lt (vs.length + n - 1) hn
    rw [Nat.mul_comm]
    omega
  have hfa := mapM_eq_ok hw
  have hlt' : i / n < lines.length := by rw [← hfa.length_eq]; exact hlt
  obtain ⟨l, hl, hl'⟩ : ∃ l, lines[i / n]? = some l ∧
      writeRecord (List.replicate n t) (chunks n vs)[i / n] = .ok l :=
    ⟨lines[i / n], List.getElem?_eq_getElem hlt', hfa.get hlt hlt'⟩
  refine ⟨l, hl, ?_⟩
  have hc : (chunks n vs)[i / n] = (vs.drop (n * (i / n))).take n := by simp [chunks]
  rw [hc] at hl'
  have hlay := layout_record hl' (allFill_of_fit (allFit_replicate n t _ fun v hv' =>
    hv v (List.mem_of_mem_drop (List.mem_of_mem_take hv'))))
  rw [place_replicate 0 n t _ (by simp)] at hlay
  have := hlay (0 + t.w * (i % n), t, v) ?_
  · simpa using this
  · unfold series
    rw [List.mem_map]
    refine ⟨(v, i % n), ?_, rfl⟩
    rw [List.mem_zipIdx_iff_getElem?, List.getElem?_take_of_lt (Nat.mod_lt _ hn),
      List.getElem?_drop, Nat.div_add_mod, hi]

/-! ## GENER -/

/-- C55. Record of a source: element, name, three sequence numbers, number of
times of the table, type, table flag, rate, enthalpy, thickness. -/
theorem C55_gener (L : ℕ) (hL : 5 ≤ L ∧ L ≤ 9) (k : Val) (c : Comp) (fmt : List Tok)
    (hfmt : formatFor Fmt.gener L = .ok fmt) (hk : NameFits L k) (hc : CompFits L c)
    (lines : List Str) (hw : writeComp fmt (k, c) = .ok lines) :
    ∃ l rest, lines = l :: rest ∧ Layout l [(0, sCol L, k), (L, sCol 5, c.name),
      (L + 5, dCol (seqWidths L).1, c.nseq),
      (L + 5 + (seqWidths L).1, dCol (seqWidths L).2.1, c.nadd),
      (25 - (seqWidths L).2.2, dCol (seqWidths L).2.2, c.nads),
      (25, dCol 5, match c.times with
        | .many t => .int t.length
        | .one _ => .none),
      (35, sCol 4, c.type),
      (39, dCol 1, match c.enthalpy with
        | .many _ => .int 1
        | .one _ => .none),
      (40, eCol 10 3, match c.times, c.rates with
        | .one _, .one v => v
        | _, _ => .none),
      (50, eCol 10 3, match c.times, c.enthalpy with
        | .one _, .one v => v
        | _, _ => .none),
      (60, eCol 10 3, c.thickness)] := by
  rw [(formatFor_gener hL).1] at hfmt
  injection hfmt with hfmt
  subst hfmt
  rw [writeComp_eq hk hc] at hw
  injection hw with hw
  refine ⟨_, _, hw.symm, ?_⟩
  have hf := allFit_gener hk hc
  have hlay := layout_record (writeRecord_eq hf) (allFill_of_fit hf)
  have hsum : L + 5 + (seqWidths L).1 + (seqWidths L).2.1 + (seqWidths L).2.2 = 25 := by
    obtain ⟨h1, h2⟩ := hL
    interval_cases L <;> rfl
  have hplace : place 0 (generFmt L) (generRecord k c (ltabSpec c)) =
      [(0, sCol L, k), (L, sCol 5, c.name), (L + 5, dCol (seqWidths L).1, c.nseq),
        (L + 5 + (seqWidths L).1, dCol (seqWidths L).2.1, c.nadd),
        (25 - (seqWidths L).2.2, dCol (seqWidths L).2.2, c.nads), (25, dCol 5, ltabVal (ltabSpec c)),
        (30, sCol 5, .none), (35, sCol 4, c.type), (39, dCol 1, itabOf c.enthalpy),
        (40, eCol 10 3, constantOf (ltabSpec c) c.rates),
        (50, eCol 10 3, constantOf (ltabSpec c) c.enthalpy), (60, eCol 10 3, c.thickness)] := by
    simp only [generFmt, generRecord, place, Nat.zero_add, hsum]
    rw [show 25 - (seqWidths L).2.2 = L + 5 + (seqWidths L).1 + (seqWidths L).2.1 by omega]
  rw [hplace] at hlay
  have h7 := hc.2.2.2.2.2.2
  have hct : ∀ v : SoL, constantOf (ltabSpec c) v = (match c.times, v with
      | .one _, .one v => v
      | _, _ => .none) := by
    intro v
    unfold ltabSpec
    unfold AmountsFit at h7
    cases ht : c.times with
    | one t => cases v <;> rfl
    | many t =>
      rw [ht] at h7
      obtain ⟨m, hm⟩ : ∃ m, t.length = m + 1 := ⟨t.length - 1, by have := h7.1; omega⟩
      cases v <;> simp [hm, constantOf]
  have hlt : ltabVal (ltabSpec c) = (match c.times with
        | .many t => .int t.length
        | .one _ => .none) := by
    unfold ltabSpec
    cases c.times <;> rfl
  have hit : itabOf c.enthalpy = (match c.enthalpy with
        | .many _ => .int 1
        | .one _ => .none) := by cases c.enthalpy <;> rfl
  rw [hct, hct, hlt, hit] at hlay
  refine layout_sub hlay fun x hx => ?_
  simp only [List.mem_cons, List.not_mem_nil, or_false] at hx ⊢
  tauto

/-! ## ELEME, COORD, CONNE and INCON -/

/-- C55. Record of an element: label, sequence numbers, material, volume, heat
exchange area, permeability modifier, centre. Numeric materials stand on the
right. -/
theorem C55_eleme (L : ℕ) (hL : 5 ≤ L ∧ L ≤ 9) (k : Val) (e : Elem) (fmt : List Tok)
    (x y z : Val) (hfmt : formatFor Fmt.eleme L = .ok fmt) (hk : NameFits L k) (he : ElemFits L e)
    (hc : e.center = .list [x, y, z]) (lines : List Str) (hw : writeElem fmt k e = .ok lines) :
    ∃ l, lines = [l] ∧ Layout l [(0, sCol L, k), (L, dCol (elemWidths L).1, e.nseq),
      (15 - (elemWidths L).2, dCol (elemWidths L).2, e.nadd),
      (15, match e.material with
        | .int _ => dCol 5
        | _ => sCol 5, e.material),
      (20, eCol 10 4, e.volume), (30, eCol 10 4, e.area), (40, eCol 10 4, e.permMod),
      (50, eCol 10 3, x), (60, eCol 10 3, y), (70, eCol 10 3, z)] := by
  rw [(formatFor_eleme hL).1] at hfmt
  injection hfmt with hfmt
  subst hfmt
  rw [writeElem_eq hk he] at hw
  injection hw with hw
  refine ⟨_, hw.symm, ?_⟩
  obtain ⟨h1, h2, h3, h4, h5, h6⟩ := he
  simp only [List.mem_cons, List.not_mem_nil, or_false, forall_eq_or_imp, forall_eq, hc, centerOf]
    at h4 h6
  have hm : Fills (sCol 5) (materialText e.material) := by
    cases hmat : e.material with
    | int i =>
      rw [hmat] at h3
      have := intStr_length_le h3.1 h3.2
      exact fills_str (by rw [padLeft_length]; omega)
    | str s => rw [hmat] at h3; exact fills_str h3.1.2.1
    | none => rw [hmat] at h3; exact h3.elim
    | bool _ => rw [hmat] at h3; exact h3.elim
    | flt _ => rw [hmat] at h3; exact h3.elim
  have hfill : AllFill (elemFmt L) (elemVals k e) := by
    simp only [elemFmt, elemVals, hc, centerOf]
    exact ⟨fills_of_fits (fits_name hk), fills_of_fits h1, fills_of_fits h2, hm,
      fills_of_fits h4.1, fills_of_fits h4.2.1, fills_of_fits h4.2.2, fills_of_fits h6.1,
      fills_of_fits h6.2.1, fills_of_fits h6.2.2, trivial⟩
  have hlay := layout_record (cells_line (cells_elem hk ⟨h1, h2, h3, by simpa using h4, h5, by
    simpa [hc, centerOf] using h6⟩)).1 hfill
  have hsum : L + (elemWidths L).1 + (elemWidths L).2 = 15 := (formatFor_incon hL).2.2.2
  have hplace : place 0 (elemFmt L) (elemVals k e) =
      [(0, sCol L, k), (L, dCol (elemWidths L).1, e.nseq),
        (15 - (elemWidths L).2, dCol (elemWidths L).2, e.nadd),
        (15, sCol 5, materialText e.material),
        (20, eCol 10 4, e.volume), (30, eCol 10 4, e.area), (40, eCol 10 4, e.permMod),
        (50, eCol 10 3, x), (60, eCol 10 3, y), (70, eCol 10 3, z)] := by
    simp only [elemFmt, elemVals, place, Nat.zero_add, hsum, hc, centerOf]
    rw [show 15 - (elemWidths L).2 = L + (elemWidths L).1 by omega]
    rfl
  rw [hplace] at hlay
  intro c hcm
  simp only [List.mem_cons, List.not_mem_nil, or_false] at hcm
  by_cases hc3 : c = (15, match e.material with
        | .int _ => dCol 5
        | _ => sCol 5, e.material)
  · subst hc3
    have := hlay (15, sCol 5, materialText e.material) (by simp)
    cases hmat : e.material with
    | int i =>
      rw [hmat] at this h3
      have hl := intStr_length_le h3.1 h3.2
      simp only [materialText, Shows] at this
      have hp : (padLeft 5 (intStr i)).length = 5 := by rw [padLeft_length]; omega
      rw [hp] at this
      simpa [Shows, RightAligned, padLeft, blanks] using this
    | str s => rw [hmat] at this; exact this
    | none => rw [hmat] at h3; exact h3.elim
    | bool _ => rw [hmat] at h3; exact h3.elim
    | flt _ => rw [hmat] at h3; exact h3.elim
  · apply hlay
    simp only [List.mem_cons, List.not_mem_nil, or_false]
    tauto

/-- C55. Record of a centre. -/
theorem C55_coord (x y z : Val) (h : ∀ v ∈ [x, y, z], Fits (eCol 20 13) v) (lines : List Str)
    (hw : writeCenter (.list [x, y, z]) = .ok lines) :
    ∃ l, lines = [l] ∧ Layout l [(0, eCol 20 13, x), (20, eCol 20 13, y), (40, eCol 20 13, z)] := by
  simp only [writeCenter, bind_eq_ok] at hw
  obtain ⟨l, hl, e⟩ := hw
  injection e with e
  simp only [List.mem_cons, List.not_mem_nil, or_false, forall_eq_or_imp, forall_eq] at h
  exact ⟨l, e.symm, layout_record hl ⟨fills_of_fits h.1, fills_of_fits h.2.1, fills_of_fits h.2.2,
    trivial⟩⟩

/-- C55. Record of a connection: the two labels, sequence numbers, direction,
distances to the interface, area, angle, emittance. -/
theorem C55_conne (L : ℕ) (hL : 5 ≤ L ∧ L ≤ 9) (k : Val) (c : Conn) (fmt : List Tok)
    (n1 n2 d1 d2 : Val) (hfmt : formatFor Fmt.conne L = .ok fmt) (hk : NameFits (2 * L) k)
    (hc : ConnFits L c) (hn : pairOf c.nadd = [n1, n2]) (hd : c.distances = some [d1, d2])
    (lines : List Str) (hw : writeConn fmt k c = .ok lines) :
    ∃ l, lines = [l] ∧ Layout l [(0, sCol (2 * L), k), (2 * L, dCol (connWidths L).1, c.nseq),
      (2 * L + (connWidths L).1, dCol (connWidths L).2, n1),
      (25 - (connWidths L).2, dCol (connWidths L).2, n2), (25, dCol 5, c.direction),
      (30, eCol 10 4, d1), (40, eCol 10 4, d2), (50, eCol 10 4, c.area), (60, eCol 10 3, c.angle),
      (70, eCol 10 3, c.emittance)] := by
  rw [formatFor_conne hL] at hfmt
  injection hfmt with hfmt
  subst hfmt
  rw [writeConn_eq hk hc] at hw
  injection hw with hw
  refine ⟨_, hw.symm, ?_⟩
  have hcell := cells_line (cells_conn hk hc)
  obtain ⟨h1, h2, h3, h4, h5, h6, h7, h8⟩ := hc
  have g0 : (pairOf c.nadd).getD 0 .none = n1 := by rw [hn]; rfl
  have g1 : (pairOf c.nadd).getD 1 .none = n2 := by rw [hn]; rfl
  rw [hn] at h3
  rw [hd] at h7
  simp only [List.mem_cons, List.not_mem_nil, or_false, forall_eq_or_imp, forall_eq, pairOf]
    at h3 h7 h8
  have hfill : AllFill (connFmt L) (connVals k c) := by
    simp only [connFmt, connVals, g0, g1, hd]
    exact ⟨fills_of_fits (fits_name hk), fills_of_fits h1, fills_of_fits h3.1, fills_of_fits h3.2,
      fills_of_fits h4, fills_of_fits h7.2.1, fills_of_fits h7.2.2, fills_of_fits h7.1,
      fills_of_fits h8.1, fills_of_fits h8.2, trivial⟩
  have hlay := layout_record hcell.1 hfill
  have hsum : 2 * L + (connWidths L).1 + (connWidths L).2 + (connWidths L).2 = 25 := by
    obtain ⟨h1, h2⟩ := hL
    interval_cases L <;> rfl
  have hplace : place 0 (connFmt L) (connVals k c) =
      [(0, sCol (2 * L), k), (2 * L, dCol (connWidths L).1, c.nseq),
      (2 * L + (connWidths L).1, dCol (connWidths L).2, n1),
      (25 - (connWidths L).2, dCol (connWidths L).2, n2), (25, dCol 5, c.direction),
      (30, eCol 10 4, d1), (40, eCol 10 4, d2), (50, eCol 10 4, c.area), (60, eCol 10 3, c.angle),
      (70, eCol 10 3, c.emittance)] := by
    simp only [connFmt, connVals, place, Nat.zero_add, hsum, g0, g1, hd]
    rw [show 25 - (connWidths L).2 = 2 * L + (connWidths L).1 + (connWidths L).2 by omega]
    rfl
  rw [hplace] at hlay
  exact hlay

/-- C55. Records of an initial condition: label, porosity and user fields on the
first line, four variables of twenty columns on the following ones. -/
theorem C55_incon (L : ℕ) (hL : 5 ≤ L ∧ L ≤ 9) (k : Val) (c : Incon) (fmt : List Tok)
    (us vs : List Val) (hfmt : formatFor Fmt.incon L = .ok fmt) (hk : NameFits L k)
    (hc : InconFits c) (hu : c.userx = some us) (hv : c.values = some vs)
    (lines : List Str) (hw : writeInconRow fmt k c = .ok lines) :
    ∃ l1 l2 l3, lines = l1 :: l2 :: l3 ∧
      Layout l1 ((0, sCol L, k) :: (15, eCol 15 9, c.porosity) :: series 30 (eCol 10 3) us) ∧
      Layout l2 (series 0 (eCol 20 13) (vs.take 4)) ∧
      (4 < vs.length → ∃ l, l3 = [l] ∧ Layout l (series 0 (eCol 20 13) (vs.drop 4))) ∧
      (vs.length ≤ 4 → l3 = []) := by
  obtain ⟨hf1, -, hf3, hf4⟩ := formatFor_incon hL
  rw [hf1] at hfmt
  injection hfmt with hfmt
  subst hfmt
  rw [writeInconRow_eq (e := (k, c)) hk hc] at hw
  injection hw with hw
  refine ⟨_, _, _, hw.symm, ?_, ?_, ?_, ?_⟩
  · have hf := allFit_incon hk hc
    have hlay := layout_record (writeRecord_eq hf) (allFill_of_fit hf)
    have hlen := hc.2.2.1
    have hplace : place 0 (inconFmt L) (inconVals k c) =
        (0, sCol L, k) :: (L, dCol (elemWidths L).1, .none) ::
          (L + (elemWidths L).1, dCol (elemWidths L).2, .none) :: (15, eCol 15 9, c.porosity) ::
          series 30 (eCol 10 3) us := by
      rw [hu] at hlen
      have := place_replicate 30 5 (eCol 10 3) us hlen
      rw [← this]
      simp only [inconFmt, inconVals, place, Nat.zero_add, hf4, hu]
      rfl
    rw [hplace] at hlay
    refine layout_sub hlay fun x hx => ?_
    simp only [List.mem_cons] at hx ⊢
    tauto
  · have h2 := hc.2.2.2.2.2.1.2
    rw [hv] at h2
    have hf : AllFit Fmt.incon0 (vs.take 4) :=
      allFit_replicate 4 (eCol 20 13) _ fun v hm => h2 v (List.mem_of_mem_take hm)
    have hlay := layout_record (writeRecord_eq hf) (allFill_of_fit hf)
    have := place_replicate 0 4 (eCol 20 13) (vs.take 4) (by simp)
    rw [show Fmt.incon0 = List.replicate 4 (eCol 20 13) from rfl, this] at hlay
    simpa [hv, Fmt.incon0] using hlay
  · intro h4
    have h2 := hc.2.2.2.2.2.1
    rw [hv] at h2
    have hf : AllFit Fmt.incon0 (vs.drop 4) :=
      allFit_replicate 4 (eCol 20 13) _ fun v hm => h2.2 v (List.mem_of_mem_drop hm)
    have hlay := layout_record (writeRecord_eq hf) (allFill_of_fit hf)
    have := place_replicate 0 4 (eCol 20 13) (vs.drop 4) (by
      have := h2.1; simp at this ⊢; omega)
    rw [show Fmt.incon0 = List.replicate 4 (eCol 20 13) from rfl, this] at hlay
    refine ⟨_, ?_, hlay⟩
    simp [hv, h4, Fmt.incon0]
  · intro h4
    have : ¬ 4 < vs.length := by omega
    simp [hv, this]

/-! ## SOLVR, MOMOP, FLAC, TIMES, INDOM -/

/-- C55. Record of the solver. -/
theorem C55_solvr (m z o r e : Val) (h1 : Fits (dCol 1) m) (h2 : Fits (sCol 2) z)
    (h3 : Fits (sCol 2) o) (h4 : Fits (eCol 10 4) r) (h5 : Fits (eCol 10 4) e) (lines : List Str)
    (hw : writeSolvr ⟨some m, some z, some o, some r, some e⟩ = .ok lines) :
    ∃ h l, lines = [h, l] ∧ Layout l [(0, dCol 1, m), (3, sCol 2, z), (8, sCol 2, o),
      (10, eCol 10 4, r), (20, eCol 10 4, e)] := by
  unfold writeSolvr block at hw
  simp only [bind_eq_ok, ok_bind, Option.getD_some] at hw
  obtain ⟨b, ⟨l, hl, e1⟩, e2⟩ := hw
  injection e1 with e1; subst e1
  injection e2 with e2
  refine ⟨_, l, e2.symm, ?_⟩
  have hall : AllFit Fmt.solvr [m, .none, z, .none, o, r, e] :=
    ⟨h1, by simp [Fits], h2, by simp [Fits], h3, h4, h5, trivial⟩
  refine layout_sub (layout_record hl (allFill_of_fit hall)) fun c hc => ?_
  simp only [List.mem_cons, List.not_mem_nil, or_false, place, Fmt.solvr] at hc ⊢
  tauto

/-- C55. Record of MOMOP: option `k` in column `k`. -/
theorem C55_momop (d : List (ℤ × Val)) (hd : DigitsOk 40 d) (lines : List Str)
    (hw : writeMomop d = .ok lines) :
    ∃ h l, lines = [h, l] ∧
      columns l 0 40 = (List.range 40).map fun k : ℕ => optChar (valueAt d ((k : ℤ) + 1)) := by
  unfold writeMomop block at hw
  rw [optText_eq hd] at hw
  simp only [bind_eq_ok, ok_bind] at hw
  obtain ⟨b, ⟨l, hl, e1⟩, e2⟩ := hw
  injection e1 with e1; subst e1
  injection e2 with e2
  refine ⟨_, l, e2.symm, ?_⟩
  generalize hmm : (List.range 40).map (fun k : ℕ => optChar (valueAt d ((k : ℤ) + 1))) = m at hl ⊢
  have hml : m.length = 40 := by simp [← hmm]
  have hfm : Fits ⟨.S, 40, 0⟩ (.str m) := by
    refine ⟨hml, ?_⟩
    intro h; rw [h] at hml; simp at hml
  have hall : AllFit Fmt.momop [.str m] := ⟨hfm, trivial⟩
  have := layout_record hl (allFill_of_fit hall) (0, ⟨.S, 40, 0⟩, .str m) (by simp [place, Fmt.momop])
  simpa only [Shows, hml, Nat.sub_self, List.replicate_zero, List.append_nil] using this

/-- C55. First record of FLAC: creep flag, porosity model, version. -/
theorem C55_flac_1 (flac : Flac) (order : Option (List Val)) (rocks : List (Val × (Mod × Mod)))
    (h1 : Fits (dCol 5) flac.porosityModel) (h2 : Fits (dCol 5) flac.version) (lines : List Str)
    (hw : writeFlac flac order rocks = .ok lines) :
    ∃ h l rest, lines = h :: l :: rest ∧ Layout l [(0, dCol 5, .bool (truthy flac.creep)),
      (5, dCol 5, flac.porosityModel), (10, dCol 5, flac.version)] := by
  unfold writeFlac block at hw
  simp only [bind_eq_ok] at hw
  obtain ⟨b, ⟨l, hl, r, hr, e1⟩, e2⟩ := hw
  injection e1 with e1; subst e1
  injection e2 with e2
  refine ⟨_, l, _, e2.symm, ?_⟩
  have hb : Fits (dCol 5) (.bool (truthy flac.creep)) := by
    cases truthy flac.creep <;> decide
  have hall : AllFit Fmt.flac1 [.bool (truthy flac.creep), flac.porosityModel, flac.version] :=
    ⟨hb, h1, h2, trivial⟩
  exact layout_record hl (allFill_of_fit hall)

/-- C55. Records of a rock in FLAC: permeability model, then equivalent pore
pressure. -/
theorem C55_flac_2 (perm pore : Mod) (h1 : ModFits 10 7 perm) (h2 : ModFits 5 7 pore)
    (lines : List Str) (hw : writeFlacRock perm pore = .ok lines) :
    ∃ l1 l2, lines = [l1, l2] ∧
      Layout l1 ((0, dCol 10, perm.id) :: series 10 (eCol 10 3) perm.params) ∧
      Layout l2 ((0, dCol 5, pore.id) :: series 10 (eCol 10 3) pore.params) := by
  unfold writeFlacRock at hw
  simp only [bind_eq_ok] at hw
  obtain ⟨a, ha, b, hb, e⟩ := hw
  injection e with e
  refine ⟨a, b, e.symm, ?_, ?_⟩
  · have hall : AllFit Fmt.flac2 (perm.id :: perm.params) :=
      ⟨h1.1, allFit_replicate 7 (eCol 10 3) _ h1.2.2⟩
    have := layout_record ha (allFill_of_fit hall)
    have e : place 0 Fmt.flac2 (perm.id :: perm.params) =
        (0, dCol 10, perm.id) :: series 10 (eCol 10 3) perm.params := by
      rw [← place_replicate 10 7 (eCol 10 3) perm.params h1.2.1]; rfl
    rwa [e] at this
  · exact C55_model pore h2 b hb

/-- C55. The number of times stands in the first five columns, the times follow
in lines of eight columns (`C55_tables`). -/
theorem C55_times (t : SoL) (hn : t.toList.length < 10 ^ 5) (lines : List Str)
    (hw : writeTimes t = .ok lines) :
    ∃ h l rest, lines = h :: l :: rest ∧ Layout l [(0, dCol 5, .int t.toList.length)] ∧
      writeMulti (List.replicate 8 (eCol 10 4)) t.toList = .ok rest := by
  unfold writeTimes block at hw
  simp only [bind_eq_ok] at hw
  obtain ⟨b, ⟨l, hl, ls, hls, e1⟩, e2⟩ := hw
  injection e1 with e1; subst e1
  injection e2 with e2
  refine ⟨headLine "TIMES", l, ls, by rw [← e2]; simp, ?_, hls⟩
  have hall : AllFit Fmt.times1 [.int t.toList.length] :=
    ⟨⟨intStr_length_le (by omega) (by exact_mod_cast hn), by omega⟩, trivial⟩
  exact layout_record hl (allFill_of_fit hall)

/-- C55. Records of a rock in INDOM: name, then up to four values by line. -/
theorem C55_indom (k : Val) (d : List Val) (hk : NameFits 5 k) (hl : d.length ≤ 8)
    (hd : ∀ v ∈ d, Fits (eCol 20 13) v) (hs : ∃ v ∈ d, v ≠ .none) (lines : List Str)
    (hw : writeIndomRock k (some d) = .ok lines) :
    ∃ l1 l2 l3, lines = l1 :: l2 :: l3 ∧ Layout l1 [(0, sCol 5, k)] ∧
      Layout l2 (series 0 (eCol 20 13) (d.take 4)) ∧
      (4 < d.length → ∃ l, l3 = [l] ∧ Layout l (series 0 (eCol 20 13) (d.drop 4))) := by
  have hany : d.any (· ≠ .none) = true := by
    rw [List.any_eq_true]
    obtain ⟨v, hv, hn⟩ := hs
    exact ⟨v, hv, by simpa using hn⟩
  have key : ∀ (vs : List Val) (l : Str), vs.length ≤ 4 → (∀ v ∈ vs, Fits (eCol 20 13) v) →
      writeRecord Fmt.indom0 vs = .ok l → Layout l (series 0 (eCol 20 13) vs) := by
    intro vs l hvl hv hw
    have := layout_record hw (allFill_of_fit (allFit_replicate 4 (eCol 20 13) vs hv))
    rwa [show Fmt.indom0 = List.replicate 4 (eCol 20 13) from rfl,
      place_replicate 0 4 (eCol 20 13) vs hvl] at this
  simp only [writeIndomRock] at hw
  rw [if_pos hany] at hw
  simp only [bind_eq_ok] at hw
  obtain ⟨a, ha, b, hb, e⟩ := hw
  have h1 : Layout a [(0, sCol 5, k)] :=
    layout_record ha (allFill_of_fit (ts := Fmt.indom5) (vs := [k]) ⟨fits_name hk, trivial⟩)
  have h2 := key _ b (by simp) (fun v hv => hd v (List.mem_of_mem_take hv)) hb
  by_cases h : 4 < d.length
  · rw [if_pos h] at e
    simp only [bind_eq_ok] at e
    obtain ⟨l, hl', c, e0, e⟩ := e
    injection e0 with e0; subst e0
    injection e with e
    exact ⟨a, b, [l], e.symm, h1, h2, fun _ => ⟨l, rfl, key _ l (by simp; omega)
      (fun v hv => hd v (List.mem_of_mem_drop hv)) hl'⟩⟩
  · rw [if_neg h] at e
    simp only [bind_eq_ok] at e
    obtain ⟨c, e0, e⟩ := e
    injection e0 with e0; subst e0
    injection e with e
    exact ⟨a, b, [], e.symm, h1, h2, fun h' => absurd h' h⟩

/-! ## Cases to which the theorems apply -/

/-- A rock with all four records. -/
def layoutRock : Rock := { Rock.empty with
  density := .flt (.fin false 2600)
  permeability := SoL.many [.flt (.fin false (1 / 10 ^ 12)), .flt (.fin false (1 / 10 ^ 13)), .int 0]
  tortuosity := .flt (.fin false (1 / 4))
  cap := some ⟨.int 7, [.flt (.fin true (9 / 20)), .none, .int 3]⟩ }

example : NameFits 5 (.str "SAND".toList) ∧ RockFits layoutRock ∧
    (writeRock (.str "SAND".toList) layoutRock).isOk = true ∧
    perm3 layoutRock.permeability =
      [.flt (.fin false (1 / 10 ^ 12)), .flt (.fin false (1 / 10 ^ 13)), .int 0] ∧
    (∃ v ∈ layoutRock.secondary, v ≠ .none) ∧ layoutRock.cap ≠ none ∧
    nadSpec layoutRock = .int 2 := by
  decide +kernel

example : let m : Mod := ⟨.int 7, [.flt (.fin true (9 / 20)), .none, .int 3]⟩
    ModFits 5 7 m ∧ ModFits 10 7 m ∧ (writeMod (some m)).isOk = true ∧
      (writeFlacRock m m).isOk = true ∧ (writeRpcap (some m) (some m)).isOk = true := by
  decide +kernel

example : let m : Multi := ⟨"eco2n".toList, none, some 2, none, true, true⟩
    (writeMultiBlock m).isOk = true ∧ eosValues m.eos = .ok (3, 4, 3, 6) ∧
      ∀ i ∈ [orElse0 m.nComponent 3, orElse0 m.nComponent 3 + 1, orElse0 m.nPhase 3, 6],
        0 ≤ i ∧ i < 10 ^ 5 := by
  decide +kernel

example : let o : Options := { Options.empty with
      nIteration := .int 8, tMax := .flt (.fin false 3153600000),
      gravity := .flt (.fin false (981 / 100)), eps1 := .flt (.fin false (1 / 100000))
      tSteps := .many [.flt (.fin false 1), .int 10, .flt (.fin false 1000)] }
    OptionsFit o ∧ DigitsOk 24 [(1, .int 1), (16, .int 4), (21, .none)] ∧
      (∀ v ∈ [Val.int 1, .int 2], Fits (eCol 20 13) v) ∧ o.tSteps.toList.length < 10 ^ 6 ∧
      (writeParam o [(1, .int 1), (16, .int 4), (21, .none)] [.int 1, .int 2]).isOk = true := by
  decide +kernel

example : let vs : List Val := (List.range 11).map fun k : ℕ => .int k
    (∀ v ∈ vs, Fits (eCol 10 4) v) ∧
      (writeMulti (List.replicate 8 (eCol 10 4)) vs).isOk = true ∧ vs[9]? = some (.int 9) ∧
      (writeTimes (.many vs)).isOk = true ∧ vs.length < 10 ^ 5 := by
  decide +kernel

example : NameFits 6 (.str "AAA013".toList) ∧ CompFits 6 (tableSource "INJ") ∧
    CompFits 6 (constantSource "WELL" 2 3) ∧
    ((formatFor Fmt.gener 6).bind fun fmt =>
      writeComp fmt (.str "AAA013".toList, tableSource "INJ")).isOk = true := by
  decide +kernel

example : NameFits 8 (.str "AAA12345".toList) ∧ ElemFits 8 numElem ∧
    numElem.center = .list [.none, .int 4, .int 5] ∧
    ((formatFor Fmt.eleme 8).bind fun fmt =>
      writeElem fmt (.str "AAA12345".toList) numElem).isOk = true := by
  decide +kernel

example : (∀ v ∈ [.int 3, .none, .flt (.fin true (1 / 3))], Fits (eCol 20 13) v) ∧
    (writeCenter (.list [.int 3, .none, .flt (.fin true (1 / 3))])).isOk = true := by
  decide +kernel

example : NameFits 12 (.str "AAA123AAA124".toList) ∧ ConnFits 6 seqConn ∧
    pairOf seqConn.nadd = [.int 1, .int 2] ∧ seqConn.distances = some [.int 1, .int 1] ∧
    ((formatFor Fmt.conne 6).bind fun fmt =>
      writeConn fmt (.str "AAA123AAA124".toList) seqConn).isOk = true := by
  decide +kernel

example : NameFits 5 (.str "AAA13".toList) ∧ InconFits longIncon ∧
    ((formatFor Fmt.incon 5).bind fun fmt =>
      writeInconRow fmt (.str "AAA13".toList) longIncon).isOk = true := by
  decide +kernel

example : Fits (dCol 1) (.int 5) ∧ Fits (sCol 2) (.str "Z1".toList) ∧
    Fits (eCol 10 4) (.flt (.fin false (1 / 10))) ∧
    (writeSolvr ⟨some (.int 5), some (.str "Z1".toList), some (.str "O0".toList),
      some (.flt (.fin false (1 / 10))), some .none⟩).isOk = true := by
  decide +kernel

example : DigitsOk 40 [(40, .int 9), (1, .int 0), (7, .none)] ∧
    (writeMomop [(40, .int 9), (1, .int 0), (7, .none)]).isOk = true := by
  decide +kernel

example : (writeFlac ⟨.bool true, .int 3, .none⟩ none
    [(.str "A".toList, (⟨.int 1, []⟩, ⟨.int 3, [.int 2]⟩))]).isOk = true ∧
    Fits (dCol 5) (.int 3) ∧ Fits (dCol 5) .none := by
  decide +kernel

example : let d : List Val := [.int 1, .none, .int 3, .none, .flt (.fin false (1 / 3))]
    (writeIndomRock (.str "SAND".toList) (some d)).isOk = true ∧
      (∀ v ∈ d, Fits (eCol 20 13) v) ∧ ∃ v ∈ d, v ≠ .none := by
  decide +kernel

end Verif.Props
