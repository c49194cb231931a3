import Verif.Lemmas.Curves

/-!
# Relative permeability and capillary pressure curves (C49, C50)
-/

namespace Verif.Props
open Verif.Py Verif.Spec Verif.Curves Set

/-! ## C49 -/

/-- C49: a saturation outside [0, 1] is refused by every model, alone or in an array. -/
theorem C49_range {α : Type} (f : ℝ → Except PyErr α) :
    (∀ s, s ∉ Icc (0 : ℝ) 1 → call f s = .error .valueError) ∧
    ∀ l : List ℝ, (∃ s ∈ l, s ∉ Icc (0 : ℝ) 1) → callArray f l = .error .valueError := by
  refine ⟨fun s hs => call_error hs, ?_⟩
  rintro l ⟨s, hs, hn⟩
  exact if_neg fun h => hn ⟨h.1 s hs, h.2 s hs⟩

example : call (fun s : ℝ => .ok s) 2 = .error PyErr.valueError := (C49_range _).1 2 (by norm_num)

/-- C49: the values of an array are those of its entries. -/
theorem C49_array {α : Type} (f : ℝ → Except PyErr α) (l : List ℝ) (h : ∀ s ∈ l, s ∈ Icc (0 : ℝ) 1) :
    callArray f l = l.mapM (call f) := by
  have h1 : callArray f l = l.mapM f := if_pos ⟨fun s hs => (h s hs).1, fun s hs => (h s hs).2⟩
  rw [h1]
  clear h1
  induction l with
  | nil => rfl
  | cons a l ih =>
    rw [List.mapM_cons, List.mapM_cons, ih fun s hs => h s (List.mem_cons_of_mem _ hs),
      call_ok (h a List.mem_cons_self)]

example : ∀ s ∈ [(0 : ℝ), 1 / 2, 1], s ∈ Icc (0 : ℝ) 1 := by
  intro s hs
  simp only [List.mem_cons, List.not_mem_nil, or_false] at hs
  rcases hs with rfl | rfl | rfl <;> norm_num

/-- C49, linear functions: parameters are accepted just if the thresholds are in order, and
then the curves are as required, straight between the thresholds. -/
theorem C49_linear (slmin sgmin slmax sgmax : ℝ) :
    (slmin < slmax ∧ sgmin < sgmax → ∃ f, krLinear slmin sgmin slmax sgmax = .ok f ∧ GoodRelPerm (call f) ∧
      ∀ s ∈ Icc (0 : ℝ) 1, s ∈ Icc slmin slmax → 1 - s ∈ Icc sgmin sgmax →
        call f s = .ok (.re ((s - slmin) / (slmax - slmin)), .re ((1 - s - sgmin) / (sgmax - sgmin)))) ∧
    (¬ (slmin < slmax ∧ sgmin < sgmax) → krLinear slmin sgmin slmax sgmax = .error .valueError) := by
  constructor
  · rintro ⟨h1, h2⟩
    have key : ∀ a b s : ℝ, a < b →
        (if s ≥ b then Except.ok 1 else if s ≤ a then Except.ok 0 else div (s - a) (b - a)) = .ok (clip a b s) := by
      intro a b s hab
      split
      · rename_i h; rw [clip_high hab h]
      · split
        · rename_i h; rw [clip_low hab h]
        · rename_i h3 h4
          rw [clip_mid hab (not_le.mp h4).le (not_le.mp h3).le, div_ok (by linarith)]
    refine ⟨_, by unfold krLinear krLinearAt; rw [if_neg (not_le.mpr h1), if_neg (not_le.mpr h2)], ?_, ?_⟩
    · refine good_of (fun s => clip slmin slmax s) (fun s => clip sgmin sgmax (1 - s)) ?_
        (fun s _ => clip_mem _ _ _) (fun s _ => clip_mem _ _ _) (fun s _ t _ h => clip_mono h1 h)
        (fun s _ t _ h => clip_mono h2 (by linarith))
      intro s _
      simp only [key _ _ _ h1, key _ _ _ h2]
      rfl
    · intro s hs hl hg
      rw [call_ok hs]
      simp only [key _ _ _ h1, key _ _ _ h2, clip_mid h1 hl.1 hl.2, clip_mid h2 hg.1 hg.2]
      rfl
  · intro h
    unfold krLinear
    by_cases h1 : slmin ≥ slmax
    · rw [if_pos h1]
    · rw [if_neg h1, if_pos]
      by_contra h2
      exact h ⟨not_le.mp h1, not_le.mp h2⟩

example : ((1 / 10 : ℝ) < 9 / 10 ∧ (0 : ℝ) < 8 / 10) ∧ (1 / 2 : ℝ) ∈ Icc (0 : ℝ) 1 ∧
    (1 / 2 : ℝ) ∈ Icc (1 / 10 : ℝ) (9 / 10) ∧ (1 - 1 / 2 : ℝ) ∈ Icc (0 : ℝ) (8 / 10) := by norm_num

/-- C49, perfectly mobile gas: the constructor checks nothing; for an exponent that is not
negative the curves are as required. -/
theorem C49_pickens (x : ℝ) (h : 0 ≤ x) : ∃ f, krPickens x = .ok f ∧ GoodRelPerm (call f) ∧
    ∀ s ∈ Icc (0 : ℝ) 1, call f s = .ok (.re (s ^ x), .re 1) := by
  have hf : ∀ s ∈ Icc (0 : ℝ) 1, (do let kl ← Curves.pow s x; .ok (kl, Num.re 1) : Except PyErr (Num × Num)) =
      .ok (.re (s ^ x), .re 1) := by
    intro s hs
    rw [pow_ok (Or.inr ⟨hs.1, h⟩)]
    rfl
  refine ⟨_, rfl, good_of (fun s => s ^ x) (fun _ => 1) hf (fun s hs => rpow_mem h hs) (fun s _ => ⟨zero_le_one, le_rfl⟩)
    (fun s hs t _ hst => Real.rpow_le_rpow hs.1 hst h) (fun _ _ _ _ _ => le_rfl), ?_⟩
  intro s hs
  rw [call_ok hs, krPickensAt, hf s hs]

example : (0 : ℝ) ≤ 2 := by norm_num

/-- C49, perfectly mobile gas: a negative exponent is accepted, and an empty medium cannot
be evaluated. -/
theorem C49_pickens_negative (x : ℝ) (h : x < 0) : ∃ f, krPickens x = .ok f ∧
    call f 0 = .error .zeroDivisionError := by
  refine ⟨_, rfl, ?_⟩
  rw [call_ok (by norm_num)]
  simp only [krPickensAt, Curves.pow, h, and_self, if_true]
  rfl

example : (-1 : ℝ) < 0 := by norm_num

/-- C49, Corey: parameters are accepted just if the residual saturations add up to less
than one, and then the curves are as required. -/
theorem C49_corey (slr sgr : ℝ) :
    (slr + sgr < 1 → ∃ f, krCorey slr sgr = .ok f ∧ GoodRelPerm (call f) ∧
      ∀ s ∈ Icc (0 : ℝ) 1, s ∈ Icc slr (1 - sgr) → ∀ S, S = (s - slr) / (1 - slr - sgr) →
        call f s = .ok (.re (S ^ 4), .re ((1 - S ^ 2) * (1 - S) ^ 2))) ∧
    (1 ≤ slr + sgr → krCorey slr sgr = .error .valueError) := by
  constructor
  · intro h
    have hab : slr < 1 - sgr := by linarith
    have key := corey_like slr sgr h (fun u => (1 - u ^ 2) * (1 - u) ^ 2) (by norm_num) (by norm_num)
    refine ⟨_, by unfold krCorey krCoreyAt; rw [if_neg (not_le.mpr h)], ?_, ?_⟩
    · exact good_of (fun s => clip slr (1 - sgr) s ^ 4) _ (fun s _ => key s)
        (fun s _ => pow_mem 4 (clip_mem _ _ _))
        (fun s _ => mul_mem (sub_mem (pow_mem 2 (clip_mem _ _ _))) (pow_mem 2 (sub_mem (clip_mem _ _ _))))
        (fun s _ t _ hst => pow_mono 4 (clip_mem _ _ _) (clip_mem _ _ _) (clip_mono hab hst))
        (fun s _ t _ hst => corey_anti (clip_mem _ _ _) (clip_mem _ _ _) (clip_mono hab hst))
    · rintro s hs hm S rfl
      rw [call_ok hs]
      refine (key s).trans ?_
      have : 1 - slr - sgr = 1 - sgr - slr := by ring
      rw [clip_mid hab hm.1 hm.2, this]
  · intro h
    unfold krCorey
    rw [if_pos h]

example : ((3 / 10 : ℝ) + 1 / 10 < 1) ∧ (1 / 2 : ℝ) ∈ Icc (0 : ℝ) 1 ∧ (1 / 2 : ℝ) ∈ Icc (3 / 10 : ℝ) (1 - 1 / 10) := by
  norm_num

/-- C49, Grant: as Corey, with both permeabilities adding up to one. -/
theorem C49_grant (slr sgr : ℝ) :
    (slr + sgr < 1 → ∃ f, krGrant slr sgr = .ok f ∧ GoodRelPerm (call f) ∧
      ∀ s ∈ Icc (0 : ℝ) 1, s ∈ Icc slr (1 - sgr) → ∀ S, S = (s - slr) / (1 - slr - sgr) →
        call f s = .ok (.re (S ^ 4), .re (1 - S ^ 4))) ∧
    (1 ≤ slr + sgr → krGrant slr sgr = .error .valueError) := by
  constructor
  · intro h
    have hab : slr < 1 - sgr := by linarith
    have key := corey_like slr sgr h (fun u => 1 - u ^ 4) (by norm_num) (by norm_num)
    refine ⟨_, by unfold krGrant krGrantAt; rw [if_neg (not_le.mpr h)], ?_, ?_⟩
    · exact good_of (fun s => clip slr (1 - sgr) s ^ 4) (fun s => 1 - clip slr (1 - sgr) s ^ 4) (fun s _ => key s)
        (fun s _ => pow_mem 4 (clip_mem _ _ _))
        (fun s _ => sub_mem (pow_mem 4 (clip_mem _ _ _)))
        (fun s _ t _ hst => pow_mono 4 (clip_mem _ _ _) (clip_mem _ _ _) (clip_mono hab hst))
        (fun s _ t _ hst => sub_le_sub_left
          (pow_mono 4 (clip_mem _ _ _) (clip_mem _ _ _) (clip_mono hab hst)) 1)
    · rintro s hs hm S rfl
      rw [call_ok hs]
      refine (key s).trans ?_
      have : 1 - slr - sgr = 1 - sgr - slr := by ring
      rw [clip_mid hab hm.1 hm.2, this]
  · intro h
    unfold krGrant
    rw [if_pos h]

example : ((3 / 10 : ℝ) + 1 / 10 < 1) ∧ (1 / 2 : ℝ) ∈ Icc (0 : ℝ) 1 ∧ (1 / 2 : ℝ) ∈ Icc (3 / 10 : ℝ) (1 - 1 / 10) := by
  norm_num

/-- C49, Fatt and Klikoff: parameters are accepted just if the residual saturation is less
than one, and then the curves are as required. -/
theorem C49_fatt_klikoff (slr : ℝ) :
    (slr < 1 → ∃ f, krFattKlikoff slr = .ok f ∧ GoodRelPerm (call f) ∧
      ∀ s ∈ Icc (0 : ℝ) 1, slr ≤ s → ∀ S, S = (s - slr) / (1 - slr) →
        call f s = .ok (.re (S ^ 3), .re ((1 - S) ^ 3))) ∧
    (1 ≤ slr → krFattKlikoff slr = .error .valueError) := by
  constructor
  · intro h
    have key : ∀ s ∈ Icc (0 : ℝ) 1, (if s > slr then div (s - slr) (1 - slr) else .ok 0) = .ok (clip slr 1 s) := by
      intro s hs
      split
      · rename_i h2
        rw [clip_mid h h2.le hs.2, div_ok (by linarith)]
      · rename_i h2
        rw [clip_low h (not_lt.mp h2)]
    refine ⟨_, by unfold krFattKlikoff krFattKlikoffAt; rw [if_neg (not_le.mpr h)], ?_, ?_⟩
    · refine good_of (fun s => clip slr 1 s ^ 3) (fun s => (1 - clip slr 1 s) ^ 3) ?_
        (fun s _ => pow_mem 3 (clip_mem _ _ _)) (fun s _ => pow_mem 3 (sub_mem (clip_mem _ _ _)))
        (fun s _ t _ hst => pow_mono 3 (clip_mem _ _ _) (clip_mem _ _ _) (clip_mono h hst))
        (fun s _ t _ hst => pow_mono 3 (sub_mem (clip_mem _ _ _)) (sub_mem (clip_mem _ _ _))
          (sub_le_sub_left (clip_mono h hst) 1))
      intro s hs
      simp only [key s hs]
      rfl
    · rintro s hs hm S rfl
      rw [call_ok hs]
      simp only [key s hs, clip_mid h hm hs.2]
      rfl
  · intro h
    unfold krFattKlikoff
    rw [if_pos h]

example : (2 / 10 : ℝ) < 1 ∧ (1 / 2 : ℝ) ∈ Icc (0 : ℝ) 1 ∧ (2 / 10 : ℝ) ≤ 1 / 2 := by norm_num

/-- C49, van Genuchten and Mualem: the constructor checks nothing; for a positive `m`,
saturation thresholds in order and residual saturations that add up to less than one the
curves are as required. -/
theorem C49_van_genuchten_mualem (m slr sls sgr : ℝ) (hm : 0 < m) (h1 : slr < sls) (h2 : slr + sgr < 1) :
    ∃ f, krVanGenuchtenMualem m slr sls sgr = .ok f ∧ GoodRelPerm (call f) ∧
      (∀ s ∈ Icc (0 : ℝ) 1, sls ≤ s → call f s = .ok (.re 1, .re 0)) ∧
      ∀ s ∈ Icc (0 : ℝ) 1, s ∈ Ico slr sls → ∀ S T kl, S = (s - slr) / (sls - slr) →
        T = min ((s - slr) / (1 - slr - sgr)) 1 → kl = S ^ (1 / 2 : ℝ) * (1 - (1 - S ^ (1 / m)) ^ m) ^ 2 →
        call f s = .ok (.re kl, .re (if sgr ≤ 0 then 1 - kl else (1 - T ^ 2) * (1 - T) ^ 2)) := by
  let kg : ℝ → ℝ := fun s => if s ≥ sls then 0 else if sgr ≤ 0 then 1 - mualem m (clip slr sls s)
    else (1 - clip slr (1 - sgr) s ^ 2) * (1 - clip slr (1 - sgr) s) ^ 2
  have hg : slr < 1 - sgr := by linarith
  refine ⟨_, rfl, ?_⟩
  have key : ∀ s, (if s ≥ sls then Except.ok (Num.re 1, Num.re 0)
      else do
      let s' ← div (s - slr) (sls - slr)
      let kl ← (if s' > 0 then liquid m s' else .ok (.re 0) : Except PyErr Num)
      let h ← div (s - slr) (1 - slr - sgr)
      let h := min (max h 0) 1
      let kg := if sgr ≤ 0 then kl.map (1 - ·) else .re ((1 - h ^ 2) * (1 - h) ^ 2)
      .ok (kl, kg)) = .ok (.re (mualem m (clip slr sls s)), .re (kg s)) := by
    intro s
    by_cases hs : s ≥ sls
    · simp only [if_pos hs, kg, clip_high h1 hs, mualem_one hm]
    · have hh : 1 - slr - sgr = 1 - sgr - slr := by ring
      rw [if_neg hs, div_ok (by linarith)]
      simp only [bind, Except.bind]
      rw [hh, div_ok (by linarith)]
      by_cases hp : (s - slr) / (sls - slr) > 0
      · have hlt : slr < s := by
          by_contra hc
          exact absurd hp (not_lt.mpr (div_nonpos_of_nonpos_of_nonneg (by linarith [not_lt.mp hc]) (by linarith)))
        have hc : (s - slr) / (sls - slr) = clip slr sls s := (clip_mid h1 hlt.le (not_le.mp hs).le).symm
        have hl : liquid m ((s - slr) / (sls - slr)) = .ok (.re (mualem m (clip slr sls s))) := by
          unfold liquid
          rw [div_ok hm.ne', pow_ok (Or.inl hp)]
          simp only [bind, Except.bind]
          rw [pow_ok (Or.inl hp)]
          simp only [Num.map, Num.pow]
          rw [hc, pow_ok (Or.inr ⟨(sub_mem (rpow_mem (by positivity) (clip_mem _ _ _))).1, hm.le⟩)]
          rfl
        rw [if_pos hp, hl]
        simp only [kg, if_neg hs, Num.map]
        split <;> rfl
      · have hle : s ≤ slr := by
          by_contra hc
          exact hp (div_pos (by linarith [not_le.mp hc]) (by linarith))
        rw [if_neg hp]
        simp only [kg, if_neg hs, clip_low h1 hle, mualem_zero, Num.map]
        split <;> rfl
  refine ⟨good_of (fun s => mualem m (clip slr sls s)) kg (fun s _ => key s) (fun s _ => mualem_mem hm (clip_mem _ _ _))
    ?_ (fun s _ t _ h => mualem_mono hm (clip_mem _ _ _) (clip_mem _ _ _) (clip_mono h1 h)) ?_, ?_, ?_⟩
  · intro s _
    simp only [kg]
    split
    · exact ⟨le_rfl, zero_le_one⟩
    · split
      · exact sub_mem (mualem_mem hm (clip_mem _ _ _))
      · exact mul_mem (sub_mem (pow_mem 2 (clip_mem _ _ _))) (pow_mem 2 (sub_mem (clip_mem _ _ _)))
  · intro s _ t _ h
    simp only [kg]
    by_cases ht : t ≥ sls
    · rw [if_pos ht]
      split
      · exact le_rfl
      · split
        · exact (sub_mem (mualem_mem hm (clip_mem _ _ _))).1
        · exact (mul_mem (sub_mem (pow_mem 2 (clip_mem _ _ _))) (pow_mem 2 (sub_mem (clip_mem _ _ _)))).1
    · have hs : ¬ s ≥ sls := fun hc => ht (le_trans hc h)
      rw [if_neg ht, if_neg hs]
      split
      · exact sub_le_sub_left (mualem_mono hm (clip_mem _ _ _) (clip_mem _ _ _) (clip_mono h1 h)) 1
      · exact corey_anti (clip_mem _ _ _) (clip_mem _ _ _) (clip_mono hg h)
  · intro s hs hl
    rw [call_ok hs]
    simp only [krVanGenuchtenMualemAt, if_pos (ge_iff_le.mpr hl)]
  · rintro s hs hm' S T kl rfl rfl rfl
    rw [call_ok hs, ← clip_mid h1 hm'.1 hm'.2.le]
    refine (key s).trans ?_
    have hT : clip slr (1 - sgr) s = min ((s - slr) / (1 - slr - sgr)) 1 := by
      have hh : 1 - slr - sgr = 1 - sgr - slr := by ring
      rw [clip, hh, max_eq_left (div_nonneg (by linarith [hm'.1]) (by linarith))]
    simp only [kg, if_neg (not_le.mpr hm'.2), ← hT]
    rfl

example : (0 : ℝ) < 457 / 1000 ∧ (15 / 100 : ℝ) < 1 ∧ (15 / 100 : ℝ) + 1 / 10 < 1 ∧
    (1 / 2 : ℝ) ∈ Icc (0 : ℝ) 1 ∧ (1 / 2 : ℝ) ∈ Ico (15 / 100 : ℝ) 1 := by norm_num

/-- C49, Verma: the constructor checks nothing; for thresholds in order and a gas curve
that falls on [0, 1] the curves are as required. -/
theorem C49_verma (slr sls a b c : ℝ) (h1 : slr < sls) (hb : b ≤ 0) (hc : b + 2 * c ≤ 0) :
    ∃ f, krVerma slr sls a b c = .ok f ∧ GoodRelPerm (call f) ∧
      ∀ s ∈ Icc (0 : ℝ) 1, s ∈ Icc slr sls → ∀ S, S = (s - slr) / (sls - slr) →
        call f s = .ok (.re (S ^ 3), .re (min (max (a + b * S + c * S ^ 2) 0) 1)) := by
  have key : ∀ s, (do
      let s ← div (s - slr) (sls - slr)
      let s := min (max s 0) 1
      let kl := s ^ 3
      let kg := a + b * s + c * s ^ 2
      let kg := min (max kg 0) 1
      .ok (Num.re kl, Num.re kg) : Except PyErr (Num × Num)) = .ok (.re (clip slr sls s ^ 3),
        .re (min (max (a + b * clip slr sls s + c * clip slr sls s ^ 2) 0) 1)) := by
    intro s
    rw [div_ok (by linarith)]
    rfl
  refine ⟨_, rfl, ?_, ?_⟩
  · refine good_of (fun s => clip slr sls s ^ 3)
      (fun s => min (max (a + b * clip slr sls s + c * clip slr sls s ^ 2) 0) 1) (fun s _ => key s)
      (fun s _ => pow_mem 3 (clip_mem _ _ _)) (fun s _ => ⟨le_min (le_max_right _ _) zero_le_one, min_le_right _ _⟩)
      (fun s _ t _ h => pow_mono 3 (clip_mem _ _ _) (clip_mem _ _ _) (clip_mono h1 h)) ?_
    intro s _ t _ h
    have h3 := clip_mono h1 h
    have hs := clip_mem slr sls s
    have ht := clip_mem slr sls t
    simp only
    generalize clip slr sls s = u at *
    generalize clip slr sls t = v at *
    refine min_le_min_right _ (max_le_max_right _ ?_)
    have h4 : b + c * (u + v) ≤ 0 := by
      rcases le_total 0 c with hc0 | hc0
      · nlinarith [hs.2, ht.2]
      · nlinarith [hs.1, ht.1]
    nlinarith
  · rintro s hs hm S rfl
    rw [call_ok hs]
    refine (key s).trans ?_
    rw [clip_mid h1 hm.1 hm.2]

/-- The default parameters of `Verma`. -/
example : (0.2 : ℝ) < 0.895 ∧ (-1.7615 : ℝ) ≤ 0 ∧ (-1.7615 : ℝ) + 2 * 0.5089 ≤ 0 := by norm_num

/-! ## C50 -/

/-- C50, linear function: parameters are accepted just if the thresholds are in order, and
then, for a maximum pressure that is not negative, the curve is as required. -/
theorem C50_linear (pmax smin smax : ℝ) :
    (smin < smax → 0 ≤ pmax → ∃ f, pcLinear pmax smin smax = .ok f ∧ GoodCapPres (some pmax) (call f) ∧
      ∀ s ∈ Icc (0 : ℝ) 1, s ∈ Icc smin smax → call f s = .ok (.re (-pmax * ((smax - s) / (smax - smin))))) ∧
    (smax ≤ smin → pcLinear pmax smin smax = .error .valueError) := by
  constructor
  · intro h hp
    have key : ∀ s, (if s ≤ smin then Except.ok (Num.re (-pmax))
        else if s ≥ smax then .ok (.re 0)
        else do
          let p ← div (-pmax * (smax - s)) (smax - smin)
          .ok (.re p) : Except PyErr Num) = .ok (.re (-pmax * (1 - clip smin smax s))) := by
      intro s
      split
      · rename_i h2; rw [clip_low h h2]; norm_num
      · split
        · rename_i h2; rw [clip_high h h2]; norm_num
        · rename_i h2 h3
          have h4 : smax - smin ≠ 0 := by linarith
          rw [clip_mid h (not_le.mp h2).le (not_le.mp h3).le, div_ok h4]
          show Except.ok (Num.re _) = _
          congr 2
          field_simp
          ring
    refine ⟨_, by unfold pcLinear pcLinearAt; rw [if_neg (not_le.mpr h)], ?_, ?_⟩
    · refine ⟨fun s => -pmax * (1 - clip smin smax s), fun s hs => (call_ok hs).trans (key s), ?_, ?_⟩
      · intro s _
        have := clip_mem smin smax s
        refine ⟨by nlinarith [this.2], ?_⟩
        intro b hb
        cases hb
        nlinarith [this.1]
      · intro s _ t _ hst
        have := clip_mono h hst
        show -pmax * (1 - clip smin smax s) ≤ -pmax * (1 - clip smin smax t)
        nlinarith
    · intro s hs hm
      rw [call_ok hs]
      refine (key s).trans ?_
      have h4 : smax - smin ≠ 0 := by linarith
      rw [clip_mid h hm.1 hm.2]
      congr 2
      field_simp
      ring
  · intro h
    unfold pcLinear
    rw [if_pos h]

example : ((1 / 10 : ℝ) < 9 / 10) ∧ (0 : ℝ) ≤ 1000000 ∧ (1 / 2 : ℝ) ∈ Icc (0 : ℝ) 1 ∧
    (1 / 2 : ℝ) ∈ Icc (1 / 10 : ℝ) (9 / 10) := by norm_num

/-- C50, linear function: a negative maximum pressure is accepted and gives a positive
value. -/
theorem C50_linear_violated : ∃ pmax smin smax f, pcLinear pmax smin smax = .ok f ∧
    ¬ GoodCapPres none (call f) := by
  refine ⟨-1, 0, 1, _, by unfold pcLinear pcLinearAt; rw [if_neg (by norm_num)], ?_⟩
  rintro ⟨p, h1, h2, -⟩
  have h3 := h1 0 (by norm_num)
  rw [call_ok (by norm_num), if_pos le_rfl] at h3
  injection h3 with h3
  injection h3 with h3
  linarith [(h2 0 (by norm_num)).1]

/-- C50, TRUST: parameters are accepted just if `slr` is not negative and `eta` is not
zero. For a positive `eta` and strengths that are not negative the curve is as required. -/
theorem C50_trust (p0 slr eta pe pmax : ℝ) :
    (0 ≤ slr → 0 < eta → 0 ≤ p0 → 0 ≤ pe →
      ∃ f, pcTrust p0 slr eta pe pmax = .ok f ∧ GoodCapPres (some |pmax|) (call f) ∧
      ∀ s ∈ Icc (0 : ℝ) 1, slr < s → s ≤ 0.999 → |pe + p0 * ((1 - s) / (s - slr)) ^ (1 / eta)| ≤ |pmax| →
        call f s = .ok (.re (-pe - p0 * ((1 - s) / (s - slr)) ^ (1 / eta)))) ∧
    (slr < 0 ∨ eta = 0 → pcTrust p0 slr eta pe pmax = .error .valueError) := by
  constructor
  · intro h0 he hp0 hpe
    let q : ℝ → ℝ := fun s => if s > slr then -pe - p0 * ((1 - s) / (s - slr)) ^ (1 / eta) else -|pmax|
    have he' : 0 ≤ 1 / eta := by positivity
    refine ⟨_, by unfold pcTrust pcTrustAt; rw [if_neg (not_lt.mpr h0), if_neg he.ne'], ?_⟩
    have key : ∀ s ∈ Icc (0 : ℝ) 1, (do
        let p ← if s > slr then do
            let d ← div (1 - s) (s - slr)
            let e ← div 1 eta
            let z ← Curves.pow d e
            .ok (z.map fun z => -pe - p0 * z)
          else .ok (.re (-|pmax|))
        match p with
        | .other => .error .typeError
        | .re p => .ok (.re (max p (-|pmax|) * if s > 0.999 then (1 - s) / 0.001 else 1)) : Except PyErr Num) =
          .ok (.re (max (q s) (-|pmax|) * taper s)) := by
      intro s hs
      simp only [q]
      split
      · rename_i h1
        rw [div_ok (by linarith), div_ok he.ne']
        simp only [bind, Except.bind]
        rw [pow_ok (Or.inr ⟨div_nonneg (by linarith [hs.2]) (by linarith), he'⟩)]
        rfl
      · rfl
    refine ⟨good_tapered q key ?_ ?_, ?_⟩
    · intro s hs _
      simp only [q]
      split
      · rename_i h1
        have : 0 ≤ ((1 - s) / (s - slr)) ^ (1 / eta) :=
          Real.rpow_nonneg (div_nonneg (by linarith [hs.2]) (by linarith)) _
        nlinarith
      · simp
    · intro s hs t ht h _
      simp only [q]
      by_cases h1 : s > slr
      · have h2 : t > slr := lt_of_lt_of_le h1 h
        rw [if_pos h1, if_pos h2]
        refine max_le_max_right _ ?_
        have h3 : (1 - t) / (t - slr) ≤ (1 - s) / (s - slr) :=
          div_le_div₀ (by linarith [hs.2]) (by linarith) (by linarith) (by linarith)
        have h4 : ((1 - t) / (t - slr)) ^ (1 / eta) ≤ ((1 - s) / (s - slr)) ^ (1 / eta) :=
          Real.rpow_le_rpow (div_nonneg (by linarith [ht.2]) (by linarith)) h3 he'
        nlinarith
      · rw [if_neg h1, max_self]
        exact le_max_right _ _
    · intro s hs h1 h2 h3
      rw [call_ok hs]
      refine (key s hs).trans ?_
      have h4 : taper s = 1 := if_neg (not_lt.mpr h2)
      have h5 := (abs_le.mp h3).2
      simp only [q, if_pos (gt_iff_lt.mpr h1), h4, mul_one]
      rw [max_eq_left (by linarith)]
  · intro h
    unfold pcTrust
    by_cases h1 : slr < 0
    · rw [if_pos h1]
    · rw [if_neg h1, if_pos (h.resolve_left h1)]

example : (0 : ℝ) ≤ 2 / 10 ∧ (0 : ℝ) < 2 ∧ (0 : ℝ) ≤ 1000 ∧ (0 : ℝ) ≤ 100 := by norm_num

/-- C50, TRUST: a negative `eta` is accepted, and full saturation cannot be evaluated. -/
theorem C50_trust_violated : ∃ p0 slr eta pe pmax f, pcTrust p0 slr eta pe pmax = .ok f ∧
    call f 1 = .error .zeroDivisionError := by
  refine ⟨1, 0, -1, 0, 1, _, by unfold pcTrust pcTrustAt; rw [if_neg (by norm_num), if_neg (by norm_num)], ?_⟩
  rw [call_ok (by norm_num)]
  rw [if_pos (by norm_num), div_ok (by norm_num), div_ok (by norm_num)]
  simp only [bind, Except.bind]
  have : Curves.pow ((1 - 1) / (1 - 0)) (1 / -1) = .error .zeroDivisionError := by
    unfold Curves.pow
    rw [if_pos (by norm_num)]
  rw [this]

/-- C50, van Genuchten: parameters are accepted just if the maximum pressure is not
negative. For `m` in (0, 1], `slr` below `sls`, `sls` at least one and a scale that is not
zero the curve is as required; a maximal liquid saturation below one is missing. -/
theorem C50_van_genuchten_partial (m slr alpha pmax sls : ℝ) :
    (0 ≤ pmax → 0 < m → m ≤ 1 → slr < sls → 1 ≤ sls → alpha ≠ 0 →
      ∃ f, pcVanGenuchten m slr alpha pmax sls = .ok f ∧ GoodCapPres (some pmax) (call f) ∧
      ∀ s ∈ Icc (0 : ℝ) 1, slr < s → s ≤ 0.999 →
        1 / |alpha| * (((s - slr) / (sls - slr)) ^ (-1 / m) - 1) ^ (1 - m) ≤ pmax →
        call f s = .ok (.re (-1 / |alpha| * (((s - slr) / (sls - slr)) ^ (-1 / m) - 1) ^ (1 - m)))) ∧
    (pmax < 0 → pcVanGenuchten m slr alpha pmax sls = .error .valueError) := by
  constructor
  · intro hp hm hm1 h1 h2 ha
    have ha' : 0 < |alpha| := abs_pos.mpr ha
    have hp' : pmax = |pmax| := (abs_of_nonneg hp).symm
    let q : ℝ → ℝ := fun s => if s > slr then
      -1 / |alpha| * (((s - slr) / (sls - slr)) ^ (-1 / m) - 1) ^ (1 - m) else -|pmax|
    have hS : ∀ s ∈ Icc (0 : ℝ) 1, s > slr → 0 < (s - slr) / (sls - slr) ∧
        1 ≤ ((s - slr) / (sls - slr)) ^ (-1 / m) := by
      intro s hs h
      have h3 : 0 < (s - slr) / (sls - slr) := div_pos (by linarith) (by linarith)
      refine ⟨h3, ?_⟩
      apply Real.one_le_rpow_of_pos_of_le_one_of_nonpos h3
      · rw [div_le_one (by linarith)]; linarith [hs.2]
      · exact div_nonpos_of_nonpos_of_nonneg (by norm_num) hm.le
    refine ⟨_, by unfold pcVanGenuchten pcVanGenuchtenAt; rw [if_neg (not_lt.mpr hp)], ?_⟩
    have key : ∀ s ∈ Icc (0 : ℝ) 1, (if s = 1 then .ok (Num.re 0)
      else do
        let p ← if s > slr then do
            let s ← div (s - slr) (sls - slr)
            let f ← div (-1) |alpha|
            let e ← div (-1) m
            let z ← Curves.pow s e
            let z ← (z.map (· - 1)).pow (1 - m)
            .ok (z.map (f * ·))
          else .ok (.re (-|pmax|))
        match p with
        | .other => .error .typeError
        | .re p => .ok (.re (max p (-|pmax|) * if s > 0.999 then (1 - s) / 0.001 else 1)) : Except PyErr Num) =
          .ok (.re (max (q s) (-|pmax|) * taper s)) := by
      intro s hs
      by_cases hs1 : s = 1
      · rw [if_pos hs1, hs1]
        norm_num [taper]
      rw [if_neg hs1]
      simp only [q]
      split
      · rename_i h
        obtain ⟨h3, h4⟩ := hS s hs h
        rw [div_ok (by linarith), div_ok ha'.ne', div_ok hm.ne']
        simp only [bind, Except.bind]
        rw [pow_ok (Or.inl h3)]
        simp only [Num.map, Num.pow]
        rw [pow_ok (Or.inr ⟨by linarith, by linarith⟩)]
        rfl
      · rfl
    rw [show (some pmax : Option ℝ) = some |pmax| from congrArg some hp']
    refine ⟨good_tapered q key ?_ ?_, ?_⟩
    · intro s hs _
      simp only [q]
      split
      · rename_i h
        obtain ⟨h3, h4⟩ := hS s hs h
        apply mul_nonpos_of_nonpos_of_nonneg (div_nonpos_of_nonpos_of_nonneg (by norm_num) ha'.le)
        exact Real.rpow_nonneg (by linarith) _
      · simp
    · intro s hs t ht h _
      simp only [q]
      by_cases hs1 : s > slr
      · have ht1 : t > slr := lt_of_lt_of_le hs1 h
        obtain ⟨h3, h4⟩ := hS s hs hs1
        obtain ⟨h5, h6⟩ := hS t ht ht1
        rw [if_pos hs1, if_pos ht1]
        refine max_le_max_right _ ?_
        have h7 : (s - slr) / (sls - slr) ≤ (t - slr) / (sls - slr) :=
          div_le_div_of_nonneg_right (by linarith) (by linarith)
        have h8 := Real.rpow_le_rpow_of_nonpos h3 h7
          (div_nonpos_of_nonpos_of_nonneg (by norm_num) hm.le : -1 / m ≤ 0)
        have h9 : (((t - slr) / (sls - slr)) ^ (-1 / m) - 1) ^ (1 - m) ≤
            (((s - slr) / (sls - slr)) ^ (-1 / m) - 1) ^ (1 - m) :=
          Real.rpow_le_rpow (by linarith) (by linarith) (by linarith)
        exact mul_le_mul_of_nonpos_left h9 (div_nonpos_of_nonpos_of_nonneg (by norm_num) ha'.le)
      · rw [if_neg hs1, max_self]
        exact le_max_right _ _
    · intro s hs h3 h4 h5
      rw [call_ok hs]
      refine (key s hs).trans ?_
      have h6 : taper s = 1 := if_neg (not_lt.mpr h4)
      simp only [q, if_pos (gt_iff_lt.mpr h3), h6, mul_one]
      rw [max_eq_left]
      rw [abs_of_nonneg hp]
      have : -1 / |alpha| = -(1 / |alpha|) := by ring
      rw [this]
      linarith
  · intro h
    unfold pcVanGenuchten
    rw [if_pos h]

example : (0 : ℝ) ≤ 1000000 ∧ (0 : ℝ) < 457 / 1000 ∧ (457 / 1000 : ℝ) ≤ 1 ∧ (15 / 100 : ℝ) < 1 ∧ (1 : ℝ) ≤ 1 ∧
    (1 / 10000 : ℝ) ≠ 0 := by norm_num

/-- C50, van Genuchten: a maximal liquid saturation below one is accepted, and a saturation
above it cannot be evaluated. -/
theorem C50_van_genuchten_violated : ∃ m slr alpha pmax sls f, pcVanGenuchten m slr alpha pmax sls = .ok f ∧
    (0 < m ∧ m < 1 ∧ 0 ≤ slr ∧ slr < sls ∧ sls < 1 ∧ 0 < alpha) ∧ call f (3 / 4) = .error .typeError := by
  refine ⟨1 / 2, 0, 1, 1, 1 / 2, _, by unfold pcVanGenuchten pcVanGenuchtenAt; rw [if_neg (by norm_num)], by norm_num, ?_⟩
  rw [call_ok (by norm_num), if_neg (by norm_num), if_pos (by norm_num), div_ok (by norm_num), div_ok (by norm_num),
    div_ok (by norm_num)]
  simp only [bind, Except.bind]
  rw [pow_ok (Or.inl (by norm_num))]
  simp only [Num.map, Num.pow]
  have h1 : ((3 / 4 - 0) / (1 / 2 - 0) : ℝ) ^ (-1 / (1 / 2) : ℝ) - 1 < 0 := by
    have : ((3 / 4 - 0) / (1 / 2 - 0) : ℝ) ^ (-1 / (1 / 2) : ℝ) < 1 :=
      Real.rpow_lt_one_of_one_lt_of_neg (by norm_num) (by norm_num)
    linarith
  have h2 : ¬ ∃ n : ℤ, (1 - 1 / 2 : ℝ) = n := by
    rintro ⟨n, hn⟩
    have h3 : (1 : ℝ) = ((2 * n : ℤ) : ℝ) := by push_cast; linarith
    have h4 : (1 : ℤ) = 2 * n := by exact_mod_cast h3
    omega
  have h5 : Curves.pow (((3 / 4 - 0) / (1 / 2 - 0) : ℝ) ^ (-1 / (1 / 2) : ℝ) - 1) (1 - 1 / 2) = .ok .other := by
    unfold Curves.pow
    rw [if_neg (fun h => absurd h.1 h1.ne), if_pos ⟨h1, h2⟩]
  rw [h5]

/-- C50, Pickens: parameters are accepted just if `slr` is in (0, 1), `sl0` at least one and
`x` not zero. For a negative `x`, a strength that is not negative and `slr` below
`0.999 sl0` the curve is as required; positive `x` and a `slr` very close to `sl0` are
missing. -/
theorem C50_pickens_partial (p0 slr sl0 x : ℝ) :
    (0 < slr → slr < 1 → 1 ≤ sl0 → x < 0 → 0 ≤ p0 → slr < 0.999 * sl0 →
      ∃ f, pcPickens p0 slr sl0 x = .ok f ∧ GoodCapPres none (call f) ∧
      ∀ s ∈ Icc (0 : ℝ) 1, s ∈ Icc (1.001 * slr) (0.999 * sl0) →
        ∀ A B, A = (1 + s / sl0) * (sl0 - slr) / (sl0 + slr) → B = 1 - s / sl0 →
        call f s = .ok (.re (-p0 * Real.log (A / B * (1 + (1 - B ^ 2 / A ^ 2) ^ (1 / 2 : ℝ))) ^ (1 / x)))) ∧
    (¬ (0 < slr ∧ slr < 1 ∧ 1 ≤ sl0 ∧ x ≠ 0) → pcPickens p0 slr sl0 x = .error .valueError) := by
  constructor
  · intro h0 h1 h2 hx hp h3
    obtain ⟨f, hf, he⟩ := pickens_eval (p0 := p0) h0 h3 h1 h2 hx.ne
    refine ⟨f, hf, ⟨_, fun s hs => (call_ok hs).trans (he s), ?_, ?_⟩, ?_⟩
    · intro s _
      obtain ⟨h4, h5⟩ := pickensArg_bounds s h0 h3
      have := Real.rpow_nonneg (Real.log_pos (pickens_gt_one h0 h4 h5)).le (1 / x)
      exact ⟨by nlinarith, fun b hb => by cases hb⟩
    · intro s _ t _ h
      obtain ⟨h4, h5⟩ := pickensArg_bounds s h0 h3
      obtain ⟨h6, h7⟩ := pickensArg_bounds t h0 h3
      have h8 := pickens_gt_one h0 h4 h5
      have h9 : pickens slr sl0 (pickensArg slr sl0 s) ≤ pickens slr sl0 (pickensArg slr sl0 t) := by
        rcases (pickensArg_mono slr sl0 h).lt_or_eq with h | h
        · exact (pickens_strict h0 h4 h h7).le
        · rw [h]
      have h10 := Real.log_le_log (by linarith) h9
      have h11 := Real.rpow_le_rpow_of_nonpos (Real.log_pos h8) h10
        (div_nonpos_of_nonneg_of_nonpos zero_le_one hx.le : 1 / x ≤ 0)
      show -p0 * _ ≤ -p0 * _
      nlinarith
    · rintro s hs hm A B rfl rfl
      rw [call_ok hs, he s]
      have h4 : pickensArg slr sl0 s = s := by
        unfold pickensArg
        rw [max_eq_left hm.1, if_neg (not_lt.mpr hm.2)]
      rw [h4]
      rfl
  · intro h
    unfold pcPickens
    by_cases h1 : 0 < slr ∧ slr < 1
    · rw [if_neg (not_not.mpr h1)]
      by_cases h2 : sl0 < 1
      · rw [if_pos h2]
      · rw [if_neg h2, if_pos]
        by_contra h3
        exact h ⟨h1.1, h1.2, not_lt.mp h2, h3⟩
    · rw [if_pos h1]

example : (0 : ℝ) < 2 / 10 ∧ (2 / 10 : ℝ) < 1 ∧ (1 : ℝ) ≤ 1 ∧ (-6 : ℝ) < 0 ∧ (0 : ℝ) ≤ 1000 ∧ (2 / 10 : ℝ) < 0.999 * 1 := by
  norm_num

/-- C50, Pickens: for a positive `x` the magnitude increases with saturation, for every
strength and all the other parameters. -/
theorem C50_pickens_violated (p0 slr sl0 x : ℝ) (h0 : 0 < slr) (h1 : 1.001 * slr < 0.999) (h2 : 1 ≤ sl0) (hx : 0 < x)
    (hp : 0 < p0) : ∃ f, pcPickens p0 slr sl0 x = .ok f ∧ ¬ GoodCapPres none (call f) := by
  have h3 : slr < 0.999 * sl0 := by linarith
  obtain ⟨f, hf, he⟩ := pickens_eval (p0 := p0) h0 h3 (by linarith) h2 hx.ne'
  refine ⟨f, hf, ?_⟩
  rintro ⟨p, hp1, -, hmono⟩
  have hs : (1.001 * slr) ∈ Icc (0 : ℝ) 1 := ⟨by linarith, by linarith⟩
  have ht : (0.999 : ℝ) ∈ Icc (0 : ℝ) 1 := by norm_num
  have h4 := hmono hs ht h1.le
  have e1 := (hp1 _ hs).symm.trans ((call_ok hs).trans (he _))
  have e2 := (hp1 _ ht).symm.trans ((call_ok ht).trans (he _))
  injection e1 with e1
  injection e1 with e1
  injection e2 with e2
  injection e2 with e2
  have a1 : pickensArg slr sl0 (1.001 * slr) = 1.001 * slr := by
    unfold pickensArg
    rw [max_self, if_neg (by linarith)]
  have a2 : pickensArg slr sl0 0.999 = 0.999 := by
    unfold pickensArg
    rw [max_eq_left h1.le, if_neg (by linarith)]
  rw [e1, e2, a1, a2] at h4
  have h5 := pickens_strict h0 (by linarith : slr < 1.001 * slr) h1 (by linarith : (0.999 : ℝ) < sl0)
  have h6 := pickens_gt_one h0 (by linarith : slr < 1.001 * slr) (by linarith : 1.001 * slr < sl0)
  have h7 := Real.log_lt_log (by linarith) h5
  have h8 := Real.rpow_lt_rpow (Real.log_pos h6).le h7 (by positivity : 0 < 1 / x)
  nlinarith

example : (0 : ℝ) < 2 / 10 ∧ 1.001 * (2 / 10 : ℝ) < 0.999 ∧ (1 : ℝ) ≤ 1 ∧ (0 : ℝ) < 2 ∧ (0 : ℝ) < 1000 := by norm_num

/-- C50, Milly: parameters are accepted just if `slr` is not negative. For a positive `slr`
all values are negative, the magnitude does not increase up to `slr + 0.371`, and the value
is constant from there on. That the magnitude does not increase on the whole of [0, 1] is
missing. -/
theorem C50_milly_partial (slr : ℝ) :
    (0 < slr → ∃ f, pcMilly slr = .ok f ∧ ∃ p : ℝ → ℝ,
      (∀ s ∈ Icc (0 : ℝ) 1, call f s = .ok (.re (p s))) ∧ (∀ s ∈ Icc (0 : ℝ) 1, p s ≤ 0) ∧
      MonotoneOn p {s | s ∈ Icc (0 : ℝ) 1 ∧ s < slr + 0.371} ∧
      (∀ s ∈ Icc (0 : ℝ) 1, slr + 0.371 ≤ s → p s = -97.783) ∧
      ∀ s ∈ Icc (0 : ℝ) 1, 1.001 * slr ≤ s → s < slr + 0.371 →
        p s = -97.783 * 10 ^ (2.26 * (0.371 / (s - slr) - 1) ^ (0.25 : ℝ) - 2)) ∧
    (slr < 0 → pcMilly slr = .error .valueError) := by
  constructor
  · intro h
    obtain ⟨f, hf, he⟩ := milly_eval h.le
    have hpos : ∀ s, 0 < max s (1.001 * slr) - slr := fun s => by
      have : 1.001 * slr ≤ max s (1.001 * slr) := le_max_right _ _
      linarith
    refine ⟨f, hf, _, fun s hs => (call_ok hs).trans (he s (hpos s)), ?_, ?_, ?_, ?_⟩
    · intro s _
      split
      · norm_num
      · exact (milly_neg _).le
    · rintro s ⟨-, hs⟩ t ⟨-, ht⟩ hst
      have h1 : max s (1.001 * slr) ≤ max t (1.001 * slr) := max_le_max_right _ hst
      simp only
      by_cases h2 : max s (1.001 * slr) - slr ≥ 0.371
      · rw [if_pos h2, if_pos (by linarith)]
      · have h3 : ¬ max t (1.001 * slr) - slr ≥ 0.371 := by
          intro hc
          have h4 : 1.001 * slr ≤ max s (1.001 * slr) := le_max_right _ _
          rcases max_cases t (1.001 * slr) with ⟨h5, -⟩ | ⟨h5, -⟩ <;> rw [h5] at hc <;> linarith
        rw [if_neg h2, if_neg h3]
        exact milly_mono (hpos s) (by linarith) (not_le.mp h3)
    · intro s _ h1
      have : s ≤ max s (1.001 * slr) := le_max_left _ _
      rw [if_pos (by linarith)]
    · intro s _ h1 h2
      rw [max_eq_left h1, if_neg (by linarith)]
      rfl
  · intro h
    unfold pcMilly
    rw [if_pos h]

example : (0 : ℝ) < 1 / 10 := by norm_num

/-- C50, Milly: the magnitude jumps up where the saturation reaches `slr + 0.371`. -/
theorem C50_milly_violated (slr : ℝ) (h0 : 0 ≤ slr) (h1 : slr ≤ 0.6) :
    ∃ f, pcMilly slr = .ok f ∧ ¬ GoodCapPres none (call f) := by
  obtain ⟨f, hf, he⟩ := milly_eval h0
  refine ⟨f, hf, ?_⟩
  rintro ⟨p, hp, -, hmono⟩
  have hs : slr + 0.371 * 16 / 17 ∈ Icc (0 : ℝ) 1 := ⟨by linarith, by linarith⟩
  have ht : slr + 0.371 ∈ Icc (0 : ℝ) 1 := ⟨by linarith, by linarith⟩
  have h4 := hmono hs ht (by linarith)
  have m1 : max (slr + 0.371 * 16 / 17) (1.001 * slr) - slr = 0.371 * 16 / 17 := by
    rw [max_eq_left (by linarith)]; ring
  have m2 : max (slr + 0.371) (1.001 * slr) - slr = 0.371 := by
    rw [max_eq_left (by linarith)]; ring
  have e1 := (hp _ hs).symm.trans ((call_ok hs).trans (he _ (by rw [m1]; norm_num)))
  have e2 := (hp _ ht).symm.trans ((call_ok ht).trans (he _ (by rw [m2]; norm_num)))
  injection e1 with e1
  injection e1 with e1
  injection e2 with e2
  injection e2 with e2
  rw [e1, e2, m1, m2, if_neg (by norm_num), if_pos le_rfl] at h4
  have h5 : (0.371 / (0.371 * 16 / 17) - 1 : ℝ) = (1 / 2) ^ (4 : ℝ) := by
    rw [show (4 : ℝ) = ((4 : ℕ) : ℝ) by norm_num, Real.rpow_natCast]; norm_num
  have h6 : ((0.371 / (0.371 * 16 / 17) - 1 : ℝ)) ^ (0.25 : ℝ) = 1 / 2 := by
    rw [h5, ← Real.rpow_mul (by norm_num)]; norm_num
  unfold milly at h4
  rw [h6] at h4
  have h7 : (10 : ℝ) ^ (2.26 * (1 / 2) - 2 : ℝ) < 1 :=
    Real.rpow_lt_one_of_one_lt_of_neg (by norm_num) (by norm_num)
  linarith

example : (0 : ℝ) ≤ 1 / 10 ∧ (1 / 10 : ℝ) ≤ 0.6 := by norm_num

/-- C50, Milly: without a residual saturation an empty medium cannot be evaluated. -/
theorem C50_milly_empty_violated : ∃ f, pcMilly 0 = .ok f ∧ call f 0 = .error .zeroDivisionError := by
  refine ⟨_, by unfold pcMilly pcMillyAt; rw [if_neg (lt_irrefl _)], ?_⟩
  rw [call_ok (by norm_num)]
  norm_num [div]
  rfl

end Verif.Props
