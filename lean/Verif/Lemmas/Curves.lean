import Verif.Spec.Curves
import Mathlib.Tactic.Linarith
import Mathlib.Tactic.Positivity
import Mathlib.Tactic.NormNum
import Mathlib.Tactic.FieldSimp
import Mathlib.Tactic.Ring
import Mathlib.Tactic.Cases

/-!
# Lemmas about the curves
-/

namespace Verif.Curves
open Verif.Py Verif.Spec Set

theorem div_ok {a b : ℝ} (h : b ≠ 0) : div a b = .ok (a / b) := by simp [div, h]

theorem pow_ok {a b : ℝ} (h : 0 < a ∨ (0 ≤ a ∧ 0 ≤ b)) : pow a b = .ok (.re (a ^ b)) := by
  unfold pow
  rw [if_neg, if_neg]
  · rintro ⟨h1, -⟩
    rcases h with h | ⟨h, -⟩ <;> linarith
  · rintro ⟨h1, h2⟩
    rcases h with h | ⟨-, h⟩ <;> linarith

theorem call_ok {α : Type} {f : ℝ → Except PyErr α} {s : ℝ} (h : s ∈ Icc (0 : ℝ) 1) : call f s = f s :=
  if_pos h

theorem call_error {α : Type} {f : ℝ → Except PyErr α} {s : ℝ} (h : s ∉ Icc (0 : ℝ) 1) :
    call f s = .error .valueError :=
  if_neg h

/-- The position of `s` between `a` and `b`, cut to [0, 1]. -/
noncomputable def clip (a b s : ℝ) : ℝ := min (max ((s - a) / (b - a)) 0) 1

theorem clip_mem (a b s : ℝ) : clip a b s ∈ Icc (0 : ℝ) 1 :=
  ⟨le_min (le_max_right _ _) zero_le_one, min_le_right _ _⟩

theorem clip_mono {a b : ℝ} (h : a < b) : Monotone (clip a b) := by
  intro s t hst
  have : (s - a) / (b - a) ≤ (t - a) / (b - a) :=
    div_le_div_of_nonneg_right (by linarith) (by linarith)
  exact min_le_min_right _ (max_le_max_right _ this)

theorem clip_low {a b s : ℝ} (h : a < b) (hs : s ≤ a) : clip a b s = 0 := by
  have : (s - a) / (b - a) ≤ 0 := div_nonpos_of_nonpos_of_nonneg (by linarith) (by linarith)
  simp [clip, max_eq_right this]

theorem clip_high {a b s : ℝ} (h : a < b) (hs : b ≤ s) : clip a b s = 1 := by
  have : 1 ≤ (s - a) / (b - a) := by rw [le_div_iff₀ (by linarith)]; linarith
  simp [clip, max_eq_left (zero_le_one.trans this), this]

theorem clip_mid {a b s : ℝ} (h : a < b) (h1 : a ≤ s) (h2 : s ≤ b) : clip a b s = (s - a) / (b - a) := by
  have h3 : 0 ≤ (s - a) / (b - a) := div_nonneg (by linarith) (by linarith)
  have h4 : (s - a) / (b - a) ≤ 1 := by rw [div_le_one (by linarith)]; linarith
  simp [clip, max_eq_left h3, h4]

theorem clip_pos {a b s : ℝ} (h : a < b) : 0 < clip a b s ↔ a < s := by
  constructor
  · intro hc
    by_contra hs
    rw [clip_low h (not_lt.mp hs)] at hc
    exact lt_irrefl _ hc
  · intro hs
    have : 0 < (s - a) / (b - a) := div_pos (by linarith) (by linarith)
    exact lt_min (lt_max_of_lt_left this) one_pos

/-- Curves given by functions of monotone quantities. -/
theorem good_of {f : ℝ → Except PyErr (Num × Num)} (kl kg : ℝ → ℝ)
    (hf : ∀ s ∈ Icc (0 : ℝ) 1, f s = .ok (.re (kl s), .re (kg s)))
    (hl : ∀ s ∈ Icc (0 : ℝ) 1, kl s ∈ Icc (0 : ℝ) 1) (hg : ∀ s ∈ Icc (0 : ℝ) 1, kg s ∈ Icc (0 : ℝ) 1)
    (ml : MonotoneOn kl (Icc 0 1)) (mg : AntitoneOn kg (Icc 0 1)) : GoodRelPerm (call f) :=
  ⟨kl, kg, fun s hs => (call_ok hs).trans (hf s hs), fun s hs => ⟨hl s hs, hg s hs⟩, ml, mg⟩

theorem pow_mono (n : ℕ) : MonotoneOn (fun u : ℝ => u ^ n) (Icc 0 1) :=
  fun _ hs _ _ h => pow_le_pow_left₀ hs.1 h n

theorem pow_mem (n : ℕ) {u : ℝ} (h : u ∈ Icc (0 : ℝ) 1) : u ^ n ∈ Icc (0 : ℝ) 1 :=
  ⟨pow_nonneg h.1 n, pow_le_one₀ h.1 h.2⟩

theorem sub_mem {u : ℝ} (h : u ∈ Icc (0 : ℝ) 1) : 1 - u ∈ Icc (0 : ℝ) 1 :=
  ⟨by linarith [h.2], by linarith [h.1]⟩

theorem mul_mem {u v : ℝ} (h : u ∈ Icc (0 : ℝ) 1) (k : v ∈ Icc (0 : ℝ) 1) : u * v ∈ Icc (0 : ℝ) 1 :=
  ⟨mul_nonneg h.1 k.1, mul_le_one₀ h.2 k.1 k.2⟩

/-- The gas curve of Corey. -/
theorem corey_anti : AntitoneOn (fun u : ℝ => (1 - u ^ 2) * (1 - u) ^ 2) (Icc 0 1) := by
  intro s hs t ht h
  have h1 : 1 - t ^ 2 ≤ 1 - s ^ 2 := by linarith [pow_mono 2 hs ht h]
  have h2 : (1 - t) ^ 2 ≤ (1 - s) ^ 2 := pow_mono 2 (sub_mem ht) (sub_mem hs) (by linarith)
  exact mul_le_mul h1 h2 (by positivity) (sub_mem (pow_mem 2 hs)).1

/-- The cases of Corey and Grant. -/
theorem corey_like (slr sgr : ℝ) (h : slr + sgr < 1) (kg : ℝ → ℝ) (h0 : kg 0 = 1) (h1 : kg 1 = 0) (s : ℝ) :
    (if 1 - s < sgr then Except.ok (Num.re 1, Num.re 0)
      else if 1 - s ≥ 1 - slr then .ok (.re 0, .re 1)
      else do
        let s ← div (s - slr) (1 - slr - sgr)
        .ok (.re (s ^ 4), .re (kg s)) : Except PyErr (Num × Num)) =
      .ok (.re (clip slr (1 - sgr) s ^ 4), .re (kg (clip slr (1 - sgr) s))) := by
  have hab : slr < 1 - sgr := by linarith
  by_cases h2 : 1 - s < sgr
  · rw [if_pos h2, clip_high hab (by linarith), h1]; norm_num
  · rw [if_neg h2]
    by_cases h3 : 1 - s ≥ 1 - slr
    · rw [if_pos h3, clip_low hab (by linarith), h0]; norm_num
    · rw [if_neg h3, clip_mid hab (by linarith [not_le.mp h3]) (by linarith [not_lt.mp h2]), div_ok (by linarith)]
      have : 1 - slr - sgr = 1 - sgr - slr := by ring
      rw [this]
      rfl

/-- The liquid curve of van Genuchten and Mualem. -/
noncomputable def mualem (m u : ℝ) : ℝ := u ^ (1 / 2 : ℝ) * (1 - (1 - u ^ (1 / m)) ^ m) ^ 2

theorem rpow_mem {e u : ℝ} (he : 0 ≤ e) (h : u ∈ Icc (0 : ℝ) 1) : u ^ e ∈ Icc (0 : ℝ) 1 :=
  ⟨Real.rpow_nonneg h.1 _, Real.rpow_le_one h.1 h.2 he⟩

theorem mualem_inner {m u : ℝ} (hm : 0 < m) (h : u ∈ Icc (0 : ℝ) 1) :
    1 - (1 - u ^ (1 / m)) ^ m ∈ Icc (0 : ℝ) 1 :=
  sub_mem (rpow_mem hm.le (sub_mem (rpow_mem (by positivity) h)))

theorem mualem_mem {m u : ℝ} (hm : 0 < m) (h : u ∈ Icc (0 : ℝ) 1) : mualem m u ∈ Icc (0 : ℝ) 1 :=
  mul_mem (rpow_mem (by norm_num) h) (pow_mem 2 (mualem_inner hm h))

theorem mualem_mono {m : ℝ} (hm : 0 < m) : MonotoneOn (mualem m) (Icc 0 1) := by
  intro s hs t ht h
  have hm' : 0 ≤ 1 / m := by positivity
  have h1 : s ^ (1 / 2 : ℝ) ≤ t ^ (1 / 2 : ℝ) := Real.rpow_le_rpow hs.1 h (by norm_num)
  have h2 : s ^ (1 / m) ≤ t ^ (1 / m) := Real.rpow_le_rpow hs.1 h hm'
  have h3 : (1 - t ^ (1 / m)) ^ m ≤ (1 - s ^ (1 / m)) ^ m :=
    Real.rpow_le_rpow (sub_mem (rpow_mem hm' ht)).1 (by linarith) hm.le
  have h4 := pow_mono 2 (mualem_inner hm hs) (mualem_inner hm ht) (by linarith)
  exact mul_le_mul h1 h4 (pow_nonneg (mualem_inner hm hs).1 2) (Real.rpow_nonneg ht.1 _)

theorem mualem_zero (m : ℝ) : mualem m 0 = 0 := by
  simp [mualem, Real.zero_rpow]

theorem mualem_one {m : ℝ} (hm : 0 < m) : mualem m 1 = 1 := by
  simp [mualem, Real.zero_rpow hm.ne']

/-! ## Capillary pressure -/

/-- The factor that brings the pressure to zero close to full saturation. -/
noncomputable def taper (s : ℝ) : ℝ := if s > 0.999 then (1 - s) / 0.001 else 1

theorem taper_nonneg {s : ℝ} (h : s ≤ 1) : 0 ≤ taper s := by
  unfold taper
  split
  · exact div_nonneg (by linarith) (by norm_num)
  · exact zero_le_one

theorem taper_le_one (s : ℝ) : taper s ≤ 1 := by
  unfold taper
  split
  · rw [div_le_one (by norm_num)]
    linarith
  · exact le_rfl

theorem taper_anti : Antitone taper := by
  intro s t h
  by_cases hs : s > 0.999
  · have ht : t > 0.999 := lt_of_lt_of_le hs h
    simp only [taper, if_pos hs, if_pos ht]
    exact div_le_div_of_nonneg_right (by linarith) (by norm_num)
  · have : taper s = 1 := if_neg hs
    rw [this]
    exact taper_le_one t

/-- A pressure that is cut at a maximum and brought to zero at full saturation. -/
theorem good_tapered {f : ℝ → Except PyErr Num} {pmax : ℝ} (q : ℝ → ℝ)
    (hf : ∀ s ∈ Icc (0 : ℝ) 1, f s = .ok (.re (max (q s) (-|pmax|) * taper s)))
    (hq : ∀ s ∈ Icc (0 : ℝ) 1, s < 1 → q s ≤ 0)
    (mq : ∀ s ∈ Icc (0 : ℝ) 1, ∀ t ∈ Icc (0 : ℝ) 1, s ≤ t → t < 1 → max (q s) (-|pmax|) ≤ max (q t) (-|pmax|)) :
    GoodCapPres (some |pmax|) (call f) := by
  have h1 : taper 1 = 0 := by norm_num [taper]
  have hp : ∀ s ∈ Icc (0 : ℝ) 1, s < 1 → max (q s) (-|pmax|) ≤ 0 := fun s hs h =>
    max_le (hq s hs h) (by simp)
  refine ⟨fun s => max (q s) (-|pmax|) * taper s, fun s hs => (call_ok hs).trans (hf s hs), ?_, ?_⟩
  · intro s hs
    rcases hs.2.lt_or_eq with h | rfl
    · refine ⟨mul_nonpos_of_nonpos_of_nonneg (hp s hs h) (taper_nonneg hs.2), ?_⟩
      intro b hb
      cases hb
      have h2 : -|pmax| ≤ max (q s) (-|pmax|) := le_max_right _ _
      have h3 := taper_le_one s
      have h4 := taper_nonneg hs.2
      have h5 := hp s hs h
      show -|pmax| ≤ max (q s) (-|pmax|) * taper s
      nlinarith
    · simp [h1]
  · intro s hs t ht h
    simp only
    rcases ht.2.lt_or_eq with h2 | rfl
    · have h3 := mq s hs t ht h h2
      have h4 := taper_anti h
      have h5 := taper_nonneg ht.2
      have h6 := hp s hs (lt_of_le_of_lt h h2)
      have h7 := hp t ht h2
      calc max (q s) (-|pmax|) * taper s ≤ max (q s) (-|pmax|) * taper t :=
            mul_le_mul_of_nonpos_left h4 h6
        _ ≤ max (q t) (-|pmax|) * taper t := mul_le_mul_of_nonneg_right h3 h5
    · rw [h1, mul_zero]
      rcases hs.2.lt_or_eq with h2 | rfl
      · exact mul_nonpos_of_nonpos_of_nonneg (hp s hs h2) (taper_nonneg hs.2)
      · simp [h1]

/-- The argument of the logarithm in the function of Pickens. -/
noncomputable def pickens (slr sl0 s : ℝ) : ℝ :=
  let a := (1 + s / sl0) * (sl0 - slr) / (sl0 + slr)
  let b := 1 - s / sl0
  a / b * (1 + (1 - b ^ 2 / a ^ 2) ^ (1 / 2 : ℝ))

/-- The two quantities of the function of Pickens. -/
theorem pickens_ab {slr sl0 s : ℝ} (h0 : 0 < slr) (h1 : slr < s) (h2 : s < sl0) :
    0 < 1 - s / sl0 ∧ 1 - s / sl0 < (1 + s / sl0) * (sl0 - slr) / (sl0 + slr) := by
  have hs0 : 0 < sl0 := by linarith
  have hr : s / sl0 < 1 := (div_lt_one hs0).mpr h2
  refine ⟨by linarith, ?_⟩
  rw [lt_div_iff₀ (by linarith)]
  have : s / sl0 * sl0 = s := div_mul_cancel₀ _ hs0.ne'
  nlinarith

theorem pickens_strict {slr sl0 s t : ℝ} (h0 : 0 < slr) (h1 : slr < s) (h : s < t) (h2 : t < sl0) :
    pickens slr sl0 s < pickens slr sl0 t := by
  have hs0 : 0 < sl0 := by linarith
  obtain ⟨bs, as⟩ := pickens_ab h0 h1 (h.trans h2)
  obtain ⟨bt, at'⟩ := pickens_ab h0 (h1.trans h) h2
  have hr : s / sl0 < t / sl0 := div_lt_div_of_pos_right h hs0
  have hb : 1 - t / sl0 < 1 - s / sl0 := by linarith
  have ha : (1 + s / sl0) * (sl0 - slr) / (sl0 + slr) < (1 + t / sl0) * (sl0 - slr) / (sl0 + slr) := by
    apply div_lt_div_of_pos_right _ (by linarith)
    exact mul_lt_mul_of_pos_right (by linarith) (by linarith)
  simp only [pickens]
  generalize (1 + s / sl0) * (sl0 - slr) / (sl0 + slr) = A at *
  generalize (1 + t / sl0) * (sl0 - slr) / (sl0 + slr) = A' at *
  generalize 1 - s / sl0 = B at *
  generalize 1 - t / sl0 = B' at *
  have h3 : A / B < A' / B' := by
    rw [div_lt_div_iff₀ bs bt]
    nlinarith
  have h4 : B' / A' ≤ B / A := by
    rw [div_le_div_iff₀ (by linarith) (by linarith)]
    nlinarith
  have h5 : B' ^ 2 / A' ^ 2 ≤ B ^ 2 / A ^ 2 := by
    rw [← div_pow, ← div_pow]
    exact pow_le_pow_left₀ (div_nonneg bt.le (by linarith)) h4 2
  have h6 : B ^ 2 / A ^ 2 ≤ 1 := by
    rw [← div_pow]
    exact pow_le_one₀ (div_nonneg bs.le (by linarith)) ((div_le_one (by linarith)).mpr as.le)
  have h7 : (1 - B ^ 2 / A ^ 2) ^ (1 / 2 : ℝ) ≤ (1 - B' ^ 2 / A' ^ 2) ^ (1 / 2 : ℝ) :=
    Real.rpow_le_rpow (by linarith) (by linarith) (by norm_num)
  have h8 : (0 : ℝ) ≤ (1 - B ^ 2 / A ^ 2) ^ (1 / 2 : ℝ) := Real.rpow_nonneg (by linarith) _
  have h9 : 0 < A' / B' := div_pos (by linarith) bt
  exact mul_lt_mul h3 (by linarith) (by linarith) h9.le

theorem pickens_gt_one {slr sl0 s : ℝ} (h0 : 0 < slr) (h1 : slr < s) (h2 : s < sl0) :
    1 < pickens slr sl0 s := by
  obtain ⟨bs, as⟩ := pickens_ab h0 h1 h2
  simp only [pickens]
  generalize (1 + s / sl0) * (sl0 - slr) / (sl0 + slr) = A at *
  generalize 1 - s / sl0 = B at *
  have h3 : 1 < A / B := (one_lt_div bs).mpr as
  have h6 : B ^ 2 / A ^ 2 ≤ 1 := by
    rw [← div_pow]
    exact pow_le_one₀ (div_nonneg bs.le (by linarith)) ((div_le_one (by linarith)).mpr as.le)
  have h8 : (0 : ℝ) ≤ (1 - B ^ 2 / A ^ 2) ^ (1 / 2 : ℝ) := Real.rpow_nonneg (by linarith) _
  nlinarith

/-- The saturation used by the function of Pickens. -/
noncomputable def pickensArg (slr sl0 s : ℝ) : ℝ :=
  if max s (1.001 * slr) > 0.999 * sl0 then 0.999 * sl0 else max s (1.001 * slr)

theorem pickensArg_mono (slr sl0 : ℝ) : Monotone (pickensArg slr sl0) := by
  intro s t h
  have h1 : max s (1.001 * slr) ≤ max t (1.001 * slr) := max_le_max_right _ h
  unfold pickensArg
  split <;> split
  · exact le_rfl
  · rename_i h2 h3
    exact absurd (lt_of_lt_of_le h2 h1) h3
  · rename_i h2 h3
    exact not_lt.mp h2
  · exact h1

theorem pickensArg_bounds {slr sl0 : ℝ} (s : ℝ) (h0 : 0 < slr) (h1 : slr < 0.999 * sl0) :
    slr < pickensArg slr sl0 s ∧ pickensArg slr sl0 s < sl0 := by
  have h2 : 1.001 * slr ≤ max s (1.001 * slr) := le_max_right _ _
  unfold pickensArg
  split
  · exact ⟨h1, by linarith⟩
  · rename_i h3
    have h4 := not_lt.mp h3
    exact ⟨by linarith, by linarith⟩

/-- The function of Pickens where the quantities are real. -/
theorem pickens_eval {p0 slr sl0 x : ℝ} (h0 : 0 < slr) (h1 : slr < 0.999 * sl0) (hslr : slr < 1) (hs0 : 1 ≤ sl0)
    (hx : x ≠ 0) : ∃ f, pcPickens p0 slr sl0 x = .ok f ∧ ∀ s,
      f s = .ok (.re (-p0 * Real.log (pickens slr sl0 (pickensArg slr sl0 s)) ^ (1 / x))) := by
  refine ⟨_, by unfold pcPickens pcPickensAt; rw [if_neg (not_not.mpr ⟨h0, hslr⟩), if_neg (not_lt.mpr hs0), if_neg hx],
    fun s => ?_⟩
  obtain ⟨h2, h3⟩ := pickensArg_bounds s h0 h1
  have hg := pickens_gt_one h0 h2 h3
  obtain ⟨hb, hab⟩ := pickens_ab h0 h2 h3
  show (div (pickensArg slr sl0 s) sl0 >>= _) = _
  have hlog := Real.log_pos hg
  generalize pickensArg slr sl0 s = u at *
  simp only [pickens] at hg hlog ⊢
  rw [div_ok (by linarith)]
  simp only [bind, Except.bind]
  rw [div_ok (by linarith)]
  simp only
  generalize (1 + u / sl0) * (sl0 - slr) / (sl0 + slr) = A at *
  generalize 1 - u / sl0 = B at *
  have hA : 0 < A := hb.trans hab
  rw [div_ok hb.ne', div_ok (by positivity), div_ok hx]
  have h6 : B ^ 2 / A ^ 2 ≤ 1 := by
    rw [← div_pow]
    exact pow_le_one₀ (div_nonneg hb.le hA.le) ((div_le_one hA).mpr hab.le)
  simp only
  rw [pow_ok (Or.inr ⟨by linarith, by norm_num⟩)]
  simp only
  rw [if_neg (by linarith), if_neg (fun h => hlog.ne' h.1), pow_ok (Or.inl hlog)]
  rfl

/-- The function of Milly below the threshold. -/
noncomputable def milly (d : ℝ) : ℝ := -97.783 * 10 ^ (2.26 * (0.371 / d - 1) ^ (0.25 : ℝ) - 2)

theorem milly_mono {d e : ℝ} (h0 : 0 < d) (h : d ≤ e) (h1 : e < 0.371) : milly d ≤ milly e := by
  have h2 : 0.371 / e ≤ 0.371 / d := div_le_div_of_nonneg_left (by norm_num) h0 h
  have h3 : 1 ≤ 0.371 / e := by rw [le_div_iff₀ (by linarith)]; linarith
  have h4 : (0.371 / e - 1) ^ (0.25 : ℝ) ≤ (0.371 / d - 1) ^ (0.25 : ℝ) :=
    Real.rpow_le_rpow (by linarith) (by linarith) (by norm_num)
  have h5 : (10 : ℝ) ^ (2.26 * (0.371 / e - 1) ^ (0.25 : ℝ) - 2) ≤ 10 ^ (2.26 * (0.371 / d - 1) ^ (0.25 : ℝ) - 2) :=
    Real.rpow_le_rpow_of_exponent_le (by norm_num) (by linarith)
  unfold milly
  linarith

theorem milly_neg (d : ℝ) : milly d < 0 := by
  have : (0 : ℝ) < 10 ^ (2.26 * (0.371 / d - 1) ^ (0.25 : ℝ) - 2) := Real.rpow_pos_of_pos (by norm_num) _
  unfold milly
  linarith

theorem milly_eval {slr : ℝ} (h : 0 ≤ slr) : ∃ f, pcMilly slr = .ok f ∧ ∀ s, 0 < max s (1.001 * slr) - slr →
    f s = .ok (.re (if max s (1.001 * slr) - slr ≥ 0.371 then -97.783 else milly (max s (1.001 * slr) - slr))) := by
  refine ⟨_, by unfold pcMilly pcMillyAt; rw [if_neg (not_lt.mpr h)], fun s hs => ?_⟩
  simp only
  split
  · rw [mul_one]
  · rename_i h1
    rw [div_ok hs.ne']
    simp only [bind, Except.bind]
    have h3 : 1 ≤ 0.371 / (max s (1.001 * slr) - slr) := by
      rw [le_div_iff₀ hs]
      linarith [not_le.mp h1]
    rw [pow_ok (Or.inr ⟨by linarith, by norm_num⟩)]
    rfl

end Verif.Curves
