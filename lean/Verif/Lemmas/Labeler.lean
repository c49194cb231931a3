import Verif.Model.Labels
import Verif.Spec.Labels
import Verif.Lemmas.NumText
import Verif.Lemmas.NumStable
import Verif.Lemmas.IO

/-!
# Lemmas about generated labels
-/

namespace Verif.Model
open Verif.Py Verif.Spec

theorem padDigits_add (k m i : ℕ) (h : i < 10 ^ k) :
    padDigits (m + k) i = List.replicate m '0' ++ padDigits k i := by
  induction k generalizing i with
  | zero =>
    have : i = 0 := by simpa using h
    subst this
    simp [padDigits_zero, padDigits]
  | succ k ih =>
    rw [← Nat.add_assoc, padDigits, padDigits, ih, List.append_assoc]
    rw [pow_succ] at h
    omega

/-- A number below `10 ^ n` is filled to exactly `n` digits. -/
theorem zeroFill_eq (n i : ℕ) (hn : 0 < n) (h : i < 10 ^ n) : zeroFill n i = padDigits n i := by
  have hle : numDigits i ≤ n := by
    unfold numDigits
    rcases Nat.eq_zero_or_pos i with rfl | hi
    · simp; omega
    · exact Nat.log_lt_of_lt_pow hi.ne' h
  unfold zeroFill natStr
  rw [padDigits_length, ← padDigits_add _ _ _ (numDigits_spec i), Nat.sub_add_cancel hle]

theorem alpha_nodup : alpha.Nodup := by decide
theorem nomen_nodup : nomen.Nodup := by decide
theorem alpha_length : alpha.length = 26 := rfl
theorem nomen_length : nomen.length = 35 := rfl

theorem alpha_upper : ∀ c ∈ alpha, IsUpper c := by unfold IsUpper; decide
theorem nomen_ok : ∀ c ∈ nomen, IsPosDigit c ∨ IsUpper c := by unfold IsPosDigit IsUpper; decide

/-- The label when the index is in range. -/
theorem label_eq (n i : ℕ) (h : i / 10 ^ n / 35 / 35 < 26) :
    label n i = .ok (alpha[i / 10 ^ n / 35 / 35]'(by rw [alpha_length]; exact h) ::
      nomen[i / 10 ^ n / 35 % 35]'(by rw [nomen_length]; exact Nat.mod_lt _ (by decide)) ::
      nomen[i / 10 ^ n % 35]'(by rw [nomen_length]; exact Nat.mod_lt _ (by decide)) :: zeroFill n (i % 10 ^ n)) := by
  unfold label
  simp only [nomen_length]
  have h4 : i / 10 ^ n / 35 / 35 % 35 = i / 10 ^ n / 35 / 35 := Nat.mod_eq_of_lt (by omega)
  rw [h4, List.getElem?_eq_getElem (by rw [alpha_length]; exact h),
    List.getElem?_eq_getElem (by rw [nomen_length]; exact Nat.mod_lt _ (by decide)),
    List.getElem?_eq_getElem (by rw [nomen_length]; exact Nat.mod_lt _ (by decide))]

theorem div_lt_capacity (n i : ℕ) : i / 10 ^ n / 35 / 35 < 26 ↔ i < 26 * 35 * 35 * 10 ^ n := by
  rw [Nat.div_lt_iff_lt_mul (by norm_num), Nat.div_lt_iff_lt_mul (by norm_num),
    Nat.div_lt_iff_lt_mul (by positivity)]

theorem label_error (n i : ℕ) (h : i = 26 * 35 * 35 * 10 ^ n) : label n i = .error .indexError := by
  subst h
  unfold label
  simp only [nomen_length]
  rw [Nat.mul_div_cancel _ (by positivity)]
  rfl

theorem label_wellFormed (n i : ℕ) (hn : 0 < n) (h : i < 26 * 35 * 35 * 10 ^ n) :
    ∃ s, label n i = .ok s ∧ WellFormed (n + 3) s := by
  have hl := label_eq n i ((div_lt_capacity n i).2 h)
  have hr : i % 10 ^ n < 10 ^ n := Nat.mod_lt _ (by positivity)
  refine ⟨_, hl, ?_, _, _, _, _, rfl, alpha_upper _ (List.getElem_mem _),
    nomen_ok _ (List.getElem_mem _), nomen_ok _ (List.getElem_mem _), ?_⟩
  · simp [zeroFill_eq n _ hn hr]
  · intro x hx
    rw [zeroFill_eq n _ hn hr] at hx
    have := padDigits_isDigit _ _ x hx
    simpa [isDigit, IsDec] using this

theorem label_injective (n i j : ℕ) (hn : 0 < n) (hi : i < 26 * 35 * 35 * 10 ^ n)
    (hj : j < 26 * 35 * 35 * 10 ^ n) (h : label n i = label n j) : i = j := by
  rw [label_eq n i ((div_lt_capacity n i).2 hi), label_eq n j ((div_lt_capacity n j).2 hj)] at h
  have hri : i % 10 ^ n < 10 ^ n := Nat.mod_lt _ (by positivity)
  have hrj : j % 10 ^ n < 10 ^ n := Nat.mod_lt _ (by positivity)
  rw [zeroFill_eq n _ hn hri, zeroFill_eq n _ hn hrj] at h
  injection h with h
  injection h with h1 h
  injection h with h2 h
  injection h with h3 h4
  replace h1 := alpha_nodup.getElem_inj_iff.1 h1
  replace h2 := nomen_nodup.getElem_inj_iff.1 h2
  replace h3 := nomen_nodup.getElem_inj_iff.1 h3
  have h5 := congrArg digVal h4
  rw [digVal_padDigits, digVal_padDigits, Nat.mod_mod, Nat.mod_mod] at h5
  have e3 : i / 10 ^ n / 35 = j / 10 ^ n / 35 := by
    rw [← Nat.div_add_mod (i / 10 ^ n / 35) 35, ← Nat.div_add_mod (j / 10 ^ n / 35) 35, h1, h2]
  have e2 : i / 10 ^ n = j / 10 ^ n := by
    rw [← Nat.div_add_mod (i / 10 ^ n) 35, ← Nat.div_add_mod (j / 10 ^ n) 35, e3, h3]
  rw [← Nat.div_add_mod i (10 ^ n), ← Nat.div_add_mod j (10 ^ n), e2, h5]

theorem mapM_error_of_mem {α β : Type} {f : α → Except PyErr β} {x : PyErr} {xs : List α}
    (h : ∀ a ∈ xs, (∃ b, f a = .ok b) ∨ f a = .error x) (hx : ∃ a ∈ xs, f a = .error x) :
    xs.mapM f = .error x := by
  induction xs with
  | nil => simp at hx
  | cons a xs ih =>
    rw [List.mapM_cons]
    rcases h a List.mem_cons_self with ⟨b, hb⟩ | hb
    · rw [hb, ok_bind, ih (fun a ha => h a (List.mem_cons_of_mem _ ha))]
      · rfl
      · obtain ⟨c, hc, hc'⟩ := hx
        rcases List.mem_cons.1 hc with rfl | hc
        · rw [hb] at hc'; cases hc'
        · exact ⟨c, hc, hc'⟩
    · rw [hb]; rfl

theorem label_ok_or_index (n i : ℕ) : (∃ b, label n i = .ok b) ∨ label n i = .error .indexError := by
  unfold label
  simp only
  split
  · exact Or.inl ⟨_, rfl⟩
  · exact Or.inr rfl

end Verif.Model
