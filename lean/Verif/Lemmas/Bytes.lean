import Verif.Lemmas.IO
import Verif.Lemmas.Repr
import Verif.Py.Bytes

/-!
# Lemmas about bytes
-/

namespace Verif.Py
open Verif.Spec Verif.Model

theorem bytesOf_length (k n : ℕ) : (bytesOf k n).length = k := by
  induction k generalizing n with
  | zero => rfl
  | succ k ih => simp [bytesOf, ih]

theorem bytesOf_lt (k n : ℕ) : ∀ b ∈ bytesOf k n, b < 256 := by
  induction k generalizing n with
  | zero => simp [bytesOf]
  | succ k ih =>
    intro b hb
    rcases List.mem_cons.1 hb with rfl | hb
    · exact Nat.mod_lt _ (by norm_num)
    · exact ih _ b hb

theorem ofBytes_bytesOf {k n : ℕ} (h : n < 256 ^ k) : ofBytes (bytesOf k n) = n := by
  induction k generalizing n with
  | zero =>
    rw [pow_zero] at h
    simp only [bytesOf, ofBytes]
    omega
  | succ k ih =>
    rw [bytesOf, ofBytes, ih (by rw [Nat.div_lt_iff_lt_mul (by norm_num), ← pow_succ]; exact h)]
    omega

theorem takeBytes_append {x : List ℕ} {k : ℕ} (h : x.length = k) (r : List ℕ) : takeBytes k (x ++ r) = .ok (x, r) := by
  subst h
  rw [takeBytes, if_neg (by simp)]
  simp

theorem packUInt_ok {k n : ℕ} (h : n < 256 ^ k) : packUInt k n = .ok (bytesOf k n) := if_pos h

theorem unpackUInt_append {k n : ℕ} (h : n < 256 ^ k) (r : List ℕ) :
    unpackUInt k (bytesOf k n ++ r) = .ok (n, r) := by
  rw [unpackUInt, takeBytes_append (bytesOf_length k n), ok_bind]
  simp only [ofBytes_bytesOf h]

theorem unpackMany_append {ns : List ℕ} (h : ∀ n ∈ ns, n < 256 ^ 4) (r : List ℕ) :
    unpackMany ns.length (ns.flatMap (bytesOf 4) ++ r) = .ok (ns, r) := by
  induction ns with
  | nil => rfl
  | cons n ns ih =>
    rw [List.length_cons, List.flatMap_cons, List.append_assoc]
    unfold unpackMany
    rw [unpackUInt_append (h n (by simp)), ok_bind]
    simp only
    rw [ih fun n hn => h n (by simp [hn]), ok_bind]

/-! ### floats -/

/-- The exponent and the significand of a float. -/
theorem bits_fin {neg : Bool} {mag : ℚ≥0} (h : IsDouble (.fin neg mag)) (h0 : mag ≠ 0) :
    ∃ N k : ℕ, N ≤ 2045 ∧ k < 2 ^ 53 ∧ (k < 2 ^ 52 → N = 0) ∧ (mag : ℚ) = k * (2 : ℚ) ^ ((N : ℤ) - 1074) ∧
      bitsOf (.fin neg mag) = (if neg then 2 ^ 63 else 0) + (N * 2 ^ 52 + k) := by
  obtain ⟨m, e, hm, he1, he2, hq⟩ := h
  have hpos : (0 : ℚ) < (mag : ℚ) := by exact_mod_cast pos_iff_ne_zero.2 h0
  obtain ⟨hl1, hl2⟩ := log_bounds (b := 2) (by norm_num) hpos
  push_cast at hl1 hl2
  set L := Int.log 2 (mag : ℚ) with hL
  have hLe : L ≤ 52 + e := by
    have h1 : (2 : ℚ) ^ L < (2 : ℚ) ^ (53 + e) := by
      refine lt_of_le_of_lt hl1 ?_
      rw [hq, zpow_add₀ (by norm_num)]
      have : (m : ℚ) < 2 ^ 53 := by exact_mod_cast hm
      have h2 : (0 : ℚ) < (2 : ℚ) ^ e := by positivity
      exact_mod_cast mul_lt_mul_of_pos_right this h2
    have := (zpow_lt_zpow_iff_right₀ (by norm_num : (1 : ℚ) < 2)).1 h1
    omega
  set E := max L (-1022) with hE
  have hEb : -1022 ≤ E ∧ E ≤ 1023 ∧ L ≤ E ∧ E ≤ e + 52 := by omega
  have hmag : (mag : ℚ) = ((m * 2 ^ (e + 52 - E).toNat : ℕ) : ℚ) * (2 : ℚ) ^ (E - 52) := by
    push_cast
    rw [hq, mul_assoc, ← zpow_natCast, ← zpow_add₀ (by norm_num)]
    congr 2
    omega
  set k := m * 2 ^ (e + 52 - E).toNat with hk
  have hfl : (mag : ℚ) * (2 : ℚ) ^ (52 - E) = (k : ℚ) := by
    rw [hmag, mul_assoc, ← zpow_add₀ (by norm_num)]
    simp
  refine ⟨(E + 1022).toNat, k, by omega, ?_, ?_, ?_, ?_⟩
  · have : (k : ℚ) < 2 ^ 53 := by
      rw [← hfl]
      calc (mag : ℚ) * (2 : ℚ) ^ (52 - E) < (2 : ℚ) ^ (L + 1) * (2 : ℚ) ^ (52 - E) :=
            mul_lt_mul_of_pos_right hl2 (by positivity)
        _ ≤ (2 : ℚ) ^ (53 : ℤ) := by
            rw [← zpow_add₀ (by norm_num)]
            exact zpow_le_zpow_right₀ (by norm_num) (by omega)
        _ = 2 ^ 53 := by norm_num
    exact_mod_cast this
  · intro hlt
    by_contra hne
    have hEL : E = L := by omega
    have : (2 : ℚ) ^ 52 ≤ (k : ℚ) := by
      rw [← hfl]
      calc (2 : ℚ) ^ 52 = (2 : ℚ) ^ L * (2 : ℚ) ^ (52 - E) := by
            rw [← zpow_add₀ (by norm_num), hEL]
            norm_num
        _ ≤ _ := mul_le_mul_of_nonneg_right hl1 (by positivity)
    have h2 : 2 ^ 52 ≤ k := by exact_mod_cast this
    omega
  · rw [hmag]
    congr 2
    omega
  · simp only [bitsOf]
    rw [if_neg h0, ← hL, ← hE, hfl]
    congr 2

theorem bitsOf_lt {x : Flt} (h : IsDouble x) : bitsOf x < 256 ^ 8 := by
  cases x with
  | nan => decide
  | inf neg => cases neg <;> decide
  | fin neg mag =>
    by_cases h0 : mag = 0
    · cases neg <;> simp [bitsOf, h0]
    · obtain ⟨N, k, h1, h2, _, _, h5⟩ := bits_fin h h0
      rw [h5]
      cases neg <;> simp only [if_true, if_false, Bool.false_eq_true] <;> omega

theorem ofBits_bitsOf {x : Flt} (h : IsDouble x) : ofBits (bitsOf x) = x := by
  cases x with
  | nan => decide
  | inf neg => cases neg <;> decide
  | fin neg mag =>
    by_cases h0 : mag = 0
    · subst h0
      cases neg
      · simp [bitsOf, ofBits]
      · norm_num [bitsOf, ofBits]
    · obtain ⟨N, k, h1, h2, h3, h4, h5⟩ := bits_fin h h0
      rw [h5]
      have hs : ∃ s : ℕ, s < 2 ∧ decide (s = 1) = neg ∧ (if neg then 2 ^ 63 else 0) = s * 2 ^ 63 := by
        cases neg
        · exact ⟨0, by norm_num, rfl, by norm_num⟩
        · exact ⟨1, by norm_num, rfl, by norm_num⟩
      obtain ⟨s, hs1, hs2, hs3⟩ := hs
      rw [hs3, ofBits]
      have e1 : (s * 2 ^ 63 + (N * 2 ^ 52 + k)) / 2 ^ 63 % 2 = s := by omega
      by_cases hk : k < 2 ^ 52
      · have hN := h3 hk
        subst hN
        have e2 : (s * 2 ^ 63 + (0 * 2 ^ 52 + k)) / 2 ^ 52 % 2048 = 0 := by omega
        have e3 : (s * 2 ^ 63 + (0 * 2 ^ 52 + k)) % 2 ^ 52 = k := by omega
        simp only [e1, e2, e3, hs2]
        rw [if_neg (by norm_num), if_pos trivial]
        congr 1
        apply NNRat.coe_injective
        rw [h4]
        push_cast
        norm_num
      · have e2 : (s * 2 ^ 63 + (N * 2 ^ 52 + k)) / 2 ^ 52 % 2048 = N + 1 := by omega
        have e3 : (s * 2 ^ 63 + (N * 2 ^ 52 + k)) % 2 ^ 52 = k - 2 ^ 52 := by omega
        simp only [e1, e2, e3, hs2]
        rw [if_neg (by omega), if_neg (by omega)]
        congr 1
        apply NNRat.coe_injective
        have e4 : 2 ^ 52 + (k - 2 ^ 52) = k := by omega
        rw [h4, e4, NNRat.coe_mul, NNRat.coe_zpow, NNRat.coe_natCast]
        have e5 : ((N + 1 : ℕ) : ℤ) - 1075 = (N : ℤ) - 1074 := by omega
        rw [e5]
        rfl

theorem unpackDouble_append {x : Flt} (h : IsDouble x) (r : List ℕ) :
    unpackDouble (packDouble x ++ r) = .ok (x, r) := by
  rw [unpackDouble, packDouble, takeBytes_append (bytesOf_length 8 _), ok_bind]
  simp only [ofBytes_bytesOf (bitsOf_lt h), ofBits_bitsOf h]

/-! ### text -/

theorem utf8_ascii {s : Str} (h : ∀ c ∈ s, c.toNat < 128) : utf8 s = s.map Char.toNat := by
  induction s with
  | nil => rfl
  | cons c s ih =>
    rw [utf8, List.flatMap_cons, List.map_cons, ← ih fun c hc => h c (by simp [hc])]
    have : utf8Char c = [c.toNat] := by
      simp only [utf8Char]
      rw [if_pos (by have := h c (by simp); omega)]
    rw [this]
    rfl

theorem utf8Decode_ascii {s : Str} (h : ∀ c ∈ s, c.toNat < 128) : utf8Decode (s.map Char.toNat) = .ok s := by
  induction s with
  | nil => simp [utf8Decode]
  | cons c s ih =>
    rw [List.map_cons]
    unfold utf8Decode
    rw [if_pos (by have := h c (by simp); omega), ih fun c hc => h c (by simp [hc]), ok_bind, Char.ofNat_toNat]

theorem utf8Char_lt (c : Char) : ∀ b ∈ utf8Char c, b < 256 := by
  have hv : c.toNat < 1114112 := by
    have := c.valid
    simp only [UInt32.isValidChar, Nat.isValidChar] at this
    show c.val.toNat < _
    omega
  intro b hb
  simp only [utf8Char] at hb
  split at hb
  · simp only [List.mem_cons, List.not_mem_nil, or_false] at hb; omega
  · split at hb
    · simp only [List.mem_cons, List.not_mem_nil, or_false] at hb; omega
    · split at hb
      · simp only [List.mem_cons, List.not_mem_nil, or_false] at hb; omega
      · simp only [List.mem_cons, List.not_mem_nil, or_false] at hb; omega

theorem utf8_lt (s : Str) : ∀ b ∈ utf8 s, b < 256 := by
  intro b hb
  obtain ⟨c, _, h⟩ := List.mem_flatMap.1 hb
  exact utf8Char_lt c b h

/-- A text has not more characters than bytes, and as many only if it is ASCII. -/
theorem utf8Decode_length {bs : List ℕ} {s : Str} (h : utf8Decode bs = .ok s) :
    s.length ≤ bs.length ∧ (s.length = bs.length → ∀ c ∈ s, c.toNat < 128) := by
  have bind_inv : ∀ {r : List ℕ} {c : Char} {s : Str}, (do let s ← utf8Decode r; .ok (c :: s)) = .ok s →
      ∃ s', utf8Decode r = .ok s' ∧ s = c :: s' := by
    intro r c s h
    cases hr : utf8Decode r with
    | error e => rw [hr] at h; cases h
    | ok s' =>
      rw [hr] at h
      cases h
      exact ⟨s', rfl, rfl⟩
  have key : ∀ (n : ℕ) (bs : List ℕ) (s : Str), bs.length ≤ n → utf8Decode bs = .ok s →
      s.length ≤ bs.length ∧ (s.length = bs.length → ∀ c ∈ s, c.toNat < 128) := by
    intro n
    induction n with
    | zero =>
      intro bs s hl h
      have : bs = [] := List.length_eq_zero_iff.1 (by omega)
      subst this
      rw [utf8Decode] at h
      cases h
      simp
    | succ n ih =>
      intro bs s hl h
      have long : ∀ (r : List ℕ) (c : Char), r.length + 1 < bs.length →
          (do let s ← utf8Decode r; .ok (c :: s)) = .ok s →
          s.length ≤ bs.length ∧ (s.length = bs.length → ∀ c ∈ s, c.toNat < 128) := by
        intro r c hr h
        obtain ⟨s', h1, rfl⟩ := bind_inv h
        have := (ih r s' (by omega) h1).1
        rw [List.length_cons]
        exact ⟨by omega, fun h => by omega⟩
      rw [utf8Decode.eq_def] at h
      split at h
      · cases h
        simp
      · rename_i b r
        split at h
        · rename_i hb
          obtain ⟨s', h1, rfl⟩ := bind_inv h
          obtain ⟨h2, h3⟩ := ih r s' (by simp only [List.length_cons] at hl; omega) h1
          simp only [List.length_cons]
          refine ⟨by omega, fun he c hc => ?_⟩
          rcases List.mem_cons.1 hc with rfl | hc
          · have : (Char.ofNat b).toNat = b := by
              have hv : b.isValidChar := .inl (by omega)
              unfold Char.ofNat
              rw [dif_pos hv]
              rfl
            omega
          · exact h3 (by omega) c hc
        · split at h
          · cases h
          · rename_i c₁ r
            split at h
            · split at h
              · exact long r _ (by simp) h
              · cases h
            · split at h
              · cases h
              · rename_i c₂ r
                split at h
                · split at h
                  · exact long r _ (by simp) h
                  · cases h
                · split at h
                  · cases h
                  · rename_i c₃ r
                    split at h
                    · split at h
                      · exact long r _ (by simp) h
                      · cases h
                    · cases h
  exact key _ bs s (le_refl _) h

end Verif.Py
