import Verif.Spec.Blocks
import Verif.Lemmas.IO
import Verif.Lemmas.Prune

/-! Helper lemmas for ROCKS, RPCAP and FLAC. -/

set_option linter.unusedSimpArgs false

namespace Verif.Model
open Verif.Py Verif.Spec

theorem storedAll_replicate (n : ℕ) (t : Tok) (vs : List Val) (h : vs.length ≤ n) :
    storedAll (List.replicate n t) vs =
      vs.map (stored t) ++ List.replicate (n - vs.length) (stored t .none) := by
  induction n generalizing vs with
  | zero =>
    have : vs = [] := by simpa using h
    subst this; rfl
  | succ n ih =>
    cases vs with
    | nil =>
      have := ih [] (by simp)
      simp only [List.replicate_succ, storedAll, this]
      simp [List.replicate_succ]
    | cons v vs =>
      simp only [List.length_cons] at h
      simp only [List.replicate_succ, storedAll, ih vs (by omega)]
      simp

theorem allFit_replicate (n : ℕ) (t : Tok) (vs : List Val) (h : ∀ v ∈ vs, Fits t v) :
    AllFit (List.replicate n t) vs := by
  induction n generalizing vs with
  | zero => cases vs <;> simp [AllFit]
  | succ n ih =>
    cases vs with
    | nil => simp [AllFit]
    | cons v vs => exact ⟨h v (by simp), ih vs (fun v hv => h v (by simp [hv]))⟩

theorem stored_e (w p : ℕ) (v : Val) : stored (eCol w p) v = num p v := by
  cases v <;> simp [stored, num]

theorem num_none (p : ℕ) : num p .none = .none := by simp [num, stored]

/-! ### record facts used by several blocks -/

theorem blankRecord_eq (f : List Tok) : blankRecord = lineOf f [] := by
  cases f <;> rfl

theorem readRecord_blankRecord {f : List Tok} (hw : width f ≤ 80) :
    readRecord f blankRecord = .ok (storedAll f []) := by
  rw [blankRecord_eq f]; exact readRecord_lineOf hw (by cases f <;> simp [AllFit])

theorem allFit_rpcap {m : Mod} (h : ModFits 5 7 m) :
    AllFit Fmt.rpcap (m.id :: .none :: m.params) := by
  obtain ⟨h1, h2, h3⟩ := h
  refine ⟨h1, by simp [Fits], ?_⟩
  exact allFit_replicate 7 (eCol 10 3) m.params h3

/-- The line of a model. -/
def modLine (m : Option Mod) : Str :=
  match m with
  | some m => lineOf Fmt.rpcap (m.id :: .none :: m.params)
  | none => blankRecord

theorem writeMod_eq {m : Option Mod} (h : ∀ x ∈ m, ModFits 5 7 x) :
    writeMod m = .ok (modLine m) := by
  cases m with
  | none => rfl
  | some m => exact writeRecord_eq (allFit_rpcap (h m rfl))

theorem storedAll_rpcap (m : Mod) (h : m.params.length ≤ 7) :
    storedAll Fmt.rpcap (m.id :: .none :: m.params) =
      stored (dCol 5) m.id :: .none ::
        (m.params.map (num 3) ++ List.replicate (7 - m.params.length) .none) := by
  have := storedAll_replicate 7 (eCol 10 3) m.params h
  have h1 : stored (sCol 5) .none = .none := by simp [stored]
  show stored (dCol 5) m.id :: stored (sCol 5) .none ::
    storedAll (List.replicate 7 (eCol 10 3)) m.params = _
  rw [this, h1]
  simp [stored_e, num_none]

end Verif.Model

namespace Verif.Model
open Verif.Py Verif.Spec

theorem width_rpcap : width Fmt.rpcap ≤ 80 := by decide
theorem width_rocks1 : width Fmt.rocks1 ≤ 80 := by decide
theorem width_rocks2 : width Fmt.rocks2 ≤ 80 := by decide

theorem readMod_modLine {m : Option Mod} (h : ∀ x ∈ m, ModFits 5 7 x) (rest : List Str) :
    readMod (modLine m :: rest) = .ok (modBack? m, rest) := by
  cases m with
  | none =>
    simp only [readMod, next_cons, ok_bind, modLine, readRecord_blankRecord width_rpcap]
    rfl
  | some m =>
    have hm := h m rfl
    simp only [readMod, next_cons, ok_bind, modLine,
      readRecord_lineOf width_rpcap (allFit_rpcap hm), storedAll_rpcap m hm.2.1]
    simp only [entry, List.getD_cons_zero, List.drop_succ_cons, List.drop_zero, modBack?,
      Option.bind_some, modBack, pruneNones_eq, dropTrailing_append_none]
    by_cases hid : stored (dCol 5) m.id = .none <;> simp [hid]

/-! ### permeability -/

theorem ofDecimal_sign (neg : Bool) (q : ℚ) :
    ofDecimal neg q = .inf neg ∨ ∃ m, ofDecimal neg q = .fin neg m := by
  unfold ofDecimal
  split
  · exact Or.inr ⟨_, rfl⟩
  · split
    · exact Or.inl rfl
    · exact Or.inr ⟨_, rfl⟩

theorem quant_nonneg {x : Flt} (h : (fmtE 4 x).length ≤ 10) (n : Bool) (m : ℚ≥0)
    (hq : quant 4 x = .fin n m) : n = false := by
  cases x with
  | nan => simp [quant] at hq
  | inf b => simp [quant] at hq
  | fin neg mag =>
    have hneg : neg = false := by
      by_contra hne
      have hneg : neg = true := by simpa using hne
      subst hneg
      have hlen : 11 ≤ (fmtE 4 (.fin true mag)).length := by
        simp only [fmtE]
        split <;> simp [signStr, expStr_length, mantStr_length] <;> omega
      omega
    subst hneg
    simp only [quant] at hq
    split at hq
    · cases hq; rfl
    · rcases ofDecimal_sign false _ with h1 | ⟨m', h1⟩
      · rw [h1] at hq; cases hq
      · rw [h1] at hq; cases hq; rfl

theorem valEq_num {v w : Val} (hv : Fits (eCol 10 4) v) (hw : Fits (eCol 10 4) w) :
    valEq (num 4 v) (num 4 w) = true ↔ num 4 v = num 4 w ∧ num 4 v ≠ .flt .nan := by
  have key : ∀ v, Fits (eCol 10 4) v →
      num 4 v = .none ∨ ∃ x, num 4 v = .flt x ∧ ∀ n m, x = .fin n m → n = false := by
    intro v hv
    cases v with
    | none => left; simp [num, stored]
    | str s => left; simp only [Fits] at hv; simp [num, stored, hv]
    | bool b => simp [Fits] at hv
    | int i => right; exact ⟨_, rfl, fun n m h => quant_nonneg hv n m h⟩
    | flt x => right; exact ⟨_, rfl, fun n m h => quant_nonneg hv n m h⟩
  rcases key v hv with h1 | ⟨x, h1, hx⟩ <;> rcases key w hw with h2 | ⟨y, h2, hy⟩ <;>
    rw [h1, h2]
  · simp [valEq]
  · simp [valEq]
  · simp [valEq]
  · cases x with
    | nan => simp [valEq, fltEq]
    | inf n => cases y <;> simp [valEq, fltEq]
    | fin n m =>
      cases y with
      | nan => simp [valEq, fltEq]
      | inf n => simp [valEq, fltEq]
      | fin n' m' =>
        have h3 := hx n m rfl
        have h4 := hy n' m' rfl
        subst h3; subst h4
        simp [valEq, fltEq]

theorem readPerm_eq {a b c : Val} (ha : Fits (eCol 10 4) a) (hb : Fits (eCol 10 4) b)
    (hc : Fits (eCol 10 4) c) :
    readPerm (num 4 a) (num 4 b) (num 4 c) =
      if num 4 a = num 4 b ∧ num 4 a = num 4 c ∧ num 4 a ≠ .flt .nan then .one (num 4 a)
      else .many [num 4 a, num 4 b, num 4 c] := by
  unfold readPerm
  have h1 := valEq_num ha hb
  have h2 := valEq_num ha hc
  by_cases h : num 4 a = num 4 b ∧ num 4 a = num 4 c ∧ num 4 a ≠ .flt .nan
  · rw [if_pos h, if_pos]
    rw [Bool.and_eq_true, h1, h2]
    exact ⟨⟨h.1, h.2.2⟩, h.2.1, h.2.2⟩
  · rw [if_neg h, if_neg]
    rw [Bool.and_eq_true, h1, h2]
    rintro ⟨⟨x, y⟩, z, -⟩
    exact h ⟨x, z, y⟩

/-! ### one rock -/

/-- First record of a rock whose permeability components are `p`. -/
def rockRec1 (k : Val) (r : Rock) (p : Val × Val × Val) : List Val :=
  [k, if r.nad = 0 then .str [] else .int r.nad, r.density, r.porosity, p.1, p.2.1, p.2.2,
    r.conductivity, r.specificHeat]

/-- The lines of a rock. -/
def rockLines (k : Val) (r : Rock) (p : Val × Val × Val) : List Str :=
  lineOf Fmt.rocks1 (rockRec1 k r p) ::
    ((if r.hasSecondary then [lineOf Fmt.rocks2 r.secondary]
      else if r.nad = 2 then [blankRecord] else []) ++
    (if r.nad = 2 then [modLine r.relPerm, modLine r.cap] else []))

theorem permList_eq {s : SoL} (h : (perm3 s).length = 3) :
    ∃ a b c, permList s = .ok (a, b, c) ∧ perm3 s = [a, b, c] := by
  cases s with
  | one v => exact ⟨v, v, v, rfl, rfl⟩
  | many l =>
    match l, h with
    | [a, b, c], _ => exact ⟨a, b, c, rfl, rfl⟩

theorem nad_le (r : Rock) : r.nad ≤ 2 := by
  unfold Rock.nad; split
  · exact le_rfl
  · split <;> omega

theorem fits_nad (r : Rock) :
    Fits (dCol 5) (if r.nad = 0 then .str [] else .int r.nad) := by
  have := nad_le r
  split
  · rfl
  · rename_i h
    have : r.nad = 1 ∨ r.nad = 2 := by omega
    rcases this with h | h <;> rw [h] <;> decide

theorem fits_name {w : ℕ} {k : Val} (h : NameFits w k) : Fits (sCol w) k := by
  cases k <;> simp [NameFits] at h
  exact ⟨h.2.1, h.2.2⟩

theorem stored_name {w : ℕ} {k : Val} (h : NameFits w k) : stored (sCol w) k = k := by
  cases k <;> simp [NameFits] at h
  simp [stored, h.1]

theorem visible_name {w : ℕ} {k : Val} (h : NameFits w k) : Visible k := by
  cases k <;> simp [NameFits] at h
  rename_i s
  show isBlank s = false
  simp [isBlank, h.2.2, h.1]

variable {k : Val} {r : Rock}

theorem allFit_rec1 (hk : NameFits 5 k) (hr : RockFits r) {a b c : Val}
    (hp : perm3 r.permeability = [a, b, c]) : AllFit Fmt.rocks1 (rockRec1 k r (a, b, c)) := by
  obtain ⟨h1, -, h3, -⟩ := hr
  rw [hp] at h3
  refine ⟨fits_name hk, fits_nad r, h1 _ (by simp), h1 _ (by simp), h3 a (by simp), h3 b (by simp),
    h3 c (by simp), h1 _ (by simp), h1 _ (by simp), trivial⟩

theorem allFit_rec2 (hr : RockFits r) : AllFit Fmt.rocks2 r.secondary := by
  apply allFit_replicate 7 (eCol 10 4)
  intro v hv
  apply hr.1
  simp only [Rock.secondary, List.mem_cons, List.not_mem_nil, or_false] at hv ⊢
  tauto

theorem writeRock_eq (hk : NameFits 5 k) (hr : RockFits r) {a b c : Val}
    (hp : perm3 r.permeability = [a, b, c]) (hl : permList r.permeability = .ok (a, b, c)) :
    writeRock k r = .ok (rockLines k r (a, b, c)) := by
  have e1 := writeRecord_eq (allFit_rec1 hk hr hp)
  have e2 := writeRecord_eq (allFit_rec2 hr)
  have e3 := writeMod_eq hr.2.2.2.1
  have e4 := writeMod_eq hr.2.2.2.2
  simp only [rockRec1] at e1
  unfold writeRock rockLines
  simp only [hl, ok_bind, e1, e2, e3, e4, rockRec1]
  by_cases h1 : r.hasSecondary = true <;> by_cases h2 : r.nad = 2 <;> simp [h1, h2]

theorem not_hasSecondary (h : r.hasSecondary = false) : ∀ v ∈ r.secondary, v = .none := by
  intro v hv
  unfold Rock.hasSecondary at h
  rw [List.any_eq_false] at h
  simpa using h v hv

/-- Reading one rock. -/
theorem rockStep_rockLines (s : RocksState) (hk : NameFits 5 k) (hr : RockFits r) {a b c : Val}
    (hp : perm3 r.permeability = [a, b, c]) (rest : List Str) :
    rockStep s (rockLines k r (a, b, c) ++ rest) =
      .ok (.more (dictSet s.1 k (rockBack r), s.2 ++ [k]), rest) := by
  have hf1 := allFit_rec1 hk hr hp
  have hf2 := allFit_rec2 hr
  have hblank : isBlank (lineOf Fmt.rocks1 (rockRec1 k r (a, b, c))) = false :=
    isBlank_lineOf hf1 (t := sCol 5) (v := k) (by simp [Fmt.rocks1, rockRec1]) (visible_name hk)
  have hd1 := readRecord_lineOf width_rocks1 hf1
  have hd2 := readRecord_lineOf width_rocks2 hf2
  have hs1 : storedAll Fmt.rocks1 (rockRec1 k r (a, b, c)) =
      [k, if r.nad = 0 then .none else .int r.nad, num 4 r.density, num 4 r.porosity, num 4 a,
        num 4 b, num 4 c, num 4 r.conductivity, num 4 r.specificHeat] := by
    have h1 : stored (dCol 5) (if r.nad = 0 then .str [] else .int r.nad) =
        (if r.nad = 0 then .none else .int r.nad) := by split <;> simp [stored]
    simp only [Fmt.rocks1, rockRec1, storedAll, stored_e, stored_name hk, h1]
  have hs2 : storedAll Fmt.rocks2 r.secondary =
      [num 4 r.compressibility, num 4 r.expansivity, num 4 r.conductivityDry,
        num 4 r.tortuosity, num 4 r.klinkenberg, num 4 r.dist3, num 4 r.dist4] := by
    simp [Fmt.rocks2, Rock.secondary, storedAll, stored_e, List.replicate]
  have hpf := hr.2.2.1
  rw [hp] at hpf
  have hperm : readPerm (num 4 a) (num 4 b) (num 4 c) = permBack r.permeability := by
    rw [readPerm_eq (hpf a (by simp)) (hpf b (by simp)) (hpf c (by simp)), permBack, hp]
    rfl
  have hrpcap : ∀ rest, readRpcap (modLine r.relPerm :: modLine r.cap :: rest) =
      .ok ((modBack? r.relPerm, modBack? r.cap), rest) := by
    intro rest
    simp [readRpcap, readMod_modLine hr.2.2.2.1, readMod_modLine hr.2.2.2.2]
  unfold rockStep rockLines
  simp only [List.cons_append, next_cons, ok_bind, hblank, Bool.false_eq_true, if_false, hd1, hs1,
    entry, List.getD_cons_zero, List.getD_cons_succ, hperm]
  by_cases h0 : r.nad = 0
  · have hno : r.relPerm = none ∧ r.cap = none ∧ r.hasSecondary = false := by
      unfold Rock.nad at h0
      split at h0
      · omega
      · rename_i h1
        split at h0
        · omega
        · rename_i h2
          simp only [Bool.or_eq_true, Option.isSome_iff_ne_none, ne_eq, not_or, not_not] at h1
          exact ⟨h1.1, h1.2, by simpa using h2⟩
    have hsec := not_hasSecondary hno.2.2
    simp only [Rock.secondary, List.mem_cons, List.not_mem_nil, or_false, forall_eq_or_imp,
      forall_eq] at hsec
    simp [h0, hno, Rock.empty, rockBack, modBack?, hsec, num_none]
  · have hne : ¬ ((.int r.nad : Val) = .none) := by simp
    by_cases h1 : r.hasSecondary = true
    · by_cases h2 : r.nad = 2
      · simp [h0, h1, h2, hd2, hs2, hrpcap, rockBack, Rock.empty]
      · have h3 : r.nad = 1 := by have := nad_le r; omega
        have hno : r.relPerm = none ∧ r.cap = none := by
          unfold Rock.nad at h2
          split at h2
          · omega
          · rename_i h1
            simp only [Bool.or_eq_true, Option.isSome_iff_ne_none, ne_eq, not_or, not_not] at h1
            exact h1
        simp [h0, h1, h3, hd2, hs2, rockBack, Rock.empty, hno, modBack?]
    · have h1' : r.hasSecondary = false := by simpa using h1
      have h2 : r.nad = 2 := by
        have := h0
        unfold Rock.nad at this ⊢
        split
        · rfl
        · rename_i h3; rw [if_neg h3, if_neg h1] at this; exact absurd rfl this
      have hsec := not_hasSecondary h1'
      simp only [Rock.secondary, List.mem_cons, List.not_mem_nil, or_false, forall_eq_or_imp,
        forall_eq] at hsec
      have hb : storedAll Fmt.rocks2 [] = List.replicate 7 .none := by decide
      simp [h0, h1, h2, readRecord_blankRecord width_rocks2, hb, hrpcap, rockBack, Rock.empty,
        hsec, num_none, List.replicate]

end Verif.Model
