import Verif.Lemmas.MeshBlocks
import Verif.Lemmas.NumSpace

/-! Helper lemmas: INCON. -/

set_option linter.unusedSimpArgs false

namespace Verif.Model
open Verif.Py Verif.Spec

/-- The format of record 1. -/
def inconFmt (L : ℕ) : List Tok :=
  sCol L :: dCol (elemWidths L).1 :: dCol (elemWidths L).2 :: eCol 15 9 :: List.replicate 5 (eCol 10 3)

theorem formatFor_incon {L : ℕ} (h : 5 ≤ L ∧ L ≤ 9) :
    formatFor Fmt.incon L = .ok (inconFmt L) ∧ width (inconFmt L) ≤ 80 ∧ 0 < (elemWidths L).1 ∧
      L + (elemWidths L).1 + (elemWidths L).2 = 15 := by
  obtain ⟨h1, h2⟩ := h
  interval_cases L <;> exact ⟨rfl, by decide, by decide, by decide⟩

/-- The values of record 1. -/
def inconVals (k : Val) (c : Incon) : List Val :=
  k :: .none :: .none :: c.porosity :: c.userx.getD []

theorem allFit_incon {L : ℕ} {k : Val} {c : Incon} (hk : NameFits L k) (h : InconFits c) :
    AllFit (inconFmt L) (inconVals k c) :=
  ⟨fits_name hk, by simp [Fits], by simp [Fits], h.1, allFit_replicate 5 _ _ h.2.2.2.1⟩

theorem storedAll_incon {L : ℕ} {k : Val} {c : Incon} (hk : NameFits L k) (h : InconFits c) :
    storedAll (inconFmt L) (inconVals k c) =
      k :: .none :: .none :: num 9 c.porosity :: ((c.userx.getD []).map (num 3) ++
        List.replicate (5 - (c.userx.getD []).length) .none) := by
  show stored (sCol L) k :: stored (dCol _) .none :: stored (dCol _) .none ::
    stored (eCol 15 9) c.porosity :: storedAll (List.replicate 5 (eCol 10 3)) (c.userx.getD []) = _
  rw [stored_name hk, stored_e, storedAll_replicate 5 _ _ h.2.2.1]
  rfl

theorem userxOf_eq {k : Val} {c : Incon} (h : InconFits c) :
    userxOf (k :: .none :: .none :: num 9 c.porosity :: ((c.userx.getD []).map (num 3) ++
        List.replicate (5 - (c.userx.getD []).length) .none)) = (inconBack c).userx := by
  have hl : ((c.userx.getD []).map (num 3) ++
      List.replicate (5 - (c.userx.getD []).length) Val.none).length = 5 := by
    have := h.2.2.1
    simp; omega
  unfold userxOf inconBack
  simp only [List.drop_succ_cons, List.drop_zero]
  rw [List.take_of_length_le (by omega), pruneNones_eq, dropTrailing_append_none]
  cases dropTrailing ((c.userx.getD []).map (num 3)) <;> rfl

/-- The lines of one initial condition. -/
def inconLines (L : ℕ) (e : Val × Incon) : List Str :=
  lineOf (inconFmt L) (inconVals e.1 e.2) :: lineOf Fmt.incon0 ((e.2.values.getD []).take 4) ::
    (if 4 < (e.2.values.getD []).length then [lineOf Fmt.incon0 ((e.2.values.getD []).drop 4)] else [])

theorem writeInconRow_eq {L : ℕ} {e : Val × Incon} (hk : NameFits L e.1) (h : InconFits e.2) :
    writeInconRow (inconFmt L) e.1 e.2 = .ok (inconLines L e) := by
  have h1 := writeRecord_eq (allFit_incon hk h)
  obtain ⟨-, hu, -, -, hv, h2, -⟩ := h
  have a2 : AllFit Fmt.incon0 ((e.2.values.getD []).take 4) :=
    allFit_replicate 4 (eCol 20 13) _ fun v hv => h2.2 v (List.mem_of_mem_take hv)
  have a3 : AllFit Fmt.incon0 ((e.2.values.getD []).drop 4) :=
    allFit_replicate 4 (eCol 20 13) _ fun v hv => h2.2 v (List.mem_of_mem_drop hv)
  have lu : listOf e.2.userx = .ok (e.2.userx.getD []) := by
    cases hc : e.2.userx with
    | none => exact absurd hc hu
    | some l => rfl
  have lv : listOf e.2.values = .ok (e.2.values.getD []) := by
    cases hc : e.2.values with
    | none => exact absurd hc hv
    | some l => rfl
  have ht : (e.2.values.getD []).take (min 4 (e.2.values.getD []).length) =
      (e.2.values.getD []).take 4 := by
    rw [List.take_eq_take_iff]
    omega
  unfold writeInconRow inconLines writeThird
  rw [lu, ok_bind]
  show (writeRecord (inconFmt L) (inconVals e.1 e.2) >>= _) = _
  rw [h1, lv]
  simp only [ok_bind, ht, writeRecord_eq a2, writeRecord_eq a3]
  by_cases h : 4 < (e.2.values.getD []).length <;> simp [h]

theorem fmtE_head (p : ℕ) (x : Flt) (r : Str) : ∀ c ∈ (fmtE p x ++ r).head?, c ≠ '+' := by
  intro c hc
  have hm : ∀ (neg : Bool) (m : ℕ) (t : Str), m < 10 ^ (p + 1) →
      ∀ c ∈ (signStr neg ++ mantStr p m ++ t).head?, c ≠ '+' := by
    intro neg m t hm c hc
    cases neg with
    | true => simp [signStr] at hc; subst hc; decide
    | false =>
      simp only [signStr, Bool.false_eq_true, if_false, List.nil_append] at hc
      obtain ⟨y, u, hu, hy⟩ := mantStr_head hm t
      rw [hu] at hc
      simp at hc; subst hc
      rintro rfl
      exact absurd hy (by decide)
  cases x with
  | nan => simp [fmtE] at hc; subst hc; decide
  | inf neg => cases neg <;> simp [fmtE, signStr] at hc <;> subst hc <;> decide
  | fin neg mag =>
    rw [fmtE] at hc
    split at hc
    · rw [List.append_assoc] at hc
      exact hm neg 0 _ (by positivity) c hc
    · rename_i hz
      simp only at hc
      rw [List.append_assoc] at hc
      refine hm neg _ _ ?_ c hc
      have hq : 0 < (mag : ℚ) := by
        have : 0 < mag := pos_iff_ne_zero.2 hz
        exact_mod_cast this
      exact (roundSig_bounds p hq).2

theorem field_head {w p : ℕ} {v : Val} (h : Fits (eCol w p) v) (hw : 0 < w) (r : Str) :
    ∀ c ∈ (fieldOf (eCol w p) v ++ r).head?, c ≠ '+' := by
  have hb : ∀ (n : ℕ) (t : Str), (∀ c ∈ t.head?, c ≠ '+') → ∀ c ∈ (blanks n ++ t).head?, c ≠ '+' := by
    intro n t ht c hc
    cases n with
    | zero => exact ht c (by simpa [blanks] using hc)
    | succ n => simp [blanks, List.replicate_succ] at hc; subst hc; decide
  have hb' : ∀ n, 0 < n → ∀ t : Str, ∀ c ∈ (blanks n ++ t).head?, c ≠ '+' := by
    intro n hn t c hc
    obtain ⟨m, rfl⟩ : ∃ m, n = m + 1 := ⟨n - 1, by omega⟩
    simp [blanks, List.replicate_succ] at hc; subst hc; decide
  intro c hc
  cases v with
  | none => exact hb' w hw r c (by simpa [fieldOf, toStr] using hc)
  | str s =>
    have hs : s = [] := h
    subst hs
    exact hb' w hw r c (by simpa [fieldOf, toStr, padLeft] using hc)
  | bool b => exact h.elim
  | int i =>
    simp only [fieldOf, toStr, padLeft, List.append_assoc] at hc
    exact hb _ _ (fmtE_head p _ r) c hc
  | flt x =>
    simp only [fieldOf, toStr, padLeft, List.append_assoc] at hc
    exact hb _ _ (fmtE_head p _ r) c hc

theorem startsPlus_third {vs : List Val} (hne : vs ≠ []) (h : ∀ v ∈ vs, Fits (eCol 20 13) v) :
    startsPlus (lineOf Fmt.incon0 vs) = false := by
  obtain ⟨v, vs, rfl⟩ := List.exists_cons_of_ne_nil hne
  apply startsWith_false
  have hf : AllFit Fmt.incon0 (v :: vs) := allFit_replicate 4 (eCol 20 13) _ h
  rw [lineOf_eq hf]
  intro he
  have hh : '+' ∈ (recLine (List.flatMap (fun p => fieldOf p.1 p.2)
      (Fmt.incon0.zip (v :: vs)))).head? := by
    cases hl : recLine (List.flatMap (fun p => fieldOf p.1 p.2) (Fmt.incon0.zip (v :: vs))) with
    | nil => rw [hl] at he; simp at he
    | cons c r => rw [hl] at he; simp at he; simp [he.1]
  have e : recLine (List.flatMap (fun p => fieldOf p.1 p.2) (Fmt.incon0.zip (v :: vs))) =
      fieldOf (eCol 20 13) v ++ (List.flatMap (fun p => fieldOf p.1 p.2)
        ((List.replicate 3 (eCol 20 13)).zip vs) ++
        (blanks (80 - (List.flatMap (fun p => fieldOf p.1 p.2)
          (Fmt.incon0.zip (v :: vs))).length) ++ ['\n'])) := by
    unfold recLine padRight
    rw [← List.append_assoc, ← List.append_assoc]
    rfl
  rw [e] at hh
  exact field_head (h v (by simp)) (by decide) _ '+' hh rfl

theorem strip_head_last (s : Str) :
    (∀ c ∈ (strip s).head?, isSpace c = false) ∧ ∀ c ∈ (strip s).getLast?, isSpace c = false := by
  have hd : ∀ t : Str, ∀ c ∈ (t.dropWhile isSpace).head?, isSpace c = false := by
    intro t
    induction t with
    | nil => simp
    | cons x t ih =>
      intro c hc
      rw [List.dropWhile_cons] at hc
      split at hc
      · exact ih c hc
      · rename_i hx; simp at hc; subst hc; simpa using hx
  have hr : ∀ t : Str, ∀ c ∈ (rstrip t).getLast?, isSpace c = false := by
    intro t c hc
    unfold rstrip at hc
    rw [List.getLast?_reverse] at hc
    exact hd _ c hc
  constructor
  · intro c hc
    have hpre : ∀ t : Str, rstrip t <+: t := by
      intro t
      unfold rstrip
      have := List.reverse_prefix.2 (List.dropWhile_suffix isSpace (l := t.reverse))
      rwa [List.reverse_reverse] at this
    obtain ⟨u, hu⟩ := hpre (lstrip s)
    have : c ∈ (lstrip s).head? := by
      rw [← hu]
      unfold strip at hc
      cases hl : rstrip (lstrip s) with
      | nil => rw [hl] at hc; simp at hc
      | cons x t => rw [hl] at hc; simpa using hc
    exact hd _ c this
  · exact hr _

/-- The first record of an initial condition is not a record of numbers. -/
theorem readRecord_label {L : ℕ} {k : Val} {c : Incon} (hL : 5 ≤ L ∧ L ≤ 9) (hk : NameFits L k)
    (hn : NotNumber k) (h : InconFits c) :
    readRecord Fmt.incon0 (lineOf (inconFmt L) (inconVals k c)) = .error .valueError := by
  have hf := allFit_incon hk h
  obtain ⟨-, -, -, h15⟩ := formatFor_incon hL
  cases k with
  | str s =>
    obtain ⟨hs0, hs1, hs2⟩ := hk
    have hk' : fieldOf (sCol L) (.str s) = s ++ blanks (L - s.length) := by
      simp [fieldOf, toStr, padRight, List.take_of_length_le hs1]
    have hpl : (fieldOf (eCol 15 9) c.porosity).length = 15 := fieldOf_length h.1
    set P := fieldOf (eCol 15 9) c.porosity with hP
    have ht : (lineOf (inconFmt L) (inconVals (.str s) c)).take 20 =
        s ++ (blanks (15 - s.length) ++ P.take 5) := by
      rw [lineOf_eq hf]
      have e : recLine (List.flatMap (fun p => fieldOf p.1 p.2)
          ((inconFmt L).zip (inconVals (.str s) c))) = (s ++ blanks (15 - s.length)) ++ (P ++
          (List.flatMap (fun p => fieldOf p.1 p.2)
            ((List.replicate 5 (eCol 10 3)).zip (c.userx.getD [])) ++
          (blanks (80 - (List.flatMap (fun p => fieldOf p.1 p.2)
            ((inconFmt L).zip (inconVals (.str s) c))).length) ++ ['\n']))) := by
        have hb : blanks (15 - s.length) = blanks (L - s.length) ++ (blanks (elemWidths L).1 ++
            blanks (elemWidths L).2) := by
          simp only [blanks, ← List.replicate_add]
          congr 1
          omega
        have hd : ∀ w, fieldOf (dCol w) .none = blanks w := fun w => rfl
        unfold recLine padRight
        rw [hb]
        have hfl : List.flatMap (fun p => fieldOf p.1 p.2)
            ((inconFmt L).zip (inconVals (.str s) c)) = s ++ (blanks (L - s.length) ++
              (blanks (elemWidths L).1 ++ (blanks (elemWidths L).2 ++ (P ++
              List.flatMap (fun p => fieldOf p.1 p.2)
                ((List.replicate 5 (eCol 10 3)).zip (c.userx.getD [])))))) := by
          rw [inconFmt, inconVals]
          simp only [List.zip_cons_cons, List.flatMap_cons, hk', hd, ← hP, List.append_assoc]
        rw [hfl]
        simp only [List.append_assoc]
      rw [e, List.take_append, List.take_of_length_le (by simp; omega)]
      rw [List.append_assoc]
      congr 2
      rw [List.take_append_of_le_length (by simp; omega)]
      congr 1
      simp; omega
    have hne : strip ((lineOf (inconFmt L) (inconVals (.str s) c)).take 20) ≠ [] := by
      rw [Ne, strip_eq_nil_iff, ht]
      intro hall
      refine hs0 ?_
      rw [← hs2, strip_eq_nil_iff]
      exact fun c hc => hall c (by simp [hc])
    refine readRecord_nonNumber (w := 20) (p := 13) (t := [' ', ' ', ' ']) (by decide) rfl hne ?_ rfl
    rw [ht]
    by_cases hsp : ∀ x ∈ P.take 5, isSpace x = true
    · have : strip (s ++ (blanks (15 - s.length) ++ P.take 5)) = s := by
        rw [strip_append_spaces, hs2]
        intro x hx
        rcases List.mem_append.1 hx with hx | hx
        · exact blanks_space _ x hx
        · exact hsp x hx
      rw [this]; exact hn
    · obtain ⟨h1, h2⟩ := strip_head_last (s ++ (blanks (15 - s.length) ++ P.take 5))
      refine not_numberText h1 h2 (x := ' ') ?_ (by decide)
      -- the text between the label and the porosity stays
      have hpre : lstrip (s ++ (blanks (15 - s.length) ++ P.take 5)) =
          s ++ (blanks (15 - s.length) ++ P.take 5) := by
        apply lstrip_eq_self
        intro x hx
        have := (strip_head_last s).1
        rw [hs2] at this
        apply this
        cases s with
        | nil => exact absurd rfl hs0
        | cons y ys => simpa using hx
      unfold strip
      rw [hpre]
      unfold rstrip
      rw [List.mem_reverse, List.reverse_append, List.reverse_append, List.append_assoc]
      have hdw : (P.take 5).reverse.dropWhile isSpace ≠ [] := by
        rw [Ne, dropWhile_nil_iff]
        intro hall
        exact hsp fun x hx => hall x (by simpa using hx)
      rw [List.dropWhile_append]
      split
      · rename_i he
        exact absurd (by simpa using he) hdw
      · refine List.mem_append_right _ (List.mem_append_left _ ?_)
        have : 0 < 15 - s.length := by omega
        simp [blanks]; omega
  | none => exact hk.elim
  | bool _ => exact hk.elim
  | int _ => exact hk.elim
  | flt _ => exact hk.elim

theorem detect_incon {L : ℕ} {k : Val} {c : Incon} (hL : 5 ≤ L ∧ L ≤ 9) (hk : NameFits L k)
    (h : InconFits c) (hd : Detectable L k []) :
    labelLength none (lineOf (inconFmt L) (inconVals k c)) = L := by
  have hf := allFit_incon hk h
  obtain ⟨-, -, hw, -⟩ := formatFor_incon hL
  refine detect_line hL hf hw ?_
  cases k with
  | str s =>
    refine ⟨hd.1, hd.2.1, ?_⟩
    intro c hc
    rw [fieldOf_none (by simp [Fits])] at hc
    obtain ⟨m, hm⟩ : ∃ m, (elemWidths L).1 = m + 1 := ⟨(elemWidths L).1 - 1, by omega⟩
    simp [hm, blanks, List.replicate_succ] at hc
    subst hc; decide
  | none => exact hd.elim
  | bool _ => exact hd.elim
  | int _ => exact hd.elim
  | flt _ => exact hd.elim

/-- One turn over the lines of an initial condition. -/
theorem inconStep_lines {L : ℕ} (hL : 5 ≤ L ∧ L ≤ 9) (acc : Table Incon) (two : Bool)
    (e : Val × Incon) (l : List (Val × Incon)) {stop : Str} (hs : stopsRows stop = true) (rest : List Str)
    (he : NameFits L e.1 ∧ InconLabel e.1 ∧ InconFits e.2)
    (hl : ∀ e ∈ l, NameFits L e.1 ∧ InconLabel e.1 ∧ InconFits e.2)
    (htwo : two = false → (e.2.values.getD []).length ≤ 4)
    (hlong : ∀ b ∈ l, 4 < (b.2.values.getD []).length → 4 < (e.2.values.getD []).length) :
    ∃ two', (two' = false → ∀ b ∈ l, (b.2.values.getD []).length ≤ 4) ∧
      inconStep (formatFor Fmt.incon L) (acc, two)
          (inconLines L e ++ (l.flatMap (inconLines L) ++ stop :: rest)) =
        .ok (.more (addRow acc e.1 (inconBack e.2), two'),
          l.flatMap (inconLines L) ++ stop :: rest) := by
  obtain ⟨hk, hlab, hfit⟩ := he
  have a1 := allFit_incon hk hfit
  have hb : isBlank (lineOf (inconFmt L) (inconVals e.1 e.2)) = false :=
    isBlank_lineOf a1 (t := sCol L) (v := e.1) (by simp [inconFmt, inconVals]) (visible_name hk)
  have hst : ∀ k c, NameFits L k → InconLabel k → InconFits c →
      startsPlus (lineOf (inconFmt L) (inconVals k c)) = false := fun k c h1 h2 h3 =>
    startsPlus_line (by omega) h1 h2.2 (lineOf_eq (allFit_incon h1 h3))
  have r1 : readRecord (inconFmt L) (lineOf (inconFmt L) (inconVals e.1 e.2)) =
      .ok (e.1 :: .none :: .none :: num 9 e.2.porosity :: ((e.2.userx.getD []).map (num 3) ++
        List.replicate (5 - (e.2.userx.getD []).length) .none)) := by
    rw [readRecord_lineOf (formatFor_incon hL).2.1 a1, storedAll_incon hk hfit]
  have hu := userxOf_eq (k := e.1) hfit
  have hplus := hst e.1 e.2 hk hlab hfit
  obtain ⟨-, -, -, -, -, ⟨h2, h3⟩, h4⟩ := hfit
  have r2 := readRecord_indom0 (c := (e.2.values.getD []).take 4) (by simp)
    fun v hv => h3 v (List.mem_of_mem_take hv)
  have r3 := readRecord_indom0 (c := (e.2.values.getD []).drop 4) (by simp; omega)
    fun v hv => h3 v (List.mem_of_mem_drop hv)
  have i0 : Fmt.indom0 = Fmt.incon0 := rfl
  rw [i0] at r2 r3
  have e0 : ∀ a b c d r, entry (a :: b :: c :: d :: r) 0 = a := fun _ _ _ _ _ => rfl
  have e3 : ∀ a b c d r, entry (a :: b :: c :: d :: r) 3 = d := fun _ _ _ _ _ => rfl
  have hback : ∀ vs, vs = initBack (e.2.values.getD []) →
      (⟨num 9 e.2.porosity, (inconBack e.2).userx, some vs⟩ : Incon) = inconBack e.2 := by
    rintro vs rfl; rfl
  unfold inconStep
  rw [show inconLines L e = lineOf (inconFmt L) (inconVals e.1 e.2) ::
    lineOf Fmt.incon0 ((e.2.values.getD []).take 4) ::
    (if 4 < (e.2.values.getD []).length then [lineOf Fmt.incon0 ((e.2.values.getD []).drop 4)]
      else []) from rfl]
  by_cases h : 4 < (e.2.values.getD []).length
  · have htt : two = true := by
      cases two with
      | true => rfl
      | false => exact absurd (htwo rfl) (by omega)
    subst htt
    refine ⟨true, by simp, ?_⟩
    have hb3 : isBlank (lineOf Fmt.incon0 ((e.2.values.getD []).drop 4)) = false :=
      isBlank_numbers (n := 4) (by simp; omega) (fun v hv => h3 v (List.mem_of_mem_drop hv)) (h4 h)
    have hp3 : startsPlus (lineOf Fmt.incon0 ((e.2.values.getD []).drop 4)) = false := by
      apply startsPlus_third
      · intro hc
        have := congrArg List.length hc
        simp at this; omega
      · exact fun v hv => h3 v (List.mem_of_mem_drop hv)
    simp only [h, if_true, List.cons_append, List.nil_append, next_cons, ok_bind, hb, stopsRows,
      hplus, Bool.or_self, (formatFor_incon hL).1,
      Bool.false_eq_true, if_false, r1, r2, e0, e3, readThird, hb3, hp3, r3, hu]
    rw [prune_two 13 4 _ h2 h]
    rfl
  · have hle : (e.2.values.getD []).length ≤ 4 := by omega
    have hshort : ∀ b ∈ l, (b.2.values.getD []).length ≤ 4 := fun b hb => by
      by_contra hc
      exact h (hlong b hb (by omega))
    simp only [h, if_false, List.cons_append, List.nil_append, next_cons, ok_bind, hb, stopsRows,
      hplus, Bool.or_self, (formatFor_incon hL).1,
      Bool.false_eq_true, r1, r2, e0, e3, hu]
    have hthird : ∃ two', readThird Fmt.incon0 stopsRows two
        (l.flatMap (inconLines L) ++ stop :: rest) =
        .ok ([], two', l.flatMap (inconLines L) ++ stop :: rest) := by
      cases two with
      | false => exact ⟨false, by simp [readThird]⟩
      | true =>
        cases l with
        | nil => exact ⟨true, by simp [readThird, hs]⟩
        | cons b l =>
          obtain ⟨g1, g2, g3⟩ := hl b (by simp)
          have hbb : isBlank (lineOf (inconFmt L) (inconVals b.1 b.2)) = false :=
            isBlank_lineOf (allFit_incon g1 g3) (t := sCol L) (v := b.1)
              (by simp [inconFmt, inconVals]) (visible_name g1)
          have hv := readRecord_label hL g1 g2.1 g3
          exact ⟨false, by simp [readThird, inconLines, stopsRows, hbb, hst b.1 b.2 g1 g2 g3, hv]⟩
    obtain ⟨two', ht⟩ := hthird
    refine ⟨two', fun _ => hshort, ?_⟩
    have ht' : readThird Fmt.incon0 (fun line => isBlank line || startsPlus line) two
        (l.flatMap (inconLines L) ++ stop :: rest) =
        .ok ([], two', l.flatMap (inconLines L) ++ stop :: rest) := ht
    first
      | rw [ht, ok_bind]
      | rw [ht', ok_bind]
    simp only [List.append_nil]
    rw [prune_one 13 4 _ hle]
    rfl

theorem loop_incon {L : ℕ} (hL : 5 ≤ L ∧ L ≤ 9) (l : List (Val × Incon)) (acc : Table Incon)
    (two : Bool) {stop : Str} (hs : stopsRows stop = true) (rest : List Str)
    (hl : ∀ e ∈ l, NameFits L e.1 ∧ InconLabel e.1 ∧ InconFits e.2)
    (hp : LongEntriesFirst l) (htwo : two = false → ∀ b ∈ l, (b.2.values.getD []).length ≤ 4) :
    ∃ two', loop (inconStep (formatFor Fmt.incon L)) (l.length + 1) (acc, two)
        (l.flatMap (inconLines L) ++ stop :: rest) =
      .ok ((l.foldl (fun s x => addRow s x.1 (inconBack x.2)) acc, two'), rest) := by
  induction l generalizing acc two with
  | nil => exact ⟨two, by simp [loop, inconStep, hs]⟩
  | cons e l ih =>
    obtain ⟨hp1, hp2⟩ := List.pairwise_cons.1 hp
    obtain ⟨t, ht1, ht2⟩ := inconStep_lines hL acc two e l hs rest (hl e (by simp))
      (fun x hx => hl x (by simp [hx])) (fun h => htwo h e (by simp)) hp1
    obtain ⟨t', h'⟩ := ih (addRow acc e.1 (inconBack e.2)) t (fun x hx => hl x (by simp [hx])) hp2 ht1
    refine ⟨t', ?_⟩
    rw [List.length_cons, loop, List.flatMap_cons, List.append_assoc, ht2]
    simp only [h', List.foldl_cons]

end Verif.Model
