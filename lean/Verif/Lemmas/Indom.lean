import Verif.Lemmas.Opts
import Verif.Lemmas.Chunks
import Verif.Spec.Selec

/-! Helper lemmas for SELEC and INDOM. -/

set_option linter.unusedSimpArgs false

namespace Verif.Model
open Verif.Py Verif.Spec

theorem fits_int5 {v : Val} (h : Int5 v) : Fits (dCol 5) v := by
  cases v <;> simp_all [Int5]
  decide

theorem stored_int5 {v : Val} (h : Int5 v) : stored (dCol 5) v = v := by
  cases v <;> simp_all [Int5, stored]

/-- The first line of SELEC. -/
theorem selec1_line {vs : List Val} (hl : vs.length = 16) (h : ∀ v ∈ vs, Int5 v) :
    AllFit Fmt.selec1 vs ∧ readRecord Fmt.selec1 (lineOf Fmt.selec1 vs) = .ok vs := by
  have hf : AllFit Fmt.selec1 vs := allFit_replicate 16 (dCol 5) vs fun v hv => fits_int5 (h v hv)
  refine ⟨hf, ?_⟩
  rw [readRecord_lineOf (by decide) hf]
  show Except.ok (storedAll (List.replicate 16 (dCol 5)) vs) = _
  rw [storedAll_replicate 16 (dCol 5) vs (by omega), hl]
  congr 1
  rw [show 16 - 16 = 0 from rfl, List.replicate_zero, List.append_nil]
  conv_rhs => rw [← List.map_id vs]
  exact List.map_congr_left fun v hv => stored_int5 (h v hv)

theorem zipIdx_range (n : ℕ) (f : ℕ → Val) :
    (((List.range n).map f).zipIdx.map fun p : Val × ℕ => ((p.2 : ℤ) + 1, p.1)) =
      (List.range n).map fun k : ℕ => ((k : ℤ) + 1, f k) := by
  apply List.ext_getElem
  · simp
  · intro i h1 h2
    simp

theorem int5_valueAt {d : List (ℤ × Val)} (h : IntsOk d) (j : ℤ) : Int5 (valueAt d j) := by
  unfold valueAt
  cases hl : d.lookup j with
  | none => trivial
  | some v =>
    obtain ⟨l1, l2, rfl, -⟩ := List.lookup_eq_some_iff.1 hl
    exact (h.2 (j, v) (by simp)).2.2

theorem valueAt_filter (d : List (ℤ × Val)) (v : Val) (j : ℤ) :
    valueAt ((1, v) :: d.filter (·.1 ≠ 1)) j = if j = 1 then v else valueAt d j := by
  unfold valueAt
  by_cases h : j = 1
  · simp [List.lookup, h]
  · rw [if_neg h, List.lookup_cons, show (j == 1) = false by simpa using h]
    simp only
    congr 1
    induction d with
    | nil => rfl
    | cons e d ih =>
      rw [List.filter_cons]
      by_cases he : e.1 = 1
      · rw [if_neg (by simp [he]), ih, List.lookup_cons]
        rw [show (j == e.1) = false by simp [he, h]]
      · rw [if_pos (by simp [he]), List.lookup_cons, List.lookup_cons, ih]

theorem fits_count {n : ℕ} (h : n < 10 ^ 5) : Int5 (.int n) := by
  show (intStr n).length ≤ 5 ∧ (n : ℤ).natAbs < 10 ^ 6
  refine ⟨?_, by simp; omega⟩
  have h1 : (intStr n).length = numDigits n := by simp [intStr, natStr]
  rw [h1, numDigits]
  by_cases h0 : n = 0
  · subst h0; decide
  · have := Nat.log_lt_of_lt_pow h0 h
    omega

/-- The line of a name that stands alone. -/
theorem strip_take_name {s : Str} (h : NameFits 5 (.str s)) :
    strip ((lineOf Fmt.indom5 [.str s]).take 20) = s := by
  obtain ⟨h1, h2, h3⟩ := h
  have hf : AllFit Fmt.indom5 [.str s] := ⟨⟨h2, h3⟩, trivial⟩
  rw [lineOf_eq hf]
  have : (List.flatMap (fun p => fieldOf p.1 p.2) (Fmt.indom5.zip [.str s])) = padRight 5 s := by
    simp [Fmt.indom5, fieldOf, toStr, List.take_of_length_le h2]
  rw [this]
  have hlen : (padRight 5 s).length = 5 := by rw [padRight_length]; omega
  have : (recLine (padRight 5 s)).take 20 = s ++ (blanks (5 - s.length) ++ blanks 15) := by
    have e : recLine (padRight 5 s) = (s ++ (blanks (5 - s.length) ++ blanks 15)) ++
        (blanks 60 ++ ['\n']) := by
      unfold recLine
      rw [padRight, hlen]
      have : blanks (80 - 5) = blanks 15 ++ blanks 60 := by decide
      rw [this]
      simp [padRight]
    rw [e, List.take_append_of_le_length (by simp; omega), List.take_of_length_le (by simp; omega)]
  rw [this, strip_append_spaces, h3]
  intro c hc
  rcases List.mem_append.1 hc with hc | hc <;> exact blanks_space _ c hc

/-- The lines of one rock in INDOM. -/
def indomLines (e : Val × List Val) : List Str :=
  lineOf Fmt.indom5 [e.1] :: lineOf Fmt.indom0 (e.2.take 4) ::
    (if 4 < e.2.length then [lineOf Fmt.indom0 (e.2.drop 4)] else [])

theorem readRecord_indom0 {c : List Val} (hl : c.length ≤ 4) (hf : ∀ v ∈ c, Fits (eCol 20 13) v) :
    readRecord Fmt.indom0 (lineOf Fmt.indom0 c) =
      .ok (c.map (num 13) ++ List.replicate (4 - c.length) .none) :=
  readRow 4 (by decide) hl hf

theorem isBlank_numbers {n w p : ℕ} {c : List Val} (hl : c.length ≤ n)
    (hf : ∀ v ∈ c, Fits (eCol w p) v) (h : ∃ v ∈ c, IsNumber v) :
    isBlank (lineOf (List.replicate n (eCol w p)) c) = false := by
  obtain ⟨v, hv, hne⟩ := h
  refine isBlank_lineOf (t := eCol w p) (v := v) (allFit_replicate n _ _ hf) ?_ ?_
  · obtain ⟨i, hi, rfl⟩ := List.getElem_of_mem hv
    rw [List.mem_iff_getElem]
    refine ⟨i, by simp; omega, by simp⟩
  · cases v <;> simp_all [IsNumber, Visible]

theorem writeIndomRock_eq {e : Val × List Val} (h : IndomFits e) (hany : e.2.any (· ≠ .none) = true) :
    writeIndomRock e.1 (some e.2) = .ok (indomLines e) := by
  obtain ⟨h1, -, h2, -⟩ := h
  have a1 : AllFit Fmt.indom5 [e.1] := ⟨fits_name h1, trivial⟩
  have a2 : AllFit Fmt.indom0 (e.2.take 4) :=
    allFit_replicate 4 (eCol 20 13) _ fun v hv => h2.2 v (List.mem_of_mem_take hv)
  have a3 : AllFit Fmt.indom0 (e.2.drop 4) :=
    allFit_replicate 4 (eCol 20 13) _ fun v hv => h2.2 v (List.mem_of_mem_drop hv)
  unfold writeIndomRock indomLines
  simp only [hany, if_true, writeRecord_eq a1, writeRecord_eq a2, writeRecord_eq a3, ok_bind]
  by_cases h : 4 < e.2.length <;> simp [h]

/-- What ends the lines of a list of rocks: nothing that could be a third record. -/
theorem indomStep_lines (acc : List (Val × List Val)) (two : Bool) (e : Val × List Val)
    (l : List (Val × List Val)) (rest : List Str) (he : IndomFits e) (hl : ∀ e ∈ l, IndomFits e)
    (htwo : two = false → e.2.length ≤ 4) (hlong : ∀ b ∈ l, 4 < b.2.length → 4 < e.2.length) :
    ∃ two', (two' = false → ∀ b ∈ l, b.2.length ≤ 4) ∧
      indomStep (acc, two) (indomLines e ++ (l.flatMap indomLines ++ ['\n'] :: rest)) =
        .ok (.more (dictSet acc e.1 (initBack e.2), two'), l.flatMap indomLines ++ ['\n'] :: rest) := by
  obtain ⟨h1, -, ⟨h2, h3⟩, h4⟩ := he
  have a1 : AllFit Fmt.indom5 [e.1] := ⟨fits_name h1, trivial⟩
  have hb : isBlank (lineOf Fmt.indom5 [e.1]) = false :=
    isBlank_lineOf a1 (t := sCol 5) (v := e.1) (by simp [Fmt.indom5]) (visible_name h1)
  have r1 : readRecord Fmt.indom5 (lineOf Fmt.indom5 [e.1]) = .ok [e.1] := by
    rw [readRecord_lineOf (by decide) a1]
    show Except.ok [stored (sCol 5) e.1] = _
    rw [stored_name h1]
  have r2 := readRecord_indom0 (c := e.2.take 4) (by simp) fun v hv => h3 v (List.mem_of_mem_take hv)
  have r3 := readRecord_indom0 (c := e.2.drop 4) (by simp; omega)
    fun v hv => h3 v (List.mem_of_mem_drop hv)
  have e0 : entry [e.1] 0 = e.1 := rfl
  unfold indomStep
  rw [show indomLines e = lineOf Fmt.indom5 [e.1] :: lineOf Fmt.indom0 (e.2.take 4) ::
    (if 4 < e.2.length then [lineOf Fmt.indom0 (e.2.drop 4)] else []) from rfl]
  by_cases h : 4 < e.2.length
  · have htt : two = true := by
      cases two with
      | true => rfl
      | false => exact absurd (htwo rfl) (by omega)
    subst htt
    refine ⟨true, by simp, ?_⟩
    have hb3 : isBlank (lineOf Fmt.indom0 (e.2.drop 4)) = false :=
      isBlank_numbers (by simp; omega) (fun v hv => h3 v (List.mem_of_mem_drop hv)) (h4 h)
    simp only [h, if_true, List.cons_append, List.nil_append, next_cons, ok_bind, hb,
      Bool.false_eq_true, if_false, r1, r2, e0, readThird, hb3, r3]
    rw [prune_two 13 4 _ h2 h]
    rfl
  · have hle : e.2.length ≤ 4 := by omega
    have hshort : ∀ b ∈ l, b.2.length ≤ 4 := fun b hb => by
      by_contra hc
      exact h (hlong b hb (by omega))
    simp only [h, if_false, List.cons_append, List.nil_append, next_cons, ok_bind, hb,
      Bool.false_eq_true, r1, r2, e0]
    have hthird : ∃ two', readThird Fmt.indom0 isBlank two (l.flatMap indomLines ++ ['\n'] :: rest) =
        .ok ([], two', l.flatMap indomLines ++ ['\n'] :: rest) := by
      cases two with
      | false => exact ⟨false, by simp [readThird]⟩
      | true =>
        cases l with
        | nil => exact ⟨true, by simp [readThird, isBlank_newline]⟩
        | cons b l =>
          obtain ⟨g1, g2, -, -⟩ := hl b (by simp)
          have b1 : AllFit Fmt.indom5 [b.1] := ⟨fits_name g1, trivial⟩
          have hbb : isBlank (lineOf Fmt.indom5 [b.1]) = false :=
            isBlank_lineOf b1 (t := sCol 5) (v := b.1) (by simp [Fmt.indom5]) (visible_name g1)
          have hv : readRecord Fmt.indom0 (lineOf Fmt.indom5 [b.1]) = .error .valueError := by
            obtain ⟨k, ic⟩ := b
            cases k <;> simp only [NameFits] at g1
            rename_i s
            exact readRecord_nonNumber (w := 20) (p := 13) (t := [' ', ' ', ' ']) (by decide)
              (strip_take_name (s := s) g1) g1.1 g2 rfl
          exact ⟨false, by simp [readThird, indomLines, hbb, hv]⟩
    obtain ⟨two', ht⟩ := hthird
    refine ⟨two', fun _ => hshort, ?_⟩
    simp only [ht, ok_bind, List.append_nil]
    rw [prune_one 13 4 _ hle]
    rfl

theorem loop_indom (l : List (Val × List Val)) (acc : List (Val × List Val)) (two : Bool)
    (rest : List Str) (hl : ∀ e ∈ l, IndomFits e) (hp : LongFirst l)
    (htwo : two = false → ∀ b ∈ l, b.2.length ≤ 4) (hn : (acc.map (·.1) ++ l.map (·.1)).Nodup) :
    ∃ two', loop indomStep (l.length + 1) (acc, two) (l.flatMap indomLines ++ ['\n'] :: rest) =
      .ok ((acc ++ l.map (fun e => (e.1, initBack e.2)), two'), rest) := by
  induction l generalizing acc two with
  | nil => exact ⟨two, by simp [loop, indomStep, isBlank_newline]⟩
  | cons e l ih =>
    obtain ⟨hp1, hp2⟩ := List.pairwise_cons.1 hp
    obtain ⟨t, ht1, ht2⟩ := indomStep_lines acc two e l rest (hl e (by simp))
      (fun x hx => hl x (by simp [hx])) (fun h => htwo h e (by simp)) hp1
    have hx : e.1 ∉ acc.map (·.1) := by
      intro h
      have := List.disjoint_of_nodup_append hn h
      simp at this
    obtain ⟨t', h'⟩ := ih (dictSet acc e.1 (initBack e.2)) t (fun x hx => hl x (by simp [hx])) hp2 ht1
      (by simpa [dictSet_of_notMem _ _ _ hx] using hn)
    refine ⟨t', ?_⟩
    rw [dictSet_of_notMem _ _ _ hx] at ht2 h'
    rw [List.length_cons, loop, List.flatMap_cons, List.append_assoc, ht2]
    simp only [h', List.map_cons, List.append_assoc, List.singleton_append]

end Verif.Model
