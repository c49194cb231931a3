import Verif.Lemmas.Cut
import Verif.Props.File

/-! # C86: files that cannot be read -/

namespace Verif.Props
open Verif.Py Verif.Model Verif.Spec

/-! ## Records -/

/-- C86. A record is refused just if the text in some column of numbers is no number. -/
theorem C86_record (fmt : List Tok) (line : Str) (e : PyErr) : readRecord fmt line = .error e ↔
    e = .valueError ∧ ∃ i t, fmt[i]? = some t ∧ BadField t (slice line (column fmt i) t.w) := by
  have h := readFrom_error line 0 fmt e
  simp only [Nat.zero_add] at h
  exact h

example : readRecord Fmt.times1 "    x    2".toList = .error .valueError ∧
    BadField ⟨.d, 5, 0⟩ (slice "    x    2".toList (column Fmt.times1 0) 5) ∧
    ¬ BadField ⟨.e, 10, 4⟩ "1.2345-123".toList ∧ BadField ⟨.e, 10, 4⟩ "1.2345-12".toList ∧
    ¬ BadField ⟨.s, 5, 0⟩ "ROCK1".toList := by decide +kernel

/-! ## Blocks -/

/-- C86. What follows a block does not matter: it is read in the same way and left. -/
theorem C86_more (given : Option ℕ) (s s' : FileRead) (line : Str) (ls rest b : List Str)
    (h : dispatch given s line ls = .ok (s', rest)) : dispatch given s line (ls ++ b) = .ok (s', rest ++ b) := by
  have hp := pr_dispatch (b := b) given s line ls
  rw [h] at hp
  rcases hp with hp | hp
  · cases hp
  · exact hp

example : dispatch none FileRead.empty "TIMES".toList ["    1".toList, "      10.0".toList] =
    .ok ({ FileRead.empty with times := some (.one (.flt (.fin false 10))) }, []) := by decide +kernel

/-- C86. An error other than the end of the file stays whatever follows. -/
theorem C86_block_error (given : Option ℕ) (s : FileRead) (line : Str) (ls b : List Str) (e : PyErr) (he : e ≠ .stopIteration)
    (h : dispatch given s line ls = .error e) : dispatch given s line (ls ++ b) = .error e := by
  have hp := pr_dispatch (b := b) given s line ls
  rw [h] at hp
  rcases hp with hp | hp
  · cases hp
    exact absurd rfl he
  · exact hp

example : dispatch none FileRead.empty "TIMES".toList ["    x".toList] = .error .valueError := by decide +kernel

/-- C86. A block that is cut before its last line is refused with the end of the file. -/
theorem C86_block_cut (given : Option ℕ) (s s' : FileRead) (line : Str) (a b rest : List Str)
    (h : dispatch given s line (a ++ b) = .ok (s', rest)) (hr : rest.length < b.length) :
    dispatch given s line a = .error .stopIteration := by
  rcases pr_dispatch (b := b) given s line a with hp | hp
  · exact hp
  · rw [h] at hp
    cases hd : dispatch given s line a with
    | error e =>
      rw [hd] at hp
      cases hp
    | ok x =>
      rw [hd] at hp
      cases hp
      rw [List.length_append] at hr
      omega

example : let lines := ["A1111          ROCK1    1.0000\n".toList, "A1112          ROCK1    1.0000\n".toList, "\n".toList]
    (∃ s', dispatch none FileRead.empty "ELEME".toList (lines.take 1 ++ lines.drop 1) = .ok (s', [])) ∧
      ([] : List Str).length < (lines.drop 1).length := by
  refine ⟨⟨{ FileRead.empty with
    elements := some ([(.str "A1111".toList, ⟨.none, .none, .str "ROCK1".toList, .flt (.fin false 1), .none, .none, .list [.none, .none, .none]⟩),
      (.str "A1112".toList, ⟨.none, .none, .str "ROCK1".toList, .flt (.fin false 1), .none, .none, .list [.none, .none, .none]⟩)],
      [.str "A1111".toList, .str "A1112".toList]), coordinates := some false }, ?_⟩, by decide⟩
  decide +kernel

/-! ## Files -/

/-- C86. An error other than the end of the file stays whatever follows. -/
theorem C86_error (given : Option ℕ) (a b : List Str) (e : PyErr) (h : readFile given a = .error e)
    (h1 : e ≠ .stopIteration) (h2 : e ≠ .diverges) : readFile given (a ++ b) = .error e := by
  unfold readFile at h ⊢
  split at h
  · rename_i hg
    rw [if_pos hg]
    unfold readBuffer at h ⊢
    cases ht : readTitle a with
    | error e' =>
      rw [ht] at h
      cases h
      exact absurd (readTitle_error ht) h2
    | ok t =>
      rw [readTitle_append ht, ok_bind]
      rw [ht, ok_bind] at h
      rcases ends given b (a.length + 1) { FileRead.empty with title := t } a (by omega) with h' | ⟨e', h', h''⟩ | ⟨s, h', -⟩ | ⟨s, rest, h', -⟩
      · rw [h'] at h
        cases h
        exact absurd rfl h1
      · rw [h'] at h
        cases h
        rw [h'']
        rfl
      · rw [h'] at h
        cases h
      · rw [h'] at h
        cases h
  · rename_i hg
    rw [if_neg hg]
    exact h

example : readFile none ["Title\n".toList, "ROCKS\n".toList, "ROCK1   x\n".toList] = .error .valueError := by decide +kernel

/-- C86. A file that can be read and is cut anywhere after its title is read, or
refused with the end of the file. -/
theorem C86_cut (given : Option ℕ) (a b : List Str) (x : FileRead) (ht : Untitled a ∨ HasRocks a)
    (h : readFile given (a ++ b) = .ok x) : readFile given a = .error .stopIteration ∨ ∃ y, readFile given a = .ok y := by
  have hg : ∀ n ∈ given, 5 ≤ n ∧ n < 10 := by
    intro n hn
    cases hn
    by_contra hc
    unfold readFile at h
    rw [if_neg (by simpa using hc)] at h
    cases h
  cases ha : readFile given a with
  | ok y => exact .inr ⟨y, rfl⟩
  | error e =>
    left
    by_cases h1 : e = .stopIteration
    · rw [h1]
    · by_cases h2 : e = .diverges
      · exact absurd (h2 ▸ ha) (C08_partial given hg a ht)
      · rw [C86_error given a b e ha h1 h2] at h
        cases h

example : let file := ["Title\n".toList, "ROCKS\n".toList, "ROCK1\n".toList, "\n".toList, "FOFT\n".toList, "A1111\n".toList, "\n".toList]
    HasRocks (file.take 4) ∧ (∃ x, readFile none (file.take 4 ++ file.drop 4) = .ok x) ∧
      readFile none (file.take 3) = .error .stopIteration ∧ readFile none (file.take 4) ≠ .error .stopIteration ∧
      readFile none (file.take 6) = .error .stopIteration := by
  refine ⟨⟨"ROCKS\n".toList, by decide +kernel, by decide +kernel⟩, ⟨{ FileRead.empty with
    title := some (.one "Title".toList), rocks := some ([(.str "ROCK1".toList, Rock.empty)], [.str "ROCK1".toList]), elementHistory := some ["A1111".toList] }, ?_⟩, ?_⟩ <;> decide +kernel

/-- C86. What comes after ENDCY is ignored: behind a file that is read, an ENDCY
line and any lines change nothing. -/
theorem C86_ended (given : Option ℕ) (a b : List Str) (line : Str) (x : FileRead) (hl : startsWith line "ENDCY".toList = true)
    (h : readFile given a = .ok x) : readFile given (a ++ line :: b) = .ok x := by
  unfold readFile at h ⊢
  split at h
  · rename_i hg
    rw [if_pos hg]
    unfold readBuffer at h ⊢
    obtain ⟨t, ht, h⟩ := bind_eq_ok.mp h
    rw [readTitle_append ht, ok_bind]
    rcases ends given (line :: b) (a.length + 1) { FileRead.empty with title := t } a (by omega) with h' | ⟨e', h', -⟩ | ⟨s, h', h''⟩ | ⟨s, rest, h', h''⟩
    · rw [h'] at h
      cases h
    · rw [h'] at h
      cases h
    · rw [h''.while, while_endcy hl]
      rw [h'] at h
      exact h
    · rw [h'']
      rw [h'] at h
      exact h
  · cases h

example : readFile none ["Title\n".toList, "ROCKS\n".toList, "\n".toList, "NOVER\n".toList] =
    .ok { FileRead.empty with title := some (.one "Title".toList), rocks := some ([], []), nover := some true } := by decide +kernel

/-- C86. A file that ends inside a block, after blocks that can be read, is
refused with the end of the file. -/
theorem C86_cut_in_block (given : Option ℕ) (file : List Str) (t : Option Title) (s s' : FileRead) (line : Str) (a b rest : List Str)
    (hg : ∀ n ∈ given, 5 ≤ n ∧ n < 10) (ht : readTitle file = .ok t)
    (hr : Reaches given { FileRead.empty with title := t } file s (line :: a)) (he : startsWith line "ENDCY".toList = false)
    (h : dispatch given s line (a ++ b) = .ok (s', rest)) (hl : rest.length < b.length) :
    readFile given file = .error .stopIteration := by
  have hd := C86_block_cut given s s' line a b rest h hl
  have hgiven : (given.all fun n => decide (5 ≤ n ∧ n < 10)) = true := by
    cases given with
    | none => rfl
    | some n => simpa using hg n rfl
  rw [readFile, if_pos hgiven, readBuffer, ht, ok_bind, (runs_of_reaches hr).while, while_bad he hd]
  rfl

example : Reaches none { FileRead.empty with title := some (.one "Title".toList) }
      ["Title\n".toList, "ROCKS\n".toList, "\n".toList, "FOFT\n".toList, "A1111\n".toList]
      { FileRead.empty with title := some (.one "Title".toList), rocks := some ([], []) } ["FOFT\n".toList, "A1111\n".toList] ∧
    dispatch none { FileRead.empty with title := some (.one "Title".toList), rocks := some ([], []) } "FOFT\n".toList
      (["A1111\n".toList] ++ ["\n".toList]) = .ok ({ FileRead.empty with
        title := some (.one "Title".toList), rocks := some ([], []), elementHistory := some ["A1111".toList] }, []) := by
  refine ⟨.block (by decide +kernel) (s' := { FileRead.empty with title := some (.one "Title".toList) })
    (ls' := ["ROCKS\n".toList, "\n".toList, "FOFT\n".toList, "A1111\n".toList]) ?_
    (.block (by decide +kernel) ?_ (.here _ _)), ?_⟩ <;> decide +kernel

/-- C86. If all blocks can be read up to the end of the file, or up to ENDCY, the
file is read. -/
theorem C86_reached (given : Option ℕ) (file : List Str) (t : Option Title) (s : FileRead) (rest : List Str)
    (hg : ∀ n ∈ given, 5 ≤ n ∧ n < 10) (ht : readTitle file = .ok t)
    (hr : Reaches given { FileRead.empty with title := t } file s rest)
    (he : ∀ line ∈ rest.head?, startsWith line "ENDCY".toList = true) : readFile given file = .ok s := by
  have hgiven : (given.all fun n => decide (5 ≤ n ∧ n < 10)) = true := by
    cases given with
    | none => rfl
    | some n => simpa using hg n rfl
  rw [readFile, if_pos hgiven, readBuffer, ht, ok_bind, (runs_of_reaches hr).while]
  cases rest with
  | nil => rfl
  | cons line rest =>
    rw [while_endcy (he line rfl)]
    rfl

/-! ## Entries that must not be missing -/

/-- C86. TIMES without the number of times. -/
theorem C86_times (line : Str) (ls : List Str) (d : List Val) (h : readRecord Fmt.times1 line = .ok d) (hd : entry d 0 = .none) :
    readTimes (line :: ls) = .error .typeError := by
  unfold readTimes
  simp only [next, ok_bind, h, hd]

/-- C86. SELEC without the number of lines. -/
theorem C86_selec (line : Str) (ls : List Str) (d : List Val) (h : readRecord Fmt.selec1 line = .ok d) (hd : entry d 0 = .none) :
    readSelec (line :: ls) = .error .keyError := by
  unfold readSelec
  simp only [next, ok_bind, h, hd]
  rfl

/-- C86. PARAM with a first line that ends before the options, or without a time step. -/
theorem C86_param (line line2 : Str) (ls : List Str) (d d2 : List Val) (h : readRecord Fmt.param1 line = .ok d)
    (h2 : readRecord Fmt.param2 line2 = .ok d2) :
    (entry d 5 = .none → readParam (line :: line2 :: ls) = .error .typeError) ∧
      (∀ s, entry d 5 = .str s → entry d2 2 = .none → readParam (line :: line2 :: ls) = .error .typeError) := by
  constructor
  · intro hd
    unfold readParam
    simp only [next, ok_bind, h, hd]
    rfl
  · intro s hd hd2
    unfold readParam
    simp only [next, ok_bind, h, hd]
    simp only [readDigits, ok_bind, h2, hd2]
    rfl

/-- C86. A variable of OUTPU without a name. -/
theorem C86_outpu (n : Str) (line : Str) (ls : List Str) (d : List Val) (hn : strIsDigit (strip n) = true) (hn0 : digVal (strip n) ≠ 0)
    (h : readRecord Fmt.outpu3 line = .ok d) (hd : entry d 0 = .none) : readOutpu (n :: line :: ls) = .error .attributeError := by
  obtain ⟨k, hk⟩ : ∃ k, digVal (strip n) = k + 1 := ⟨_, (Nat.succ_pred_eq_of_ne_zero hn0).symm⟩
  unfold readOutpu readFormat
  simp only [next, ok_bind]
  rw [if_neg (by rw [hn]; rintro ⟨-, h⟩; cases h)]
  simp only [ok_bind]
  rw [if_pos hn, hk, outpuVars, outpuVar]
  simp only [next, ok_bind, h, hd]
  rfl

example : readRecord Fmt.times1 "        2".toList = .ok [.none, .int 2, .none, .none] ∧
    readTimes ["        2".toList] = .error .typeError ∧
    readRecord Fmt.selec1 "        2".toList = .ok (.none :: .int 2 :: List.replicate 14 .none) ∧
    readSelec ["        2".toList] = .error .keyError ∧
    readParam ["   2\n".toList, "\n".toList] = .error .typeError ∧
    readParam ["                123\n".toList, "       1.0\n".toList] = .error .typeError ∧
    readOutpu ["1\n".toList, "                        1\n".toList] = .error .attributeError := by decide +kernel

/-- C86. An element without material. -/
theorem C86_eleme (given : Option ℕ) (line : Str) (ls : List Str) (fmt : List Tok) (d : List Val) (hb : isBlank line = false)
    (hf : formatFor Fmt.eleme (labelLength given line) = .ok fmt) (h : readRecord fmt line = .ok d) (hd : entry d 3 = .none) :
    readEleme given (line :: ls) = .error .attributeError := by
  unfold readEleme
  simp only [next, ok_bind, whileTrue]
  rw [loop, elemeStep]
  simp only [next, ok_bind, hb, hf, h, elemOf, hd]
  rfl

example : readEleme none ["A1111                   1.0000\n".toList, "\n".toList] = .error .attributeError := by decide +kernel

/-- C86. INDOM with a rock that ROCKS does not have. -/
theorem C86_indom (given : Option ℕ) (s : FileRead) (ls rest : List Str) (d : List (Val × List Val)) (k : Val) (ic : List Val)
    (h : readIndom ls = .ok (d, rest)) (hk : (k, ic) ∈ d) (hr : ∀ rocks ∈ s.rocks, k ∉ rocks.1.map (·.1)) :
    dispatch given s "INDOM".toList ls = .error .keyError := by
  show caseIndom s ls = _
  rw [caseIndom, h, ok_bind]
  cases d with
  | nil => cases hk
  | cons e d =>
    cases hs : s.rocks with
    | none => rfl
    | some rocks =>
      show (indomUpdate (some rocks) (e :: d) >>= _) = _
      unfold indomUpdate getKey
      simp only [ok_bind]
      rw [updateRows_missing addInit ⟨(k, ic), hk, hr rocks hs⟩]
      rfl

example : readIndom ["ROCK2\n".toList, "               1.0E5\n".toList, "\n".toList] =
      .ok ([(.str "ROCK2".toList, [.flt (.fin false 100000)])], []) ∧
    dispatch none { FileRead.empty with rocks := some ([(.str "ROCK1".toList, Rock.empty)], [.str "ROCK1".toList]) } "INDOM".toList
      ["ROCK2\n".toList, "               1.0E5\n".toList, "\n".toList] = .error .keyError := by decide +kernel

/-- C86. FLAC before ROCKS, COORD before ELEME. -/
theorem C86_before (given : Option ℕ) (s : FileRead) (ls : List Str) :
    (s.rocks = none → dispatch given s "FLAC".toList ls = .error .keyError) ∧
      (∀ cs rest, s.elements = none → readCoord ls = .ok (cs, rest) → dispatch given s "COORD".toList ls = .error .keyError) := by
  constructor
  · intro h
    show caseFlac s ls = _
    rw [caseFlac, h]
    rfl
  · intro cs rest h hc
    show caseCoord s ls = _
    rw [caseCoord, h, hc]
    rfl

example : readCoord ["\n".toList] = .ok ([], []) ∧ FileRead.empty.elements = none ∧ FileRead.empty.rocks = none := by decide +kernel

end Verif.Props
