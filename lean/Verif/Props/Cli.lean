import Verif.Lemmas.Cli

/-!
# Merging files and converting SAVE files (C51, C52)
-/

namespace Verif.Props
open Verif.Py Verif.Model Verif.Spec

/-! ## C51 -/

/-- C51. Which files are accepted: the input file has at least three lines that
count, the MESH file begins with ELEME and the INCON file, if there is one, with
INCON. -/
theorem C51_accepts (s m : Str) (i : Option Str) (ls : List Str) (hs : IsLines s ls) :
    (∃ out, merge (some s) (some m) i = .ok out) ↔
      3 ≤ (ls.filter fun l => Counted l).length ∧ Opens "ELEME" m ∧ ∀ t ∈ i, Opens "INCON" t := by
  have hf : ls.filter isKnownLine = ls.filter fun l => Counted l := by
    apply List.filter_congr
    intro l _
    rw [Bool.eq_iff_iff, isKnownLine_iff, decide_eq_true_eq]
  have open_iff : ∀ (t : Str) (kw : String), kw.toList ≠ [] → '\n' ∉ kw.toList →
      (firstStarts (splitLines t) kw = .ok true ↔ Opens kw t) := by
    intro t kw hk hn
    unfold Opens
    cases ht : splitLines t with
    | nil =>
      have : t = [] := by rw [← splitLines_flatten t, ht]; rfl
      subst this
      simp only [firstStarts, List.take_nil, reduceCtorEq, false_iff]
      exact fun h => hk h.symm
    | cons l rest =>
      have := opens_first ht hn
      rw [firstStarts, ← String.length_toList, ← this]
      simp
  have hE := open_iff m "ELEME" (by decide) (by decide)
  have hI := fun t => open_iff t "INCON" (by decide) (by decide)
  unfold merge
  simp only [splitLines_eq hs, hf]
  by_cases h3 : (ls.filter fun l => Counted l).length < 3
  · rw [if_pos h3]
    constructor
    · rintro ⟨out, h⟩; cases h
    · intro h; omega
  · rw [if_neg h3]
    rw [← hE]
    cases hm : firstStarts (splitLines m) "ELEME" with
    | error e =>
      constructor
      · rintro ⟨out, h⟩; cases h
      · rintro ⟨-, h, -⟩; cases h
    | ok b =>
      cases b with
      | false =>
        constructor
        · rintro ⟨out, h⟩; cases h
        · rintro ⟨-, h, -⟩; cases h
      | true =>
        cases i with
        | none => simp [show 3 ≤ (ls.filter fun l => Counted l).length by omega]; exact ⟨_, rfl⟩
        | some t =>
          simp only [Option.mem_def, Option.some.injEq, forall_eq', ← hI]
          cases ht : firstStarts (splitLines t) "INCON" with
          | error e =>
            constructor
            · rintro ⟨out, h⟩; cases h
            · rintro ⟨-, -, h⟩; cases h
          | ok b =>
            cases b with
            | false =>
              constructor
              · rintro ⟨out, h⟩; cases h
              · rintro ⟨-, -, h⟩; cases h
            | true => exact ⟨fun _ => ⟨by omega, trivial, rfl⟩, fun _ => ⟨_, rfl⟩⟩

example : IsLines "ROCKS\nParam\nendcy\n".toList ["ROCKS\n".toList, "Param\n".toList, "endcy\n".toList] ∧
    Counted "endcy\n".toList ∧ ¬ Counted "start\n".toList := by decide +kernel

/-- C51. Files that do not exist are refused. -/
theorem C51_missing (i : Option Str) (s m : Option Str) (h : s = none ∨ m = none) :
    merge s m i = .error .valueError := by
  rcases h with rfl | rfl
  · rfl
  · cases s <;> rfl

theorem merge_text {s m out : Str} {i : Option Str} (h : merge (some s) (some m) i = .ok out) :
    out = ((splitLines s).take (endIndex (splitLines s))).flatten ++ m ++ i.getD [] ++
      ((splitLines s).drop (endIndex (splitLines s))).flatten := by
  unfold merge at h
  simp only at h
  split at h
  · cases h
  · cases hm : firstStarts (splitLines m) "ELEME" with
    | error e => rw [hm] at h; cases h
    | ok b =>
      rw [hm] at h
      cases b with
      | false => cases h
      | true =>
        cases i with
        | none =>
          injection h with h
          rw [← h]
          simp [splitLines_flatten]
        | some t =>
          simp only at h
          cases ht : firstStarts (splitLines t) "INCON" with
          | error e => rw [ht] at h; cases h
          | ok b =>
            rw [ht] at h
            cases b with
            | false => cases h
            | true =>
              injection h with h
              rw [← h]
              simp [splitLines_flatten]

/-- C51, partial (missing: input files without an end record, see `C51_violated`).
The merged file is the input file with the MESH file and the INCON file inserted
before the first end record. -/
theorem C51_merge_partial (s m out : Str) (i : Option Str) (before after : List Str) (e : Str)
    (hs : IsLines s (before ++ e :: after)) (he : EndRecord e)
    (hb : ∀ l ∈ before, ¬ EndRecord l) (h : merge (some s) (some m) i = .ok out) :
    out = before.flatten ++ m ++ i.getD [] ++ (e :: after).flatten := by
  rw [merge_text h, splitLines_eq hs, endIndex_eq hb he]
  simp

/-- C51, partial (missing: files whose last line has no newline, see
`C51_violated`). The lines of the merged file are those of the input before the end
record, of MESH, of INCON, and the rest of the input. -/
theorem C51_lines_partial (s m out : Str) (i : Option Str) (before after ml il : List Str) (e : Str)
    (hs : IsLines s (before ++ e :: after)) (he : EndRecord e)
    (hb : ∀ l ∈ before, ¬ EndRecord l) (hm : IsLines m ml) (hi : IsLines (i.getD []) il)
    (hcm : Complete m) (hci : Complete (i.getD []))
    (h : merge (some s) (some m) i = .ok out) :
    IsLines out (before ++ ml ++ il ++ e :: after) := by
  have full : ∀ {t : Str} {ls : List Str}, IsLines t ls → Complete t →
      ∀ l ∈ ls, l.getLast? = some '\n' := by
    intro t ls ht hc l hl
    rcases List.eq_nil_or_concat ls with rfl | ⟨init, z, rfl⟩
    · simp at hl
    · rw [List.concat_eq_append] at *
      rcases List.mem_append.1 hl with hl | hl
      · exact ht.2.2 l (by simpa using hl)
      · rw [List.mem_singleton] at hl
        subst hl
        have hne := (ht.2.1 l (by simp)).1
        have hfl : t = init.flatten ++ l := by rw [← ht.1]; simp
        rcases hc with hc | hc
        · rw [hc] at hfl
          have := congrArg List.length hfl
          simp at this
          exact absurd (List.length_eq_zero_iff.1 (by omega)) hne
        · rw [hfl, List.getLast?_append_of_ne_nil _ hne] at hc
          exact hc
  have hout := C51_merge_partial s m out i before after e hs he hb h
  refine ⟨?_, ?_, ?_⟩
  · rw [hout, ← hm.1, ← hi.1]; simp
  · intro l hl
    simp only [List.mem_append] at hl
    rcases hl with ((hl | hl) | hl) | hl
    · exact hs.2.1 l (List.mem_append_left _ hl)
    · exact hm.2.1 l hl
    · exact hi.2.1 l hl
    · exact hs.2.1 l (List.mem_append_right _ hl)
  · intro l hl
    rw [List.dropLast_append_of_ne_nil (by simp)] at hl
    simp only [List.mem_append] at hl
    have hd := hs.2.2
    rw [List.dropLast_append_of_ne_nil (by simp)] at hd
    rcases hl with ((hl | hl) | hl) | hl
    · exact hd l (List.mem_append_left _ hl)
    · exact full hm hcm l hl
    · exact full hi hci l hl
    · exact hd l (List.mem_append_right _ hl)

/-- An input file, as lines. -/
def mergeInput : List Str := ["t\n".toList, "ROCKS\n".toList, "PARAM\n".toList, "ENDCY\n".toList, "x".toList]

example : IsLines mergeInput.flatten (["t\n".toList, "ROCKS\n".toList, "PARAM\n".toList] ++
      "ENDCY\n".toList :: ["x".toList]) ∧ EndRecord "ENDCY\n".toList ∧
    (∀ l ∈ ["t\n".toList, "ROCKS\n".toList, "PARAM\n".toList], ¬ EndRecord l) ∧
    IsLines "ELEME\n\n".toList ["ELEME\n".toList, "\n".toList] ∧ Complete "ELEME\n\n".toList ∧
    IsLines "INCON\n\n".toList ["INCON\n".toList, "\n".toList] ∧ Complete "INCON\n\n".toList ∧
    (merge (some mergeInput.flatten) (some "ELEME\n\n".toList) (some "INCON\n\n".toList)).isOk = true := by
  decide +kernel

/-- C51. The code violates the claim in two ways. An input file without an end
record is accepted and the MESH file is inserted before its last line. A MESH file
without a newline at the end is glued to the end record, which is lost. -/
theorem C51_violated :
    (merge (some "ROCKS\nPARAM\nROCKS\nlast".toList) (some "ELEME\n".toList) none =
        .ok "ROCKS\nPARAM\nROCKS\nELEME\nlast".toList ∧
      ∀ l ∈ splitLines "ROCKS\nPARAM\nROCKS\nlast".toList, ¬ EndRecord l) ∧
    (merge (some "ROCKS\nPARAM\nENDCY\n".toList) (some "ELEME\n1".toList) none =
        .ok "ROCKS\nPARAM\nELEME\n1ENDCY\n".toList ∧
      ∀ l ∈ splitLines "ROCKS\nPARAM\nELEME\n1ENDCY\n".toList, ¬ EndRecord l) := by
  decide +kernel

/-- C51. What happens in general without an end record: the files are inserted
before the last line of the input. -/
theorem C51_without_end (s m out : Str) (i : Option Str) (before : List Str) (z : Str)
    (hs : IsLines s (before ++ [z])) (hb : ∀ l ∈ before ++ [z], ¬ EndRecord l)
    (h : merge (some s) (some m) i = .ok out) :
    out = before.flatten ++ m ++ i.getD [] ++ z := by
  rw [merge_text h, splitLines_eq hs, endIndex_none hb]
  simp

example : IsLines "ROCKS\nPARAM\nROCKS\nlast".toList
    (["ROCKS\n".toList, "PARAM\n".toList, "ROCKS\n".toList] ++ ["last".toList]) := by
  decide +kernel

/-! ## C52 -/

/-- C52. Without reset, a file that begins with INCON is copied unchanged. -/
theorem C52_copy (s : Str) (h : Opens "INCON" s) : save2incon false (some s) = (some s, .ok ()) := by
  cases hs : splitLines s with
  | nil =>
    have : s = [] := by rw [← splitLines_flatten s, hs]; rfl
    subst this
    exact absurd h (by decide)
  | cons l ls =>
    have h' := (opens_first hs (p := "INCON".toList) (by decide)).2 h
    have e : saveLoop false true (l :: ls) [] = (s, .ok ()) := by
      rw [saveLoop, h', saveLoop_false]
      simp only [Bool.not_true, Bool.and_false, Bool.false_and, Bool.false_eq_true, if_false,
        List.nil_append]
      rw [← List.flatten_cons, ← hs, splitLines_flatten]
    simp only [save2incon, hs, e]
    rfl

/-- C52. With reset, the lines before the first line that begins with `+++` are
kept and a newline is added.
Missing: the final blank line without a final newline, see `C52_violated`. -/
theorem C52_reset_partial (s : Str) (h : Opens "INCON" s) (ls : List Str) (hs : IsLines s ls) :
    save2incon true (some s) =
      (some ((ls.takeWhile fun l => ¬ Opens "+++" l).flatten ++ ['\n']), .ok ()) := by
  have hs' := splitLines_eq hs
  have ht : (fun l : Str => !startsWith l "+++".toList) = fun l => decide (¬ Opens "+++" l) := by
    funext l
    rw [Bool.eq_iff_iff, decide_eq_true_eq, Bool.not_eq_true', ← Bool.not_eq_true, startsWith_take_iff]
    rfl
  cases ls with
  | nil =>
    have : s = [] := by rw [← hs.1]; rfl
    subst this
    exact absurd h (by decide)
  | cons l ls =>
    have h' := (opens_first hs' (p := "INCON".toList) (by decide)).2 h
    have hp : startsWith l "+++".toList = false := by
      rw [← Bool.not_eq_true]
      intro hp
      rw [startsWith_take_iff] at h' hp
      cases l with
      | nil => simp at h'
      | cons c l =>
        have h1 : c = 'I' := by
          have := congrArg List.head? h'
          simpa using this
        have h2 : c = '+' := by
          have := congrArg List.head? hp
          simpa using this
        rw [h1] at h2
        exact absurd h2 (by decide)
    have e : saveLoop true true (l :: ls) [] =
        (((l :: ls).takeWhile fun l => decide (¬ Opens "+++" l)).flatten, .ok ()) := by
      rw [saveLoop, h', hp, saveLoop_false, ht]
      simp only [Bool.not_true, Bool.and_false, Bool.false_eq_true, if_false, if_true,
        List.nil_append]
      rw [← ht, List.takeWhile_cons_of_pos (by simp only [hp]; decide), List.flatten_cons]
    simp only [save2incon, hs', e, if_true]

example : IsLines "INCON\nA\n+++\n1\n".toList ["INCON\n".toList, "A\n".toList, "+++\n".toList, "1\n".toList] ∧
    Opens "INCON" "INCON\nA\n+++\n1\n".toList ∧
    save2incon true (some "INCON\nA\n+++\n1\n".toList) = (some "INCON\nA\n\n".toList, .ok ()) := by
  decide +kernel

/-- C52. A file that does not begin with INCON is refused, unless it is empty.
Missing: the empty file, see `C52_violated`. -/
theorem C52_refused_partial (reset : Bool) (s : Str) (hne : s ≠ []) (h : ¬ Opens "INCON" s) :
    (save2incon reset (some s)).2 = .error .valueError := by
  cases hs : splitLines s with
  | nil => exact absurd (by rw [← splitLines_flatten s, hs]; rfl) hne
  | cons l ls =>
    have h' : startsWith l "INCON".toList = false := by
      rw [← Bool.not_eq_true]
      exact fun h' => h ((opens_first hs (p := "INCON".toList) (by decide)).1 h')
    have e : saveLoop reset true (l :: ls) [] = ([], .error .valueError) := by
      rw [saveLoop, h']
      rfl
    simp only [save2incon, hs, e]

example : "SAVE".toList ≠ [] ∧ ¬ Opens "INCON" "SAVE".toList := by decide

/-- C52. The code violates the claim in three ways: an empty file is accepted; the
output file is emptied before the input is refused; with reset, a file without
marker and without final newline does not get a blank line at the end. -/
theorem C52_violated :
    save2incon false (some []) = (some [], .ok ()) ∧
    (∀ (reset : Bool) (s : Str), s ≠ [] → ¬ Opens "INCON" s →
      save2incon reset (some s) = (some [], .error .valueError)) ∧
    save2incon true (some "INCON\nA".toList) = (some "INCON\nA\n".toList, .ok ()) := by
  refine ⟨rfl, ?_, by decide +kernel⟩
  intro reset s hne h
  cases hs : splitLines s with
  | nil => exact absurd (by rw [← splitLines_flatten s, hs]; rfl) hne
  | cons l ls =>
    have h' : startsWith l "INCON".toList = false := by
      rw [← Bool.not_eq_true]
      exact fun h' => h ((opens_first hs (p := "INCON".toList) (by decide)).1 h')
    have e : saveLoop reset true (l :: ls) [] = ([], .error .valueError) := by
      rw [saveLoop, h']
      rfl
    simp only [save2incon, hs, e]

end Verif.Props
