import Verif.Spec.CliFiles
import Verif.Lemmas.Cli

/-! Helper lemmas: paths of the command line tools. -/

namespace Verif.Model
open Verif.Py Verif.Spec Verif.Mesh

theorem splitSlash_ne (s : Str) : splitSlash s ≠ [] := by
  cases s with
  | nil => simp [splitSlash]
  | cons c s =>
    unfold splitSlash
    split
    · simp
    · split <;> simp

theorem splitSlash_append (d s : Str) : splitSlash (d ++ '/' :: s) = splitSlash d ++ splitSlash s := by
  induction d with
  | nil => simp [splitSlash]
  | cons c d ih =>
    rw [List.cons_append, splitSlash, splitSlash]
    split
    · rw [ih]; rfl
    · rw [ih]
      cases h : splitSlash d with
      | nil => exact absurd h (splitSlash_ne d)
      | cons l ls => rfl

theorem splitSlash_base {b : Str} (h : '/' ∉ b) : splitSlash b = [b] := by
  induction b with
  | nil => rfl
  | cons c b ih =>
    have hc : c ≠ '/' := fun h' => h (by simp [h'])
    rw [splitSlash, if_neg hc, ih fun h' => h (List.mem_cons_of_mem _ h')]

/-- The parts that count. -/
def counted (l : List Str) : List Str := l.filter fun s => s ≠ [] && s ≠ ['.']

theorem counted_append (a b : List Str) : counted (a ++ b) = counted a ++ counted b := List.filter_append ..

theorem parts_slashes (d : Str) (n : ℕ) :
    counted (splitSlash (d ++ List.replicate n '/')) = counted (splitSlash d) := by
  induction n with
  | zero => simp
  | succ n ih =>
    rw [List.replicate_succ', ← List.append_assoc]
    have : (d ++ List.replicate n '/') ++ ['/'] = (d ++ List.replicate n '/') ++ '/' :: [] := rfl
    rw [this, splitSlash_append, counted_append, ih]
    simp [splitSlash, counted]

/-- A path without the slashes at its end. -/
theorem drop_slashes (d : Str) : ∃ n, d = (d.reverse.dropWhile (· = '/')).reverse ++ List.replicate n '/' := by
  refine ⟨(d.reverse.takeWhile (· = '/')).length, ?_⟩
  have h1 : d.reverse = d.reverse.takeWhile (· = '/') ++ d.reverse.dropWhile (· = '/') :=
    List.takeWhile_append_dropWhile.symm
  have h2 : d.reverse.takeWhile (· = '/') =
      List.replicate (d.reverse.takeWhile (· = '/')).length '/' := by
    rw [List.eq_replicate_iff]
    refine ⟨rfl, fun c hc => ?_⟩
    have := List.all_eq_true.1 (List.all_takeWhile (p := fun c : Char => decide (c = '/')) (l := d.reverse)) c hc
    simpa using this
  have h3 : d = (d.reverse.dropWhile (· = '/')).reverse ++ (d.reverse.takeWhile (· = '/')).reverse := by
    rw [← List.reverse_append, ← h1, List.reverse_reverse]
  conv_lhs => rw [h3, h2]
  rw [List.reverse_replicate]

theorem rfind_none {s : Str} (hs : '/' ∉ s) : rfind '/' s = -1 := by
  induction s with
  | nil => rfl
  | cons c s ih =>
    have h1 := ih fun h => hs (List.mem_cons_of_mem _ h)
    have h2 : c ≠ '/' := fun h => hs (by simp [h])
    simp [rfind, h1, h2]

theorem rfind_last (d : Str) {s : Str} (hs : '/' ∉ s) : rfind '/' (d ++ '/' :: s) = d.length := by
  induction d with
  | nil => simp [rfind, rfind_none hs]
  | cons c d ih =>
    rw [List.cons_append, rfind, ih]
    simp

theorem head_append {d s : Str} (h : d ≠ []) : (d ++ s).head? = d.head? := by
  cases d with
  | nil => exact absurd rfl h
  | cons c d => rfl

/-- The head of a path and the directory in it name the same place. -/
theorem pathHead_place {dir path : Str} (h : DirOf dir path) :
    (dir = [] → pathHead path = []) ∧
    (dir ≠ [] → pathHead path ≠ [] ∧ (pathHead path).head? = dir.head? ∧
      counted (splitSlash (pathHead path)) = counted (splitSlash dir)) := by
  obtain ⟨⟨base, rfl, hb⟩, hd⟩ := h
  constructor
  · rintro rfl
    unfold pathHead
    rw [List.nil_append, rfind_none hb]
    rfl
  · intro hne
    have hl := hd.resolve_left hne
    obtain ⟨d, c, rfl⟩ : ∃ d c, dir = d ++ [c] :=
      ⟨dir.dropLast, dir.getLast hne, (List.dropLast_append_getLast hne).symm⟩
    have hc : c = '/' := by simpa using hl
    subst hc
    have htake : (d ++ ['/'] ++ base).take (rfind '/' (d ++ ['/'] ++ base) + 1).toNat = d ++ ['/'] := by
      have : d ++ ['/'] ++ base = d ++ '/' :: base := by simp
      rw [this, rfind_last d hb]
      have : ((d.length : ℤ) + 1).toNat = d.length + 1 := by omega
      rw [this, List.take_append]
      simp
    unfold pathHead
    simp only [htake]
    split
    · exact ⟨by simp, rfl, rfl⟩
    · rename_i hall
      obtain ⟨n, hn⟩ := drop_slashes (d ++ ['/'])
      set e := ((d ++ ['/']).reverse.dropWhile (· = '/')).reverse with he
      have hene : e ≠ [] := by
        intro h0
        rw [h0, List.nil_append] at hn
        apply hall
        rw [hn]
        simp
      refine ⟨hene, ?_, ?_⟩
      · conv_rhs => rw [hn]
        rw [head_append hene]
      · conv_rhs => rw [hn]
        rw [parts_slashes]

theorem place_beside {dir path : Str} (h : DirOf dir path) {name : String}
    (hn : '/' ∉ name.toList) (hn' : name.toList ≠ [] ∧ name.toList ≠ ['.']) :
    diskPlace (besideName path name) = Place.file (diskPlace dir) name ∧
    diskPlace (pathJoin (pathHead path) name.toList) = Place.file (diskPlace dir) name := by
  have hname : counted (splitSlash name.toList) = [name.toList] := by
    rw [splitSlash_base hn]
    simp [counted, hn'.1, hn'.2]
  have hns : name.toList.head? ≠ some '/' := by
    intro h0
    apply hn
    cases hl : name.toList with
    | nil => rw [hl] at h0; cases h0
    | cons c l =>
      rw [hl] at h0
      simp at h0
      simp [h0]
  obtain ⟨h1, h2⟩ := pathHead_place h
  by_cases hd : dir = []
  · subst hd
    have e : diskPlace name.toList = Place.file (diskPlace []) name := by
      unfold diskPlace Place.file
      congr 1
      · simp [hns]
    refine ⟨?_, ?_⟩
    · unfold besideName
      simp only [h1 rfl]
      exact e
    · rw [h1 rfl]
      unfold pathJoin
      rw [if_pos rfl]
      exact e
  · obtain ⟨g1, g2, g3⟩ := h2 hd
    have key : ∀ t : Str, t = pathHead path ++ '/' :: name.toList →
        diskPlace t = Place.file (diskPlace dir) name := by
      rintro t rfl
      unfold diskPlace Place.file
      have : counted (splitSlash (pathHead path ++ '/' :: name.toList)) =
          counted (splitSlash dir) ++ [name.toList] := by
        rw [splitSlash_append, counted_append, g3, hname]
      congr 1
      · rw [head_append g1, g2]
    refine ⟨?_, ?_⟩
    · refine key _ ?_
      unfold besideName
      simp only [ne_eq, g1, not_false_eq_true, if_true]
      simp
    · unfold pathJoin
      rw [if_neg g1]
      split
      · rename_i hlast
        obtain ⟨d, hd'⟩ : ∃ d, pathHead path = d ++ ['/'] := by
          refine ⟨(pathHead path).dropLast, ?_⟩
          have := List.dropLast_append_getLast g1
          rw [List.getLast?_eq_getLast g1] at hlast
          injection hlast with hlast
          rw [hlast] at this
          exact this.symm
        unfold diskPlace Place.file
        have : counted (splitSlash (pathHead path ++ name.toList)) =
            counted (splitSlash dir) ++ [name.toList] := by
          rw [← g3, hd']
          have e : d ++ ['/'] ++ name.toList = d ++ '/' :: name.toList := by simp
          have e2 : d ++ ['/'] = d ++ List.replicate 1 '/' := rfl
          rw [e, splitSlash_append, counted_append, hname, e2, parts_slashes]
        congr 1
        · rw [head_append g1, g2]
      · exact key _ rfl

theorem onlyFile_write (d : Disk) (p t : Str) : OnlyFile (diskPlace p) t d (d.write p t) :=
  ⟨if_pos rfl, fun _ h => if_neg h, rfl⟩

end Verif.Model
