import Verif.Lemmas.Registry

/-!
# File formats by extension (C53)
-/

namespace Verif.Props
open Verif.Py Verif.Model Verif.Spec

/-- The dictionary of extensions after a sequence of registrations. -/
def registerAll {F G : Type} (regs : List (Str × List Str × Option F × Option G)) : Registry F G :=
  regs.foldl (fun r e => registerFormat r e.1 e.2.1 e.2.2.1 e.2.2.2) ⟨[], [], []⟩

theorem registerAll_exts {F G : Type} (regs : List (Str × List Str × Option F × Option G)) :
    (registerAll regs).exts = (regs.map fun r => (r.1, r.2.1)).foldl
      (fun d r => r.2.foldl (fun d e => dictSet d e r.1) d) [] := by
  have : ∀ r : Registry F G, (regs.foldl (fun r e => registerFormat r e.1 e.2.1 e.2.2.1 e.2.2.2) r).exts =
      (regs.map fun r => (r.1, r.2.1)).foldl
        (fun d r => r.2.foldl (fun d e => dictSet d e r.1) d) r.exts := by
    induction regs with
    | nil => intro r; rfl
    | cons e regs ih => intro r; rw [List.foldl_cons, ih]; rfl
  exact this _

/-- C53. The format of a file is the one registered last for its extension in
small letters, and no format if there is none. -/
theorem C53_format {F G : Type} (regs : List (Str × List Str × Option F × Option G)) (p e : Str)
    (h : HasExt p e) :
    filetypeFromFilename p (registerAll regs).exts =
      (lastRegistered (regs.map fun r => (r.1, r.2.1)) (lower e)).getD [] := by
  unfold filetypeFromFilename
  rw [splitext_ext h, registerAll_exts, registered_last]
  cases lastRegistered (regs.map fun r => (r.1, r.2.1)) (lower e) <;> rfl

/-- C53. A file name without extension has the format registered for the empty
extension, which no family of formats of the program registers. -/
theorem C53_no_extension {F G : Type} (regs : List (Str × List Str × Option F × Option G)) (p : Str)
    (h : ¬ ∃ e, HasExt p e) (hr : ∀ r ∈ regs, [] ∉ r.2.1) :
    filetypeFromFilename p (registerAll regs).exts = [] := by
  unfold filetypeFromFilename
  rw [splitext_none h, registerAll_exts, registered_last]
  have : lastRegistered (regs.map fun r => (r.1, r.2.1)) (lower []) = none := by
    unfold lastRegistered
    rw [Option.map_eq_none_iff, List.getLast?_eq_none_iff, List.filter_eq_nil_iff]
    intro r hm
    obtain ⟨x, hx, rfl⟩ := List.mem_map.1 hm
    simpa [lower] using hr x hx
  rw [this]
  rfl

/-- C53. Letter case does not matter. -/
theorem C53_case (d : List (Str × Str)) (p q e f : Str) (hp : HasExt p e) (hq : HasExt q f)
    (h : lower e = lower f) : filetypeFromFilename p d = filetypeFromFilename q d := by
  unfold filetypeFromFilename
  rw [splitext_ext hp, splitext_ext hq, h]

/-- A file name has at most one extension. -/
theorem C53_unique (p e f : Str) (hp : HasExt p e) (hq : HasExt p f) : e = f := by
  rw [← splitext_ext hp, splitext_ext hq]

example : HasExt "out/.a.b.JSON".toList ".JSON".toList ∧ HasExt "x.json".toList ".json".toList ∧
    lower ".JSON".toList = lower ".json".toList := by
  refine ⟨⟨"out/".toList, ".a.b".toList, "JSON".toList, ?_⟩, ⟨[], "x".toList, "json".toList, ?_⟩, ?_⟩ <;>
    decide

example : ¬ ∃ e, HasExt "a.d/.json".toList e := by
  rintro ⟨e, h⟩
  have h1 := splitext_ext h
  obtain ⟨dir, stem, suffix, -, rfl, -⟩ := h
  rw [show (splitext "a.d/.json".toList).2 = [] by decide +kernel] at h1
  cases h1

/-- C53. An extension registered with a capital letter is never selected. -/
theorem C53_capital_extension (p e : Str) (f : Str) (d : List (Str × Str)) (hp : HasExt p e)
    (x : Str) (hx : ∀ s, lower s ≠ x) :
    filetypeFromFilename p (dictSet d x f) = filetypeFromFilename p d := by
  unfold filetypeFromFilename
  rw [splitext_ext hp, dictGet_dictSet, if_neg (hx e)]

example : ∀ s, lower s ≠ ".TEC".toList := by
  intro s h
  have hc : 'T' ∈ lower s := by rw [h]; decide
  obtain ⟨c, -, hc⟩ := List.mem_map.1 hc
  unfold lowerC at hc
  split at hc
  · rename_i h1
    simp only [Bool.and_eq_true, decide_eq_true_eq] at h1
    revert hc
    exact char_of_toNat c (fun c => Char.ofNat (c.toNat + 32) = 'T' → False) 65 90
      h1.1 h1.2 (by decide +kernel)
  · rename_i h1
    subst hc
    exact h1 (by decide)

/-- C53. Input files: an explicit format must be one of the two known ones; without
one, the extension decides, and unknown extensions mean TOUGH. -/
theorem C53_input (p e : Str) (h : HasExt p e) :
    inputFormat none p (registerAll (F := Unit) (G := Unit)
      [("json".toList, [".json".toList], some (), some ()), ("tough".toList, [], some (), some ())]).exts =
      .ok (if lower e = ".json".toList then "json".toList else "tough".toList) ∧
    ∀ f d, inputFormat (some f) p d =
      if f = "tough".toList ∨ f = "json".toList then .ok f else .error .valueError := by
  refine ⟨?_, fun f d => rfl⟩
  unfold inputFormat
  simp only
  rw [C53_format _ p e h]
  by_cases he : lower e = ".json".toList
  · rw [he]
    rfl
  · have : lastRegistered ([("json".toList, [".json".toList]), ("tough".toList, [])]) (lower e) = none := by
      unfold lastRegistered
      rw [List.filter_cons_of_neg (by simpa using he), List.filter_cons_of_neg (by simp)]
      rfl
    rw [if_neg he]
    simp only [List.map_cons, List.map_nil, this]
    rfl

end Verif.Props
