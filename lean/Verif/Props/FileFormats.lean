import Verif.Lemmas.FileFormats
import Verif.Spec.FileFormats

/-!
# Formats of meshes and outputs (C53)
-/

namespace Verif.Props
open Verif.Py Verif.Model Verif.Spec

/-- C53. A mesh file is read and written in the format of its extension, whatever the case of
its letters; files with other extensions are read and written by meshio. -/
theorem C53_mesh {p e : Str} (h : HasExt p e) :
    meshReader none p = meshFormatOf (lower e) ∧ meshWriter none p = meshFormatOf (lower e) := by
  have hf : ∀ m : List (Str × Str), m.lookup "tecplot".toList = some "tecplot".toList →
      m.lookup "flac3d".toList = some "flac3d".toList → m.lookup "pickle".toList = some "pickle".toList →
      m.lookup [] = none →
      m.lookup (chooseFormat none p meshFormats) = meshFormatOf (lower e) := by
    intro m h1 h2 h3 h4
    unfold chooseFormat meshFormatOf
    simp only
    rw [filetype_eq h, meshFormats_exts]
    generalize lower e = x
    by_cases a1 : x = ".dat".toList
    · subst a1
      exact h1
    by_cases a2 : x = ".tec".toList
    · subst a2
      exact h1
    by_cases a3 : x = ".f3grid".toList
    · subst a3
      exact h2
    by_cases a4 : x = ".pickle".toList
    · subst a4
      exact h3
    by_cases a5 : x = ".pkl".toList
    · subst a5
      exact h3
    rw [if_neg (not_or.2 ⟨a1, a2⟩), if_neg a3, if_neg (not_or.2 ⟨a4, a5⟩)]
    have : List.lookup x [(".f3grid".toList, "flac3d".toList), (".pickle".toList, "pickle".toList),
        (".pkl".toList, "pickle".toList), (".dat".toList, "tecplot".toList), (".tec".toList, "tecplot".toList)] = none := by
      rw [List.lookup_eq_none_iff]
      intro q hq
      simp only [List.mem_cons, List.not_mem_nil, or_false] at hq
      rcases hq with rfl | rfl | rfl | rfl | rfl <;> simpa using ‹_›
    rw [this]
    exact h4
  exact ⟨hf _ (by decide +kernel) (by decide +kernel) (by decide +kernel) (by decide +kernel),
    hf _ (by decide +kernel) (by decide +kernel) (by decide +kernel) (by decide +kernel)⟩

example : HasExt "run/mesh.v2.F3GRID".toList ".F3GRID".toList ∧
    meshFormatOf (lower ".F3GRID".toList) = some "flac3d".toList :=
  ⟨⟨"run/".toList, "mesh.v2".toList, "F3GRID".toList, by decide⟩, by decide +kernel⟩

/-- C53. A mesh file without extension is left to meshio. -/
theorem C53_mesh_plain {p : Str} (h : ¬ ∃ e, HasExt p e) : meshReader none p = none ∧ meshWriter none p = none := by
  have hc : chooseFormat none p meshFormats = [] := by
    unfold chooseFormat filetypeFromFilename
    simp only
    rw [splitext_none h]
    decide +kernel
  unfold meshReader meshWriter
  rw [hc]
  decide +kernel

example : ¬ ∃ e, HasExt "a.d/MESH".toList e := by
  rintro ⟨e, h⟩
  have h1 := splitext_ext h
  obtain ⟨dir, stem, suffix, -, rfl, -⟩ := h
  rw [show (splitext "a.d/MESH".toList).2 = [] by decide +kernel] at h1
  cases h1

/-- C53. A format that is given comes before the extension; the five formats of the program are
read and written by the program. -/
theorem C53_mesh_given {f : Str} (hf : f ≠ []) (p : Str) :
    meshReader (some f) p =
      (if f ∈ ["avsucd", "flac3d", "pickle", "tecplot", "tough"].map (·.toList) then some f else none) ∧
    meshWriter (some f) p = meshReader (some f) p := by
  have h1 : meshFormats.readers = ["avsucd", "flac3d", "pickle", "tecplot", "tough"].map fun s : String =>
      (s.toList, s.toList) := by decide +kernel
  have h2 : meshFormats.writers = meshFormats.readers := by decide +kernel
  refine ⟨?_, ?_⟩
  · unfold meshReader chooseFormat
    simp only
    rw [if_pos hf, h1]
    generalize ["avsucd", "flac3d", "pickle", "tecplot", "tough"] = l
    induction l with
    | nil => rfl
    | cons s l ih =>
      rw [List.map_cons, List.map_cons, List.lookup_cons]
      by_cases hs : f = s.toList
      · subst hs
        simp
      · rw [beq_false_of_ne hs]
        simp only [List.mem_cons, hs, false_or]
        exact ih
  · unfold meshReader meshWriter
    rw [h2]

example : "avsucd".toList ≠ [] := by decide

/-- C53. Outputs are written as CSV or Tecplot files by their extension; other names are refused
unless a format is given that can be written. -/
theorem C53_output {p e : Str} (h : HasExt p e) :
    (outputWriter none p = if lower e = ".csv".toList then .ok "csv".toList
      else if lower e = ".tec".toList then .ok "tecplot".toList else .error .keyError) ∧
    ∀ f, f ≠ [] → outputWriter (some f) p =
      if f = "csv".toList ∨ f = "petrasim".toList ∨ f = "tecplot".toList then .ok f else .error .keyError := by
  have h1 : outputFormats.writers = [("csv".toList, "csv".toList), ("petrasim".toList, "petrasim".toList),
      ("tecplot".toList, "tecplot".toList)] := by decide +kernel
  refine ⟨?_, fun f hf => ?_⟩
  · unfold outputWriter chooseFormat
    simp only
    rw [filetype_eq h, outputFormats_exts, h1]
    generalize lower e = x
    by_cases a1 : x = ".csv".toList
    · subst a1
      rfl
    by_cases a2 : x = ".tec".toList
    · subst a2
      rfl
    rw [if_neg a1, if_neg a2]
    have : List.lookup x [(".csv".toList, "csv".toList), (".tec".toList, "tecplot".toList)] = none := by
      rw [List.lookup_eq_none_iff]
      intro q hq
      simp only [List.mem_cons, List.not_mem_nil, or_false] at hq
      rcases hq with rfl | rfl <;> simpa using ‹_›
    rw [this]
    rfl
  · unfold outputWriter chooseFormat
    simp only
    rw [if_pos hf, h1, dictGet_lookup]
    by_cases a1 : f = "csv".toList
    · subst a1
      rfl
    by_cases a2 : f = "petrasim".toList
    · subst a2
      rfl
    by_cases a3 : f = "tecplot".toList
    · subst a3
      rfl
    rw [if_neg (by simp only [not_or]; exact ⟨a1, a2, a3⟩)]
    have : List.lookup f [("csv".toList, "csv".toList), ("petrasim".toList, "petrasim".toList),
        ("tecplot".toList, "tecplot".toList)] = none := by
      rw [List.lookup_eq_none_iff]
      intro q hq
      simp only [List.mem_cons, List.not_mem_nil, or_false] at hq
      rcases hq with rfl | rfl | rfl <;> simpa using ‹_›
    rw [this]

example : HasExt "OUTPUT_ELEME.csv".toList ".csv".toList :=
  ⟨[], "OUTPUT_ELEME".toList, "csv".toList, by decide⟩

end Verif.Props
