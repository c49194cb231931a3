import Verif.Lemmas.CliFiles
import Verif.Props.Cli

/-!
# The files that the command line tools read and write (C95)
-/

namespace Verif.Props
open Verif.Py Verif.Model Verif.Spec Verif.Mesh

/-- C95. MESH and INCON are looked for in the directory of the input file, and the INCON file
of a mesh is written in the directory of its MESH file. -/
theorem C95_beside (dir path : Str) (h : DirOf dir path) :
    diskPlace (besideName path "MESH") = Place.file (diskPlace dir) "MESH" ∧
    diskPlace (besideName path "INCON") = Place.file (diskPlace dir) "INCON" ∧
    diskPlace (inconPath path) = Place.file (diskPlace dir) "INCON" := by
  have h1 := place_beside h (name := "MESH") (by decide) (by decide)
  have h2 := place_beside h (name := "INCON") (by decide) (by decide)
  refine ⟨h1.1, h2.1, ?_⟩
  rw [← h2.2]
  unfold inconPath
  simp only
  split
  · rfl
  · rename_i hh
    rw [not_not.1 hh]
    rfl

example : DirOf "/work//run/".toList "/work//run/INFILE".toList ∧
    diskPlace "/work//run/".toList = ⟨true, ["work".toList, "run".toList]⟩ ∧
    besideName "/work//run/INFILE".toList "MESH" = "/work//run/MESH".toList ∧
    besideName "/INFILE".toList "MESH" = "//MESH".toList :=
  ⟨⟨⟨"INFILE".toList, by decide, by decide⟩, by decide⟩, by decide, by decide, by decide⟩

example : DirOf [] "INFILE".toList := ⟨⟨_, rfl, by decide⟩, .inl rfl⟩

/-- The names of the files beside another one are names of files. -/
theorem read_beside (d : Disk) (dir path : Str) (h : DirOf dir path) (name : String)
    (hn : name = "MESH" ∨ name = "INCON") :
    d.read (besideName path name) = d.file (Place.file (diskPlace dir) name) := by
  have hp : diskPlace (besideName path name) = Place.file (diskPlace dir) name := by
    rcases hn with rfl | rfl
    · exact (C95_beside dir path h).1
    · exact (C95_beside dir path h).2.1
  have hl : (besideName path name).getLast? ≠ some '/' ∧ besideName path name ≠ [] := by
    unfold besideName
    simp only
    rcases hn with rfl | rfl
    · rw [List.getLast?_append, show "MESH".toList.getLast? = some 'H' from rfl]
      exact ⟨by simp, by simp⟩
    · rw [List.getLast?_append, show "INCON".toList.getLast? = some 'N' from rfl]
      exact ⟨by simp, by simp⟩
  unfold Disk.read
  rw [if_neg (by rintro (h0 | h0); exacts [hl.2 h0, hl.1 h0]), hp]

/-- C95. Merging reads the input file and the files MESH and INCON in its directory, and changes
the output file only, which has the text of C51; nothing changes if the files are refused. The
output file may be one of the files that are read. -/
theorem C95_merge (d : Disk) (dir infile outfile : Str) (h : DirOf dir infile) (r : Except PyErr Str)
    (hr : merge (d.read infile) (d.file (Place.file (diskPlace dir) "MESH"))
      (d.file (Place.file (diskPlace dir) "INCON")) = r) :
    (∀ t, r = .ok t → ∃ d', mergeFiles d infile outfile = .ok d' ∧ OnlyFile (diskPlace outfile) t d d') ∧
    (∀ e, r = .error e → mergeFiles d infile outfile = .error e) := by
  have hm : mergeFiles d infile outfile = (do
      let text ← r
      .ok (d.write outfile text)) := by
    unfold mergeFiles
    rw [read_beside d dir infile h "MESH" (.inl rfl), read_beside d dir infile h "INCON" (.inr rfl), hr]
  constructor
  · rintro t rfl
    exact ⟨_, hm, onlyFile_write d outfile t⟩
  · rintro e rfl
    exact hm

/-- A disk with three files, `INFILE` being the output file as well. -/
def sampleDisk : Disk where
  file q := if q = ⟨false, ["run".toList, "INFILE".toList]⟩ then some "ROCKS\nPARAM\nENDCY\n".toList
    else if q = ⟨false, ["run".toList, "MESH".toList]⟩ then some "ELEME\n1\n".toList
    else if q = ⟨false, ["run".toList, "SAVE".toList]⟩ then some "INCON\n1\n+++\n".toList
    else none
  isDir q := q = ⟨false, ["run".toList]⟩

example : DirOf "run/".toList "run/INFILE".toList ∧
    merge (sampleDisk.read "run/INFILE".toList)
      (sampleDisk.file (Place.file (diskPlace "run/".toList) "MESH"))
      (sampleDisk.file (Place.file (diskPlace "run/".toList) "INCON")) =
    .ok "ROCKS\nPARAM\nELEME\n1\nENDCY\n".toList :=
  ⟨⟨⟨"INFILE".toList, by decide, by decide⟩, by decide⟩, by decide +kernel⟩

/-- C95. A file in another directory is not used. -/
theorem C95_merge_elsewhere (d : Disk) (dir infile outfile : Str) (h : DirOf dir infile)
    (hm : d.file (Place.file (diskPlace dir) "MESH") = none) :
    mergeFiles d infile outfile = .error .valueError := by
  refine (C95_merge d dir infile outfile h _ rfl).2 .valueError ?_
  rw [hm]
  exact C51_missing _ _ _ (.inr rfl)

example : sampleDisk.file (Place.file (diskPlace []) "MESH") = none := by decide +kernel

/-- C95, partial (missing: the output file is the SAVE file, see `C95_same_file_violated`; files
as in `C52_violated`). The converted file is the one of C52; no other file changes. -/
theorem C95_save_partial (d : Disk) (reset : Bool) (infile outfile : Str) (s : Str)
    (hs : d.read infile = some s) (hne : diskPlace infile ≠ diskPlace outfile) :
    ∃ d' t, saveFiles d reset infile outfile = (d', (save2incon reset (some s)).2) ∧
      (save2incon reset (some s)).1 = some t ∧ OnlyFile (diskPlace outfile) t d d' ∧
      d'.read infile = some s := by
  have hrd : ∀ t, (d.write outfile t).read infile = some s := by
    intro t
    unfold Disk.read at hs ⊢
    split at hs
    · cases hs
    · rename_i h0
      rw [if_neg h0, ← hs]
      exact if_neg hne
  have hw : ∀ t, OnlyFile (diskPlace outfile) t d ((d.write outfile []).write outfile t) := by
    intro t
    refine ⟨if_pos rfl, fun q hq => ?_, rfl⟩
    show (if q = diskPlace outfile then some t else if q = diskPlace outfile then some [] else d.file q) = _
    rw [if_neg hq, if_neg hq]
  have hf : saveFiles d reset infile outfile =
      (match save2incon reset (some s) with
        | (some t, r) => ((d.write outfile []).write outfile t, r)
        | (none, r) => (d.write outfile [], r)) := by
    unfold saveFiles
    rw [hs]
    simp only
    rw [hrd []]
    generalize save2incon reset (some s) = x
    obtain ⟨o, r⟩ := x
    cases o <;> rfl
  have hsome : ∃ t, (save2incon reset (some s)).1 = some t := by
    unfold save2incon
    simp only
    split <;> exact ⟨_, rfl⟩
  obtain ⟨t, ht⟩ := hsome
  generalize hx : save2incon reset (some s) = x at ht hf
  obtain ⟨o, r⟩ := x
  simp only at ht
  subst ht
  refine ⟨_, t, hf, rfl, hw t, ?_⟩
  have := hrd t
  unfold Disk.read at this ⊢
  split
  · rename_i h0; rw [if_pos h0] at this; cases this
  · rename_i h0
    rw [if_neg h0] at this
    rw [← this]
    show (if diskPlace infile = diskPlace outfile then some t else
      if diskPlace infile = diskPlace outfile then some [] else d.file (diskPlace infile)) = _
    rw [if_neg hne, if_neg hne]
    exact (if_neg hne).symm

example : sampleDisk.read "run/SAVE".toList = some "INCON\n1\n+++\n".toList ∧
    diskPlace "run/SAVE".toList ≠ diskPlace "run/INCON".toList := by decide +kernel

/-- C95. Nothing changes if there is no SAVE file. -/
theorem C95_save_missing (d : Disk) (reset : Bool) (infile outfile : Str) (hs : d.read infile = none) :
    saveFiles d reset infile outfile = (d, .error .valueError) := by
  unfold saveFiles
  rw [hs]

example : sampleDisk.read "SAVE".toList = none := by decide +kernel

/-- C95, violated. If the output file is the SAVE file, under any of its names, its text is lost
without an exception. -/
theorem C95_same_file_violated (d : Disk) (reset : Bool) (infile outfile : Str) (s : Str)
    (hs : d.read infile = some s) (he : diskPlace infile = diskPlace outfile) :
    ∃ d', saveFiles d reset infile outfile = (d', .ok ()) ∧
      d'.read infile = some (if reset then ['\n'] else []) := by
  have h0 : ¬ (infile = [] ∨ infile.getLast? = some '/') := by
    intro h0
    unfold Disk.read at hs
    rw [if_pos h0] at hs
    cases hs
  have hrd : ∀ (d : Disk) t, (d.write outfile t).read infile = some t := by
    intro d t
    unfold Disk.read
    rw [if_neg h0]
    exact if_pos he
  refine ⟨(d.write outfile []).write outfile (if reset then ['\n'] else []), ?_, hrd _ _⟩
  unfold saveFiles
  rw [hs]
  simp only
  rw [hrd]
  cases reset <;> rfl

example : sampleDisk.read "run/SAVE".toList ≠ none ∧
    diskPlace "run/SAVE".toList = diskPlace "run/./SAVE".toList := by decide +kernel

/-- C95. The table is written as the file CO2TAB of the directory, and only for directories. -/
theorem C95_co2tab (d : Disk) (table path : Str) :
    (d.hasDir path = false → co2tab d table path = .error .valueError) ∧
    (d.hasDir path = true → ∃ d', co2tab d table path = .ok d' ∧
      OnlyFile (Place.file (diskPlace path) "CO2TAB") table d d') := by
  unfold co2tab
  constructor
  · intro h
    rw [h]
    rfl
  · intro h
    rw [h]
    have hp : diskPlace (pathJoin path "CO2TAB".toList) = Place.file (diskPlace path) "CO2TAB" := by
      have hne : path ≠ [] := by
        rintro rfl
        unfold Disk.hasDir at h
        simp at h
      unfold pathJoin
      rw [if_neg hne]
      have hname : counted (splitSlash "CO2TAB".toList) = ["CO2TAB".toList] := by decide
      unfold diskPlace Place.file
      split
      · rename_i hl
        obtain ⟨e, rfl⟩ : ∃ e, path = e ++ ['/'] := by
          refine ⟨path.dropLast, ?_⟩
          have := List.dropLast_append_getLast hne
          rw [List.getLast?_eq_getLast hne] at hl
          injection hl with hl
          rw [hl] at this
          exact this.symm
        have : counted (splitSlash (e ++ ['/'] ++ "CO2TAB".toList)) =
            counted (splitSlash (e ++ ['/'])) ++ ["CO2TAB".toList] := by
          have e1 : e ++ ['/'] ++ "CO2TAB".toList = e ++ '/' :: "CO2TAB".toList := by simp
          have e2 : e ++ ['/'] = e ++ List.replicate 1 '/' := rfl
          rw [e1, splitSlash_append, counted_append, hname, e2, parts_slashes]
        congr 1
        · rw [head_append hne]
      · have : counted (splitSlash (path ++ '/' :: "CO2TAB".toList)) =
            counted (splitSlash path) ++ ["CO2TAB".toList] := by
          rw [splitSlash_append, counted_append, hname]
        congr 1
        · rw [head_append hne]
    refine ⟨_, rfl, ?_⟩
    rw [← hp]
    exact onlyFile_write d _ table

example : sampleDisk.hasDir "run/".toList = true ∧ sampleDisk.hasDir "INFILE".toList = false ∧
    sampleDisk.hasDir [] = false := by decide +kernel

end Verif.Props
