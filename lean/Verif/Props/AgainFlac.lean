import Verif.Lemmas.AgainFlac
import Verif.Props.Again

/-!
# C91: saving a file with a FLAC block that was loaded gives the same file
-/

set_option linter.unusedSimpArgs false

namespace Verif.Props
open Verif.Py Verif.Model Verif.Spec

theorem fileParts_back_flac {given : Option ℕ} {p : Params} (h : FileOk given p) (hs : SettledFlac p) :
    fileParts (fileBack p).params = fileParts p := by
  obtain ⟨-, h2, h3, h4, h5, h6, h7, h8, h9, h10, h11, h12, h13⟩ := h
  obtain ⟨⟨s1, s2, s3, s4, -, s6, s7, s8, s9, s10, s11, s12, s13, s14, s15, s16, s17, s18, s19⟩, hf⟩ := hs
  obtain ⟨o1, o2, o3, o4, o5, o6⟩ := h9
  have s8 : p.start = true := s8
  have e7 : (fileBack p).params.start = true := by simp [FileRead.params, fileBack, s8]
  have e23 : (fileBack p).params.nover = p.nover := by
    cases hn : p.nover <;> simp [FileRead.params, fileBack, hn]
  have n1 : (fileBack p).params.elementHistory = p.elementHistory := again_names o2
  have n2 : (fileBack p).params.connectionHistory = p.connectionHistory := again_names o3
  have n3 : (fileBack p).params.generatorHistory = p.generatorHistory := again_names o4
  unfold fileParts
  rw [again_title (p := p) s1.1 s1.2, again_rocks_flac h2 s2, again_rpcap (p := p) h2 s3 s4, again_flac h2 hf,
    again_multi (p := p) h3 s6,
    again_solvr (p := p) h4 s7, again_param (p := p) h5 s9 s10, again_selec (p := p) h6 s11,
    again_indom (p := p) h2 h7 s2,
    again_momop (p := p) h8 s12, again_times (p := p) o1 s13, n1, n2, n3, again_gener (p := p) h10 s14,
    again_diffu (p := p) o5 s15,
    again_outpu (p := p) o6, (again_eleme (p := p) h11 s16.1 s16.2).1, (again_eleme (p := p) h11 s16.1 s16.2).2,
    again_conne (p := p) h12 s17.1 s17.2, again_incon (p := p) h13 s18 s19, e7, s8, e23]

/-- C91, partial: as `C91_partial`, also for parameters with a FLAC block. (The checks of types
refuse the creep of a FLAC block that was loaded, see C92.) -/
theorem C91_flac_partial (given : Option ℕ) (hg : ∀ n ∈ given, 5 ≤ n ∧ n < 10) (p : Params)
    (h : FileOk given p) (hs : SettledFlac p) :
    ∃ lines r, writeFile p "all" = .ok lines ∧ readFile given lines = .ok r ∧
      writeFile r.params "all" = .ok lines ∧ ∀ blk, writeFile r.params blk = writeFile p blk := by
  obtain ⟨lines, hw, hr⟩ := C29_file_round_trip_partial given hg p h
  have hb : ∀ blk, writeFile (fileBack p).params blk = writeFile p blk := by
    intro blk
    have he : (fileBack p).params.eos = [] := rfl
    unfold writeFile selected
    rw [fileParts_back_flac h hs, he]
    have : ¬ (p.eos ≠ [] ∧ p.eos ∉ eosTable.map (·.1)) := by
      rintro ⟨h1, h2⟩
      exact (h.2.2.1.1).elim h1 h2
    rw [if_neg this]
    simp
  exact ⟨lines, fileBack p, hw, hr, by rw [hb]; exact hw, hb⟩

/-- Parameters with a FLAC block. -/
def flacPorosity : Params :=
  { plainParams with
    flac := some ⟨.bool true, .int 2, .none⟩
    rocks := [(.str "SAND".toList, { noRock with permModel := some ⟨.int 2, [.flt (.fin false (1 / 3)), .none, .int 4]⟩ }),
      (.str "CLAY".toList, noRock)] }

example : FileOk none flacPorosity ∧ SettledFlac flacPorosity ∧ flacPorosity.flac ≠ none := by decide +kernel

end Verif.Props
