import Verif.Model.FileFormats
import Verif.Lemmas.Registry

/-!
# Lemmas about the registered formats
-/

namespace Verif.Props
open Verif.Py Verif.Model Verif.Spec

theorem meshFormats_exts : meshFormats.exts =
    [(".f3grid".toList, "flac3d".toList), (".pickle".toList, "pickle".toList), (".pkl".toList, "pickle".toList),
      (".dat".toList, "tecplot".toList), (".tec".toList, "tecplot".toList)] := by decide +kernel

theorem outputFormats_exts : outputFormats.exts =
    [(".csv".toList, "csv".toList), (".tec".toList, "tecplot".toList)] := by decide +kernel

theorem lookup_inst {κ β : Type} (i j : BEq κ) [@LawfulBEq κ i] [@LawfulBEq κ j] (k : κ) (d : List (κ × β)) :
    @List.lookup κ β i k d = @List.lookup κ β j k d := by
  have : i = j := by
    obtain ⟨f⟩ := i
    obtain ⟨g⟩ := j
    congr 1
    funext x y
    rw [Bool.eq_iff_iff]
    exact (@beq_iff_eq κ ⟨f⟩ _ x y).trans (@beq_iff_eq κ ⟨g⟩ _ x y).symm
  rw [this]

theorem dictGet_lookup (d : List (Str × Str)) (k : Str) :
    dictGet d k = match d.lookup k with
      | some v => .ok v
      | none => .error .keyError := by
  unfold dictGet
  rw [lookup_inst instBEqOfDecidableEq List.instBEq k d]
  cases List.lookup k d <;> rfl

theorem filetype_eq {p e : Str} (h : HasExt p e) (d : List (Str × Str)) :
    filetypeFromFilename p d = (d.lookup (lower e)).getD [] := by
  unfold filetypeFromFilename
  rw [splitext_ext h, dictGet_lookup]
  cases d.lookup (lower e) <;> rfl

end Verif.Props
