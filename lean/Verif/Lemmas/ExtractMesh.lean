import Verif.Lemmas.Extract
import Verif.Lemmas.MeshWrite
import Verif.Spec.ExtractMesh

/-!
# Lemmas for extracting outputs for a mesh that was written (C93)
-/

namespace Verif.Lemmas
open Verif.Py Verif.Model Verif.Mesh Verif.Spec

/-- The characters of a well formed label. -/
theorem wellFormed_char {L : ℕ} {s : Str} (h : WellFormed L s) : ∀ c ∈ s, 48 ≤ c.toNat ∧ c.toNat ≤ 90 := by
  obtain ⟨-, a, b, c, d, rfl, ha, hb, hc, hd⟩ := h
  unfold IsUpper IsPosDigit at *
  intro x hx
  simp only [List.mem_cons] at hx
  rcases hx with rfl | rfl | rfl | hx
  · omega
  · omega
  · omega
  · have := hd x hx
    unfold IsDec at this
    omega

/-- Such a character is no blank. -/
theorem isSpace_middle {c : Char} (h : 48 ≤ c.toNat ∧ c.toNat ≤ 90) : isSpace c = false := by
  unfold isSpace
  simp only [Bool.or_eq_false_iff, Bool.and_eq_false_iff, decide_eq_false_iff_not, beq_eq_false_iff_ne]
  omega

/-- A well formed label is plain text. -/
theorem plainText_wellFormed {L : ℕ} {s : Str} (h : WellFormed L s) : PlainText s := by
  have hc := wellFormed_char h
  refine ⟨fun c hcs => ?_, fun c hcs => isSpace_middle (hc c (List.mem_of_mem_head? hcs)),
    fun c hcs => isSpace_middle (hc c (List.mem_of_getLast? hcs))⟩
  have := hc c hcs
  refine ⟨?_, ?_, ?_, ?_⟩ <;> · rintro rfl; revert this; decide

/-- A value for each entry. -/
theorem forall₂_exists {α β : Type} {R : α → β → Prop} {l : List α} (h : ∀ x ∈ l, ∃ y, R x y) :
    ∃ ys, List.Forall₂ R l ys := by
  induction l with
  | nil => exact ⟨[], .nil⟩
  | cons x l ih =>
    obtain ⟨y, hy⟩ := h x (by simp)
    obtain ⟨ys, hys⟩ := ih fun z hz => h z (List.mem_cons_of_mem _ hz)
    exact ⟨y :: ys, .cons hy hys⟩

/-- The centre of a cell in the file. -/
theorem centerIs_meshElems {names : List (Material × Material)} {ends : List Material} {coord : Bool}
    {cells : List MeshCell} (hn : (cells.map (·.label)).Nodup) {c : MeshCell} (hc : c ∈ cells) :
    CenterIs (meshElems names ends coord cells).1 c.label
      ⟨quant (centerDigits coord) c.x, quant (centerDigits coord) c.y, quant (centerDigits coord) c.z⟩ := by
  have hperm : (fileOrder ends cells).Perm cells := by
    unfold fileOrder
    have := List.filter_append_perm (fun c => decide (¬ IsLast ends c)) cells
    refine List.Perm.trans (List.Perm.append_left _ ?_) this
    rw [show (fun c => decide (IsLast ends c)) = fun x => !decide (¬ IsLast ends x) from by
      funext x; by_cases h : IsLast ends x <;> simp [h]]
  refine ⟨elemFull coord (cellElem names c), dictGet_mem ?_ ?_, ?_⟩
  · rw [meshElems]
    simp only [List.map_map]
    have : ((fileOrder ends cells).map (·.label)).Nodup := (hperm.map _).nodup_iff.2 hn
    rw [show ((fun x : Val × Elem => x.1) ∘ fun c : MeshCell => (Val.str c.label, elemFull coord (cellElem names c))) =
      Val.str ∘ fun c : MeshCell => c.label from rfl, ← List.map_map]
    exact this.map fun _ _ h => Val.str.inj h
  · exact List.mem_map.2 ⟨c, hperm.mem_iff.2 hc, rfl⟩
  · cases coord <;> rfl

end Verif.Lemmas
