import Verif.Props.CurveObjects
import Verif.Lemmas.Avsucd
import Verif.Props.MeshWrite

/-!
# What curves, readers and meshes refuse (C90)
-/

namespace Verif.Curves
open Verif.Py Verif.Model

/-- C90. What `plot` refuses, in this order: a wrong number of points (TypeError for relative
permeabilities, ValueError for capillary pressures), axes or a size of the figure of the wrong type
(TypeError), a size that is not a pair (ValueError), keywords that are no dictionary (TypeError), and
an array as size of a new figure (ValueError). -/
theorem C90_plot (k : RelKind) (c : CapKind) (o : Obj ℝ) (a : PlotArgs) :
    ((∀ n, a.n = some n → n ≤ 1) → k.plot o a = .error .typeError ∧ c.plot o a = .error .valueError) ∧
    ∀ n : ℤ, a.n = some n → 1 < n →
      (a.ax = none → k.plot o a = .error .typeError ∧ c.plot o a = .error .typeError) ∧
      ∀ b, a.ax = some b →
        (a.figsize = .other ∨ a.figsize = .none → k.plot o a = .error .typeError ∧ c.plot o a = .error .typeError) ∧
        (∀ l, l ≠ 2 → a.figsize = .seq l ∨ a.figsize = .array l →
          k.plot o a = .error .valueError ∧ c.plot o a = .error .valueError) ∧
        (a.figsize = .seq 2 ∨ a.figsize = .array 2 → a.kws = none →
          k.plot o a = .error .typeError ∧ c.plot o a = .error .typeError) ∧
        (b = false → a.figsize = .array 2 → a.kws ≠ none →
          k.plot o a = .error .valueError ∧ c.plot o a = .error .valueError) := by
  have key : ∀ e₁ e₂, plotChecks .typeError a = .error e₁ → plotChecks .valueError a = .error e₂ →
      k.plot o a = .error e₁ ∧ c.plot o a = .error e₂ := by
    intro e₁ e₂ h1 h2
    unfold RelKind.plot CapKind.plot
    rw [h1, h2]
    exact ⟨rfl, rfl⟩
  obtain ⟨an, aax, af, ak⟩ := a
  simp only
  refine ⟨fun h => key _ _ ?_ ?_, fun n hn h1 => ?_⟩
  · unfold plotChecks
    cases an with
    | none => rfl
    | some n => simp only; rw [if_neg (by have := h n rfl; omega)]; rfl
  · unfold plotChecks
    cases an with
    | none => rfl
    | some n => simp only; rw [if_neg (by have := h n rfl; omega)]; rfl
  · subst hn
    have g : n > 1 := h1
    refine ⟨fun h => ?_, fun b hb => ⟨fun h => ?_, fun l hl h => ?_, fun h hk => ?_, fun hb' h hk => ?_⟩⟩
    · subst h
      apply key <;> · unfold plotChecks; simp only [g, if_true, ok_bind]; rfl
    · subst hb
      rcases h with rfl | rfl <;> apply key <;>
        · unfold plotChecks; simp only [g, if_true, ok_bind]; rfl
    · subst hb
      rcases h with rfl | rfl <;> apply key <;>
        · unfold plotChecks; simp only [g, if_true, ok_bind]; rw [if_pos hl]
    · subst hb
      subst hk
      rcases h with rfl | rfl <;> apply key <;>
        · unfold plotChecks; simp only [g, if_true, ok_bind]; rfl
    · subst hb
      subst hb'
      subst h
      cases ak with
      | none => exact absurd rfl hk
      | some d => apply key <;> · unfold plotChecks; simp only [g, if_true, ok_bind]; rfl

example : CapKind.plot .milly ⟨CapKind.milly.cls, []⟩ ⟨some 1, none, .other, none⟩ = .error .valueError ∧
    RelKind.plot .corey ⟨CapKind.milly.cls, []⟩ ⟨some 1, none, .other, none⟩ = .error .typeError :=
  have h := (C90_plot .corey .milly ⟨CapKind.milly.cls, []⟩ ⟨some 1, none, .other, none⟩).1 (by
    intro n hn
    cases hn
    decide)
  ⟨h.2, h.1⟩

/-- C90. An object without one of its attributes has no parameters (AttributeError). -/
theorem C90_attribute {α : Type} (o : Obj α) (k : Str) (hk : k ∈ o.cls.getter) (ha : k ∉ o.attrs.map (·.1)) :
    o.parameters = .error .attributeError := by
  unfold Obj.parameters
  refine mapM_error_of_mem (fun j _ => ?_) ⟨k, hk, ?_⟩
  · cases dictGet o.attrs j with
    | ok v => exact .inl ⟨v, rfl⟩
    | error e => exact .inr rfl
  · rw [Verif.Mesh.dictGet_absent (fun e he h => ha (List.mem_map.2 ⟨e, he, h⟩))]

example : (⟨CapKind.milly.cls, []⟩ : Obj ℚ).parameters = .error .attributeError :=
  C90_attribute _ "_slr".toList (by decide) (by decide)

end Verif.Curves

namespace Verif.Model
open Verif.Py Verif.Mesh Verif.Spec Verif.Props

/-- C90. The MESH file of a mesh without connections is refused with ValueError, if it would be
written with some. -/
theorem C90_no_connection (names : List (Material × Material)) (ends : List Material) (coord : Bool)
    (cells : List MeshCell) (conns : List MeshConn) (lines : List Str)
    (h : meshFile names ends coord cells conns = .ok lines) :
    meshFile names ends coord cells [] = .error .valueError := by
  unfold meshFile at h ⊢
  obtain ⟨a, ha, h⟩ := bind_eq_ok.1 h
  obtain ⟨b, hb, h⟩ := bind_eq_ok.1 h
  rw [ha, ok_bind, hb, ok_bind]
  rfl

example : meshFile [] [] false [] [] = .error .valueError := by decide +kernel

end Verif.Model
