import Verif.Spec.CurveObjects
import Verif.Lemmas.Interpolate
import Verif.Lemmas.Csv
import Verif.Lemmas.Tecplot
import Verif.Lemmas.Avsucd
import Verif.Lemmas.Curves

/-!
# Lemmas about the objects for curves
-/

namespace Verif.Lemmas
open Verif.Py Verif.Model Verif.Curves Verif.Spec Verif.Mesh

theorem getter_zip {α : Type} {d : List (Str × α)} : ∀ {ks : List Str} {v : List α},
    (∀ e ∈ ks.zip v, dictGet d e.1 = .ok e.2) → v.length = ks.length →
    (ks.mapM fun k => match dictGet d k with
      | .ok v => (.ok v : Except PyErr α)
      | .error _ => .error .attributeError) = .ok v
  | [], [], _, _ => rfl
  | k :: ks, x :: v, h, hl => by
    have h1 := h (k, x) (by simp)
    have h2 := getter_zip (ks := ks) (v := v) (fun e he => h e (by simp [he])) (by simpa using hl)
    rw [List.mapM_cons, h2]
    simp only at h1
    simp only [h1]
    rfl
  | [], _ :: _, _, hl => by simp at hl
  | _ :: _, [], _, hl => by simp at hl

/-- The setter and the getter of a class name the same attributes, all different. -/
def SameNames (c : Cls) : Prop := c.getter = c.setter ∧ c.setter.Nodup

theorem assign_get {α : Type} {o : Obj α} {v : List α} (hc : SameNames o.cls) (hl : v.length = o.cls.setter.length) :
    ∃ o', o.assign v = (.ok (), o') ∧ o'.cls = o.cls ∧ o'.parameters = .ok v := by
  have hn : ((o.cls.setter.zip v).map (·.1)).Nodup := by
    rw [List.map_fst_zip (by omega)]
    exact hc.2
  refine ⟨{ o with attrs := updateDict o.attrs (o.cls.setter.zip v) }, ?_, rfl, ?_⟩
  · unfold Obj.assign
    rw [if_neg (by simpa using hl)]
  · unfold Obj.parameters
    simp only
    rw [hc.1]
    exact getter_zip (dictGet_updated hn).1 hl

theorem rel_names (k : RelKind) : SameNames k.cls := by
  cases k <;> exact ⟨rfl, by decide +kernel⟩

theorem cap_names (k : CapKind) : SameNames k.cls := by
  cases k <;> exact ⟨rfl, by decide +kernel⟩

theorem rel_setter (k : RelKind) : k.cls.setter.length = relCount k := by cases k <;> rfl

theorem cap_setter (k : CapKind) : k.cls.setter.length = capCount k := by cases k <;> rfl

theorem cls_new {α : Type} {c : Cls} (hc : SameNames c) {v : List α} (hl : v.length = c.setter.length) :
    ∃ o, c.new v = .ok o ∧ o.cls = c ∧ o.parameters = .ok v := by
  obtain ⟨o, h1, h2, h3⟩ := assign_get (o := ⟨c, []⟩) hc hl
  refine ⟨o, ?_, h2, h3⟩
  unfold Cls.new
  rw [h1]

theorem dictSet_key {κ β : Type} [DecidableEq κ] {d : List (κ × β)} {k : κ} {v : β} {e : κ × β}
    (h : e ∈ dictSet d k v) : e.1 = k ∨ e ∈ d := by
  induction d with
  | nil => exact .inl (by simp [dictSet] at h; rw [h])
  | cons a d ih =>
    unfold dictSet at h
    split at h
    · rcases List.mem_cons.1 h with rfl | h
      · exact .inl rfl
      · exact .inr (List.mem_cons_of_mem _ h)
    · rcases List.mem_cons.1 h with rfl | h
      · exact .inr (by simp)
      · exact (ih h).imp_right (List.mem_cons_of_mem _)

theorem updateDict_key {κ β : Type} [DecidableEq κ] {base d : List (κ × β)} {e : κ × β} (h : e ∈ updateDict base d) :
    e.1 ∈ d.map (·.1) ∨ e ∈ base := by
  unfold updateDict at h
  induction d generalizing base with
  | nil => exact .inr h
  | cons a d ih =>
    rcases ih h with h | h
    · exact .inl (List.mem_cons_of_mem _ h)
    · rcases dictSet_key h with h | h
      · exact .inl (by simp [h])
      · exact .inr h

theorem dictGet_key {κ β : Type} [DecidableEq κ] {d : List (κ × β)} {k : κ} {v : β} (h : dictGet d k = .ok v) :
    k ∈ d.map (·.1) := by
  by_contra hn
  rw [dictGet_absent] at h
  · cases h
  · rintro e he rfl
    exact hn (List.mem_map_of_mem he)

theorem unitSteps_mem {n : ℕ} (s : ℝ) (h : s ∈ unitSteps n) : s ∈ Set.Icc (0 : ℝ) 1 := by
  obtain ⟨i, hi, rfl⟩ := List.mem_map.1 h
  have hi : i ≤ n - 1 := by
    have := List.mem_range.1 hi
    omega
  constructor
  · positivity
  · exact div_le_one_of_le₀ (by exact_mod_cast hi) (by positivity)

theorem repr_lines {α : Type} {what number letters : String} {text : α → Str} {o : Obj α} {v : List α}
    (hp : o.parameters = .ok v) (hn : '\n' ∉ o.cls.name) (hw : '\n' ∉ what.toList) (hm : '\n' ∉ number.toList)
    (hl : '\n' ∉ letters.toList) (ht : ∀ x ∈ v, '\n' ∉ text x) :
    ∃ s, o.repr what.toList number.toList letters.toList text = .ok s ∧ splitOn '\n' s =
      (o.cls.name ++ (" " ++ what ++ " model (" ++ number ++ " = ").toList ++ natStr o.cls.id ++ "):".toList) ::
        v.zipIdx.map fun e => parameterLine letters (e.2 + 1) (text e.1) := by
  have hnat : ∀ n : ℕ, '\n' ∉ natStr n := fun n => natStr_notMem n (by decide)
  refine ⟨_, by unfold Obj.repr; rw [hp]; rfl, ?_⟩
  rw [splitOn_join (by simp)]
  · simp [parameterLine, List.append_assoc]
  · intro x hx
    rw [List.mem_cons] at hx
    rcases hx with rfl | hx
    · simp [hn, hw, hm, hnat]
    · obtain ⟨e, he, rfl⟩ := List.mem_map.1 hx
      have := ht e.1 (List.fst_mem_of_mem_zipIdx he)
      simp [hl, hnat, this]

end Verif.Lemmas
