import Verif.Spec.Blocks
import Verif.Lemmas.IO
import Mathlib.Data.List.Perm.Basic
import Mathlib.Data.List.Nodup

/-! Helper lemmas: writing the rows of a dictionary in a given order. -/

namespace Verif.Model
open Verif.Py Verif.Spec

theorem orderOf_nodup {order : Option (List Val)} {keys : List Val} (ho : OrderOk order keys)
    (hk : keys.Nodup) : (orderOf order keys).Nodup := by
  unfold orderOf
  rw [List.nodup_append]
  refine ⟨?_, hk.filter _, ?_⟩
  · cases order with
    | none => simp
    | some o => exact (ho o rfl).1
  · intro a ha b hb hab
    subst hab
    simp at hb
    exact hb.2 ha

theorem mem_orderOf {order : Option (List Val)} {keys : List Val} (ho : OrderOk order keys)
    (k : Val) : k ∈ orderOf order keys ↔ k ∈ keys := by
  unfold orderOf
  simp only [List.mem_append, List.mem_filter, decide_eq_true_eq]
  constructor
  · rintro (h | h)
    · cases order with
      | none => simp at h
      | some o => exact (ho o rfl).2 k h
    · exact h.1
  · intro h
    by_cases hm : k ∈ order.getD []
    · exact Or.inl hm
    · exact Or.inr ⟨h, hm⟩

theorem rockOrder_eq {β : Type} (order : Option (List Val)) (rocks : List (Val × β)) :
    rockOrder order rocks = orderOf order (rocks.map (·.1)) := by
  cases order with
  | none => simp [rockOrder, orderOf]
  | some o => simp [rockOrder, orderOf]

/-- A list of distinct known keys can be completed to rows of the dictionary. -/
theorem exists_rows {β : Type} (d : List (Val × β)) (hd : (d.map (·.1)).Nodup) (ks : List Val)
    (hks : ∀ k ∈ ks, k ∈ d.map (·.1)) :
    ∃ l : List (Val × β), l.map (·.1) = ks ∧ (∀ e ∈ l, e ∈ d) ∧
      ∀ e ∈ l, dictGet d e.1 = .ok e.2 := by
  induction ks with
  | nil => exact ⟨[], rfl, by simp, by simp⟩
  | cons k ks ih =>
    obtain ⟨l, h1, h2, h3⟩ := ih (fun k hk => hks k (by simp [hk]))
    obtain ⟨e, he, rfl⟩ := List.mem_map.1 (hks k (by simp))
    refine ⟨e :: l, by simp [h1], ?_, ?_⟩
    · intro x hx
      rcases List.mem_cons.1 hx with rfl | hx
      · exact he
      · exact h2 x hx
    · intro x hx
      rcases List.mem_cons.1 hx with rfl | hx
      · exact dictGet_mem hd he
      · exact h3 x hx

/-- Rows of a dictionary under all its keys are a permutation of it. -/
theorem rows_perm {β : Type} {d l : List (Val × β)} (hd : (d.map (·.1)).Nodup)
    (hl : (l.map (·.1)).Nodup) (hmem : ∀ e ∈ l, e ∈ d) (hall : ∀ k ∈ d.map (·.1), k ∈ l.map (·.1)) :
    l.Perm d := by
  have hdn : d.Nodup := List.Nodup.of_map _ hd
  have hln : l.Nodup := List.Nodup.of_map _ hl
  rw [List.perm_ext_iff_of_nodup hln hdn]
  intro e
  refine ⟨hmem e, fun he => ?_⟩
  obtain ⟨e', he', hk⟩ := List.mem_map.1 (hall e.1 (List.mem_map_of_mem he))
  have h1 := dictGet_mem (k := e.1) (v := e.2) hd he
  have h2 := dictGet_mem (k := e'.1) (v := e'.2) hd (hmem e' he')
  rw [hk, h1] at h2
  have : e = e' := Prod.ext hk.symm (Except.ok.inj h2)
  rw [this]; exact he'

theorem exists_arranged {β : Type} (d : List (Val × β)) (hd : (d.map (·.1)).Nodup)
    {order : Option (List Val)} (ho : OrderOk order (d.map (·.1))) :
    ∃ l, Arranges l d (orderOf order (d.map (·.1))) ∧ (∀ e ∈ l, dictGet d e.1 = .ok e.2) := by
  obtain ⟨l, h1, h2, h3⟩ := exists_rows d hd (orderOf order (d.map (·.1)))
    (fun k hk => (mem_orderOf ho k).1 hk)
  refine ⟨l, ⟨rows_perm hd ?_ h2 ?_, h1⟩, h3⟩
  · rw [h1]; exact orderOf_nodup ho hd
  · intro k hk; rw [h1]; exact (mem_orderOf ho k).2 hk

theorem inOrder_eq {β : Type} {d l : List (Val × β)} {ks : List Val} (hd : (d.map (·.1)).Nodup)
    (h : Arranges l d ks) : inOrder d ks = l := by
  unfold inOrder
  rw [← h.2, List.filterMap_map]
  have : ∀ e ∈ l, ((fun k => (d.lookup k).map fun v => (k, v)) ∘ fun x => x.1) e = some e := by
    intro e he
    have := dictGet_mem hd (h.1.mem_iff.1 he : (e.1, e.2) ∈ d)
    unfold dictGet at this
    simp only [Function.comp]
    cases hl : d.lookup e.1 with
    | none => rw [hl] at this; cases this
    | some v => rw [hl] at this; cases this; rfl
  clear h
  induction l with
  | nil => rfl
  | cons e l ih =>
    rw [List.filterMap_cons, this e (by simp), ih (fun x hx => this x (by simp [hx]))]

end Verif.Model
