import Verif.Lemmas.Incon

/-! Helper lemmas: reordering a dictionary. -/

namespace Verif.Model
open Verif.Py Verif.Spec

theorem concatM_congr {α β : Type} {f g : α → Except PyErr (List β)} {l : List α}
    (h : ∀ a ∈ l, f a = g a) : concatM f l = concatM g l := by
  induction l with
  | nil => rfl
  | cons a l ih =>
    simp only [concatM, h a (by simp), ih fun x hx => h x (by simp [hx])]

theorem concatM_error {α β : Type} {f : α → Except PyErr (List β)} {l : List α} {a : α}
    {x : PyErr} (ha : a ∈ l) (h : f a = .error x) (r : List β) : concatM f l ≠ .ok r := by
  induction l generalizing r with
  | nil => simp at ha
  | cons b l ih =>
    intro hr
    simp only [concatM] at hr
    cases hb : f b with
    | error y => rw [hb] at hr; cases hr
    | ok y =>
      rw [hb, ok_bind] at hr
      rcases List.mem_cons.1 ha with rfl | ha
      · rw [h] at hb; cases hb
      · cases hl : concatM f l with
        | error z => rw [hl] at hr; cases hr
        | ok z => exact ih ha z hl

theorem keyLen_all (ks : List Val) : (∃ k ∈ ks, keyLen k = .error .typeError) ∧
    ks.mapM keyLen = .error .typeError ∨
    (∀ k ∈ ks, ∃ s, k = .str s) ∧ ks.mapM keyLen = .ok (ks.map fun k => (textOf k).length) := by
  induction ks with
  | nil => exact .inr ⟨by simp, rfl⟩
  | cons k ks ih =>
    have hc : ∀ k, keyLen k = .error .typeError ∨ ∃ s, k = .str s := by
      intro k; cases k <;> simp [keyLen]
    rw [List.mapM_cons]
    rcases hc k with hk | ⟨s, rfl⟩
    · exact .inl ⟨⟨k, by simp, hk⟩, by rw [hk]; rfl⟩
    · rcases ih with ⟨⟨k', h1, h2⟩, h3⟩ | ⟨h1, h3⟩
      · exact .inl ⟨⟨k', by simp [h1], h2⟩, by rw [h3]; rfl⟩
      · refine .inr ⟨?_, by rw [h3]; rfl⟩
        intro k hk
        rcases List.mem_cons.1 hk with rfl | hk
        · exact ⟨s, rfl⟩
        · exact h1 k hk

theorem maxLen_perm {a b : List Val} (h : a.Perm b) : maxLen a = maxLen b := by
  unfold maxLen
  rcases keyLen_all a with ⟨⟨k, hk, he⟩, ha⟩ | ⟨ha, ha'⟩
  · rcases keyLen_all b with ⟨-, hb⟩ | ⟨hb, -⟩
    · rw [ha, hb]
    · obtain ⟨s, rfl⟩ := hb k (h.mem_iff.1 hk)
      simp [keyLen] at he
  · rcases keyLen_all b with ⟨⟨k, hk, he⟩, hb⟩ | ⟨-, hb'⟩
    · obtain ⟨s, rfl⟩ := ha k (h.mem_iff.2 hk)
      simp [keyLen] at he
    · rw [ha', hb', ok_bind, ok_bind]
      have hp := h.map fun k => (textOf k).length
      generalize a.map (fun k => (textOf k).length) = x at hp ⊢
      generalize b.map (fun k => (textOf k).length) = y at hp ⊢
      have hfold : x.foldl max 0 = y.foldl max 0 := hp.foldl_eq _
      cases x with
      | nil => rw [List.nil_perm] at hp; rw [hp]
      | cons c x =>
        cases y with
        | nil => simp at hp
        | cons d y => simp only [hfold]

/-- What reordering a dictionary keeps. -/
theorem reordered {β : Type} {d : List (Val × β)} {ks : List Val} (hd : (d.map (·.1)).Nodup)
    (hp : ks.Perm (d.map (·.1))) :
    (inOrder d ks).map (·.1) = ks ∧ ∀ k ∈ ks, dictGet d k = dictGet (inOrder d ks) k := by
  have hn : ks.Nodup := hp.nodup_iff.2 hd
  obtain ⟨l, h1, h2, h3⟩ := exists_rows d hd ks fun k hk => hp.mem_iff.1 hk
  have hln : (l.map (·.1)).Nodup := h1 ▸ hn
  have harr : Arranges l d ks :=
    ⟨rows_perm hd hln h2 fun k hk => h1 ▸ hp.mem_iff.2 hk, h1⟩
  rw [inOrder_eq hd harr]
  refine ⟨h1, fun k hk => ?_⟩
  rw [← h1] at hk
  obtain ⟨e, he, rfl⟩ := List.mem_map.1 hk
  rw [h3 e he, dictGet_mem (k := e.1) (v := e.2) hln he]

theorem dictGet_unknown {β : Type} {d : List (Val × β)} {k : Val} (hk : k ∉ d.map (·.1)) :
    dictGet d k = .error .keyError := by
  unfold dictGet
  have : d.lookup k = none := by
    simp only [List.lookup_eq_none_iff, bne_iff_ne]
    rintro a ha rfl
    exact hk (List.mem_map_of_mem ha)
  rw [this]

end Verif.Model
