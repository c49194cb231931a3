import Verif.Model.Connections
import Verif.Spec.Connections
import Verif.Lemmas.Volume

/-!
# Helper lemmas about connections
-/

namespace Verif.Mesh
open Verif.Py Verif.Model Verif.Spec

theorem sortRow_eq_iff (f g : List ℕ) : sortRow f = sortRow g ↔ f.Perm g := by
  unfold sortRow
  constructor
  · intro h
    exact (List.perm_insertionSort _ f).symm.trans (h ▸ List.perm_insertionSort _ g)
  · intro h
    refine List.Perm.eq_of_pairwise (le := (· ≤ ·)) (fun a b _ _ h1 h2 => le_antisymm h1 h2)
      (List.pairwise_insertionSort _ f) (List.pairwise_insertionSort _ g)
      ((List.perm_insertionSort _ f).trans (h.trans (List.perm_insertionSort _ g).symm))

theorem mem_unique {α : Type} [LinearOrder α] (l : List α) (x : α) : x ∈ unique l ↔ x ∈ l := by
  unfold unique
  rw [(List.perm_insertionSort _ _).mem_iff, List.mem_dedup]

theorem mem_getFaces {n : ℕ} {fs : List (List (List ℕ))} {f : List ℕ} {i a : ℕ} :
    (f, i, a) ∈ getFaces n fs ↔ FaceAt fs i a f ∧ f.length = n := by
  unfold getFaces FaceAt
  simp only [List.mem_flatMap, Prod.exists, List.mem_zipIdx_iff_getElem?, List.mem_map, List.mem_filter,
    decide_eq_true_eq, Prod.mk.injEq]
  constructor
  · rintro ⟨row, i', h1, f', a', ⟨h2, h3⟩, rfl, rfl, rfl⟩
    exact ⟨⟨row, h1, h2⟩, h3⟩
  · rintro ⟨⟨row, h1, h2⟩, h3⟩
    exact ⟨row, i, h1, f, a, ⟨h2, h3⟩, rfl, rfl, rfl⟩

theorem zipIdx_snd_nodup {α : Type} (l : List α) (n : ℕ) : (l.zipIdx n).Pairwise fun a b => a.2 ≠ b.2 := by
  have : ((l.zipIdx n).map Prod.snd).Nodup := by
    rw [List.zipIdx_map_snd]
    exact List.nodup_range'
  exact List.pairwise_map.1 this

theorem getFaces_nodup (n : ℕ) (fs : List (List (List ℕ))) : ((getFaces n fs).map (·.2)).Nodup := by
  unfold getFaces
  rw [List.map_flatMap, List.nodup_flatMap]
  constructor
  · intro r _
    rw [List.map_map]
    refine List.pairwise_map.2 (((zipIdx_snd_nodup r.1 0).filter _).imp fun h => ?_)
    simpa using h
  · refine (zipIdx_snd_nodup fs 0).imp ?_
    intro a b hab x hx hy
    simp only [List.map_map, List.mem_map, Function.comp] at hx hy
    obtain ⟨_, _, rfl⟩ := hx
    obtain ⟨_, _, h⟩ := hy
    simp only [Prod.mk.injEq] at h
    exact hab h.1.symm

theorem faceAt_unique {fs : List (List (List ℕ))} {i a : ℕ} {f g : List ℕ} (h1 : FaceAt fs i a f)
    (h2 : FaceAt fs i a g) : f = g := by
  obtain ⟨r, e1, e2⟩ := h1
  obtain ⟨s, e3, e4⟩ := h2
  rw [e1] at e3; cases e3
  rw [e2] at e4; cases e4
  rfl

/-- A group holds exactly the occurrences of one face. -/
theorem mem_group {n : ℕ} {fs : List (List (List ℕ))} {u : List ℕ} {i a : ℕ} :
    (i, a) ∈ ((getFaces n fs).filter fun o => sortRow o.1 = u).map (·.2) ↔
      ∃ f, FaceAt fs i a f ∧ f.length = n ∧ sortRow f = u := by
  simp only [List.mem_map, List.mem_filter, decide_eq_true_eq]
  constructor
  · rintro ⟨⟨f, i', a'⟩, ⟨h1, h2⟩, h3⟩
    cases h3
    rw [mem_getFaces] at h1
    exact ⟨f, h1.1, h1.2, h2⟩
  · rintro ⟨f, h1, h2, h3⟩
    exact ⟨(f, i, a), ⟨mem_getFaces.2 ⟨h1, h2⟩, h3⟩, rfl⟩

theorem group_nodup (n : ℕ) (fs : List (List (List ℕ))) (u : List ℕ) :
    (((getFaces n fs).filter fun o => sortRow o.1 = u).map (·.2)).Nodup :=
  List.Nodup.sublist (List.Sublist.map _ List.filter_sublist) (getFaces_nodup n fs)

/-- The two occurrences of a face that occurs exactly twice. -/
def Mates (fs : List (List (List ℕ))) (p q : ℕ × ℕ) : Prop :=
  Shared fs p.1 p.2 q.1 q.2 ∧ ∀ k c, Shared fs p.1 p.2 k c → (k, c) = q

theorem shared_symm {fs : List (List (List ℕ))} {i a j b : ℕ} (h : Shared fs i a j b) :
    Shared fs j b i a := by
  obtain ⟨h1, f, g, h2, h3, h4⟩ := h
  exact ⟨fun e => h1 e.symm, g, f, h3, h2, h4.symm⟩

theorem shared_trans {fs : List (List (List ℕ))} {i a j b k c : ℕ} (h : Shared fs i a j b)
    (h' : Shared fs j b k c) (hne : (i, a) ≠ (k, c)) : Shared fs i a k c := by
  obtain ⟨_, f, g, h2, h3, h4⟩ := h
  obtain ⟨_, g', e, h5, h6, h7⟩ := h'
  rw [faceAt_unique h3 h5] at h4
  exact ⟨hne, f, e, h2, h6, h4.trans h7⟩

theorem mates_symm {fs : List (List (List ℕ))} {p q : ℕ × ℕ} (h : Mates fs p q) : Mates fs q p := by
  obtain ⟨h1, h2⟩ := h
  refine ⟨shared_symm h1, fun k c hk => ?_⟩
  by_contra hne
  have hne' : (p.1, p.2) ≠ (k, c) := fun e => hne (e.symm.trans rfl)
  have := h2 k c (shared_trans h1 hk hne')
  exact hk.1 (by rw [this])

/-- The pairs found by the grouping. -/
theorem mem_pairs {fs : List (List (List ℕ))} (hlen : ∀ i a f, FaceAt fs i a f → f.length = 3 ∨ f.length = 4)
    (p q : ℕ × ℕ) :
    ((p, q) ∈ (faceGroups (getFaces 3 fs) ++ faceGroups (getFaces 4 fs)).filterMap twoOf ∨
      (q, p) ∈ (faceGroups (getFaces 3 fs) ++ faceGroups (getFaces 4 fs)).filterMap twoOf) ↔
      Mates fs p q := by
  have fwd : ∀ p q, (p, q) ∈ (faceGroups (getFaces 3 fs) ++ faceGroups (getFaces 4 fs)).filterMap twoOf →
      Mates fs p q := by
    intro p q h
    rw [List.mem_filterMap] at h
    obtain ⟨g, hg, h2⟩ := h
    have hg' : ∃ n u, g = ((getFaces n fs).filter fun o => sortRow o.1 = u).map (·.2) := by
      rw [List.mem_append] at hg
      rcases hg with hg | hg
      · obtain ⟨u, -, rfl⟩ := List.mem_map.1 hg; exact ⟨3, u, rfl⟩
      · obtain ⟨u, -, rfl⟩ := List.mem_map.1 hg; exact ⟨4, u, rfl⟩
    obtain ⟨n, u, hgu⟩ := hg'
    have e : g = [p, q] := by
      unfold twoOf at h2
      split at h2
      · cases h2; rfl
      · cases h2
    rw [e] at hgu
    have nd := group_nodup n fs u
    rw [← hgu] at nd
    have hp : p ∈ ((getFaces n fs).filter fun o => sortRow o.1 = u).map (·.2) := by rw [← hgu]; simp
    have hq : q ∈ ((getFaces n fs).filter fun o => sortRow o.1 = u).map (·.2) := by rw [← hgu]; simp
    obtain ⟨f, f1, f2, f3⟩ := mem_group.1 (show (p.1, p.2) ∈ _ from hp)
    obtain ⟨g', g1, g2, g3⟩ := mem_group.1 (show (q.1, q.2) ∈ _ from hq)
    have hne : p ≠ q := by
      rw [List.nodup_cons] at nd
      intro h; exact nd.1 (by simp [h])
    refine ⟨⟨hne, f, g', f1, g1, (sortRow_eq_iff f g').1 (f3.trans g3.symm)⟩, fun k c hk => ?_⟩
    obtain ⟨hk1, f', e', k1, k2, k3⟩ := hk
    rw [faceAt_unique k1 f1] at k3
    have : (k, c) ∈ ((getFaces n fs).filter fun o => sortRow o.1 = u).map (·.2) :=
      mem_group.2 ⟨e', k2, by rw [← k3.length_eq]; exact f2, by rw [← (sortRow_eq_iff f e').2 k3]; exact f3⟩
    rw [← hgu] at this
    simp only [List.mem_cons, List.not_mem_nil, or_false] at this
    rcases this with h | h
    · exact absurd h.symm hk1
    · exact h
  constructor
  · rintro (h | h)
    · exact fwd p q h
    · exact mates_symm (fwd q p h)
  · rintro ⟨⟨hne, f, g, f1, g1, hp⟩, huniq⟩
    have hfl := hlen _ _ _ f1
    have key : ∀ n, f.length = n → ((getFaces n fs).filter fun o => sortRow o.1 = sortRow f).map (·.2) = [p, q] ∨
        ((getFaces n fs).filter fun o => sortRow o.1 = sortRow f).map (·.2) = [q, p] := by
      intro n hn
      have nd := group_nodup n fs (sortRow f)
      have mp : p ∈ ((getFaces n fs).filter fun o => sortRow o.1 = sortRow f).map (·.2) :=
        (mem_group (i := p.1) (a := p.2)).2 ⟨f, f1, hn, rfl⟩
      have mq : q ∈ ((getFaces n fs).filter fun o => sortRow o.1 = sortRow f).map (·.2) :=
        (mem_group (i := q.1) (a := q.2)).2 ⟨g, g1, by rw [← hp.length_eq]; exact hn,
          (sortRow_eq_iff g f).2 hp.symm⟩
      have only : ∀ x ∈ ((getFaces n fs).filter fun o => sortRow o.1 = sortRow f).map (·.2), x = p ∨ x = q := by
        intro x hx
        obtain ⟨e, e1, e2, e3⟩ := mem_group.1 (show (x.1, x.2) ∈ _ from hx)
        by_cases hxp : x = p
        · exact .inl hxp
        · right
          exact huniq x.1 x.2 ⟨fun h => hxp (h.symm.trans rfl), f, e, f1, e1, (sortRow_eq_iff f e).1 e3.symm⟩
      generalize ((getFaces n fs).filter fun o => sortRow o.1 = sortRow f).map (·.2) = l at nd mp mq only
      have hne' : p ≠ q := hne
      match l, nd, mp, mq, only with
      | [], _, mp, _, _ => simp at mp
      | [x], _, mp, mq, _ =>
        simp only [List.mem_singleton] at mp mq
        exact absurd (mp.trans mq.symm) hne'
      | [x, y], nd, mp, mq, only =>
        simp only [List.mem_cons, List.not_mem_nil, or_false] at mp mq
        rcases mp with rfl | rfl <;> rcases mq with rfl | rfl
        · exact absurd rfl hne'
        · exact .inl rfl
        · exact .inr rfl
        · exact absurd rfl hne'
      | x :: y :: z :: l, nd, _, _, only =>
        exfalso
        have hx := only x (by simp)
        have hy := only y (by simp)
        have hz := only z (by simp)
        simp only [List.nodup_cons, List.mem_cons, not_or] at nd
        rcases hx with rfl | rfl <;> rcases hy with rfl | rfl <;> rcases hz with rfl | rfl <;> tauto
    have mem : ∀ n, f.length = n → sortRow f ∈ unique ((getFaces n fs).map fun o => sortRow o.1) := by
      intro n hn
      rw [mem_unique, List.mem_map]
      exact ⟨(f, p.1, p.2), mem_getFaces.2 ⟨f1, hn⟩, rfl⟩
    have fin : ∀ l, (l = [p, q] ∨ l = [q, p]) →
        l ∈ faceGroups (getFaces 3 fs) ++ faceGroups (getFaces 4 fs) →
        ((p, q) ∈ (faceGroups (getFaces 3 fs) ++ faceGroups (getFaces 4 fs)).filterMap twoOf ∨
          (q, p) ∈ (faceGroups (getFaces 3 fs) ++ faceGroups (getFaces 4 fs)).filterMap twoOf) := by
      intro l hl hm
      rcases hl with rfl | rfl
      · exact .inl (List.mem_filterMap.2 ⟨_, hm, rfl⟩)
      · exact .inr (List.mem_filterMap.2 ⟨_, hm, rfl⟩)
    rcases hfl with h | h
    · exact fin _ (key 3 h) (List.mem_append.2 (.inl (List.mem_map.2 ⟨_, mem 3 h, rfl⟩)))
    · exact fin _ (key 4 h) (List.mem_append.2 (.inr (List.mem_map.2 ⟨_, mem 4 h, rfl⟩)))

/-! ## The table -/

theorem entry_setEntry (out : List (List ℤ)) (i j : ℕ) (v : ℤ) (k c : ℕ) :
    tableAt (setEntry out i j v) k c =
      if k = i ∧ c = j then (tableAt out k c).map fun _ => v else tableAt out k c := by
  unfold tableAt setEntry
  rw [List.getElem?_modify]
  by_cases hk : i = k
  · subst hk
    cases ho : out[i]? with
    | none => simp
    | some row =>
      simp only [if_pos, Option.map_some, Option.bind_some, List.getElem?_set]
      by_cases hc : j = c
      · subst hc
        by_cases hl : j < row.length
        · simp [hl]
        · simp [hl]
      · simp [hc, Ne.symm hc]
  · simp [hk, Ne.symm hk]

theorem entry_isSome_setEntry (out : List (List ℤ)) (i j : ℕ) (v : ℤ) (k c : ℕ) :
    (tableAt (setEntry out i j v) k c).isSome = (tableAt out k c).isSome := by
  rw [entry_setEntry]
  split <;> simp

/-- The table after setting the entries of a list of pairs, no entry getting two values. -/
theorem entry_foldl (pairs : List ((ℕ × ℕ) × ℕ × ℕ)) (out : List (List ℤ)) (k c : ℕ) :
    let r := pairs.foldl
      (fun out e => setEntry (setEntry out e.1.1 e.1.2 e.2.1) e.2.1 e.2.2 e.1.1) out
    (tableAt r k c).isSome = (tableAt out k c).isSome ∧
    (tableAt r k c = tableAt out k c ∨
      ∃ q, ((((k, c), q) ∈ pairs) ∨ ((q, (k, c)) ∈ pairs)) ∧ tableAt r k c = (tableAt out k c).map fun _ => (q.1 : ℤ)) ∧
    ((∃ q, ((((k, c), q) ∈ pairs) ∨ ((q, (k, c)) ∈ pairs))) →
      ∃ q, ((((k, c), q) ∈ pairs) ∨ ((q, (k, c)) ∈ pairs)) ∧
        tableAt r k c = (tableAt out k c).map fun _ => (q.1 : ℤ)) := by
  induction pairs generalizing out with
  | nil => simp
  | cons e pairs ih =>
    obtain ⟨⟨i1, j1⟩, i2, j2⟩ := e
    simp only [List.foldl_cons]
    obtain ⟨h1, h2, h3⟩ := ih (setEntry (setEntry out i1 j1 i2) i2 j2 i1)
    have hs : (tableAt (setEntry (setEntry out i1 j1 i2) i2 j2 i1) k c).isSome = (tableAt out k c).isSome := by
      rw [entry_isSome_setEntry, entry_isSome_setEntry]
    have hmap : ∀ v : ℤ, ((tableAt (setEntry (setEntry out i1 j1 i2) i2 j2 i1) k c).map fun _ => v) =
        (tableAt out k c).map fun _ => v := by
      intro v
      cases h : tableAt out k c with
      | none => rw [h] at hs; simpa using hs
      | some a =>
        rw [h] at hs
        obtain ⟨b, hb⟩ := Option.isSome_iff_exists.1 hs
        rw [hb]; rfl
    have hval : tableAt (setEntry (setEntry out i1 j1 i2) i2 j2 i1) k c = tableAt out k c ∨
        ∃ q, ((((k, c), q) = ((i1, j1), i2, j2)) ∨ ((q, (k, c)) = ((i1, j1), i2, j2))) ∧
          tableAt (setEntry (setEntry out i1 j1 i2) i2 j2 i1) k c = (tableAt out k c).map fun _ => (q.1 : ℤ) := by
      by_cases g2 : k = i2 ∧ c = j2
      · refine .inr ⟨(i1, j1), .inr (by rw [g2.1, g2.2]), ?_⟩
        rw [entry_setEntry, if_pos g2, entry_setEntry]
        split <;> simp [Option.map_map, Function.comp_def]
      · by_cases g1 : k = i1 ∧ c = j1
        · refine .inr ⟨(i2, j2), .inl (by rw [g1.1, g1.2]), ?_⟩
          rw [entry_setEntry, if_neg g2, entry_setEntry, if_pos g1]
        · left
          rw [entry_setEntry, if_neg g2, entry_setEntry, if_neg g1]
    have hmem : (∃ q, ((((k, c), q) = ((i1, j1), i2, j2)) ∨ ((q, (k, c)) = ((i1, j1), i2, j2)))) →
        ∃ q, ((((k, c), q) = ((i1, j1), i2, j2)) ∨ ((q, (k, c)) = ((i1, j1), i2, j2))) ∧
          tableAt (setEntry (setEntry out i1 j1 i2) i2 j2 i1) k c = (tableAt out k c).map fun _ => (q.1 : ℤ) := by
      rintro ⟨q, hq⟩
      by_cases g2 : k = i2 ∧ c = j2
      · refine ⟨(i1, j1), .inr (by rw [g2.1, g2.2]), ?_⟩
        rw [entry_setEntry, if_pos g2, entry_setEntry]
        split <;> simp [Option.map_map, Function.comp_def]
      · rcases hq with hq | hq
        · simp only [Prod.mk.injEq] at hq
          refine ⟨(i2, j2), .inl (by rw [hq.1.1, hq.1.2]), ?_⟩
          rw [entry_setEntry, if_neg g2, entry_setEntry, if_pos hq.1]
        · simp only [Prod.mk.injEq] at hq
          exact absurd hq.2 g2
    have lift : (∃ q, ((((k, c), q) ∈ pairs) ∨ ((q, (k, c)) ∈ pairs)) ∧
        tableAt (pairs.foldl (fun out e => setEntry (setEntry out e.1.1 e.1.2 e.2.1) e.2.1 e.2.2 e.1.1)
          (setEntry (setEntry out i1 j1 i2) i2 j2 i1)) k c =
        (tableAt (setEntry (setEntry out i1 j1 i2) i2 j2 i1) k c).map fun _ => (q.1 : ℤ)) →
        ∃ q, ((((k, c), q) ∈ ((i1, j1), i2, j2) :: pairs) ∨ ((q, (k, c)) ∈ ((i1, j1), i2, j2) :: pairs)) ∧
        tableAt (pairs.foldl (fun out e => setEntry (setEntry out e.1.1 e.1.2 e.2.1) e.2.1 e.2.2 e.1.1)
          (setEntry (setEntry out i1 j1 i2) i2 j2 i1)) k c = (tableAt out k c).map fun _ => (q.1 : ℤ) := by
      rintro ⟨q, hq, he⟩
      refine ⟨q, hq.imp (List.mem_cons_of_mem _) (List.mem_cons_of_mem _), ?_⟩
      rw [he, hmap]
    refine ⟨h1.trans hs, ?_, ?_⟩
    · rcases h2 with h2 | h2
      · rcases hval with hv | ⟨q, hq, hv⟩
        · exact .inl (h2.trans hv)
        · refine .inr ⟨q, hq.imp (fun h => ?_) (fun h => ?_), h2.trans hv⟩ <;> rw [h] <;> exact List.mem_cons_self
      · exact .inr (lift h2)
    · rintro ⟨q, hq⟩
      by_cases hin : ∃ q, ((((k, c), q) ∈ pairs) ∨ ((q, (k, c)) ∈ pairs))
      · exact lift (h3 hin)
      · have hhead : ((((k, c), q) = ((i1, j1), i2, j2)) ∨ ((q, (k, c)) = ((i1, j1), i2, j2))) := by
          rcases hq with hq | hq
          · rcases List.mem_cons.1 hq with h | h
            · exact .inl h
            · exact absurd ⟨q, .inl h⟩ hin
          · rcases List.mem_cons.1 hq with h | h
            · exact .inr h
            · exact absurd ⟨q, .inr h⟩ hin
        rcases h2 with h2 | ⟨q', hq', -⟩
        · obtain ⟨q', hq', hv⟩ := hmem ⟨q, hhead⟩
          refine ⟨q', hq'.imp (fun h => ?_) (fun h => ?_), h2.trans hv⟩ <;> rw [h] <;> exact List.mem_cons_self
        · exact absurd ⟨q', hq'⟩ hin

theorem entry_init (n k c : ℕ) :
    tableAt (List.replicate n (List.replicate 6 (-1))) k c = if k < n ∧ c < 6 then some (-1) else none := by
  unfold tableAt
  rw [List.getElem?_replicate]
  by_cases hk : k < n
  · rw [if_pos hk, Option.bind_some, List.getElem?_replicate]
    by_cases hc : c < 6
    · rw [if_pos hc, if_pos ⟨hk, hc⟩]
    · rw [if_neg hc, if_neg fun h => hc h.2]
  · rw [if_neg hk, if_neg fun h => hk h.1]
    rfl

/-- The neighbour table. -/
theorem entry_connectionsOf {fs : List (List (List ℕ))}
    (hlen : ∀ i a f, FaceAt fs i a f → f.length = 3 ∨ f.length = 4) (k c : ℕ) (hk : k < fs.length)
    (hc : c < 6) :
    (∀ q, Mates fs (k, c) q → tableAt (connectionsOf fs) k c = some (q.1 : ℤ)) ∧
      ((¬ ∃ q, Mates fs (k, c) q) → tableAt (connectionsOf fs) k c = some (-1)) := by
  have h := entry_foldl ((faceGroups (getFaces 3 fs) ++ faceGroups (getFaces 4 fs)).filterMap twoOf)
    (List.replicate fs.length (List.replicate 6 (-1))) k c
  simp only [entry_init, hk, hc, and_self, if_true, Option.map_some] at h
  obtain ⟨-, h2, h3⟩ := h
  refine ⟨fun q hq => ?_, fun hq => ?_⟩
  · obtain ⟨q', hq', he⟩ := h3 ⟨q, (mem_pairs hlen _ _).2 hq⟩
    have hm := (mem_pairs hlen _ _).1 hq'
    have : q' = q := by
      have := hq.2 q'.1 q'.2 hm.1
      exact (Prod.ext_iff.2 (Prod.ext_iff.1 this) : (q'.1, q'.2) = q)
    rw [← this]
    exact he
  · rcases h2 with h2 | ⟨q, hq', -⟩
    · exact h2
    · exact absurd ⟨q, (mem_pairs hlen _ _).1 hq'⟩ hq

theorem entry_connectionsOf_none {fs : List (List (List ℕ))} (k c : ℕ)
    (h : ¬ (k < fs.length ∧ c < 6)) : tableAt (connectionsOf fs) k c = none := by
  have h' := entry_foldl ((faceGroups (getFaces 3 fs) ++ faceGroups (getFaces 4 fs)).filterMap twoOf)
    (List.replicate fs.length (List.replicate 6 (-1))) k c
  simp only [entry_init, if_neg h, Option.isSome_none] at h'
  have h1 := h'.1
  rw [Option.isSome_eq_false_iff, Option.isNone_iff_eq_none] at h1
  exact h1

/-! ## Faces of a mesh -/

theorem faceTable_lengths {t : CellType} {l : List (List ℕ)} (h : faceTable t = .ok l) :
    l.length ≤ 6 ∧ ∀ f ∈ l, f.length = 3 ∨ f.length = 4 := by
  cases t <;> cases h <;> decide

theorem faces_rows {cells : List CellBlock} {fs : List (List (List ℕ))} (h : faces cells = .ok fs) :
    List.Forall₂ (fun (tc : CellType × List ℕ) row => ∃ t, faceTable tc.1 = .ok t ∧
      List.Forall₂ (fun idx f => rowsAt tc.2 idx = .ok f) t row)
      (typedCells cells) fs := by
  unfold faces at h
  rw [bind_eq_ok] at h
  obtain ⟨r, h1, h2⟩ := h
  cases h2
  refine forall₂_flatMap ((mapM_eq_ok h1).imp fun b row hb => ?_)
  rw [List.forall₂_map_left_iff]
  refine (mapM_eq_ok hb).imp fun c f hf => ?_
  rw [bind_eq_ok] at hf
  obtain ⟨t, e1, e2⟩ := hf
  exact ⟨t, e1, mapM_eq_ok e2⟩

theorem rowsAt_length {α : Type} {pts : List α} {c : List ℕ} {ps : List α} (h : rowsAt pts c = .ok ps) :
    ps.length = c.length := (rowsAt_ok h).length_eq.symm

theorem faces_bounds {cells : List CellBlock} {fs : List (List (List ℕ))} (h : faces cells = .ok fs) :
    ∀ i a f, FaceAt fs i a f → a < 6 ∧ (f.length = 3 ∨ f.length = 4) := by
  intro i a f hf
  obtain ⟨row, h1, h2⟩ := hf
  have hr := faces_rows h
  rw [List.forall₂_iff_get] at hr
  obtain ⟨hi, he⟩ := List.getElem?_eq_some_iff.1 h1
  obtain ⟨t, t1, t2⟩ := hr.2 i (by rw [hr.1]; exact hi) hi
  rw [show fs.get ⟨i, hi⟩ = row from he] at t2
  obtain ⟨b1, b2⟩ := faceTable_lengths t1
  obtain ⟨ha, hfa⟩ := List.getElem?_eq_some_iff.1 h2
  rw [List.forall₂_iff_get] at t2
  have := t2.2 a (by rw [t2.1]; exact ha) ha
  refine ⟨by omega, ?_⟩
  have hl := rowsAt_length this
  rw [show row.get ⟨a, ha⟩ = f from hfa] at hl
  rw [hl]
  exact b2 _ (List.get_mem _ _)

/-! ## Connections written -/

theorem mem_connRows (out : List (List ℤ)) (n : ℕ) (seen : List ℕ) (hs : ∀ x, x ∈ seen ↔ x < n)
    (i j a : ℕ) : (i, j, a) ∈ connRows out n seen ↔
      ∃ d, i = n + d ∧ tableAt out d a = some (j : ℤ) ∧ i ≤ j := by
  induction out generalizing n seen with
  | nil => simp [connRows, tableAt]
  | cons row rest ih =>
    have hs' : ∀ x, x ∈ n :: seen ↔ x < n + 1 := by
      intro x
      rw [List.mem_cons, hs]; omega
    rw [connRows, List.mem_append, ih (n + 1) (n :: seen) hs']
    constructor
    · rintro (h | ⟨d, h1, h2, h3⟩)
      · rw [List.mem_filterMap] at h
        obtain ⟨⟨v, a'⟩, h1, h2⟩ := h
        rw [List.mem_zipIdx_iff_getElem?] at h1
        by_cases hc : 0 ≤ v ∧ v.toNat ∉ seen
        · simp only at h2
          rw [if_pos hc] at h2
          cases h2
          rw [hs] at hc
          refine ⟨0, rfl, ?_, by omega⟩
          simp only [tableAt, List.getElem?_cons_zero, Option.bind_some]
          rw [h1, Int.toNat_of_nonneg hc.1]
        · simp only at h2
          rw [if_neg hc] at h2; cases h2
      · exact ⟨d + 1, by omega, by simpa [tableAt] using h2, h3⟩
    · rintro ⟨d, h1, h2, h3⟩
      cases d with
      | zero =>
        left
        rw [List.mem_filterMap]
        simp only [tableAt, List.getElem?_cons_zero, Option.bind_some] at h2
        refine ⟨((j : ℤ), a), List.mem_zipIdx_iff_getElem?.2 h2, ?_⟩
        simp only
        rw [if_pos]
        · simp only [Int.toNat_natCast, Option.some.injEq, Prod.mk.injEq, and_true]
          omega
        · refine ⟨by omega, ?_⟩
          rw [Int.toNat_natCast, hs]
          omega
      | succ d =>
        right
        exact ⟨d, by omega, by simpa [tableAt] using h2, h3⟩

theorem nodup_filterMap_zipIdx {β : Type} (row : List ℤ) (n i : ℕ) (p : ℤ × ℕ → Bool)
    (g : ℤ × ℕ → β) : ((row.zipIdx n).filterMap fun e => if p e then some (i, g e, e.2) else none).Nodup := by
  refine List.Pairwise.filterMap _ ?_ (zipIdx_snd_nodup row n)
  intro a b hab x hx y hy e
  split at hx
  · split at hy
    · cases hx; cases hy
      simp only [Prod.mk.injEq] at e
      exact hab e.2.2
    · cases hy
  · cases hx

theorem connRows_nodup (out : List (List ℤ)) (n : ℕ) (seen : List ℕ) (hs : ∀ x, x ∈ seen ↔ x < n) :
    (connRows out n seen).Nodup := by
  induction out generalizing n seen with
  | nil => simp [connRows]
  | cons row rest ih =>
    have hs' : ∀ x, x ∈ n :: seen ↔ x < n + 1 := by
      intro x
      rw [List.mem_cons, hs]; omega
    rw [connRows, List.nodup_append]
    refine ⟨?_, ih _ _ hs', ?_⟩
    · have := nodup_filterMap_zipIdx row 0 n (fun e => decide (0 ≤ e.1 ∧ e.1.toNat ∉ seen)) (fun e => e.1.toNat)
      simpa using this
    · intro x hx y hy e
      subst e
      obtain ⟨i, j, a⟩ := x
      obtain ⟨d, h1, -, -⟩ := (mem_connRows rest (n + 1) _ hs' i j a).1 hy
      rw [List.mem_filterMap] at hx
      obtain ⟨⟨v, a'⟩, -, h2⟩ := hx
      simp only at h2
      split at h2
      · cases h2; omega
      · cases h2

/-! ## Cells with distinct vertices -/

theorem table_distinct {t : CellType} {l : List (List ℕ)} (h : faceTable t = .ok l) :
    ∀ a < l.length, ∀ b < l.length, (l.getD a []).Perm (l.getD b []) → a = b := by
  cases t <;> cases h <;> decide

theorem perm_of_rows {c : List ℕ} (hc : c.Nodup) {s t f g : List ℕ} (h1 : rowsAt c s = .ok f)
    (h2 : rowsAt c t = .ok g) (hp : f.Perm g) : s.Perm t := by
  have hi : ∀ {s f : List ℕ}, rowsAt c s = .ok f → s = f.map (c.idxOf ·) := by
    intro s f h
    have := rowsAt_ok h
    induction this with
    | nil => rfl
    | cons h1 _ ih =>
      rename_i a b l1 l2 h2
      rw [List.map_cons, ← ih (rowsAt_of h2)]
      congr 1
      obtain ⟨ha, rfl⟩ := List.getElem?_eq_some_iff.1 h1
      exact (hc.idxOf_getElem a ha).symm
  rw [hi h1, hi h2]
  exact hp.map _

theorem no_self {cells : List CellBlock} {fs : List (List (List ℕ))} (h : faces cells = .ok fs)
    (hd : ∀ c ∈ allCells cells, c.Nodup) (i a b : ℕ) : ¬ Shared fs i a i b := by
  rintro ⟨hne, f, g, ⟨r, f1, f2⟩, ⟨r', g1, g2⟩, hp⟩
  rw [f1] at g1; cases g1
  have hr := faces_rows h
  rw [List.forall₂_iff_get] at hr
  obtain ⟨hi, he⟩ := List.getElem?_eq_some_iff.1 f1
  obtain ⟨t, t1, t2⟩ := hr.2 i (by rw [hr.1]; exact hi) hi
  rw [show fs.get ⟨i, hi⟩ = r from he] at t2
  have hc : ((typedCells cells).get ⟨i, by rw [hr.1]; exact hi⟩).2.Nodup := by
    apply hd
    have := List.get_mem (typedCells cells) ⟨i, by rw [hr.1]; exact hi⟩
    generalize (typedCells cells).get ⟨i, by rw [hr.1]; exact hi⟩ = p at this
    unfold typedCells at this
    unfold allCells
    simp only [List.mem_flatMap, List.mem_map] at this ⊢
    obtain ⟨b, hb, c, hc, rfl⟩ := this
    exact ⟨b, hb, hc⟩
  obtain ⟨ha, hfa⟩ := List.getElem?_eq_some_iff.1 f2
  obtain ⟨hb, hgb⟩ := List.getElem?_eq_some_iff.1 g2
  rw [List.forall₂_iff_get] at t2
  have ea := t2.2 a (by rw [t2.1]; exact ha) ha
  have eb := t2.2 b (by rw [t2.1]; exact hb) hb
  rw [show r.get ⟨a, ha⟩ = f from hfa] at ea
  rw [show r.get ⟨b, hb⟩ = g from hgb] at eb
  have := perm_of_rows hc ea eb hp
  have := table_distinct t1 a (by rw [t2.1]; exact ha) b (by rw [t2.1]; exact hb) (by
    rw [List.getD_eq_getElem?_getD, List.getElem?_eq_getElem (by rw [t2.1]; exact ha),
      List.getD_eq_getElem?_getD, List.getElem?_eq_getElem (by rw [t2.1]; exact hb)]
    exact this)
  exact hne (by rw [this])

/-! ## Deciding which faces are shared -/

/-- `Shared` as a test. -/
def sharedB (fs : List (List (List ℕ))) (i a j b : ℕ) : Bool :=
  (i, a) ≠ (j, b) && match (fs[i]?).bind (·[a]?), (fs[j]?).bind (·[b]?) with
    | some f, some g => sortRow f = sortRow g
    | _, _ => false

theorem sharedB_iff (fs : List (List (List ℕ))) (i a j b : ℕ) : sharedB fs i a j b = true ↔ Shared fs i a j b := by
  have hfa : ∀ i a f, (fs[i]?).bind (·[a]?) = some f ↔ FaceAt fs i a f := by
    intro i a f
    rw [Option.bind_eq_some_iff]; rfl
  unfold sharedB Shared
  rw [Bool.and_eq_true, decide_eq_true_iff]
  refine and_congr_right fun _ => ?_
  constructor
  · intro h
    split at h
    · rename_i f g h1 h2
      exact ⟨f, g, (hfa _ _ _).1 h1, (hfa _ _ _).1 h2, (sortRow_eq_iff f g).1 (by simpa using h)⟩
    · cases h
  · rintro ⟨f, g, h1, h2, h3⟩
    rw [(hfa _ _ _).2 h1, (hfa _ _ _).2 h2]
    simpa using (sortRow_eq_iff f g).2 h3

theorem shared_bounds {fs : List (List (List ℕ))} {n : ℕ} (hn : ∀ r ∈ fs, r.length ≤ n) {i a j b : ℕ}
    (h : Shared fs i a j b) : i < fs.length ∧ a < n ∧ j < fs.length ∧ b < n := by
  obtain ⟨_, f, g, ⟨r, h1, h2⟩, ⟨s, h3, h4⟩, _⟩ := h
  obtain ⟨i1, rfl⟩ := List.getElem?_eq_some_iff.1 h1
  obtain ⟨i2, _⟩ := List.getElem?_eq_some_iff.1 h2
  obtain ⟨i3, rfl⟩ := List.getElem?_eq_some_iff.1 h3
  obtain ⟨i4, _⟩ := List.getElem?_eq_some_iff.1 h4
  exact ⟨i1, i2.trans_le (hn _ (List.getElem_mem _)), i3, i4.trans_le (hn _ (List.getElem_mem _))⟩

end Verif.Mesh
