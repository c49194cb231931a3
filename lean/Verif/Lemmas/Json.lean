import Verif.Model.Json
import Verif.Spec.Json
import Verif.Lemmas.IO
import Verif.Lemmas.NumStable

/-!
# Lemmas about JSON parameter files
-/

namespace Verif.Model
open Verif.Py Verif.Spec

theorem updateDict_nil_of_nodup {κ β : Type} [DecidableEq κ] (d : List (κ × β))
    (h : (d.map (·.1)).Nodup) : updateDict [] d = d := by
  have := foldl_dictSet (fun e : κ × β => e.1) (fun e => e.2) d [] (by simpa using h)
  simpa [updateDict] using this

theorem plainDict_keys (d : List (Key × Tree)) : (plainDict d).map (·.1) = d.map (·.1) := by
  induction d with
  | nil => rfl
  | cons e d ih => simp [plainDict, ih]

theorem plainDict_eq_map (d : List (Key × Tree)) : plainDict d = d.map fun e => (e.1, plain e.2) := by
  induction d with
  | nil => rfl
  | cons e d ih => simp [plainDict, ih]

mutual
theorem dumped_listing : ∀ t, isListing t = true → dumped t = .ok (plain t)
  | .bool _, _ | .int _, _ | .flt _, _ | .str _, _ => rfl
  | .list l, h => by
    rw [isListing] at h
    rw [dumped, dumpedList_listing l h, plain]; rfl
  | .none, h | .npInt _, h | .npFloat32 _, h | .npFloat64 _, h | .tuple _, h | .array _, h
  | .dict _, h | .other, h => by simp [isListing] at h
theorem dumpedList_listing : ∀ l, areListings l = true → dumpedList l = .ok (plainList l)
  | [], _ => rfl
  | t :: r, h => by
    rw [areListings, Bool.and_eq_true] at h
    rw [dumpedList, dumped_listing t h.1, dumpedList_listing r h.2, plainList]; rfl
end

/-- The entries of a dictionary as they are in the file. -/
def fileDict (d : List (Key × Tree)) : List (Key × Tree) :=
  d.map fun e => (.str (keyText e.1), plain e.2)

theorem fileDict_of_text (d : List (Key × Tree)) (h : (d.map (·.1)).all isText = true) :
    fileDict d = plainDict d := by
  rw [plainDict_eq_map, fileDict]
  refine List.map_congr_left fun e he => ?_
  have := List.all_eq_true.1 h e.1 (List.mem_map_of_mem he)
  obtain ⟨k, v⟩ := e
  cases k with
  | str s => rfl
  | int i => simp [isText] at this
  | null => simp [isText] at this

mutual
theorem dumped_jsonify : ∀ t, holds t = true → dumped (jsonify t) = .ok (plain t)
  | .bool _, _ | .int _, _ | .flt _, _ | .str _, _ | .none, _ | .npInt _, _ | .npFloat64 _, _ => rfl
  | .list l, h | .tuple l, h => by
    rw [holds] at h
    rw [jsonify, dumped, dumpedList_jsonify l h, plain]; rfl
  | .array t, h => by
    rw [holds] at h
    rw [jsonify, dumped_listing t h, plain]
  | .dict d, h => by
    rw [holds, Bool.and_eq_true, Bool.and_eq_true, decide_eq_true_eq] at h
    rw [jsonify, dumped, dumpedDict_jsonify d h.2, plain, fileDict_of_text d h.1.1, ok_bind,
      updateDict_nil_of_nodup]
    rw [plainDict_keys]
    exact h.1.2
  | .npFloat32 _, h | .other, h => by simp [holds] at h
theorem dumpedList_jsonify : ∀ l, holdsList l = true →
    dumpedList (jsonifyList l) = .ok (plainList l)
  | [], _ => rfl
  | t :: r, h => by
    rw [holdsList, Bool.and_eq_true] at h
    rw [jsonifyList, dumpedList, dumped_jsonify t h.1, dumpedList_jsonify r h.2, plainList]; rfl
theorem dumpedDict_jsonify : ∀ d, holdsDict d = true →
    dumpedDict (jsonifyDict d) = .ok (fileDict d)
  | [], _ => rfl
  | (k, t) :: r, h => by
    rw [holdsDict, Bool.and_eq_true] at h
    rw [jsonifyDict, dumpedDict, dumped_jsonify t h.1, dumpedDict_jsonify r h.2]; rfl
end

theorem isNumKey {k : Key} (h : isNumber k = true) : ∃ i, k = .int i := by
  cases k with
  | str s => simp [isNumber] at h
  | int i => exact ⟨i, rfl⟩
  | null => simp [isNumber] at h

theorem intStr_injective {i j : ℤ} (h : intStr i = intStr j) : i = j := by
  have := pyInt_intStr i
  rw [h, pyInt_intStr j] at this
  exact (Option.some.inj this).symm

theorem fileDict_nodup (d : List (Key × Tree)) (hk : (d.map (·.1)).all isNumber = true)
    (hn : (d.map (·.1)).Nodup) : ((fileDict d).map (·.1)).Nodup := by
  have e : (fileDict d).map (·.1) = (d.map (·.1)).map fun k => Key.str (keyText k) := by
    simp [fileDict]
  rw [e]
  refine List.Nodup.map_on (fun a ha b hb hab => ?_) hn
  obtain ⟨i, rfl⟩ := isNumKey (List.all_eq_true.1 hk a ha)
  obtain ⟨j, rfl⟩ := isNumKey (List.all_eq_true.1 hk b hb)
  rw [intStr_injective (Key.str.inj hab)]

theorem intKeys_eq (l : List (Key × Tree)) (l' : List (Key × Tree))
    (h : l'.Perm l) (d : List (Key × Tree))
    (hk : (d.map (·.1)).all isNumber = true) (hl : l = fileDict d) :
    ∃ r, intKeys l' = .ok r ∧ r.Perm (plainDict d) := by
  subst hl
  have main : ∀ m : List (Key × Tree), (∀ e ∈ m, ∃ i, e.1 = .str (intStr i)) →
      ∃ r, intKeys m = .ok r ∧ r.map (fun e => (Key.str (keyText e.1), e.2)) = m ∧
        ∀ e ∈ r, ∃ i, e.1 = .int i := by
    intro m hm
    induction m with
    | nil => exact ⟨[], rfl, rfl, by simp⟩
    | cons e m ih =>
      obtain ⟨r, h1, h2, h3⟩ := ih fun e he => hm e (List.mem_cons_of_mem _ he)
      obtain ⟨i, hi⟩ := hm e List.mem_cons_self
      obtain ⟨k, v⟩ := e
      simp only at hi
      subst hi
      refine ⟨(.int i, v) :: r, ?_, ?_, ?_⟩
      · rw [intKeys, intKey, pyInt_intStr, h1]; rfl
      · rw [List.map_cons, h2]; rfl
      · intro e he
        rcases List.mem_cons.1 he with rfl | he
        · exact ⟨i, rfl⟩
        · exact h3 e he
  have hkeys : ∀ e ∈ fileDict d, ∃ i, e.1 = .str (intStr i) := by
    intro e he
    obtain ⟨e', he', rfl⟩ := List.mem_map.1 he
    obtain ⟨i, hi⟩ := isNumKey (List.all_eq_true.1 hk e'.1 (List.mem_map_of_mem he'))
    exact ⟨i, by simp [hi, keyText]⟩
  obtain ⟨r, h1, h2, h3⟩ := main l' fun e he => hkeys e (h.subset he)
  refine ⟨r, h1, ?_⟩
  have back : ∀ m : List (Key × Tree), (∀ e ∈ m, ∃ i, e.1 = .int i) →
      (m.map fun e => (Key.str (keyText e.1), e.2)).map
        (fun e => match e.1 with
          | .str s => (match pyInt s with | some i => Key.int i | none => e.1, e.2)
          | _ => e) = m := by
    intro m hm
    rw [List.map_map]
    conv_rhs => rw [← List.map_id m]
    refine List.map_congr_left fun e he => ?_
    obtain ⟨i, hi⟩ := hm e he
    obtain ⟨k, v⟩ := e
    simp only at hi
    subst hi
    simp [keyText, pyInt_intStr]
  have e1 := back r h3
  have e2 := back (plainDict d) (by
    intro e he
    rw [plainDict_eq_map] at he
    obtain ⟨e', he', rfl⟩ := List.mem_map.1 he
    exact isNumKey (List.all_eq_true.1 hk e'.1 (List.mem_map_of_mem he')))
  rw [← e1, ← e2, h2]
  refine List.Perm.map _ ?_
  have e3 : (plainDict d).map (fun e => (Key.str (keyText e.1), e.2)) = fileDict d := by
    simp [plainDict_eq_map, fileDict]
  rw [e3]
  exact h

theorem toInt_fileDict (d : List (Key × Tree)) (h : isIntDict (.dict d) = true) :
    ∃ v', dumped (jsonify (.dict d)) = .ok (.dict (fileDict d)) ∧
      toInt (.dict (fileDict d)) = .ok v' ∧ SameDict (.dict d) v' := by
  rw [isIntDict, Bool.and_eq_true, Bool.and_eq_true, decide_eq_true_eq] at h
  obtain ⟨⟨hk, hn⟩, hd⟩ := h
  have hf := fileDict_nodup d hk hn
  obtain ⟨r, h1, h2⟩ := intKeys_eq (fileDict d) _ (List.perm_insertionSort
    (fun a b : Key × Tree => strLe (keyText a.1) (keyText b.1)) (fileDict d)) d hk rfl
  refine ⟨.dict r, ?_, ?_, d, r, rfl, rfl, h2⟩
  · rw [jsonify, dumped, dumpedDict_jsonify d hd, ok_bind, updateDict_nil_of_nodup _ hf]
  · rw [toInt, h1, ok_bind, updateDict_nil_of_nodup]
    have := (h2.map (·.1)).nodup_iff
    rw [this, plainDict_keys]
    exact hn

/-- An entry whose key occurs is replaced at its place. -/
theorem updateKey_eq (p : List (Key × Tree)) (k : Key) (f : Tree → Except PyErr Tree)
    (g : Key × Tree → Tree) (hn : (p.map (·.1)).Nodup)
    (hf : ∀ e ∈ p, e.1 = k → f e.2 = .ok (g e)) :
    updateKey p k f = .ok (p.map fun e => (e.1, if e.1 = k then g e else e.2)) := by
  unfold updateKey
  induction p with
  | nil => rfl
  | cons e p ih =>
    obtain ⟨k', v⟩ := e
    rw [List.map_cons, List.nodup_cons] at hn
    rw [List.lookup_cons]
    by_cases hk : k' = k
    · subst hk
      have h1 := hf (k', v) List.mem_cons_self rfl
      simp only at h1
      have h2 : p.map (fun e => (e.1, if e.1 = k' then g e else e.2)) = p := by
        conv_rhs => rw [← List.map_id p]
        refine List.map_congr_left fun e he => ?_
        rw [if_neg]
        · rfl
        · intro h
          exact hn.1 (List.mem_map.2 ⟨e, he, h⟩)
      simp [h1, dictSet, ok_bind, h2]
    · have hk' : (k == k') = false := by simpa using fun h => hk h.symm
      rw [hk', List.map_cons]
      simp only
      have := ih hn.2 fun e he => hf e (List.mem_cons_of_mem _ he)
      cases hl : p.lookup k with
      | none =>
        rw [hl] at this
        simp only at this ⊢
        rw [← Except.ok.inj this]
        simp [hk]
      | some w =>
        rw [hl] at this
        simp only at this ⊢
        cases hw : f w with
        | error x => rw [hw] at this; cases this
        | ok w' =>
          rw [hw, ok_bind] at this
          rw [ok_bind, dictSet]
          simp only [hk, if_false]
          rw [Except.ok.inj this]

/-- What is in the file for a value. -/
def stored (t : Tree) : Tree := match dumped (jsonify t) with
  | .ok v => v
  | .error _ => .none

theorem stored_eq {t v : Tree} (h : dumped (jsonify t) = .ok v) : stored t = v := by
  rw [stored, h]

theorem dumped_textDict (p : List (Key × Tree)) (hk : (p.map (·.1)).all isText = true)
    (hn : (p.map (·.1)).Nodup) (hp : ∀ e ∈ p, ∃ v, dumped (jsonify e.2) = .ok v) :
    dumped (jsonify (.dict p)) = .ok (.dict (p.map fun e => (e.1, stored e.2))) := by
  have h : dumpedDict (jsonifyDict p) = .ok (p.map fun e => (e.1, stored e.2)) := by
    clear hn
    induction p with
    | nil => rfl
    | cons e p ih =>
      obtain ⟨k, t⟩ := e
      rw [List.map_cons, List.all_cons, Bool.and_eq_true] at hk
      obtain ⟨v, hv⟩ := hp (k, t) List.mem_cons_self
      rw [jsonifyDict, dumpedDict, ih hk.2 fun e he => hp e (List.mem_cons_of_mem _ he)]
      simp only at hv
      rw [hv, List.map_cons, stored_eq hv]
      cases k with
      | str s => rfl
      | int i => simp [isText] at hk
      | null => simp [isText] at hk
  rw [jsonify, dumped, h, ok_bind, updateDict_nil_of_nodup]
  simpa [Function.comp_def] using hn

/-- The value of a successful conversion. -/
def got (f : Tree → Except PyErr Tree) (t : Tree) : Tree := match f t with
  | .ok v => v
  | .error _ => .none

theorem got_eq {f : Tree → Except PyErr Tree} {t v : Tree} (h : f t = .ok v) : got f t = v := by
  rw [got, h]

/-- A parameter with integers as keys. -/
theorem intDict_back (t : Tree) (h : isIntDict t = true) :
    ∃ w v', dumped (jsonify t) = .ok w ∧ toInt w = .ok v' ∧ SameDict t v' := by
  cases t with
  | dict d => obtain ⟨v', h1, h2, h3⟩ := toInt_fileDict d h; exact ⟨_, v', h1, h2, h3⟩
  | _ => simp [isIntDict] at h

/-- The selections. -/
theorem selections_back (t : Tree) (h : isSelections t = true) :
    ∃ w v', dumped (jsonify t) = .ok w ∧ selectionsInt w = .ok v' ∧
      ∃ d d', t = .dict d ∧ v' = .dict d' ∧ List.Forall₂ (fun e e' => e'.1 = e.1 ∧
        if e.1 = key "integers" then SameDict e.2 e'.2 else e'.2 = plain e.2) d d' := by
  cases t with
  | dict d =>
    rw [isSelections, Bool.and_eq_true, Bool.and_eq_true, Bool.and_eq_true, decide_eq_true_eq,
      decide_eq_true_eq] at h
    obtain ⟨⟨⟨hk, hn⟩, hm⟩, hd⟩ := h
    rw [List.all_eq_true] at hd
    have hw : ∀ e ∈ d, ∃ v, dumped (jsonify e.2) = .ok v := by
      intro e he
      have := hd e he
      split at this
      · obtain ⟨w, v', h1, -⟩ := intDict_back e.2 this
        exact ⟨w, h1⟩
      · exact ⟨_, dumped_jsonify e.2 this⟩
    have hs := dumped_textDict d hk hn hw
    have hu := updateKey_eq (d.map fun e => (e.1, stored e.2)) (key "integers") toInt
      (fun e => got toInt e.2) (by simpa [Function.comp_def] using hn) (by
        intro e he hek
        obtain ⟨e', he', rfl⟩ := List.mem_map.1 he
        simp only at hek ⊢
        have := hd e' he'
        rw [if_pos hek] at this
        obtain ⟨w, v', h1, h2, -⟩ := intDict_back e'.2 this
        rw [stored_eq h1, h2, got_eq h2])
    obtain ⟨w0, hw0⟩ : ∃ w0, (d.map fun e => (e.1, stored e.2)).lookup (key "integers") = some w0 := by
      have hm' : key "integers" ∈ (d.map fun e => (e.1, stored e.2)).map (·.1) := by
        simpa [Function.comp_def] using hm
      cases hl : (d.map fun e => (e.1, stored e.2)).lookup (key "integers") with
      | some w0 => exact ⟨w0, rfl⟩
      | none =>
        exfalso
        rw [List.lookup_eq_none_iff] at hl
        obtain ⟨e, he, hek⟩ := List.mem_map.1 hm'
        have := hl e he
        simp [hek] at this
    refine ⟨_, .dict ((d.map fun e => (e.1, stored e.2)).map fun e =>
      (e.1, if e.1 = key "integers" then got toInt e.2 else e.2)), hs, ?_, d, _, rfl, rfl, ?_⟩
    · rw [updateKey, hw0] at hu
      rw [selectionsInt, hw0]
      simp only at hu ⊢
      cases ht : toInt w0 with
      | error x => rw [ht] at hu; cases hu
      | ok v =>
        rw [ht, ok_bind] at hu
        rw [ok_bind, Except.ok.inj hu]
    · rw [List.map_map, List.forall₂_map_right_iff, List.forall₂_same]
      intro e he
      refine ⟨rfl, ?_⟩
      have := hd e he
      simp only [Function.comp]
      split
      · rename_i hek
        rw [if_pos hek] at this
        obtain ⟨w, v', h1, h2, h3⟩ := intDict_back e.2 this
        rwa [stored_eq h1, got_eq h2]
      · rename_i hek
        rw [if_neg hek] at this
        exact stored_eq (dumped_jsonify e.2 this)
  | _ => simp [isSelections] at h

end Verif.Model
