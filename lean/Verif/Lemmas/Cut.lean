import Verif.Spec.Cut
import Verif.Lemmas.Prompt
import Verif.Lemmas.Refuse

/-! Helper lemmas: files that end inside a block. -/

namespace Verif.Model
open Verif.Py Verif.Spec

theorem runs_of_reaches {given : Option ℕ} {s s' : FileRead} {ls ls' : List Str} (h : Reaches given s ls s' ls') :
    Runs given s ls s' ls' := by
  induction h with
  | here s ls => exact Runs.refl _ _ _
  | block he h _ ih => exact (runs_turn he h).trans ih

/-- How the main loop ends on a part of a file, and on the whole file. -/
inductive Ends (given : Option ℕ) (b : List Str) (s : FileRead) (ls : List Str) : Prop
  | cut (h : whileTrue (fileStep given) s ls = .error .stopIteration)
  | bad (e : PyErr) (h : whileTrue (fileStep given) s ls = .error e) (h' : whileTrue (fileStep given) s (ls ++ b) = .error e)
  | out (s' : FileRead) (h : whileTrue (fileStep given) s ls = .ok (s', [])) (h' : Runs given s (ls ++ b) s' b)
  | done (s' : FileRead) (rest : List Str) (h : whileTrue (fileStep given) s ls = .ok (s', rest))
    (h' : whileTrue (fileStep given) s (ls ++ b) = .ok (s', rest ++ b))

theorem Runs.while {given : Option ℕ} {s s' : FileRead} {ls ls' : List Str} (h : Runs given s ls s' ls') :
    whileTrue (fileStep given) s ls = whileTrue (fileStep given) s' ls' := by
  obtain ⟨k, hk⟩ := h
  unfold whileTrue
  rw [loop_fuel (safe_fileStep given) _ (ls.length + ls'.length + 1 + k) s ls (by omega) (by omega), hk,
    loop_fuel (safe_fileStep given) _ (ls'.length + 1) s' ls' (by omega) (by omega)]

theorem while_bad {given : Option ℕ} {s : FileRead} {line : Str} {ls : List Str} {e : PyErr}
    (he : startsWith line "ENDCY".toList = false) (h : dispatch given s line ls = .error e) :
    whileTrue (fileStep given) s (line :: ls) = .error e := by
  rw [whileTrue, loop, fileStep, if_neg (by rw [he]; decide), h]
  rfl

theorem while_endcy {given : Option ℕ} {s : FileRead} {line : Str} {ls : List Str}
    (he : startsWith line "ENDCY".toList = true) : whileTrue (fileStep given) s (line :: ls) = .ok (s, ls) := by
  rw [whileTrue, loop, fileStep, if_pos he]

theorem ends (given : Option ℕ) (b : List Str) (n : ℕ) (s : FileRead) (ls : List Str) (hn : ls.length < n) : Ends given b s ls := by
  induction n generalizing s ls with
  | zero => omega
  | succ n ih =>
    cases ls with
    | nil => exact .out s rfl (Runs.refl _ _ _)
    | cons line ls =>
      cases he : startsWith line "ENDCY".toList with
      | true => exact .done s ls (while_endcy he) (while_endcy he)
      | false =>
        have hp := pr_dispatch (b := b) given s line ls
        have hs := safe_dispatch given s line ls
        cases hd : dispatch given s line ls with
        | error e =>
          rw [hd] at hp
          rcases hp with hp | hp
          · cases hp
            exact .cut (while_bad he hd)
          · exact .bad e (while_bad he hd) (while_bad he hp)
        | ok x =>
          obtain ⟨s', ls'⟩ := x
          rw [hd] at hp hs
          rcases hp with hp | hp
          · cases hp
          · have h1 := runs_turn he hd
            have h2 : Runs given s (line :: ls ++ b) s' (ls' ++ b) := runs_turn he hp
            have hlen : ls'.length ≤ ls.length := hs
            rw [List.length_cons] at hn
            rcases ih s' ls' (by omega) with h | ⟨e, h, h'⟩ | ⟨t, h, h'⟩ | ⟨t, rest, h, h'⟩
            · exact .cut (h1.while.trans h)
            · exact .bad e (h1.while.trans h) (h2.while.trans h')
            · exact .out t (h1.while.trans h) (h2.trans h')
            · exact .done t rest (h1.while.trans h) (h2.while.trans h')

theorem titleLoop_append {a : List Str} {t : List Str} (h : titleLoop a = .ok t) (b : List Str) : titleLoop (a ++ b) = .ok t := by
  induction a generalizing t with
  | nil => exact absurd h (by rintro ⟨⟩)
  | cons l a ih =>
    rw [List.cons_append, titleLoop]
    rw [titleLoop] at h
    split at h
    · rename_i h1
      rw [if_pos h1]
      exact h
    · rename_i h1
      rw [if_neg h1]
      obtain ⟨t', ht, h⟩ := bind_eq_ok.mp h
      rw [ih ht]
      exact h

theorem readTitle_cons' (l : Str) (a : List Str) : readTitle (l :: a) =
    if (strip l).take 5 ∈ ["ROCKS".toList, "ELEME".toList, "INCON".toList, "GENER".toList] then .ok none
    else titleLoop a >>= fun t => .ok (some (titleOf (strip l :: t))) := rfl

theorem readTitle_append {a : List Str} {t : Option Title} (h : readTitle a = .ok t) (b : List Str) : readTitle (a ++ b) = .ok t := by
  cases a with
  | nil => exact absurd (show readTitle [] = .error .diverges by decide +kernel) (by rw [h]; rintro ⟨⟩)
  | cons l a =>
    rw [List.cons_append, readTitle_cons']
    rw [readTitle_cons'] at h
    by_cases h1 : (strip l).take 5 ∈ ["ROCKS".toList, "ELEME".toList, "INCON".toList, "GENER".toList]
    · rw [if_pos h1] at h ⊢
      exact h
    · rw [if_neg h1] at h ⊢
      obtain ⟨t', ht, h⟩ := bind_eq_ok.mp h
      rw [titleLoop_append ht]
      exact h

theorem readTitle_error {a : List Str} {e : PyErr} (h : readTitle a = .error e) : e = .diverges := by
  have hl : ∀ ls : List Str, ∀ e, titleLoop ls = .error e → e = .diverges := by
    intro ls
    induction ls with
    | nil => intro e h; cases h; rfl
    | cons l ls ih =>
      intro e h
      rw [titleLoop] at h
      split at h
      · cases h
      · cases ht : titleLoop ls with
        | error e' =>
          rw [ht] at h
          cases h
          exact ih _ ht
        | ok t => rw [ht] at h; cases h
  unfold readTitle at h
  dsimp only at h
  split at h
  · cases h
  · cases ht : titleLoop a.tail with
    | error e' =>
      rw [ht] at h
      cases h
      exact hl _ _ ht
    | ok t => rw [ht] at h; cases h

/-! ### rows -/

theorem updateRows_missing {β υ : Type} (f : β → υ → β) {d : List (Val × β)} {us : List (Val × υ)} (h : ∃ u ∈ us, u.1 ∉ d.map (·.1)) :
    updateRows f d us = .error .keyError := by
  induction us generalizing d with
  | nil => obtain ⟨u, hu, -⟩ := h; cases hu
  | cons u us ih =>
    obtain ⟨k, x⟩ := u
    rw [updateRows]
    by_cases hk : k ∈ d.map (·.1)
    · cases hg : dictGet d k with
      | error e => unfold dictGet at hg; split at hg <;> cases hg; rfl
      | ok b =>
        refine ih ?_
        rw [dictSet_keys d k _ hk]
        obtain ⟨u, hu, hn⟩ := h
        rcases List.mem_cons.mp hu with rfl | hu
        · exact absurd hk hn
        · exact ⟨u, hu, hn⟩
    · rw [dictGet_missing hk]
      rfl

/-! ### records -/

theorem readField_error (t : Tok) (txt : Str) (e : PyErr) : readField t txt = .error e ↔ e = .valueError ∧ BadField t txt := by
  obtain ⟨k, w, p⟩ := t
  unfold readField BadField
  cases k
  case d =>
    simp only [reduceCtorEq, if_false]
    split
    · rename_i h
      simp [h]
    · rename_i h
      cases hp : pyInt (strip txt) <;> simp [h, eq_comm]
  case f =>
    simp only [reduceCtorEq, if_false]
    split
    · rename_i h
      simp [h]
    · rename_i h
      unfold str2float
      cases hp : pyFloat (strip txt)
      · dsimp only
        simp only [List.append_assoc, List.singleton_append]
        split
        · rename_i x hx
          simp [hx]
        · rename_i hx
          simp [hx, h, eq_comm]
      · simp
  case e =>
    simp only [reduceCtorEq, if_false]
    split
    · rename_i h
      simp [h]
    · rename_i h
      unfold str2float
      cases hp : pyFloat (strip txt)
      · dsimp only
        simp only [List.append_assoc, List.singleton_append]
        split
        · rename_i x hx
          simp [hx]
        · rename_i hx
          simp [hx, h, eq_comm]
      · simp
  case s => simp only [reduceCtorEq, if_false]; split <;> simp
  case S => simp only [if_true]; split <;> simp

theorem readFrom_error (line : Str) (c : ℕ) (fmt : List Tok) (e : PyErr) :
    readFrom line c fmt = .error e ↔ e = .valueError ∧ ∃ i t, fmt[i]? = some t ∧ BadField t (slice line (c + column fmt i) t.w) := by
  induction fmt generalizing c with
  | nil => simp [readFrom]
  | cons t fmt ih =>
    have hcol : ∀ i, c + column (t :: fmt) (i + 1) = (c + t.w) + column fmt i := by
      intro i
      simp only [column, List.take_succ_cons, List.map_cons, List.sum_cons]
      omega
    rw [readFrom]
    cases h1 : readField t (slice line c t.w) with
    | error e' =>
      obtain ⟨rfl, hn⟩ := (readField_error _ _ _).mp h1
      constructor
      · intro h
        cases h
        exact ⟨rfl, 0, t, rfl, hn⟩
      · rintro ⟨rfl, -⟩
        rfl
    | ok v =>
      have h0 : ¬ BadField t (slice line c t.w) := fun hn => by
        rw [(readField_error _ _ .valueError).mpr ⟨rfl, hn⟩] at h1
        cases h1
      have hiff : (do let vs ← readFrom line (c + t.w) fmt; Except.ok (v :: vs)) = .error e ↔ readFrom line (c + t.w) fmt = .error e := by
        cases readFrom line (c + t.w) fmt with
        | error e' => rfl
        | ok vs => constructor <;> intro h <;> cases h
      show (do let vs ← readFrom line (c + t.w) fmt; Except.ok (v :: vs)) = .error e ↔ _
      rw [hiff, ih]
      constructor
      · rintro ⟨he, i, t', hi, hn⟩
        exact ⟨he, i + 1, t', hi, by rw [hcol]; exact hn⟩
      · rintro ⟨he, i, t', hi, hn⟩
        cases i with
        | zero =>
          cases hi
          exact absurd hn h0
        | succ i =>
          rw [hcol] at hn
          exact ⟨he, i, t', hi, hn⟩

end Verif.Model
