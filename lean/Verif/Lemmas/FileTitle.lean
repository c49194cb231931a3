import Verif.Lemmas.File

/-! Helper lemmas: the title does not influence the reading of blocks; the parts of a file. -/

namespace Verif.Model
open Verif.Py Verif.Spec

/-- Set the title of a result. -/
def setTitle (t : Option Title) (s : FileRead) : FileRead := { s with title := t }

/-- Set the title of what a reader returns. -/
def titled (t : Option Title) (r : Except PyErr (FileRead × List Str)) :
    Except PyErr (FileRead × List Str) :=
  r >>= fun x => .ok (setTitle t x.1, x.2)

theorem titled_store {α : Type} (t : Option Title) (r : Except PyErr (α × List Str))
    (f g : α → FileRead) (h : ∀ x, g x = setTitle t (f x)) : store r g = titled t (store r f) := by
  cases r with
  | error e => rfl
  | ok x => simp [store, titled, h]

theorem titled_ite {b : Prop} [Decidable b] (t : Option Title)
    {x y x' y' : Except PyErr (FileRead × List Str)} (hx : x' = titled t x) (hy : y' = titled t y) :
    (if b then x' else y') = titled t (if b then x else y) := by
  split
  · exact hx
  · exact hy

theorem dispatch_setTitle (given : Option ℕ) (t : Option Title) (s : FileRead) (line : Str)
    (ls : List Str) :
    dispatch given (setTitle t s) line ls = titled t (dispatch given s line ls) := by
  unfold dispatch
  dsimp only
  repeat' refine titled_ite t ?_ ?_
  all_goals first
    | exact titled_store t _ _ _ fun _ => rfl
    | rfl
    | skip
  · unfold caseRpcap
    cases readRpcap ls <;> rfl
  · unfold caseFlac
    cases hr : s.rocks with
    | none => simp [setTitle, hr, getKey, titled]
    | some r =>
      simp only [setTitle, hr, getKey, ok_bind]
      cases readFlac r.2 ls with
      | error e => rfl
      | ok x =>
        simp only [ok_bind]
        cases updateRows addFlac r.1 x.1.2 <;> rfl
  · unfold caseParam
    cases readParam ls <;> rfl
  · unfold caseIndom
    cases readIndom ls with
    | error e => rfl
    | ok x =>
      simp only [ok_bind, setTitle]
      cases indomUpdate s.rocks x.1 <;> rfl
  · unfold caseCoord
    cases readCoord ls with
    | error e => rfl
    | ok x =>
      simp only [ok_bind, setTitle]
      cases hr : s.elements with
      | none => rfl
      | some r =>
        simp only [getKey, ok_bind]
        cases setCenters r.1 (r.2.zip x.1) <;> rfl

theorem loop_setTitle (given : Option ℕ) (t : Option Title) (n : ℕ) (s : FileRead) (ls : List Str) :
    loop (fileStep given) n (setTitle t s) ls = titled t (loop (fileStep given) n s ls) := by
  induction n generalizing s ls with
  | zero => rfl
  | succ n ih =>
    rw [loop, loop]
    cases ls with
    | nil => rfl
    | cons line ls =>
      rw [fileStep, fileStep, dispatch_setTitle]
      by_cases h : startsWith line "ENDCY".toList = true
      · rw [if_pos h, if_pos h]
        rfl
      · rw [if_neg h, if_neg h]
        cases hd : dispatch given s line ls with
        | error e => rfl
        | ok x => exact ih x.1 x.2

/-- The blocks are read the same whatever the title is. -/
theorem blocks_setTitle (given : Option ℕ) (t : Option Title) (s : FileRead) (ls : List Str) :
    whileTrue (fileStep given) (setTitle t s) ls = titled t (whileTrue (fileStep given) s ls) :=
  loop_setTitle given t _ s ls

/-! ## Parts of a file -/

theorem block_head {kw : String} {m : Bool} {b : Except PyErr (List Str)} {ls : List Str}
    (h : block kw m b = .ok ls) : ∃ body, ls = headLine kw :: body := by
  unfold block at h
  cases b with
  | error e => cases h
  | ok x =>
    rw [ok_bind] at h
    cases h
    exact ⟨_, rfl⟩

/-- A part is left out, or starts with the header of its keyword. -/
def PartOk (kw : String) (c : Bool) (w : Except PyErr (List Str)) : Prop :=
  ∀ ls, w = .ok ls → if c then ∃ body, ls = headLine kw :: body else ls = []

theorem partOk_onlyIf {kw : String} {c : Bool} {m : Bool} {b : Except PyErr (List Str)} :
    PartOk kw c (onlyIf c (block kw m b)) := by
  intro ls h
  cases c with
  | true => exact block_head h
  | false => cases h; rfl

theorem partOk_ifSome {α : Type} {kw : String} {x : Option α} {m : Bool}
    {b : α → Except PyErr (List Str)} : PartOk kw x.isSome (ifSome x fun a => block kw m (b a)) := by
  intro ls h
  cases x with
  | some a => exact block_head h
  | none => cases h; rfl

theorem partOk_always {kw : String} {m : Bool} {b : Except PyErr (List Str)} :
    PartOk kw true (block kw m b) := fun _ h => block_head h

theorem segments (c : String → Bool) (parts : List (String × Except PyErr (List Str)))
    (h : ∀ e ∈ parts, PartOk e.1 (c e.1) e.2) (lines : List Str)
    (hl : concatM id (parts.map (·.2)) = .ok lines) :
    ∃ segs : List (List Str), lines = segs.flatten ∧
      List.Forall₂ (fun kw seg => ∃ body, seg = headLine kw :: body)
        ((parts.map (·.1)).filter c) segs := by
  induction parts generalizing lines with
  | nil => cases hl; exact ⟨[], rfl, .nil⟩
  | cons e parts ih =>
    rw [List.map_cons, concatM, id] at hl
    cases hw : e.2 with
    | error x => rw [hw] at hl; cases hl
    | ok x =>
      rw [hw, ok_bind] at hl
      cases hc : concatM id (parts.map (·.2)) with
      | error y => rw [hc] at hl; cases hl
      | ok y =>
        rw [hc, ok_bind] at hl
        cases hl
        obtain ⟨segs, h1, h2⟩ := ih (fun e he => h e (by simp [he])) y hc
        have hx := h e (by simp) x hw
        cases he : c e.1 with
        | true =>
          rw [he, if_pos rfl] at hx
          refine ⟨x :: segs, by simp [h1], ?_⟩
          rw [List.map_cons, List.filter_cons_of_pos he]
          exact .cons hx h2
        | false =>
          rw [he] at hx
          simp at hx
          subst hx
          refine ⟨segs, by simpa using h1, ?_⟩
          rw [List.map_cons, List.filter_cons_of_neg (by simp [he])]
          exact h2

end Verif.Model
