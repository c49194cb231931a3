import Verif.Spec.Layout
import Verif.Lemmas.Param
import Verif.Lemmas.Incon

/-! Helper lemmas: the columns of a written record. -/

set_option linter.unusedSimpArgs false

namespace Verif.Model
open Verif.Py Verif.Spec

theorem bind_eq_ok {α β : Type} {x : Except PyErr α} {f : α → Except PyErr β} {b : β} :
    (x >>= f) = .ok b ↔ ∃ a, x = .ok a ∧ f a = .ok b := by
  cases x with
  | error e => simp
  | ok a => simp

/-- Written in its column, the value fills it and is shown. -/
def Fills (t : Tok) (v : Val) : Prop := ∀ a, toStr t v = .ok a → a.length = t.w ∧ Shows t a v

theorem fills_of_fits {t : Tok} {v : Val} (h : Fits t v) : Fills t v := by
  intro a ha
  obtain ⟨a', ha', hl, -⟩ := toStr_field t v h
  rw [ha] at ha'
  injection ha' with e
  subst e
  refine ⟨hl, ?_⟩
  obtain ⟨k, w, p⟩ := t
  cases v with
  | none =>
    simp only [Fits] at h
    cases k <;> simp_all [toStr, Shows, blanks]
  | str s =>
    cases k <;> simp only [Fits] at h
    · simp only [toStr, List.take_of_length_le h.1] at ha
      injection ha with ha
      rw [← ha]; rfl
    · simp only [toStr, List.take_of_length_le h.1.le] at ha
      injection ha with ha
      rw [← ha]; rfl
    · subst h
      simp only [toStr] at ha
      injection ha with ha
      rw [← ha]; simp [Shows, padLeft, blanks]
    · subst h
      simp only [toStr] at ha
      injection ha with ha
      rw [← ha]; simp [Shows, padLeft, blanks]
  | bool b =>
    cases k <;> simp only [Fits] at h
    have h6 : (if b then (1 : ℤ) else 0).natAbs < 10 ^ 6 := by cases b <;> norm_num
    simp only [toStr, fmtG_int h6] at ha
    injection ha with ha
    rw [← ha]
    have : intStr (if b then 1 else 0) = (if b then ['1'] else ['0']) := by cases b <;> decide
    simp only [Shows, RightAligned, this]; rfl
  | int i =>
    cases k <;> simp only [Fits] at h
    · simp only [toStr, fmtG_int h.2] at ha
      injection ha with ha
      rw [← ha]; rfl
    · simp only [toStr] at ha
      injection ha with ha
      rw [← ha]; rfl
    · simp only [toStr] at ha
      injection ha with ha
      rw [← ha]; rfl
  | flt x =>
    cases k <;> simp only [Fits] at h
    simp only [toStr] at ha
    injection ha with ha
    rw [← ha]; rfl

theorem fills_str {w : ℕ} {s : Str} (h : s.length ≤ w) : Fills (sCol w) (.str s) := by
  intro a ha
  simp only [toStr, List.take_of_length_le h] at ha
  injection ha with ha
  rw [← ha]
  exact ⟨by rw [padRight_length]; exact max_eq_left h, rfl⟩

/-- All values fill their columns. -/
def AllFill : List Tok → List Val → Prop
  | _, [] => True
  | [], _ :: _ => True
  | t :: ts, v :: vs => Fills t v ∧ AllFill ts vs

theorem allFill_of_fit {ts : List Tok} {vs : List Val} (h : AllFit ts vs) : AllFill ts vs := by
  induction ts generalizing vs with
  | nil => cases vs <;> trivial
  | cons t ts ih =>
    cases vs with
    | nil => trivial
    | cons v vs => exact ⟨fills_of_fits h.1, ih h.2⟩

/-- Values with their columns. -/
def place (a : ℕ) : List Tok → List Val → List (ℕ × Tok × Val)
  | t :: ts, v :: vs => (a, t, v) :: place (a + t.w) ts vs
  | _, _ => []

theorem layout_text {ts : List Tok} {vs : List Val} {txt : Str} (hw : recText ts vs = .ok txt)
    (h : AllFill ts vs) (a r : Str) : Layout (a ++ (txt ++ r)) (place a.length ts vs) := by
  induction ts generalizing vs txt a with
  | nil => intro c hc; cases hc
  | cons t ts ih =>
    cases vs with
    | nil => intro c hc; cases hc
    | cons v vs =>
      simp only [recText, bind_eq_ok] at hw
      obtain ⟨x, hx, y, hy, e⟩ := hw
      injection e with e
      subst e
      obtain ⟨hl, hs⟩ := h.1 x hx
      intro c hc
      simp only [place, List.mem_cons] at hc
      rcases hc with rfl | hc
      · show Shows t (columns _ a.length t.w) v
        unfold columns
        rw [List.drop_left, List.append_assoc, ← hl, List.take_left]
        exact hs
      · have := ih hy h.2 (a ++ x) c (by rw [List.length_append, hl]; exact hc)
        rw [List.append_assoc] at this
        rw [List.append_assoc]
        exact this

theorem layout_record {ts : List Tok} {vs : List Val} {l : Str} (hw : writeRecord ts vs = .ok l)
    (h : AllFill ts vs) : Layout l (place 0 ts vs) := by
  simp only [writeRecord, bind_eq_ok] at hw
  obtain ⟨txt, ht, e⟩ := hw
  injection e with e
  subst e
  have := layout_text ht h [] (blanks (80 - txt.length) ++ ['\n'])
  simpa [recLine, padRight] using this

theorem layout_sub {l : Str} {a b : List (ℕ × Tok × Val)} (h : Layout l a) (hs : ∀ c ∈ b, c ∈ a) :
    Layout l b := fun c hc => h c (hs c hc)

theorem place_replicate (a n : ℕ) (t : Tok) (vs : List Val) (h : vs.length ≤ n) :
    place a (List.replicate n t) vs = series a t vs := by
  suffices ∀ k n, vs.length ≤ n → place (a + t.w * k) (List.replicate n t) vs =
      (vs.zipIdx k).map fun e => (a + t.w * e.2, t, e.1) by
    simpa [series] using this 0 n h
  clear h
  intro k n h
  induction vs generalizing k n with
  | nil => cases n <;> rfl
  | cons v vs ih =>
    obtain ⟨m, rfl⟩ : ∃ m, n = m + 1 := ⟨n - 1, by simp at h; omega⟩
    rw [List.replicate_succ, place, List.zipIdx_cons, List.map_cons,
      show a + t.w * k + t.w = a + t.w * (k + 1) by ring, ih (k + 1) m (by simpa using h)]

theorem place_append (a : ℕ) (ts us : List Tok) (vs ws : List Val) (h : ts.length = vs.length) :
    place a (ts ++ us) (vs ++ ws) = place a ts vs ++ place (a + width ts) us ws := by
  induction ts generalizing a vs with
  | nil =>
    obtain rfl : vs = [] := by simpa using h.symm
    simp [place, width]
  | cons t ts ih =>
    cases vs with
    | nil => simp at h
    | cons v vs =>
      simp only [List.cons_append, place]
      rw [ih (a + t.w) vs (by simpa using h)]
      simp [width, add_assoc]

end Verif.Model
