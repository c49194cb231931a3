import Verif.Model.IO
import Verif.Lemmas.Record

/-! Helper lemmas: record lines, loops over lines, dictionaries. -/

set_option linter.unusedSimpArgs false

namespace Verif.Model
open Verif.Py Verif.Spec

@[simp] theorem ok_bind {α β : Type} (a : α) (f : α → Except PyErr β) :
    (Except.ok a >>= f) = f a := rfl
@[simp] theorem error_bind {α β : Type} (e : PyErr) (f : α → Except PyErr β) :
    ((Except.error e : Except PyErr α) >>= f) = .error e := rfl
@[simp] theorem next_cons (l : Str) (ls : List Str) : next (l :: ls) = .ok (l, ls) := rfl
@[simp] theorem next_nil : next [] = .error .stopIteration := rfl

/-- The line written for a record (empty if writing fails). -/
def lineOf (f : List Tok) (vs : List Val) : Str :=
  match writeRecord f vs with
  | .ok l => l
  | .error _ => []

theorem writeRecord_eq {f : List Tok} {vs : List Val} (h : AllFit f vs) :
    writeRecord f vs = .ok (lineOf f vs) := by
  obtain ⟨a, ha, -⟩ := recText_length f vs h
  have : writeRecord f vs = .ok (recLine a) := by simp [writeRecord, ha]
  simp [lineOf, this]

theorem readRecord_lineOf {f : List Tok} {vs : List Val} (hw : width f ≤ 80) (h : AllFit f vs) :
    readRecord f (lineOf f vs) = .ok (storedAll f vs) := by
  obtain ⟨l, h1, h2⟩ := readRecord_writeRecord f vs hw h
  rw [writeRecord_eq h] at h1
  rw [Except.ok.inj h1]; exact h2

/-- The text of one fitting field. -/
def fieldOf (t : Tok) (v : Val) : Str :=
  match toStr t v with
  | .ok a => a
  | .error _ => []

theorem toStr_eq {t : Tok} {v : Val} (h : Fits t v) : toStr t v = .ok (fieldOf t v) := by
  obtain ⟨a, ha, -⟩ := toStr_field t v h
  simp [fieldOf, ha]

theorem fieldOf_length {t : Tok} {v : Val} (h : Fits t v) : (fieldOf t v).length = t.w := by
  obtain ⟨a, ha, hl, -⟩ := toStr_field t v h
  simp [fieldOf, ha, hl]

theorem recText_eq {f : List Tok} {vs : List Val} (h : AllFit f vs) :
    recText f vs = .ok ((f.zip vs).flatMap fun p => fieldOf p.1 p.2) := by
  induction f generalizing vs with
  | nil => cases vs <;> rfl
  | cons t f ih =>
    cases vs with
    | nil => rfl
    | cons v vs =>
      obtain ⟨h1, h2⟩ := h
      simp [recText, toStr_eq h1, ih h2]

theorem lineOf_eq {f : List Tok} {vs : List Val} (h : AllFit f vs) :
    lineOf f vs = recLine ((f.zip vs).flatMap fun p => fieldOf p.1 p.2) := by
  have := writeRecord_eq h
  simp only [writeRecord, recText_eq h, ok_bind] at this
  exact (Except.ok.inj this).symm

theorem isBlank_iff (l : Str) : isBlank l = true ↔ ∀ c ∈ l, isSpace c = true := by
  simp [isBlank, strip_eq_nil_iff]

theorem isBlank_eq_false_iff (l : Str) : isBlank l = false ↔ ∃ c ∈ l, isSpace c = false := by
  rw [← Bool.not_eq_true, isBlank_iff]
  push Not
  simp

/-- The values that leave a mark on the line. -/
def Visible : Val → Prop
  | .none => False
  | .str s => isBlank s = false
  | _ => True

theorem fieldOf_visible {t : Tok} {v : Val} (h : Fits t v) (hv : Visible v) :
    ∃ c ∈ fieldOf t v, isSpace c = false := by
  have hnum : ∀ w s, s ≠ [] → (∀ c ∈ s, isSpace c = false) →
      ∃ c ∈ padLeft w s, isSpace c = false := by
    intro w s hs hc
    cases s with
    | nil => exact absurd rfl hs
    | cons c s => exact ⟨c, by simp [padLeft], hc c (by simp)⟩
  obtain ⟨k, w, p⟩ := t
  cases v with
  | none => exact absurd hv (by simp [Visible])
  | str s =>
    obtain ⟨c, hc, hs⟩ := (isBlank_eq_false_iff s).1 hv
    have hne : s ≠ [] := by rintro rfl; simp at hc
    cases k <;> simp only [Fits] at h
    · exact ⟨c, by simp [fieldOf, toStr, padRight, List.take_of_length_le h.1, hc], hs⟩
    · exact ⟨c, by simp [fieldOf, toStr, padRight, List.take_of_length_le h.1.le, hc], hs⟩
    · exact absurd h hne
    · exact absurd h hne
  | bool b =>
    have h6 : (if b then (1 : ℤ) else 0).natAbs < 10 ^ 6 := by cases b <;> norm_num
    cases k <;> simp only [Fits] at h
    simp only [fieldOf, toStr, fmtG_int h6]
    exact hnum _ _ (intStr_ne_nil _) (fun c hc => isSpace_of_isNumChar (intStr_numChar _ c hc))
  | int i =>
    cases k <;> simp only [Fits] at h
    · simp only [fieldOf, toStr, fmtG_int h.2]
      exact hnum _ _ (intStr_ne_nil _) (fun c hc => isSpace_of_isNumChar (intStr_numChar _ c hc))
    · simp only [fieldOf, toStr]
      exact hnum _ _ (fmtF_int_ne_nil h.2 _)
        (fun c hc => isSpace_of_isNumChar (fmtF_int_numChar h.2 _ c hc))
    · simp only [fieldOf, toStr]
      exact hnum _ _ (fmtE_ne_nil _ _) (fmtE_nospace _ _)
  | flt x =>
    cases k <;> simp only [Fits] at h
    simp only [fieldOf, toStr]
    exact hnum _ _ (fmtE_ne_nil _ _) (fmtE_nospace _ _)

theorem allFit_zip {f : List Tok} {vs : List Val} (h : AllFit f vs) :
    ∀ p ∈ f.zip vs, Fits p.1 p.2 := by
  induction f generalizing vs with
  | nil => simp
  | cons t f ih =>
    cases vs with
    | nil => simp
    | cons v vs =>
      obtain ⟨h1, h2⟩ := h
      intro p hp
      simp only [List.zip_cons_cons, List.mem_cons] at hp
      rcases hp with rfl | hp
      · exact h1
      · exact ih h2 p hp

theorem isBlank_lineOf {f : List Tok} {vs : List Val} (h : AllFit f vs) {t : Tok} {v : Val}
    (hm : (t, v) ∈ f.zip vs) (hv : Visible v) : isBlank (lineOf f vs) = false := by
  rw [isBlank_eq_false_iff, lineOf_eq h]
  obtain ⟨c, hc, hs⟩ := fieldOf_visible (allFit_zip h _ hm) hv
  refine ⟨c, ?_, hs⟩
  simp only [recLine, padRight, List.mem_append, List.mem_flatMap]
  exact Or.inl (Or.inl ⟨_, hm, hc⟩)

theorem fieldOf_none {t : Tok} (h : Fits t .none) : fieldOf t .none = blanks t.w := by
  obtain ⟨k, w, p⟩ := t
  cases k <;> simp_all [fieldOf, toStr, Fits]

theorem isBlank_lineOf_nones {f : List Tok} {vs : List Val} (h : AllFit f vs)
    (hv : ∀ v ∈ vs, v = .none) : isBlank (lineOf f vs) = true := by
  rw [isBlank_iff, lineOf_eq h]
  intro c hc
  simp only [recLine, padRight, List.mem_append, List.mem_flatMap, List.mem_singleton] at hc
  rcases hc with (⟨p, hp, hc⟩ | hc) | rfl
  · have h1 := allFit_zip h p hp
    have h2 : p.2 = .none := hv _ (List.of_mem_zip hp).2
    obtain ⟨t, v⟩ := p
    simp only at h2 hc h1
    subst h2
    rw [fieldOf_none h1] at hc
    exact blanks_space _ c hc
  · exact blanks_space _ c hc
  · decide

theorem isBlank_newline : isBlank ['\n'] = true := by decide

theorem isBlank_eq_true_blankLine : isBlank (recLine []) = true := by decide

/-! ### loops -/

theorem loop_mono {σ : Type} {step : σ → List Str → Except PyErr (Turn σ × List Str)}
    {n : ℕ} {s : σ} {ls : List Str} {r : σ × List Str} (h : loop step n s ls = .ok r) (k : ℕ) :
    loop step (n + k) s ls = .ok r := by
  induction n generalizing s ls with
  | zero => simp [loop] at h
  | succ n ih =>
    rw [show n + 1 + k = (n + k) + 1 by omega]
    simp only [loop] at h ⊢
    split at h
    · cases h
    · rename_i h'; exact h
    · exact ih h

/-- A loop over the lines of a list of items followed by lines that end it. -/
theorem loop_items {σ α : Type} {step : σ → List Str → Except PyErr (Turn σ × List Str)}
    (w : α → List Str) (upd : σ → α → σ) (Inv : σ → List α → Prop)
    (hstep : ∀ s x xs rest, Inv s (x :: xs) →
      step s (w x ++ (xs.flatMap w ++ rest)) = .ok (.more (upd s x), xs.flatMap w ++ rest) ∧
        Inv (upd s x) xs)
    (xs : List α) (s : σ) (hinv : Inv s xs) (tail : List Str) (m : ℕ) (r : σ × List Str)
    (htail : Inv (xs.foldl upd s) [] → loop step m (xs.foldl upd s) tail = .ok r) :
    loop step (xs.length + m) s (xs.flatMap w ++ tail) = .ok r := by
  induction xs generalizing s with
  | nil => simpa using htail hinv
  | cons x xs ih =>
    rw [show (x :: xs).length + m = (xs.length + m) + 1 by simp; omega]
    obtain ⟨h1, h2⟩ := hstep s x xs tail hinv
    simp only [loop, List.flatMap_cons, List.append_assoc]
    rw [h1]
    exact ih (upd s x) h2 htail

theorem whileTrue_of_loop {σ : Type} {step : σ → List Str → Except PyErr (Turn σ × List Str)}
    {n : ℕ} {s : σ} {ls : List Str} {r : σ × List Str} (h : loop step n s ls = .ok r)
    (hn : n ≤ ls.length + 1) : whileTrue step s ls = .ok r := by
  obtain ⟨k, hk⟩ := Nat.exists_eq_add_of_le hn
  unfold whileTrue
  rw [hk]
  exact loop_mono h k

theorem length_le_flatMap {α : Type} (w : α → List Str) (xs : List α)
    (h : ∀ x ∈ xs, w x ≠ []) : xs.length ≤ (xs.flatMap w).length := by
  induction xs with
  | nil => simp
  | cons x xs ih =>
    have h1 : 0 < (w x).length := List.length_pos_iff.2 (h x (by simp))
    have h2 := ih (fun y hy => h y (by simp [hy]))
    simp only [List.flatMap_cons, List.length_append, List.length_cons]
    omega

/-- The usual block loop: items, then one line that stops the loop. -/
theorem whileTrue_items {σ α : Type} {step : σ → List Str → Except PyErr (Turn σ × List Str)}
    (w : α → List Str) (upd : σ → α → σ) (P : α → Prop)
    (hne : ∀ x, P x → w x ≠ [])
    (hstep : ∀ s x rest, P x → step s (w x ++ rest) = .ok (.more (upd s x), rest))
    (xs : List α) (hP : ∀ x ∈ xs, P x) (s : σ) (stopLine : Str) (rest : List Str)
    (hstop : ∀ s, step s (stopLine :: rest) = .ok (.stop s, rest)) :
    whileTrue step s (xs.flatMap w ++ stopLine :: rest) = .ok (xs.foldl upd s, rest) := by
  have h := loop_items (step := step) w upd (fun _ l => ∀ x ∈ l, P x)
    (fun s x xs rest hx => ⟨hstep s x _ (hx x (by simp)), fun y hy => hx y (by simp [hy])⟩)
    xs s hP (stopLine :: rest) 1 (xs.foldl upd s, rest)
    (fun _ => by simp [loop, hstop])
  refine whileTrue_of_loop h ?_
  have := length_le_flatMap w xs (fun x hx => hne x (hP x hx))
  simp only [List.length_append, List.length_cons]
  omega

theorem mapM_ok {α β : Type} {f : α → Except PyErr β} {g : α → β} {xs : List α}
    (h : ∀ x ∈ xs, f x = .ok (g x)) : xs.mapM f = .ok (xs.map g) := by
  induction xs with
  | nil => rfl
  | cons x xs ih =>
    rw [List.mapM_cons, h x (by simp), ih (fun y hy => h y (by simp [hy]))]
    rfl

theorem concatM_ok {α β : Type} {f : α → Except PyErr (List β)} {g : α → List β} {xs : List α}
    (h : ∀ x ∈ xs, f x = .ok (g x)) : concatM f xs = .ok (xs.flatMap g) := by
  induction xs with
  | nil => rfl
  | cons x xs ih =>
    simp [concatM, h x (by simp), ih (fun y hy => h y (by simp [hy]))]

/-! ### dictionaries -/

theorem dictSet_of_notMem {κ β : Type} [DecidableEq κ] (d : List (κ × β)) (k : κ) (v : β)
    (h : k ∉ d.map (·.1)) : dictSet d k v = d ++ [(k, v)] := by
  induction d with
  | nil => rfl
  | cons e d ih =>
    obtain ⟨k', v'⟩ := e
    simp only [List.map_cons, List.mem_cons, not_or] at h
    simp [dictSet, Ne.symm h.1, ih h.2]

/-- Building a dictionary from a list with distinct keys. -/
theorem foldl_dictSet {κ β α : Type} [DecidableEq κ] (key : α → κ) (val : α → β) (xs : List α)
    (d : List (κ × β)) (hd : (d.map (·.1) ++ xs.map key).Nodup) :
    xs.foldl (fun d x => dictSet d (key x) (val x)) d = d ++ xs.map (fun x => (key x, val x)) := by
  induction xs generalizing d with
  | nil => simp
  | cons x xs ih =>
    have hx : key x ∉ d.map (·.1) := by
      intro h
      have := List.disjoint_of_nodup_append hd h
      simp at this
    rw [List.foldl_cons, dictSet_of_notMem d _ _ hx, ih]
    · simp
    · simpa using hd

theorem dictGet_mem {κ β : Type} [DecidableEq κ] {d : List (κ × β)} {k : κ} {v : β}
    (hn : (d.map (·.1)).Nodup) (h : (k, v) ∈ d) : dictGet d k = .ok v := by
  unfold dictGet
  have : d.lookup k = some v := by
    induction d with
    | nil => simp at h
    | cons e d ih =>
      obtain ⟨k', v'⟩ := e
      simp only [List.map_cons, List.nodup_cons] at hn
      rcases List.mem_cons.1 h with h' | h'
      · obtain ⟨rfl, rfl⟩ := Prod.mk.inj h'; simp
      · have : k ≠ k' := by
          rintro rfl; exact hn.1 (List.mem_map_of_mem (f := (·.1)) h')
        have hb : (k == k') = false := by simpa using this
        rw [List.lookup_cons, hb]
        exact ih hn.2 h'
  rw [this]

end Verif.Model
