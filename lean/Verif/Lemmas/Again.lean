import Verif.Props.File
import Verif.Lemmas.RowOrder
import Verif.Spec.Again

/-! Helper lemmas: records that print the same line. -/

set_option linter.unusedSimpArgs false

namespace Verif.Model
open Verif.Py Verif.Spec Verif.Props

/-- Two records whose fields print alike; a field that is left out is blank. -/
def Alike : List Tok → List Val → List Val → Prop
  | [], _, _ => True
  | _ :: _, [], [] => True
  | t :: ts, v :: vs, w :: ws => toStr t w = toStr t v ∧ Alike ts vs ws
  | t :: ts, [], w :: ws => toStr t w = .ok (blanks t.w) ∧ Alike ts [] ws
  | t :: ts, v :: vs, [] => toStr t v = .ok (blanks t.w) ∧ Alike ts vs []

/-- Values that fill their columns. -/
def AllText : List Tok → List Val → Prop
  | t :: ts, v :: vs => (∃ s, toStr t v = .ok s ∧ s.length = t.w) ∧ AllText ts vs
  | _, _ => True

theorem allText_of_fit : ∀ {f : List Tok} {vs : List Val}, AllFit f vs → AllText f vs
  | [], _, _ => trivial
  | _ :: _, [], _ => trivial
  | _ :: _, _ :: _, h => ⟨⟨_, toStr_eq h.1, fieldOf_length h.1⟩, allText_of_fit h.2⟩

theorem alike_text {f : List Tok} {vs ws : List Val} (h : AllText f vs) (ha : Alike f vs ws) :
    ∃ a b m n, recText f vs = .ok a ∧ recText f ws = .ok b ∧ a ++ blanks m = b ++ blanks n ∧
      a.length + m ≤ width f := by
  induction f generalizing vs ws with
  | nil => exact ⟨[], [], 0, 0, by simp [recText], by simp [recText], rfl, by simp⟩
  | cons t ts ih =>
    have hwd : width (t :: ts) = t.w + width ts := by simp [width]
    cases vs with
    | nil =>
      cases ws with
      | nil => exact ⟨[], [], 0, 0, rfl, rfl, rfl, by simp⟩
      | cons w ws =>
        obtain ⟨h1, h2⟩ := ha
        obtain ⟨a, b, m, n, e1, e2, e3, e4⟩ := ih (vs := []) (by cases ts <;> exact trivial) h2
        have ha : a = [] := by cases ts <;> simpa [recText] using e1.symm
        subst ha
        refine ⟨[], blanks t.w ++ b, t.w + m, n, rfl, by simp [recText, h1, e2], ?_, ?_⟩
        · rw [List.append_assoc, ← e3, blanks, List.replicate_add]; rfl
        · rw [hwd]; simp at e4 ⊢; omega
    | cons v vs =>
      obtain ⟨⟨x, hv, hl⟩, hfs⟩ := h
      cases ws with
      | nil =>
        obtain ⟨h1, h2⟩ := ha
        rw [hv] at h1
        have h1 := Except.ok.inj h1
        obtain ⟨a, b, m, n, e1, e2, e3, e4⟩ := ih hfs h2
        have hb : b = [] := by cases ts <;> simpa [recText] using e2.symm
        subst hb
        refine ⟨x ++ a, [], m, t.w + n, by simp [recText, hv, e1], rfl, ?_, ?_⟩
        · rw [List.append_assoc, e3, h1, List.nil_append, List.nil_append, blanks, blanks, blanks, List.replicate_add]
        · rw [hwd]; simp only [List.length_append, hl]; omega
      | cons w ws =>
        obtain ⟨h1, h2⟩ := ha
        obtain ⟨a, b, m, n, e1, e2, e3, e4⟩ := ih hfs h2
        refine ⟨x ++ a, x ++ b, m, n, by simp [recText, hv, e1],
          by simp [recText, h1, hv, e2], by simp [e3], ?_⟩
        rw [hwd]; simp only [List.length_append, hl]; omega

theorem padRight_eq {a b : Str} {m n : ℕ} (h : a ++ blanks m = b ++ blanks n)
    (hl : a.length + m ≤ 80) : padRight 80 a = padRight 80 b := by
  have hlen := congrArg List.length h
  simp only [List.length_append, blanks, List.length_replicate] at hlen
  have e1 : padRight 80 a = (a ++ blanks m) ++ blanks (80 - (a.length + m)) := by
    simp only [padRight, List.append_assoc, blanks, ← List.replicate_add]
    congr 2; omega
  have e2 : padRight 80 b = (b ++ blanks n) ++ blanks (80 - (b.length + n)) := by
    simp only [padRight, List.append_assoc, blanks, ← List.replicate_add]
    congr 2; omega
  rw [e1, e2, h, hlen]

/-- Records that print alike give the same line. -/
theorem writeRecord_text {f : List Tok} {vs ws : List Val} (hw : width f ≤ 80) (h : AllText f vs)
    (ha : Alike f vs ws) : writeRecord f ws = writeRecord f vs := by
  obtain ⟨a, b, m, n, e1, e2, e3, e4⟩ := alike_text h ha
  simp only [writeRecord, e1, e2, ok_bind, recLine]
  rw [padRight_eq e3 (by omega)]

theorem writeRecord_alike {f : List Tok} {vs ws : List Val} (hw : width f ≤ 80) (h : AllFit f vs)
    (ha : Alike f vs ws) : writeRecord f ws = writeRecord f vs :=
  writeRecord_text hw (allText_of_fit h) ha

theorem Alike.refl : ∀ (f : List Tok) (vs : List Val), Alike f vs vs
  | [], _ => trivial
  | _ :: _, [] => trivial
  | _ :: ts, _ :: vs => ⟨rfl, Alike.refl ts vs⟩

theorem alike_map {f : List Tok} {vs : List Val} {g : Val → Val}
    (h : ∀ t ∈ f, ∀ v ∈ vs, toStr t (g v) = toStr t v) : Alike f vs (vs.map g) := by
  induction f generalizing vs with
  | nil => trivial
  | cons t ts ih =>
    cases vs with
    | nil => trivial
    | cons v vs =>
      exact ⟨h t (by simp) v (by simp),
        ih fun t ht v hv => h t (by simp [ht]) v (by simp [hv])⟩

theorem toStr_none {t : Tok} (h : t.kind ≠ .f) : toStr t .none = .ok (blanks t.w) := by
  obtain ⟨k, w, p⟩ := t
  cases k <;> simp [toStr] at h ⊢

/-- Missing values at the end do not matter. -/
theorem alike_append {f : List Tok} {vs ws : List Val} {k : ℕ} (hk : ∀ t ∈ f, t.kind ≠ .f)
    (h : Alike f vs (ws ++ List.replicate k .none)) : Alike f vs ws := by
  induction f generalizing vs ws k with
  | nil => trivial
  | cons t ts ih =>
    have ht := toStr_none (hk t (by simp))
    have hts := fun t h => hk t (List.mem_cons_of_mem _ h)
    cases ws with
    | nil =>
      cases vs with
      | nil => trivial
      | cons v vs =>
        cases k with
        | zero => exact h
        | succ k =>
          obtain ⟨h1, h2⟩ := h
          exact ⟨by rw [← h1, ht], ih (k := k) hts (by simpa using h2)⟩
    | cons w ws =>
      cases vs with
      | nil => exact ⟨h.1, ih hts h.2⟩
      | cons v vs => exact ⟨h.1, ih hts h.2⟩

theorem alike_drop {f : List Tok} {vs ws : List Val} (hk : ∀ t ∈ f, t.kind ≠ .f)
    (h : Alike f vs ws) : Alike f vs (dropTrailing ws) := by
  obtain ⟨k, h1, -⟩ := isPruned_dropTrailing ws
  exact alike_append hk (by rw [← h1]; exact h)

/-! ### Values -/

theorem tame_inRange {v : Val} (h : Tame v) : ValInRange v := by
  cases v <;> first | exact h | trivial

theorem toStr_num {w p : ℕ} (hp : p ≤ 13) {v : Val} (h : Fits (eCol w p) v) (ht : Tame v) :
    toStr (eCol w p) (num p v) = toStr (eCol w p) v := by
  rw [← stored_e w p v]
  exact toStr_stored _ hp v h (tame_inRange ht)

theorem toStr_dcol {w w' : ℕ} {v : Val} (h : Fits (dCol w) v) (ht : Tame v) :
    toStr (dCol w) (stored (dCol w') v) = toStr (dCol w) v := by
  rw [stored_d w' w]
  exact toStr_stored _ (by simp) v h (tame_inRange ht)

theorem toStr_scol {w w' : ℕ} {v : Val} (h : Fits (sCol w) v) :
    toStr (sCol w) (stored (sCol w') v) = toStr (sCol w) v := by
  have : stored (sCol w') v = stored (sCol w) v := by cases v <;> simp [stored]
  rw [this]
  refine toStr_stored _ (by simp) v h ?_
  cases v <;> first | trivial | exact h.elim

theorem num_none_iff {p : ℕ} {v : Val} (ht : Tame v) : num p v = .none ↔ v = .none := by
  cases v with
  | str s => simp only [num, stored]; rw [if_neg ht]
  | _ => simp [num, stored]

theorem stored_d_none_iff {w : ℕ} {v : Val} (ht : Tame v) : stored (dCol w) v = .none ↔ v = .none := by
  cases v with
  | str s => simp only [stored]; rw [if_neg ht]
  | _ => simp [stored]

/-! ### Rows of one kind of column -/

theorem alike_row {n w p : ℕ} (hp : p ≤ 13) {vs : List Val} (h : ∀ v ∈ vs, Fits (eCol w p) v)
    (ht : ∀ v ∈ vs, Tame v) : Alike (List.replicate n (eCol w p)) vs (vs.map (num p)) :=
  alike_map fun t htt v hv => by
    rw [(List.mem_replicate.1 htt).2]
    exact toStr_num hp (h v hv) (ht v hv)

theorem row_kind {n w p : ℕ} : ∀ t ∈ List.replicate n (eCol w p), t.kind ≠ .f := by
  intro t ht; rw [(List.mem_replicate.1 ht).2]; simp

theorem writeRow_num {n w p : ℕ} (hw : width (List.replicate n (eCol w p)) ≤ 80) (hp : p ≤ 13)
    {vs : List Val} (h : ∀ v ∈ vs, Fits (eCol w p) v) (ht : ∀ v ∈ vs, Tame v) :
    writeRecord (List.replicate n (eCol w p)) (vs.map (num p)) =
      writeRecord (List.replicate n (eCol w p)) vs :=
  writeRecord_alike hw (allFit_replicate _ _ _ h) (alike_row hp h ht)

theorem writeRow_drop {n w p : ℕ} (hw : width (List.replicate n (eCol w p)) ≤ 80) (hp : p ≤ 13)
    {vs : List Val} (h : ∀ v ∈ vs, Fits (eCol w p) v) (ht : ∀ v ∈ vs, Tame v) :
    writeRecord (List.replicate n (eCol w p)) (dropTrailing (vs.map (num p))) =
      writeRecord (List.replicate n (eCol w p)) vs :=
  writeRecord_alike hw (allFit_replicate _ _ _ h) (alike_drop row_kind (alike_row hp h ht))

theorem mapM_congr {α β : Type} {f g : α → Except PyErr β} {l : List α}
    (h : ∀ a ∈ l, f a = g a) : l.mapM f = l.mapM g := by
  induction l with
  | nil => rfl
  | cons a l ih =>
    rw [List.mapM_cons, List.mapM_cons, h a (by simp), ih fun x hx => h x (by simp [hx])]

theorem chunks_map {α β : Type} (k : ℕ) (g : α → β) (l : List α) :
    chunks k (l.map g) = (chunks k l).map (·.map g) := by
  simp [chunks, List.map_map, Function.comp_def, List.map_take, List.map_drop]

theorem writeMulti_num {n w p : ℕ} (hn : 0 < n) (hw : width (List.replicate n (eCol w p)) ≤ 80)
    (hp : p ≤ 13) {vs : List Val} (h : ∀ v ∈ vs, Fits (eCol w p) v) (ht : ∀ v ∈ vs, Tame v) :
    writeMulti (List.replicate n (eCol w p)) (vs.map (num p)) =
      writeMulti (List.replicate n (eCol w p)) vs := by
  unfold writeMulti
  rw [chunks_map, mapM_map]
  refine mapM_congr fun c hc => ?_
  have hm : ∀ v ∈ c, v ∈ vs := by
    intro v hv
    have := chunks_flatten (List.replicate n (eCol w p)).length (by simpa using hn) vs
    rw [← this]
    exact List.mem_flatten.2 ⟨c, hc, hv⟩
  exact writeRow_num hw hp (fun v hv => h v (hm v hv)) fun v hv => ht v (hm v hv)

/-! ### Lists without missing values at the end -/

theorem dropTrailing_nil_iff {l : List Val} : dropTrailing l = [] ↔ ∀ v ∈ l, v = .none := by
  obtain ⟨k, h1, h2⟩ := isPruned_dropTrailing l
  constructor
  · intro h v hv
    rw [h, List.nil_append] at h1
    rw [h1] at hv
    exact (List.mem_replicate.1 hv).2
  · intro h
    by_contra hne
    have he : (dropTrailing l).getLast hne = .none := h _ (by
      have := List.mem_append_left (List.replicate k Val.none) (List.getLast_mem hne)
      rwa [← h1] at this)
    exact h2 (by rw [List.getLast?_eq_some_getLast hne, he])

theorem dropTrailing_length {l : List Val} {n : ℕ} :
    n < (dropTrailing l).length ↔ ∃ v ∈ l.drop n, v ≠ .none := by
  obtain ⟨k, h1, h2⟩ := isPruned_dropTrailing l
  generalize dropTrailing l = r at h1 h2
  subst h1
  constructor
  · intro h
    have hne : r ≠ [] := by rintro rfl; simp at h
    refine ⟨r.getLast hne, ?_, ?_⟩
    · rw [List.drop_append]
      refine List.mem_append_left _ ?_
      have hd : r.drop n ≠ [] := by simpa using h
      have := List.getLast_drop hd
      rw [← this]
      exact List.getLast_mem hd
    · intro he
      exact h2 (by rw [List.getLast?_eq_some_getLast hne, he])
  · rintro ⟨v, hv, hn⟩
    by_contra hle
    rw [List.drop_append, List.drop_eq_nil_of_le (by omega), List.nil_append] at hv
    exact hn (List.mem_replicate.1 (List.mem_of_mem_drop hv)).2

/-- The values of an initial condition in two records. -/
theorem init_take {ic : List Val} (h : InitFits ic) (ht : ∀ v ∈ ic, Tame v) :
    writeRecord (List.replicate 4 (eCol 20 13)) ((initBack ic).take 4) =
      writeRecord (List.replicate 4 (eCol 20 13)) (ic.take 4) := by
  refine writeRecord_alike (by decide) (allFit_replicate _ _ _ fun v hv => h.2 v (List.mem_of_mem_take hv)) ?_
  obtain ⟨k, h1, -⟩ := isPruned_dropTrailing (ic.map (num 13))
  have := alike_row (n := 4) (w := 20) (p := 13) le_rfl
    (fun v hv => h.2 v (List.mem_of_mem_take hv)) fun v hv => ht v (List.mem_of_mem_take (i := 4) hv)
  rw [List.map_take, h1, List.take_append, List.take_replicate] at this
  exact alike_append row_kind this

theorem init_drop {ic : List Val} (h : InitFits ic) (ht : ∀ v ∈ ic, Tame v) :
    writeRecord (List.replicate 4 (eCol 20 13)) ((initBack ic).drop 4) =
      writeRecord (List.replicate 4 (eCol 20 13)) (ic.drop 4) := by
  refine writeRecord_alike (by decide) (allFit_replicate _ _ _ fun v hv => h.2 v (List.mem_of_mem_drop hv)) ?_
  obtain ⟨k, h1, -⟩ := isPruned_dropTrailing (ic.map (num 13))
  have := alike_row (n := 4) (w := 20) (p := 13) le_rfl
    (fun v hv => h.2 v (List.mem_of_mem_drop hv)) fun v hv => ht v (List.mem_of_mem_drop (i := 4) hv)
  rw [List.map_drop, h1, List.drop_append, List.drop_replicate] at this
  exact alike_append row_kind this

theorem init_any {ic : List Val} (ht : ∀ v ∈ ic, Tame v) (n : ℕ) :
    (∃ v ∈ (ic.map (num 13)).drop n, v ≠ .none) ↔ ∃ v ∈ ic.drop n, v ≠ .none := by
  rw [← List.map_drop]
  simp only [List.mem_map, exists_exists_and_eq_and]
  constructor
  · rintro ⟨v, hv, hn⟩
    exact ⟨v, hv, fun e => hn ((num_none_iff (ht v (List.mem_of_mem_drop hv))).2 e)⟩
  · rintro ⟨v, hv, hn⟩
    exact ⟨v, hv, fun e => hn ((num_none_iff (ht v (List.mem_of_mem_drop hv))).1 e)⟩

theorem init_length {ic : List Val} (ht : ∀ v ∈ ic, Tame v) :
    4 < (initBack ic).length ↔ ∃ v ∈ ic.drop 4, v ≠ .none := by
  rw [initBack, dropTrailing_length, init_any ht]

theorem init_nil {ic : List Val} (ht : ∀ v ∈ ic, Tame v) :
    initBack ic = [] ↔ ∀ v ∈ ic, v = .none := by
  rw [initBack, dropTrailing_nil_iff]
  simp only [List.mem_map, forall_exists_index, and_imp, forall_apply_eq_imp_iff₂]
  exact ⟨fun h v hv => (num_none_iff (ht v hv)).1 (h v hv),
    fun h v hv => (num_none_iff (ht v hv)).2 (h v hv)⟩

end Verif.Model
