import Verif.Lemmas.Layout

/-! Helper lemmas: the readers do not see blanks at the end of lines. -/

set_option linter.unusedSimpArgs false

namespace Verif.Model
open Verif.Py Verif.Spec

/-- Two lines are the same up to white space at the end. -/
def Trail (a b : Str) : Prop :=
  ∃ t u v, a = t ++ u ∧ b = t ++ v ∧ (∀ c ∈ u, isSpace c = true) ∧ ∀ c ∈ v, isSpace c = true

theorem Trail.refl (a : Str) : Trail a a := ⟨a, [], [], by simp, by simp, by simp, by simp⟩

theorem trail_isBlank {a b : Str} (h : Trail a b) : isBlank a = isBlank b := by
  obtain ⟨t, u, v, rfl, rfl, hu, hv⟩ := h
  rw [isBlank, isBlank, strip_append_spaces hu, strip_append_spaces hv]

theorem startsPlus_append {t u : Str} (h : ∀ c ∈ u, isSpace c = true) :
    startsPlus (t ++ u) = startsPlus t := by
  have hp : isSpace '+' = false := by decide
  have hx : ∀ c ∈ u, '+' ≠ c := by
    rintro c hc rfl
    rw [h _ hc] at hp; cases hp
  unfold startsPlus startsWith
  rcases t with _ | ⟨a, _ | ⟨b, _ | ⟨c, t⟩⟩⟩
  · cases u with
    | nil => rfl
    | cons x u => simp [List.isPrefixOf, hx x (by simp)]
  · cases u with
    | nil => rfl
    | cons x u => simp [List.isPrefixOf, hx x (by simp)]
  · cases u with
    | nil => rfl
    | cons x u => simp [List.isPrefixOf, hx x (by simp)]
  · simp [List.isPrefixOf]

theorem trail_startsPlus {a b : Str} (h : Trail a b) : startsPlus a = startsPlus b := by
  obtain ⟨t, u, v, rfl, rfl, hu, hv⟩ := h
  rw [startsPlus_append hu, startsPlus_append hv]

theorem trail_stopsRows {a b : Str} (h : Trail a b) : stopsRows a = stopsRows b := by
  rw [stopsRows, stopsRows, trail_isBlank h, trail_startsPlus h]

theorem strip_slice_append {t u : Str} (h : ∀ c ∈ u, isSpace c = true) (i n : ℕ) :
    strip (slice (t ++ u) i n) = strip (slice t i n) := by
  unfold slice
  rw [List.drop_append, List.take_append, strip_append_spaces]
  intro c hc
  exact h c (List.mem_of_mem_drop (List.mem_of_mem_take hc))

theorem trail_readFrom {a b : Str} (h : Trail a b) {ts : List Tok} (hs : ∀ t ∈ ts, t.kind ≠ .S)
    (i : ℕ) : readFrom a i ts = readFrom b i ts := by
  induction ts generalizing i with
  | nil => rfl
  | cons t ts ih =>
    have hf : readField t (slice a i t.w) = readField t (slice b i t.w) := by
      obtain ⟨x, u, v, rfl, rfl, hu, hv⟩ := h
      unfold readField
      rw [if_neg (hs t (by simp)), if_neg (hs t (by simp)), strip_slice_append hu,
        strip_slice_append hv]
    rw [readFrom, readFrom, hf, ih fun x hx => hs x (by simp [hx])]

theorem trail_readRecord {a b : Str} (h : Trail a b) {ts : List Tok} (hs : ∀ t ∈ ts, t.kind ≠ .S) :
    readRecord ts a = readRecord ts b := trail_readFrom h hs 0

theorem countDigits_append {a u : Str} (h : ∀ c ∈ u, isDigit c = false) :
    countDigits (a ++ u) = countDigits a := by
  induction a with
  | nil =>
    cases u with
    | nil => rfl
    | cons c u => simp [countDigits, h c (by simp)]
  | cons c a ih => simp [countDigits, ih]

theorem isDigit_of_isSpace {c : Char} (h : isSpace c = true) : isDigit c = false := by
  unfold isSpace at h
  unfold isDigit
  simp only [Bool.or_eq_true, Bool.and_eq_true, decide_eq_true_eq, beq_iff_eq] at h
  simp only [Bool.and_eq_false_iff, decide_eq_false_iff_not]
  omega

theorem trail_labelLength {a b : Str} (h : Trail a b) (given : Option ℕ) :
    labelLength given a = labelLength given b := by
  obtain ⟨t, u, v, rfl, rfl, hu, hv⟩ := h
  have key : ∀ u : Str, (∀ c ∈ u, isSpace c = true) →
      getLabelLength ((t ++ u).take 9) = getLabelLength (t.take 9) := by
    intro u hu
    unfold getLabelLength
    rw [List.take_append, List.drop_append, countDigits_append]
    intro c hc
    exact isDigit_of_isSpace (hu c (List.mem_of_mem_take (List.mem_of_mem_drop hc)))
  unfold labelLength
  rw [key u hu, key v hv]

/-! ### lists of lines -/

/-- Two lists of lines are the same up to white space at the ends of the lines before
`rest`. -/
def TrailTo (rest ls ls' : List Str) : Prop :=
  ls = ls' ∨ ∃ b b', ls = b ++ rest ∧ ls' = b' ++ rest ∧ List.Forall₂ Trail b b'

theorem TrailTo.end {rest ls' : List Str} (h : TrailTo rest rest ls') : ls' = rest := by
  rcases h with h | ⟨b, b', h1, h2, h3⟩
  · exact h.symm
  · have : b = [] := by
      have := congrArg List.length h1
      simp at this
      exact this
    subst this
    cases h3
    exact h2

theorem TrailTo.next {rest ls ls' : List Str} (h : TrailTo rest ls ls') {l : Str} {t : List Str}
    (hn : Model.next ls = .ok (l, t)) :
    ∃ l' t', Model.next ls' = .ok (l', t') ∧ Trail l l' ∧ TrailTo rest t t' := by
  rcases h with rfl | ⟨b, b', rfl, rfl, h3⟩
  · exact ⟨l, t, hn, Trail.refl l, Or.inl rfl⟩
  · cases h3 with
    | nil => exact ⟨l, t, hn, Trail.refl l, Or.inl rfl⟩
    | cons h4 h5 =>
      injection hn with e
      injection e with e1 e2
      subst e1; subst e2
      exact ⟨_, _, rfl, h4, Or.inr ⟨_, _, rfl, rfl, h5⟩⟩

theorem TrailTo.length {rest ls ls' : List Str} (h : TrailTo rest ls ls') :
    ls.length = ls'.length := by
  rcases h with rfl | ⟨b, b', rfl, rfl, h3⟩
  · rfl
  · simp [h3.length_eq]

/-- A step of a loop that does not see white space at the ends of lines. -/
def Blind {σ : Type} (step : σ → List Str → Except PyErr (Turn σ × List Str)) : Prop :=
  ∀ rest ls ls', TrailTo rest ls ls' → ∀ s r t, step s ls = .ok (r, t) →
    ∃ t', step s ls' = .ok (r, t') ∧ TrailTo rest t t'

theorem Blind.loop {σ : Type} {step : σ → List Str → Except PyErr (Turn σ × List Str)}
    (hs : Blind step) {rest : List Str} {n : ℕ} {s r : σ} {ls ls' : List Str}
    (ht : TrailTo rest ls ls') (h : loop step n s ls = .ok (r, rest)) :
    loop step n s ls' = .ok (r, rest) := by
  induction n generalizing s ls ls' with
  | zero => cases h
  | succ n ih =>
    rw [Model.loop] at h ⊢
    cases hx : step s ls with
    | error e => rw [hx] at h; cases h
    | ok x =>
      obtain ⟨x, t⟩ := x
      obtain ⟨t', h1, h2⟩ := hs rest ls ls' ht s x t hx
      rw [hx] at h
      rw [h1]
      cases x with
      | stop s' =>
        injection h with e
        injection e with e1 e2
        subst e1; subst e2
        simp only [h2.end]
      | more s' => exact ih h2 h

theorem Blind.whileTrue {σ : Type} {step : σ → List Str → Except PyErr (Turn σ × List Str)}
    (hs : Blind step) {rest : List Str} {s r : σ} {ls ls' : List Str}
    (ht : TrailTo rest ls ls') (h : whileTrue step s ls = .ok (r, rest)) :
    whileTrue step s ls' = .ok (r, rest) := by
  unfold Model.whileTrue at h ⊢
  rw [← ht.length]
  exact hs.loop ht h

/-- No column keeps the blanks. -/
def NoRaw (ts : List Tok) : Prop := ∀ t ∈ ts, t.kind ≠ .S

instance (ts : List Tok) : Decidable (NoRaw ts) := by unfold NoRaw; infer_instance

theorem noRaw_formatFor {table : ℕ → Option (List Tok)} (ht : ∀ n f, table n = some f → NoRaw f)
    {n : ℕ} {f : List Tok} (h : formatFor table n = .ok f) : NoRaw f := by
  unfold formatFor at h
  split at h
  · injection h with h; subst h; exact ht _ _ (by assumption)
  · cases h

theorem noRaw_eleme : ∀ n f, Fmt.eleme n = some f → NoRaw f := by
  intro n f h
  unfold Fmt.eleme at h
  split at h <;> cases h <;> decide

theorem noRaw_conne : ∀ n f, Fmt.conne n = some f → NoRaw f := by
  intro n f h
  unfold Fmt.conne at h
  split at h <;> cases h <;> decide

theorem noRaw_incon : ∀ n f, Fmt.incon n = some f → NoRaw f := by
  intro n f h
  unfold Fmt.incon at h
  split at h <;> cases h <;> decide

theorem blind_eleme {fmt : Except PyErr (List Tok)} (hf : ∀ f, fmt = .ok f → NoRaw f) :
    Blind (elemeStep fmt) := by
  intro rest ls ls' ht s r t h
  unfold elemeStep at h ⊢
  obtain ⟨⟨l, t1⟩, h1, h2⟩ := bind_eq_ok.1 h
  obtain ⟨l', t1', e1, e2, e3⟩ := ht.next h1
  rw [e1, ok_bind]
  dsimp only at h2 ⊢
  rw [← trail_isBlank e2]
  split at h2
  · rename_i hb
    injection h2 with e; injection e with ea eb
    subst ea; subst eb
    exact ⟨t1', by rw [if_pos hb], e3⟩
  · rename_i hb
    rw [if_neg hb]
    obtain ⟨f, g1, g2⟩ := bind_eq_ok.1 h2
    rw [g1, ok_bind, ← trail_readRecord e2 (hf f g1)]
    obtain ⟨d, g3, g4⟩ := bind_eq_ok.1 g2
    obtain ⟨x, g5, g6⟩ := bind_eq_ok.1 g4
    rw [g3, ok_bind, g5, ok_bind]
    injection g6 with e; injection e with ea eb
    subst ea; subst eb
    exact ⟨t1', rfl, e3⟩

theorem blind_coord : Blind coordStep := by
  intro rest ls ls' ht s r t h
  unfold coordStep at h ⊢
  obtain ⟨⟨l, t1⟩, h1, h2⟩ := bind_eq_ok.1 h
  obtain ⟨l', t1', e1, e2, e3⟩ := ht.next h1
  rw [e1, ok_bind]
  dsimp only at h2 ⊢
  rw [← trail_isBlank e2]
  split at h2
  · rename_i hb
    injection h2 with e; injection e with ea eb
    subst ea; subst eb
    exact ⟨t1', by rw [if_pos hb], e3⟩
  · rename_i hb
    rw [if_neg hb, ← trail_readRecord e2 (by decide)]
    obtain ⟨d, g3, g4⟩ := bind_eq_ok.1 h2
    rw [g3, ok_bind]
    injection g4 with e; injection e with ea eb
    subst ea; subst eb
    exact ⟨t1', rfl, e3⟩

theorem blind_conne {fmt : Except PyErr (List Tok)} (hf : ∀ f, fmt = .ok f → NoRaw f) :
    Blind (conneStep fmt) := by
  intro rest ls ls' ht s r t h
  unfold conneStep at h ⊢
  obtain ⟨⟨l, t1⟩, h1, h2⟩ := bind_eq_ok.1 h
  obtain ⟨l', t1', e1, e2, e3⟩ := ht.next h1
  rw [e1, ok_bind]
  dsimp only at h2 ⊢
  rw [← trail_stopsRows e2]
  split at h2
  · rename_i hb
    injection h2 with e; injection e with ea eb
    subst ea; subst eb
    exact ⟨t1', by rw [if_pos hb], e3⟩
  · rename_i hb
    rw [if_neg hb]
    obtain ⟨f, g1, g2⟩ := bind_eq_ok.1 h2
    rw [g1, ok_bind, ← trail_readRecord e2 (hf f g1)]
    obtain ⟨d, g3, g4⟩ := bind_eq_ok.1 g2
    rw [g3, ok_bind]
    injection g4 with e; injection e with ea eb
    subst ea; subst eb
    exact ⟨t1', rfl, e3⟩

theorem trail_third {two : Bool} {rest ls ls' : List Str} (ht : TrailTo rest ls ls')
    {d : List Val} {two' : Bool} {t : List Str}
    (h : readThird Fmt.incon0 stopsRows two ls = .ok (d, two', t)) :
    ∃ t', readThird Fmt.incon0 stopsRows two ls' = .ok (d, two', t') ∧ TrailTo rest t t' := by
  unfold readThird at h ⊢
  split at h
  · rename_i hw
    rw [if_pos hw]
    obtain ⟨⟨l, t1⟩, h1, h2⟩ := bind_eq_ok.1 h
    obtain ⟨l', t1', e1, e2, e3⟩ := ht.next h1
    rw [e1, ok_bind]
    dsimp only at h2 ⊢
    rw [← trail_stopsRows e2, ← trail_readRecord e2 (by decide : NoRaw Fmt.incon0)]
    split at h2
    · rename_i hb
      rw [if_pos hb]
      injection h2 with e; injection e with ea eb; injection eb with eb ec
      subst ea; subst eb; subst ec
      exact ⟨ls', rfl, ht⟩
    · rename_i hb
      rw [if_neg hb]
      split at h2
      · injection h2 with e; injection e with ea eb; injection eb with eb ec
        subst ea; subst eb; subst ec
        exact ⟨t1', rfl, e3⟩
      · injection h2 with e; injection e with ea eb; injection eb with eb ec
        subst ea; subst eb; subst ec
        exact ⟨ls', rfl, ht⟩
      · cases h2
  · rename_i hw
    rw [if_neg hw]
    injection h with e; injection e with ea eb; injection eb with eb ec
    subst ea; subst eb; subst ec
    exact ⟨ls', rfl, ht⟩

theorem blind_incon {fmt : Except PyErr (List Tok)} (hf : ∀ f, fmt = .ok f → NoRaw f) :
    Blind (inconStep fmt) := by
  intro rest ls ls' ht s r t h
  unfold inconStep at h ⊢
  obtain ⟨⟨l, t1⟩, h1, h2⟩ := bind_eq_ok.1 h
  obtain ⟨l', t1', e1, e2, e3⟩ := ht.next h1
  rw [e1, ok_bind]
  dsimp only at h2 ⊢
  rw [← trail_stopsRows e2]
  split at h2
  · rename_i hb
    injection h2 with e; injection e with ea eb
    subst ea; subst eb
    exact ⟨t1', by rw [if_pos hb], e3⟩
  · rename_i hb
    rw [if_neg hb]
    obtain ⟨f, g1, g2⟩ := bind_eq_ok.1 h2
    rw [g1, ok_bind, ← trail_readRecord e2 (hf f g1)]
    obtain ⟨d, g3, g4⟩ := bind_eq_ok.1 g2
    rw [g3, ok_bind]
    obtain ⟨⟨l2, t2⟩, k1, k2⟩ := bind_eq_ok.1 g4
    obtain ⟨l2', t2', m1, m2, m3⟩ := e3.next k1
    rw [m1, ok_bind]
    dsimp only at k2 ⊢
    rw [← trail_readRecord m2 (by decide : NoRaw Fmt.incon0)]
    obtain ⟨d2, k3, k4⟩ := bind_eq_ok.1 k2
    rw [k3, ok_bind]
    obtain ⟨⟨d3, two, t3⟩, k5, k6⟩ := bind_eq_ok.1 k4
    obtain ⟨t3', n1, n2⟩ := trail_third m3 k5
    rw [n1, ok_bind]
    injection k6 with e; injection e with ea eb
    subst ea; subst eb
    exact ⟨t3', rfl, n2⟩

/-! ### the readers -/

theorem trail_body {b b' : List Str} (h : List.Forall₂ Trail b b') (rest : List Str) :
    TrailTo rest (b ++ rest) (b' ++ rest) := Or.inr ⟨b, b', rfl, rfl, h⟩

theorem trail_readEleme {b b' rest : List Str} (h : List.Forall₂ Trail b b') {given : Option ℕ}
    {r : Table Elem} (hr : readEleme given (b ++ rest) = .ok (r, rest)) :
    readEleme given (b' ++ rest) = .ok (r, rest) := by
  unfold readEleme at hr ⊢
  obtain ⟨⟨l, t⟩, h1, h2⟩ := bind_eq_ok.1 hr
  obtain ⟨l', t', e1, e2, -⟩ := (trail_body h rest).next h1
  rw [e1, ok_bind]
  dsimp only at h2 ⊢
  rw [← trail_labelLength e2]
  exact (blind_eleme fun f hf => noRaw_formatFor noRaw_eleme hf).whileTrue (trail_body h rest) h2

theorem trail_readCoord {b b' rest : List Str} (h : List.Forall₂ Trail b b')
    {r : List (List Val)} (hr : readCoord (b ++ rest) = .ok (r, rest)) :
    readCoord (b' ++ rest) = .ok (r, rest) :=
  blind_coord.whileTrue (trail_body h rest) hr

theorem trail_readConne {b b' rest : List Str} (h : List.Forall₂ Trail b b') {given : Option ℕ}
    {r : Table Conn} (hr : readConne given (b ++ rest) = .ok (r, rest)) :
    readConne given (b' ++ rest) = .ok (r, rest) := by
  unfold readConne at hr ⊢
  obtain ⟨⟨l, t⟩, h1, h2⟩ := bind_eq_ok.1 hr
  obtain ⟨l', t', e1, e2, -⟩ := (trail_body h rest).next h1
  rw [e1, ok_bind]
  dsimp only at h2 ⊢
  rw [← trail_labelLength e2]
  exact (blind_conne fun f hf => noRaw_formatFor noRaw_conne hf).whileTrue (trail_body h rest) h2

theorem trail_readIncon {b b' rest : List Str} (h : List.Forall₂ Trail b b') {given : Option ℕ}
    {r : Table Incon} (hr : readIncon given (b ++ rest) = .ok (r, rest)) :
    readIncon given (b' ++ rest) = .ok (r, rest) := by
  unfold readIncon at hr ⊢
  obtain ⟨⟨l, t⟩, h1, h2⟩ := bind_eq_ok.1 hr
  obtain ⟨l', t', e1, e2, -⟩ := (trail_body h rest).next h1
  rw [e1, ok_bind]
  dsimp only at h2 ⊢
  rw [← trail_labelLength e2]
  obtain ⟨⟨s, u⟩, g1, g2⟩ := bind_eq_ok.1 h2
  injection g2 with e; injection e with ea eb
  subst ea; subst eb
  rw [(blind_incon fun f hf => noRaw_formatFor noRaw_incon hf).whileTrue (trail_body h _) g1]
  rfl

end Verif.Model
