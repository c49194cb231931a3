import Verif.Spec.File
import Verif.Lemmas.Terminate
import Verif.Lemmas.Order

/-! Helper lemmas: the main loop over blocks. -/

set_option linter.unusedSimpArgs false

namespace Verif.Model
open Verif.Py Verif.Spec

/-! ## Fuel -/

theorem loop_fuel {σ : Type} {step : σ → List Str → Except PyErr (Turn σ × List Str)}
    (h : ∀ s ls, SafeTurn ls.length (step s ls)) (n m : ℕ) (s : σ) (ls : List Str)
    (hn : ls.length < n) (hm : ls.length < m) : loop step n s ls = loop step m s ls := by
  induction n generalizing m s ls with
  | zero => omega
  | succ n ih =>
    obtain ⟨m, rfl⟩ : ∃ m', m = m' + 1 := ⟨m - 1, by omega⟩
    have hs := h s ls
    rw [loop, loop]
    cases hr : step s ls with
    | error e => rfl
    | ok x =>
      obtain ⟨t, ls'⟩ := x
      rw [hr] at hs
      cases t with
      | stop s' => rfl
      | more s' =>
        have hs' : ls'.length + 1 ≤ ls.length := hs
        exact ih m s' ls' (by omega) (by omega)

/-- The main loop goes from one state to another in some number of turns. -/
def Runs (given : Option ℕ) (s : FileRead) (ls : List Str) (s' : FileRead) (ls' : List Str) : Prop :=
  ∃ k, ∀ n, loop (fileStep given) (n + k) s ls = loop (fileStep given) n s' ls'

theorem Runs.refl (given : Option ℕ) (s : FileRead) (ls : List Str) : Runs given s ls s ls :=
  ⟨0, fun _ => rfl⟩

theorem Runs.trans {given : Option ℕ} {s s' s'' : FileRead} {ls ls' ls'' : List Str}
    (h : Runs given s ls s' ls') (h' : Runs given s' ls' s'' ls'') : Runs given s ls s'' ls'' := by
  obtain ⟨k, hk⟩ := h
  obtain ⟨k', hk'⟩ := h'
  exact ⟨k' + k, fun n => by rw [← Nat.add_assoc, hk, hk']⟩

theorem runs_turn {given : Option ℕ} {s s' : FileRead} {line : Str} {ls ls' : List Str}
    (he : startsWith line "ENDCY".toList = false) (h : dispatch given s line ls = .ok (s', ls')) :
    Runs given s (line :: ls) s' ls' :=
  ⟨1, fun n => by
    rw [loop, fileStep, if_neg (by rw [he]; decide), h]
    rfl⟩

theorem Runs.done {given : Option ℕ} {s s' : FileRead} {ls rest : List Str}
    (h : Runs given s ls s' (endLine :: rest)) :
    whileTrue (fileStep given) s ls = .ok (s', rest) := by
  obtain ⟨k, hk⟩ := h
  have := hk (ls.length + 1)
  rw [whileTrue, loop_fuel (safe_fileStep given) _ (ls.length + 1 + k) s ls (by omega) (by omega),
    this]
  rw [loop, fileStep, if_pos (by decide)]

theorem Runs.eof {given : Option ℕ} {s s' : FileRead} {ls : List Str}
    (h : Runs given s ls s' []) : whileTrue (fileStep given) s ls = .ok (s', []) := by
  obtain ⟨k, hk⟩ := h
  have := hk (ls.length + 1)
  rw [whileTrue, loop_fuel (safe_fileStep given) _ (ls.length + 1 + k) s ls (by omega) (by omega),
    this]
  rfl

/-! ## Sequences of blocks -/

/-- The parts `ws` are written, and reading their lines takes the main loop from
`s` to `s'`, whatever lines with property `Q` follow. -/
def Chain (given : Option ℕ) (Q : List Str → Prop) (s : FileRead)
    (ws : List (Except PyErr (List Str))) (s' : FileRead) : Prop :=
  ∃ lines, concatM id ws = .ok lines ∧ (∀ rest, Q rest → Q (lines ++ rest)) ∧
    ∀ rest, Q rest → Runs given s (lines ++ rest) s' rest

/-- `Q` does not exclude the header of a block. -/
def Heads (Q : List Str → Prop) : Prop := ∀ kw ∈ keywords, ∀ l, Q (headLine kw :: l)

theorem Chain.nil (given : Option ℕ) (Q : List Str → Prop) (s : FileRead) : Chain given Q s [] s :=
  ⟨[], rfl, fun _ h => h, fun _ _ => Runs.refl _ _ _⟩

theorem Chain.append {given : Option ℕ} {Q : List Str → Prop} {s s' s'' : FileRead}
    {ws ws' : List (Except PyErr (List Str))} (h : Chain given Q s ws s')
    (h' : Chain given Q s' ws' s'') : Chain given Q s (ws ++ ws') s'' := by
  obtain ⟨l, h1, h2, h3⟩ := h
  obtain ⟨l', h1', h2', h3'⟩ := h'
  have key : ∀ (ws : List (Except PyErr (List Str))) (l : List Str), concatM id ws = .ok l →
      concatM id (ws ++ ws') = .ok (l ++ l') := by
    intro ws
    induction ws with
    | nil => intro l hl; cases hl; simpa using h1'
    | cons w ws ih =>
      intro l hl
      rw [concatM] at hl
      cases hw : (id w : Except PyErr (List Str)) with
      | error e => rw [hw] at hl; cases hl
      | ok x =>
        rw [hw, ok_bind] at hl
        cases hc : concatM id ws with
        | error e => rw [hc] at hl; cases hl
        | ok y =>
          rw [hc, ok_bind] at hl
          cases hl
          rw [List.cons_append, concatM, hw, ok_bind, ih y hc, ok_bind, List.append_assoc]
  refine ⟨l ++ l', key ws l h1, fun rest h => ?_, fun rest h => ?_⟩
  · rw [List.append_assoc]; exact h2 _ (h2' _ h)
  · rw [List.append_assoc]; exact (h3 _ (h2' _ h)).trans (h3' _ h)

theorem Chain.cons {given : Option ℕ} {Q : List Str → Prop} {s s' s'' : FileRead}
    {w : Except PyErr (List Str)} {ws : List (Except PyErr (List Str))} (h : Chain given Q s [w] s')
    (h' : Chain given Q s' ws s'') : Chain given Q s (w :: ws) s'' :=
  h.append h'

theorem Chain.skip {given : Option ℕ} {Q : List Str → Prop} {s : FileRead}
    {w : Except PyErr (List Str)} (hw : w = .ok []) : Chain given Q s [w] s :=
  ⟨[], by rw [concatM, id, hw]; rfl, fun _ h => h, fun _ _ => Runs.refl _ _ _⟩

theorem Chain.of {given : Option ℕ} {Q : List Str → Prop} (hQ : Heads Q) {s s' : FileRead}
    {w : Except PyErr (List Str)} {kw : String} (hk : kw ∈ keywords) {body : List Str}
    (hw : w = .ok (headLine kw :: body))
    (hr : ∀ rest, Q rest → Runs given s (headLine kw :: (body ++ rest)) s' rest) :
    Chain given Q s [w] s' :=
  ⟨headLine kw :: body, by rw [concatM, id, hw]; simp [concatM], fun _ _ => hQ kw hk _,
    fun rest h => hr rest h⟩

theorem Chain.block {given : Option ℕ} {Q : List Str → Prop} (hQ : Heads Q) {s s' : FileRead}
    {w : Except PyErr (List Str)} {kw : String} (hk : kw ∈ keywords) (he : kw ≠ "ENDCY")
    {body : List Str} (hw : w = .ok (headLine kw :: body))
    (hr : ∀ rest, Q rest → dispatch given s (headLine kw) (body ++ rest) = .ok (s', rest)) :
    Chain given Q s [w] s' :=
  Chain.of hQ hk hw fun rest h => runs_turn (by
    have : ∀ kw ∈ keywords, kw ≠ "ENDCY" → startsWith (headLine kw) "ENDCY".toList = false := by
      decide +kernel
    exact this kw hk he) (hr rest h)

/-! ## Updating rows -/

theorem lookup_middle {β : Type} (pre post : List (Val × β)) (k : Val) (b : β)
    (h : k ∉ pre.map (·.1)) : (pre ++ (k, b) :: post).lookup k = some b := by
  induction pre with
  | nil => simp [List.lookup]
  | cons e pre ih =>
    obtain ⟨k', b'⟩ := e
    simp only [List.map_cons, List.mem_cons, not_or] at h
    rw [List.cons_append, List.lookup_cons, ih h.2]
    have : (k == k') = false := by simpa using h.1
    rw [this]

theorem dictSet_middle {β : Type} (pre post : List (Val × β)) (k : Val) (b b' : β)
    (h : k ∉ pre.map (·.1)) : dictSet (pre ++ (k, b) :: post) k b' = pre ++ (k, b') :: post := by
  induction pre with
  | nil => simp [dictSet]
  | cons e pre ih =>
    obtain ⟨k', b''⟩ := e
    simp only [List.map_cons, List.mem_cons, not_or] at h
    simp [dictSet, Ne.symm h.1, ih h.2]

theorem updateRows_spec {α β υ : Type} (f : β → υ → β) (key : α → Val) (g : α → β)
    (h : α → Option υ) (l : List α) (pre : List (Val × β))
    (hn : (pre.map (·.1) ++ l.map key).Nodup) :
    updateRows f (pre ++ l.map fun e => (key e, g e))
      (l.filterMap fun e => (h e).map fun u => (key e, u)) =
    .ok (pre ++ l.map fun e => (key e, match h e with
      | some u => f (g e) u
      | none => g e)) := by
  induction l generalizing pre with
  | nil => simp [updateRows]
  | cons e l ih =>
    have hk : key e ∉ pre.map (·.1) := by
      intro hm
      exact List.disjoint_of_nodup_append hn hm (by simp)
    have hn' : ∀ b : β, (((pre ++ [(key e, b)]).map (·.1)) ++ l.map key).Nodup := by
      intro b
      simpa [List.append_assoc] using hn
    cases hu : h e with
    | none =>
      rw [List.filterMap_cons_none (by simp [hu])]
      have := ih (pre ++ [(key e, g e)]) (hn' _)
      simpa [hu] using this
    | some u =>
      rw [List.filterMap_cons_some (b := (key e, u)) (by simp [hu])]
      rw [List.map_cons, updateRows]
      have : dictGet (pre ++ (key e, g e) :: l.map fun e => (key e, g e)) (key e) = .ok (g e) := by
        unfold dictGet
        rw [lookup_middle _ _ _ _ hk]
      rw [this, ok_bind, dictSet_middle _ _ _ _ _ hk]
      have := ih (pre ++ [(key e, f (g e) u)]) (hn' _)
      simpa [hu] using this

theorem inOrder_map {β γ : Type} (f : β → γ) (d : List (Val × β)) (ks : List Val) :
    inOrder (d.map fun e => (e.1, f e.2)) ks = (inOrder d ks).map fun e => (e.1, f e.2) := by
  have hl : ∀ k, (d.map fun e => (e.1, f e.2)).lookup k = (d.lookup k).map f := by
    intro k
    induction d with
    | nil => rfl
    | cons e d ih =>
      rw [List.map_cons, List.lookup_cons, List.lookup_cons, ih]
      split <;> rfl
  unfold inOrder
  rw [List.map_filterMap]
  apply List.filterMap_congr
  intro k _
  rw [hl]
  cases d.lookup k <;> rfl

/-! ## Titles -/

theorem prefix_append_blank {kw t b : Str} (hk : ∀ c ∈ kw, isSpace c = false)
    (hb : ∀ c ∈ b, isSpace c = true) (h : kw <+: t ++ b) : kw <+: t := by
  induction t generalizing kw with
  | nil =>
    cases kw with
    | nil => exact List.nil_prefix
    | cons c kw =>
      have : c ∈ b := h.subset (by simp)
      have := hb c this
      rw [hk c (by simp)] at this
      cases this
  | cons a t ih =>
    cases kw with
    | nil => exact List.nil_prefix
    | cons c kw =>
      rw [List.cons_append, List.cons_prefix_cons] at h
      rw [List.cons_prefix_cons]
      exact ⟨h.1, ih (fun c hc => hk c (by simp [hc])) h.2⟩

theorem keyword_solid : ∀ kw ∈ keywords, kw.toList ≠ [] ∧ ∀ c ∈ kw.toList, isSpace c = false := by
  decide +kernel

theorem startsWith_iff (s p : Str) : startsWith s p = true ↔ p <+: s := by
  simp [startsWith]

theorem rstrip_prefix (s : Str) : rstrip s <+: s := by
  unfold rstrip
  rw [← List.reverse_suffix, List.reverse_reverse]
  exact List.dropWhile_suffix _

/-- A title line is not taken for a header. -/
theorem titleLine_plain {t : Str} (h : TitleOk t) (kw : String) (hk : kw ∈ keywords) :
    startsWith (titleLine t) kw.toList = false := by
  rw [Bool.eq_false_iff, Ne, startsWith_iff]
  intro hp
  obtain ⟨hne, hsol⟩ := keyword_solid kw hk
  have e : titleLine t = t ++ (blanks (80 - t.length) ++ ['\n']) := by
    simp [titleLine, padRight]
  rw [e] at hp
  have hp := prefix_append_blank hsol (by
    intro c hc
    rcases List.mem_append.1 hc with hc | hc
    · exact blanks_space _ c hc
    · simp at hc; subst hc; decide) hp
  refine h.2 kw hk ?_
  cases t with
  | nil =>
    have := hp.length_le
    simp at this
    exact absurd (List.length_eq_zero_iff.1 (by simpa using this)) hne
  | cons a t =>
    cases hkw : kw.toList with
    | nil => exact absurd hkw hne
    | cons c r =>
      rw [hkw, List.cons_prefix_cons] at hp
      have ha : isSpace a = false := hsol a (by rw [hkw, hp.1]; simp)
      rw [lstrip_eq_self (by simpa using ha), List.cons_prefix_cons]
      exact hp

theorem strip_titleLine (t : Str) : strip (titleLine t) = strip t := by
  rw [titleLine, strip_append_spaces (by simp; decide), strip_padRight]

theorem strip_title_plain {t : Str} (h : TitleOk t) (kw : String) (hk : kw ∈ keywords) :
    ¬ kw.toList <+: strip t := by
  intro hp
  exact h.2 kw hk (hp.trans (rstrip_prefix _))

theorem titleLoop_titles {ts : List Str} (h : ∀ t ∈ ts, TitleOk t) (rest : List Str) :
    titleLoop (ts.map titleLine ++ headLine "ROCKS" :: rest) = .ok (ts.map strip) := by
  induction ts with
  | nil =>
    rw [List.map_nil, List.nil_append, titleLoop, if_pos (by decide +kernel)]
    rfl
  | cons t ts ih =>
    have : ¬ startsWith (strip (titleLine t)) "ROCKS".toList = true := by
      rw [strip_titleLine, startsWith_iff]
      exact strip_title_plain (h t (by simp)) "ROCKS" (by decide)
    rw [List.map_cons, List.cons_append, titleLoop, if_neg this,
      ih (fun t ht => h t (by simp [ht])), strip_titleLine]
    rfl

theorem readTitle_titles {p : Title} (h : ∀ t ∈ p.lines, TitleOk t) (rest : List Str) :
    readTitle (p.lines.map titleLine ++ headLine "ROCKS" :: rest) = .ok (titleBack p) := by
  unfold readTitle titleBack
  cases hl : p.lines with
  | nil =>
    rw [List.map_nil, List.nil_append]
    dsimp only [List.headD_cons, List.map_nil]
    rw [if_pos (by decide +kernel)]
    rfl
  | cons t ts =>
    rw [hl] at h
    rw [List.map_cons, List.cons_append, List.map_cons]
    dsimp only [List.headD_cons, List.tail_cons]
    have ht := h t (by simp)
    rw [strip_titleLine, if_neg, titleLoop_titles (fun t ht => h t (by simp [ht]))]
    · rw [ok_bind]
      cases ts <;> rfl
    · intro hm
      have : ∀ kw ∈ keywords, (strip t).take 5 ≠ kw.toList := by
        intro kw hk he
        exact strip_title_plain ht kw hk (he ▸ List.take_prefix _ _)
      simp only [List.mem_cons, List.not_mem_nil, or_false] at hm
      rcases hm with hm | hm | hm | hm <;> exact this _ (by decide) hm

theorem dispatch_plain {given : Option ℕ} {s : FileRead} {line : Str} {ls : List Str}
    (h : ∀ kw ∈ keywords, startsWith line kw.toList = false) :
    dispatch given s line ls = .ok (s, ls) := by
  unfold dispatch
  dsimp only
  have : ∀ {α : Type} (kw : String) (_ : kw ∈ keywords) (x y : α),
      (if startsWith line kw.toList = true then x else y) = y := by
    intro α kw hk x y
    rw [if_neg (by rw [h kw hk]; decide)]
  repeat rw [this _ (by decide)]

theorem runs_titles {given : Option ℕ} {s : FileRead} {ts : List Str} (h : ∀ t ∈ ts, TitleOk t)
    (rest : List Str) : Runs given s (ts.map titleLine ++ rest) s rest := by
  induction ts with
  | nil => exact Runs.refl _ _ _
  | cons t ts ih =>
    have hp := titleLine_plain (h t (by simp))
    exact (runs_turn (hp "ENDCY" (by decide)) (dispatch_plain hp)).trans
      (ih fun t ht => h t (by simp [ht]))

end Verif.Model
