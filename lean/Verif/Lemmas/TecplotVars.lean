import Verif.Lemmas.TecplotZone
import Verif.Lemmas.Incon

/-!
# Lemmas on the variables of Tecplot files
-/

namespace Verif.Model
open Verif.Py Verif.Spec

theorem take_word (s : Str) (h : ∀ c ∈ s.head?, isSpace c = false) (hne : s ≠ []) :
    ∃ a r, s = a ++ r ∧ Word a ∧ ∀ c ∈ r.head?, isSpace c = true := by
  refine ⟨s.takeWhile (fun c => !isSpace c), s.dropWhile (fun c => !isSpace c),
    List.takeWhile_append_dropWhile.symm, ⟨?_, ?_⟩, ?_⟩
  · obtain ⟨c, s, rfl⟩ := List.exists_cons_of_ne_nil hne
    rw [List.takeWhile_cons, h c (by simp)]
    simp
  · intro c hc
    have := List.all_eq_true.1 (List.all_takeWhile (p := fun c => !isSpace c) (l := s)) c hc
    simpa using this
  · intro c hc
    have := List.head?_dropWhile_not (fun c => !isSpace c) s
    rw [Option.mem_def] at hc
    rw [hc] at this
    simpa using this

theorem take_blanks (s : Str) : ∃ a r, s = a ++ r ∧ (∀ c ∈ a, isSpace c = true) ∧ ∀ c ∈ r.head?, isSpace c = false := by
  refine ⟨s.takeWhile isSpace, s.dropWhile isSpace, List.takeWhile_append_dropWhile.symm, ?_, ?_⟩
  · exact fun c hc => List.all_eq_true.1 (List.all_takeWhile (p := isSpace) (l := s)) c hc
  · intro c hc
    have := List.head?_dropWhile_not isSpace s
    rw [Option.mem_def] at hc
    rw [hc] at this
    simpa using this

theorem two_words {s : Str} (h : strip s = s) (h2 : (words s).length ≤ 2) : s = [] ∨ Word s ∨
    ∃ a b sp, Word a ∧ Word b ∧ sp ≠ [] ∧ (∀ c ∈ sp, isSpace c = true) ∧ s = a ++ (sp ++ b) := by
  by_cases hne : s = []
  · exact .inl hne
  right
  obtain ⟨hh, hlast⟩ := strip_head_last s
  rw [h] at hh hlast
  obtain ⟨a, r, rfl, ha, hr⟩ := take_word s hh hne
  by_cases hrn : r = []
  · left; subst hrn; simpa using ha
  right
  obtain ⟨sp, b, rfl, hsp, hb⟩ := take_blanks r
  have hl : ∀ {x : Str}, x ≠ [] → (∀ c ∈ x, isSpace c = true) → ∀ y, a ++ (sp ++ b) ≠ y ++ x := by
    intro x hx hsx y he
    obtain ⟨x', c, rfl⟩ := (List.eq_nil_or_concat' x).resolve_left hx
    have := hlast c (by rw [he]; simp)
    rw [hsx c (by simp)] at this
    cases this
  have hbn : b ≠ [] := by
    rintro rfl
    rw [List.append_nil] at hrn
    exact hl hrn hsp a (by simp)
  obtain ⟨b, r, rfl, hb', hr'⟩ := take_word b hb hbn
  have hspn : sp ≠ [] := by
    rintro rfl
    obtain ⟨c, b, rfl⟩ := List.exists_cons_of_ne_nil hb'.1
    have h1 := hr c (by simp)
    rw [hb'.2 c (by simp)] at h1
    cases h1
  refine ⟨a, b, sp, ha, hb', hspn, hsp, ?_⟩
  rw [words_token ha.1 ha.2 hr, words_spaces_append hsp, words_token hb'.1 hb'.2 hr'] at h2
  have hr0 : r = [] := by
    by_contra hrn
    apply hl hrn _ (a ++ (sp ++ b)) (by simp)
    have : words r = [] := by
      rw [← List.length_eq_zero_iff]
      simp only [List.length_cons] at h2
      omega
    obtain ⟨sp', r', rfl, h1, h2⟩ := take_blanks r
    by_cases hr' : r' = []
    · subst hr'; simpa using h1
    · exfalso
      obtain ⟨w, r'', rfl, h3, h4⟩ := take_word r' h2 hr'
      rw [words_spaces_append h1, words_token h3.1 h3.2 h4] at this
      cases this
  rw [hr0, List.append_nil]

theorem words_word {w : Str} (hw : Word w) : words w = [w] := by
  have := words_token hw.1 hw.2 (r := []) (by simp)
  rwa [List.append_nil] at this

theorem words_pair {a b sp : Str} (ha : Word a) (hb : Word b) (hs : sp ≠ []) (hsp : ∀ c ∈ sp, isSpace c = true) :
    words (a ++ (sp ++ b)) = [a, b] := by
  rw [words_append_of hsp hs, words_word ha, words_word hb]
  rfl

theorem joinQuoted_one {t : Str} (h : '"' ∈ t → t.head? = some '"' ∧ t.getLast? = some '"') (r : List Str) :
    joinQuoted (t :: r) = (do let vs ← joinQuoted r; .ok (unquote t :: vs)) := by
  have hn : ¬ ('"' ∈ t ∧ ¬ (t.head? = some '"' ∧ t.getLast? = some '"')) := by tauto
  cases r with
  | nil => unfold joinQuoted; rw [if_neg hn]; rfl
  | cons u r => rw [joinQuoted, if_neg hn]

theorem joinQuoted_two {t u : Str} (h : '"' ∈ t ∧ ¬ (t.head? = some '"' ∧ t.getLast? = some '"')) (r : List Str) :
    joinQuoted (t :: u :: r) = (do let vs ← joinQuoted r; .ok (unquote (t ++ '_' :: u) :: vs)) := by
  rw [joinQuoted, if_pos h]

theorem unquote_append (a b : Str) : unquote (a ++ b) = unquote a ++ unquote b := by simp [unquote]

theorem joinQuoted_var {v : VarText} (h : v.Ok) (r : List Str) :
    joinQuoted (words v.text ++ r) = (do let vs ← joinQuoted r; .ok (wordsJoined v.name :: vs)) := by
  obtain ⟨⟨h1, h2, h3⟩, h4⟩ := h
  have hq : ∀ c ∈ v.name, c ≠ '"' := fun c hc => (h3 c hc).1
  have hsp : isSpace '"' = false := by decide
  have hone : ∀ {w : Str}, Word w → words w = [w] := by
    intro w hw
    have := words_token hw.1 hw.2 (r := []) (by simp)
    rwa [List.append_nil] at this
  rw [VarText.text]
  cases hquo : v.quoted with
  | false =>
    have hw : Word v.name := h4 hquo
    rw [if_neg (by simp), hone hw, List.cons_append, List.nil_append,
      joinQuoted_one (fun hm => absurd rfl (hq _ hm)), unquote_eq_self hq, wordsJoined, hone hw]
    simp
  | true =>
    rw [if_pos rfl]
    rcases two_words h1 h2 with hn | hw | ⟨a, b, sp, ha, hb, hspn, hsp', he⟩
    · rw [hn]
      rw [show words ('"' :: ([] ++ ['"'])) = ["\"\"".toList] by decide, List.cons_append, List.nil_append,
        joinQuoted_one (by decide), show unquote "\"\"".toList = [] by decide,
        show wordsJoined [] = [] by decide]
    · have : Word ('"' :: (v.name ++ ['"'])) := by
        refine ⟨by simp, fun c hc => ?_⟩
        rcases List.mem_cons.1 hc with rfl | hc
        · exact hsp
        rcases List.mem_append.1 hc with hc | hc
        · exact hw.2 c hc
        · rw [List.mem_singleton.1 hc]; exact hsp
      rw [hone this, List.cons_append, List.nil_append, joinQuoted_one (fun _ => ⟨by simp, by simp [List.getLast?_cons]⟩),
        wordsJoined, hone hw]
      have : unquote ('"' :: (v.name ++ ['"'])) = v.name := by
        have e : '"' :: (v.name ++ ['"']) = ['"'] ++ (v.name ++ ['"']) := rfl
        rw [e, unquote_append, unquote_append, unquote_eq_self hq, show unquote ['"'] = [] by decide]
        simp
      rw [this]
      simp
    · have hwa : Word ('"' :: a) := by
        refine ⟨by simp, fun c hc => ?_⟩
        rcases List.mem_cons.1 hc with rfl | hc
        · exact hsp
        · exact ha.2 c hc
      have hwb : Word (b ++ ['"']) := by
        refine ⟨by simp, fun c hc => ?_⟩
        rcases List.mem_append.1 hc with hc | hc
        · exact hb.2 c hc
        · rw [List.mem_singleton.1 hc]; exact hsp
      have e1 : words ('"' :: (v.name ++ ['"'])) = ['"' :: a, b ++ ['"']] := by
        have e : '"' :: (v.name ++ ['"']) = ('"' :: a) ++ (sp ++ (b ++ ['"'])) := by rw [he]; simp
        rw [e, words_append_of hsp' hspn, hone hwa, hone hwb]
        rfl
      have e2 : words v.name = [a, b] := by
        rw [he, words_append_of hsp' hspn, hone ha, hone hb]
        rfl
      have hqa : ∀ c ∈ a, c ≠ '"' := fun c hc => hq c (by rw [he]; simp [hc])
      have hqb : ∀ c ∈ b, c ≠ '"' := fun c hc => hq c (by rw [he]; simp [hc])
      rw [e1, List.cons_append, List.cons_append, List.nil_append, joinQuoted_two, wordsJoined, e2]
      · have : unquote ('"' :: a ++ '_' :: (b ++ ['"'])) = a ++ '_' :: b := by
          have e : '"' :: a ++ '_' :: (b ++ ['"']) = ['"'] ++ (a ++ (['_'] ++ (b ++ ['"']))) := by simp
          rw [e, unquote_append, unquote_append, unquote_append, unquote_append, unquote_eq_self hqa,
            unquote_eq_self hqb, show unquote ['"'] = [] by decide, show unquote ['_'] = ['_'] by decide]
          simp
        rw [this]
        simp
      · refine ⟨by simp, ?_⟩
        rintro ⟨-, hl⟩
        obtain ⟨a', c, hc⟩ := (List.eq_nil_or_concat' a).resolve_left ha.1
        rw [hc, List.getLast?_cons] at hl
        simp at hl
        exact hqa c (by rw [hc]; simp) hl

theorem var_chars {v : VarText} (h : v.Ok) : ',' ∉ v.text ∧ '=' ∉ v.text := by
  have h3 := h.1.2.2
  rw [VarText.text]
  split
  · constructor
    · intro hc
      rcases List.mem_cons.1 hc with hc | hc
      · revert hc; decide
      rcases List.mem_append.1 hc with hc | hc
      · exact (h3 _ hc).2.2.1 rfl
      · revert hc; decide
    · intro hc
      rcases List.mem_cons.1 hc with hc | hc
      · revert hc; decide
      rcases List.mem_append.1 hc with hc | hc
      · exact (h3 _ hc).2.1 rfl
      · revert hc; decide
  · exact ⟨fun hc => (h3 _ hc).2.2.1 rfl, fun hc => (h3 _ hc).2.1 rfl⟩

theorem words_vars {vs : List (Str × VarText)} (h : ∀ v ∈ vs, Separator v.1 ∧ v.1 ≠ [] ∧ v.2.Ok) {b x : Str}
    (hx : Separator x) : words (uncomma (b ++ (varsText vs ++ x))) =
      words (uncomma b) ++ vs.flatMap fun v => words v.2.text := by
  induction vs generalizing b with
  | nil =>
    have : words (uncomma b ++ uncomma x) = words (uncomma b) := words_append_spaces (uncomma_sep hx) _
    rw [uncomma_append]
    simpa [varsText, uncomma_append] using this
  | cons v vs ih =>
    obtain ⟨h1, h2, h3⟩ := h v (by simp)
    have e : b ++ (varsText (v :: vs) ++ x) = b ++ (v.1 ++ (v.2.text ++ (varsText vs ++ x))) := by simp [varsText]
    rw [e, uncomma_append, uncomma_append, words_append_of (uncomma_sep h1) (by simpa [uncomma] using h2),
      ih (fun v hv => h v (by simp [hv])), uncomma_eq_self (var_chars h3).1, List.flatMap_cons]

theorem joinQuoted_vars {vs : List VarText} (h : ∀ v ∈ vs, v.Ok) :
    joinQuoted (vs.flatMap fun v => words v.text) = .ok (vs.map fun v => wordsJoined v.name) := by
  induction vs with
  | nil => rfl
  | cons v vs ih =>
    rw [List.flatMap_cons, joinQuoted_var (h v (by simp)), ih fun v hv => h v (by simp [hv]), ok_bind]
    rfl

theorem readVariables_vars {h lead x : Str} (h0 : '=' ∉ h) (hl : Separator lead) {v : VarText} (hv : v.Ok)
    {vs : List (Str × VarText)} (hvs : ∀ v ∈ vs, Separator v.1 ∧ v.1 ≠ [] ∧ v.2.Ok) (hx : Separator x)
    (hX : ['X'] ∈ (v :: vs.map (·.2)).map (fun v => wordsJoined v.name) ∨
      ['x'] ∈ (v :: vs.map (·.2)).map (fun v => wordsJoined v.name))
    (hY : ['Y'] ∈ (v :: vs.map (·.2)).map (fun v => wordsJoined v.name) ∨
      ['y'] ∈ (v :: vs.map (·.2)).map (fun v => wordsJoined v.name)) :
    readVariables (h ++ '=' :: (lead ++ (v.text ++ (varsText vs ++ x)))) =
      .ok ((v :: vs.map (·.2)).map fun v => wordsJoined v.name) := by
  have hsepe : ∀ {s : Str}, Separator s → '=' ∉ s := by
    intro s hs hm
    exact absurd (hs _ hm) (by decide)
  have hrest : '=' ∉ lead ++ (v.text ++ (varsText vs ++ x)) := by
    intro hc
    rcases List.mem_append.1 hc with hc | hc
    · exact hsepe hl hc
    rcases List.mem_append.1 hc with hc | hc
    · exact (var_chars hv).2 hc
    rcases List.mem_append.1 hc with hc | hc
    · rw [varsText, List.mem_flatMap] at hc
      obtain ⟨w, hw, hc⟩ := hc
      obtain ⟨w1, -, w3⟩ := hvs w hw
      rcases List.mem_append.1 hc with hc | hc
      · exact hsepe w1 hc
      · exact (var_chars w3).2 hc
    · exact hsepe hx hc
  rw [readVariables, splitOn_append h0, splitOn_self hrest]
  have e : rowAt [h, lead ++ (v.text ++ (varsText vs ++ x))] 1 = .ok (lead ++ (v.text ++ (varsText vs ++ x))) := rfl
  rw [e, ok_bind, uncomma_append, words_spaces_append (uncomma_sep hl), words_vars hvs hx,
    uncomma_eq_self (var_chars hv).1]
  have hj := joinQuoted_vars (vs := v :: vs.map (·.2)) (by
    intro w hw
    rcases List.mem_cons.1 hw with rfl | hw
    · exact hv
    · obtain ⟨u, hu, rfl⟩ := List.mem_map.1 hw
      exact (hvs u hu).2.2)
  rw [List.flatMap_cons, List.flatMap_map] at hj
  rw [hj, ok_bind, if_neg, if_neg]
  · rintro ⟨h1, h2⟩
    rcases hY with h | h
    · exact h1 h
    · exact h2 h
  · rintro ⟨h1, h2⟩
    rcases hX with h | h
    · exact h1 h
    · exact h2 h

end Verif.Model
