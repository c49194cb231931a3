import Verif.Spec.TecplotMesh
import Verif.Lemmas.Tecplot
import Verif.Lemmas.Opts
import Verif.Lemmas.Listing

/-!
# Lemmas on zones and variables of Tecplot files
-/

namespace Verif.Model
open Verif.Py Verif.Spec

/-! ### texts -/

theorem uncomma_append (a b : Str) : uncomma (a ++ b) = uncomma a ++ uncomma b := by simp [uncomma]

theorem uncomma_sep {s : Str} (h : ∀ c ∈ s, isSpace c = true ∨ c = ',') : ∀ c ∈ uncomma s, isSpace c = true := by
  intro c hc
  obtain ⟨d, hd, rfl⟩ := List.mem_map.1 hc
  split
  · decide
  · rename_i hn
    exact (h d hd).resolve_right hn

theorem words_append_of {b : Str} (hb : ∀ c ∈ b, isSpace c = true) (hne : b ≠ []) (a r : Str) :
    words (a ++ (b ++ r)) = words a ++ words r := by
  obtain ⟨c, b, rfl⟩ := List.exists_cons_of_ne_nil hne
  have main : ∀ w, wordsFrom w (a ++ (c :: b ++ r)) = wordsFrom w a ++ words r := by
    induction a with
    | nil =>
      intro w
      rw [List.nil_append, List.cons_append, wordsFrom_cons, if_pos (hb c (by simp))]
      have e : wordsFrom [] (b ++ r) = words r := words_spaces_append (fun d hd => hb d (by simp [hd])) r
      rw [e]
      cases w with
      | nil => rfl
      | cons d w => rfl
    | cons d a ih =>
      intro w
      rw [List.cons_append, wordsFrom_cons, wordsFrom_cons, ih, ih]
      split
      · split <;> rfl
      · rfl
  exact main []

/-- A text that contains a run of characters that the pattern does not have. -/
theorem prefix_run {p a b : Str} {c : Char} (hc : c ∉ p) (h : p <+: a ++ c :: b) : p <+: a := by
  by_cases hl : p.length ≤ a.length
  · exact List.prefix_of_prefix_length_le h (List.prefix_append _ _) hl
  · exfalso
    push Not at hl
    apply hc
    have h1 : a ++ [c] <+: a ++ c :: b := ⟨b, by simp⟩
    have h2 := List.prefix_of_prefix_length_le h1 h (by simp; omega)
    exact h2.subset (by simp)

theorem infix_run {p a b : Str} {c : Char} (hc : c ∉ p) (h : p <:+: a ++ c :: b) : p <:+: a ∨ p <:+: b := by
  induction a with
  | nil =>
    rw [List.nil_append, List.infix_cons_iff] at h
    rcases h with h | h
    · have := prefix_run (a := []) hc h
      rw [List.prefix_nil] at this
      exact .inl (by rw [this])
    · exact .inr h
  | cons d a ih =>
    rw [List.cons_append, List.infix_cons_iff] at h
    rcases h with h | h
    · have := prefix_run (a := d :: a) hc h
      exact .inl this.isInfix
    · rcases ih h with h | h
      · exact .inl (h.trans (List.suffix_cons _ _).isInfix)
      · exact .inr h

theorem infix_runs {p a s b : Str} (hs : s ≠ []) (hc : ∀ c ∈ s, c ∉ p) (h : p <:+: a ++ (s ++ b)) :
    p <:+: a ∨ p <:+: b := by
  induction s generalizing a with
  | nil => exact absurd rfl hs
  | cons c s ih =>
    rcases infix_run (hc c (by simp)) h with h | h
    · exact .inl h
    · by_cases hn : s = []
      · subst hn
        exact .inr h
      · rcases ih (a := []) hn (fun c hc' => hc c (by simp [hc'])) h with h | h
        · rw [List.infix_nil] at h
          exact .inl (by rw [h]; exact List.nil_infix)
        · exact .inr h

theorem pyFind_notInfix {p s : Str} (hp : p ≠ []) (h : ¬ p <:+: s) : pyFind p s = -1 := by
  induction s with
  | nil => rw [pyFind, if_neg hp]
  | cons c s ih =>
    rw [List.infix_cons_iff, not_or] at h
    have h1 : p.isPrefixOf (c :: s) = false := by
      rw [← Bool.not_eq_true, List.isPrefixOf_iff_prefix]; exact h.1
    rw [pyFind, h1, ih h.2]
    rfl

theorem pyFind_first {p a r : Str} (ha : a = [] ∨ ∃ a' c, a = a' ++ [c] ∧ c ∉ p ∧ ¬ p <:+: a') :
    pyFind p (a ++ (p ++ r)) = a.length := by
  have hnil : pyFind p (p ++ r) = 0 := by
    cases hp : p ++ r with
    | nil =>
      have : p = [] := (List.append_eq_nil_iff.1 hp).1
      simp [pyFind, this]
    | cons d s =>
      have : p.isPrefixOf (d :: s) = true := by
        rw [List.isPrefixOf_iff_prefix, ← hp]; exact List.prefix_append _ _
      rw [pyFind, this]; rfl
  rcases ha with rfl | ⟨a', c, rfl, hc, hi⟩
  · simpa using hnil
  · have hpn : p ≠ [] := by
      rintro rfl
      exact hi List.nil_infix
    have key : ∀ a' : Str, ¬ p <:+: a' → pyFind p (a' ++ (c :: (p ++ r))) = a'.length + 1 := by
      intro a' hi
      induction a' with
      | nil =>
        have : p.isPrefixOf (c :: (p ++ r)) = false := by
          rw [← Bool.not_eq_true, List.isPrefixOf_iff_prefix]
          intro h
          have := prefix_run (a := []) hc h
          exact hpn (List.prefix_nil.1 this)
        rw [List.nil_append, pyFind, this, hnil]
        rfl
      | cons d a ih =>
        rw [List.infix_cons_iff, not_or] at hi
        have : p.isPrefixOf (d :: (a ++ (c :: (p ++ r)))) = false := by
          rw [← Bool.not_eq_true, List.isPrefixOf_iff_prefix]
          intro h
          exact hi.1 (prefix_run (a := d :: a) hc h)
        rw [List.cons_append, pyFind, this, ih hi.2, if_neg (by simp), if_neg (by omega)]
        simp
    have := key a' hi
    simp only [List.append_assoc, List.length_append, List.cons_append, List.nil_append] at *
    rw [this]
    simp

/-! ### entries -/

/-- The words of a plain entry. -/
def entryTokens (key left right value : Str) : List Str :=
  if left = [] then if right = [] then [key ++ '=' :: value] else [key ++ ['='], value]
  else if right = [] then [key, '=' :: value] else [key, value]

/-- A key: no blank, no sign. -/
def KeyOk (k : Str) : Prop := k ≠ [] ∧ ∀ c ∈ k, isSpace c = false ∧ c ≠ ',' ∧ c ≠ '='

theorem filter_word {t : Str} (h : t ≠ ['=']) (ts : List Str) :
    (t :: ts).filter (· ≠ ['=']) = t :: ts.filter (· ≠ ['=']) :=
  List.filter_cons_of_pos (decide_eq_true h)

theorem words_entry {k l r v : Str} (hk : KeyOk k) (hl : ∀ c ∈ l, isSpace c = true) (hr : ∀ c ∈ r, isSpace c = true)
    (hv : ZonePlain v) {x : Str} (hx : ∀ c ∈ x.head?, isSpace c = true) :
    (words (k ++ (l ++ '=' :: (r ++ v)) ++ x)).filter (· ≠ ['=']) =
      entryTokens k l r v ++ (words x).filter (· ≠ ['=']) := by
  obtain ⟨k0, hk⟩ := hk
  obtain ⟨v0, hv, -⟩ := hv
  have k1 : ∀ c ∈ k, isSpace c = false := fun c hc => (hk c hc).1
  have v1 : ∀ c ∈ v, isSpace c = false := fun c hc => (hv c hc).1
  have hkf : k ≠ ['='] := by
    rintro rfl; exact (hk '=' (by simp)).2.2 rfl
  have hvf : v ≠ ['='] := by
    rintro rfl; exact (hv '=' (by simp)).2.2.1 rfl
  have hsp : isSpace '=' = false := by decide
  have hhead : ∀ {b y : Str}, (∀ c ∈ b, isSpace c = true) → b ≠ [] → ∀ c ∈ (b ++ y).head?, isSpace c = true := by
    intro b y hb hne c hc
    obtain ⟨d, b, rfl⟩ := List.exists_cons_of_ne_nil hne
    simp at hc
    exact hb c (by simp [hc])
  rw [entryTokens]
  split
  · rename_i e; subst e
    split
    · rename_i e; subst e
      have : k ++ ([] ++ '=' :: ([] ++ v)) ++ x = (k ++ '=' :: v) ++ x := by simp
      rw [this, words_token (by simp) (by
        intro c hc
        rcases List.mem_append.1 hc with hc | hc
        · exact k1 c hc
        · rcases List.mem_cons.1 hc with rfl | hc
          · exact hsp
          · exact v1 c hc) hx, List.filter_cons_of_pos]
      · rfl
      · apply decide_eq_true
        intro h
        obtain ⟨d, k, rfl⟩ := List.exists_cons_of_ne_nil k0
        have := congrArg List.length h
        simp at this
    · rename_i hn
      have : k ++ ([] ++ '=' :: (r ++ v)) ++ x = (k ++ ['=']) ++ (r ++ (v ++ x)) := by simp
      rw [this, words_token (by simp) (by
        intro c hc
        rcases List.mem_append.1 hc with hc | hc
        · exact k1 c hc
        · rw [List.mem_singleton.1 hc]; exact hsp) (hhead hr hn), words_spaces_append hr, words_token v0 v1 hx,
        filter_word _, filter_word hvf]
      · rfl
      · intro h
        obtain ⟨d, k, rfl⟩ := List.exists_cons_of_ne_nil k0
        have := congrArg List.length h
        simp at this
  · rename_i hln
    split
    · rename_i e; subst e
      have : k ++ (l ++ '=' :: ([] ++ v)) ++ x = k ++ (l ++ (('=' :: v) ++ x)) := by simp
      rw [this, words_token k0 k1 (hhead hl hln), words_spaces_append hl, words_token (by simp) (by
        intro c hc
        rcases List.mem_cons.1 hc with rfl | hc
        · exact hsp
        · exact v1 c hc) hx, filter_word hkf, filter_word _]
      · rfl
      · intro h
        exact v0 (List.cons.inj h).2
    · rename_i hrn
      have : k ++ (l ++ '=' :: (r ++ v)) ++ x = k ++ (l ++ (['='] ++ (r ++ (v ++ x)))) := by simp
      rw [this, words_token k0 k1 (hhead hl hln), words_spaces_append hl, words_token (by simp) (by
        intro c hc
        rw [List.mem_singleton.1 hc]; exact hsp) (hhead hr hrn), words_spaces_append hr, words_token v0 v1 hx,
        filter_word hkf, List.filter_cons_of_neg (by simp),
        filter_word hvf]
      rfl

theorem unequal_eq_self {s : Str} (h : ∀ c ∈ s, c ≠ '=') : unequal s = s := by
  rw [unequal, List.filter_eq_self]
  intro c hc
  exact decide_eq_true (h c hc)

theorem splitPair_eq {k v : Str} (hk : '=' ∉ k) (hv : '=' ∉ v) : splitPair (k ++ '=' :: v) = .ok (k, v) := by
  rw [splitPair, splitOn_append hk, splitOn_self hv]

theorem zoneLoop_entry {k l r v : Str} (hk : KeyOk k) (hv : ZonePlain v) {ts : List Str}
    (hs : l ≠ [] ∨ r ≠ [] ∨ ts ≠ []) (z : Zone) :
    zoneLoop (entryTokens k l r v ++ ts) z = (do
      let x ← zoneValue k v
      zoneLoop ts (dictSet z k x)) := by
  obtain ⟨k0, hk⟩ := hk
  obtain ⟨v0, hv, -⟩ := hv
  have hke : '=' ∉ k := fun h => (hk _ h).2.2 rfl
  have hve : '=' ∉ v := fun h => (hv _ h).2.2.1 rfl
  have hu : unequal v = v := unequal_eq_self fun c hc => (hv c hc).2.2.1
  have huk : unequal k = k := unequal_eq_self fun c hc => (hk c hc).2.2
  have h1 : ∀ (r : Str), (k ++ r).head? ≠ some '=' := by
    intro r h
    obtain ⟨d, k, rfl⟩ := List.exists_cons_of_ne_nil k0
    simp at h
    exact (hk d (by simp)).2.2 h
  rw [entryTokens]
  split
  · split
    · have hts : ts ≠ [] := by tauto
      obtain ⟨u, ts, rfl⟩ := List.exists_cons_of_ne_nil hts
      rw [List.cons_append, List.nil_append, zoneLoop, if_pos (by simp), if_pos, splitPair_eq hke hve, ok_bind]
      rintro (h | h)
      · exact h1 _ h
      · have : (k ++ '=' :: v).getLast? = v.getLast? := by
          obtain ⟨d, v, rfl⟩ := List.exists_cons_of_ne_nil v0
          simp [List.getLast?_append, List.getLast?_cons]
        rw [this] at h
        exact hve (List.mem_of_getLast? h)
    · have e : unequal (k ++ ['=']) = k := by
        have : unequal (k ++ ['=']) = unequal k ++ unequal ['='] := by simp [unequal]
        rw [this, huk]
        have : unequal ['='] = [] := by decide
        rw [this, List.append_nil]
      rw [List.cons_append, List.cons_append, List.nil_append, zoneLoop, if_pos (by simp), if_neg (by simp), e]
  · split
    · have e : unequal ('=' :: v) = v := by
        have : unequal ('=' :: v) = unequal v := by simp [unequal]
        rw [this, hu]
      rw [List.cons_append, List.cons_append, List.nil_append, zoneLoop, if_neg hke, e]
    · rw [List.cons_append, List.cons_append, List.nil_append, zoneLoop, if_neg hke, hu]

/-! ### lists of entries -/

/-- The words of a plain entry. -/
def tokensOf (e : ZoneEntry × Str) : List Str := entryTokens e.1.key e.1.left e.1.right e.1.value.text

/-- A plain entry that can be read. -/
def PlainEntry (e : ZoneEntry) : Prop := e.Ok ∧ ∃ s, e.value = .plain s

theorem key_ok {k : Str} (h : k ∈ textKeys ∨ k ∈ numberKeys) : KeyOk k := by
  have : ∀ k ∈ textKeys ++ numberKeys, k ≠ [] ∧ ∀ c ∈ k, isSpace c = false ∧ c ≠ ',' ∧ c ≠ '=' := by decide
  exact this k (List.mem_append.2 h)

theorem PlainEntry.parts {e : ZoneEntry} (h : PlainEntry e) : KeyOk e.key ∧ (∀ c ∈ e.left, isSpace c = true) ∧
    (∀ c ∈ e.right, isSpace c = true) ∧ ZonePlain e.value.text ∧ (e.key ∈ textKeys ∨ e.key ∈ numberKeys) := by
  obtain ⟨⟨h1, h2, h3⟩, s, hs⟩ := h
  rw [hs] at h3 ⊢
  have : e.key ∈ textKeys ∨ e.key ∈ numberKeys := h3.1.imp_right (·.1)
  exact ⟨key_ok this, h1, h2, h3.2, this⟩

theorem tokensOf_ne_nil (e : ZoneEntry × Str) : tokensOf e ≠ [] := by
  rw [tokensOf, entryTokens]
  split <;> split <;> simp

theorem text_uncomma {e : ZoneEntry} (h : PlainEntry e) : uncomma e.text = e.text := by
  obtain ⟨hk, hl, hr, hv, -⟩ := h.parts
  apply uncomma_eq_self
  have hsp : isSpace ',' = false := by decide
  intro hc
  rw [ZoneEntry.text] at hc
  rcases List.mem_append.1 hc with hc | hc
  · exact (hk.2 _ hc).2.1 rfl
  rcases List.mem_append.1 hc with hc | hc
  · exact absurd (hl _ hc) (by simp [hsp])
  rcases List.mem_cons.1 hc with hc | hc
  · revert hc; decide
  rcases List.mem_append.1 hc with hc | hc
  · exact absurd (hr _ hc) (by simp [hsp])
  · exact (hv.2.1 _ hc).2.1 rfl

theorem entriesText_cons (e : ZoneEntry × Str) (es : List (ZoneEntry × Str)) :
    entriesText (e :: es) = e.1.text ++ (e.2 ++ entriesText es) := by
  simp [entriesText]

theorem entriesText_append (a b : List (ZoneEntry × Str)) : entriesText (a ++ b) = entriesText a ++ entriesText b := by
  simp [entriesText]

theorem separators_tail {e : ZoneEntry × Str} {es : List (ZoneEntry × Str)} (h : SeparatorsOk (e :: es)) :
    (∀ c ∈ e.2, isSpace c = true ∨ c = ',') ∧ (es = [] ∨ e.2 ≠ []) ∧ SeparatorsOk es := by
  cases es with
  | nil => exact ⟨h, .inl rfl, trivial⟩
  | cons f es => exact ⟨h.1.2, .inr h.1.1, h.2⟩

theorem separators_append {a b : List (ZoneEntry × Str)} (h : SeparatorsOk (a ++ b)) :
    SeparatorsOk a ∧ SeparatorsOk b ∧ (b = [] ∨ ∀ e ∈ a, e.2 ≠ []) := by
  induction a with
  | nil => exact ⟨trivial, h, .inr (by simp)⟩
  | cons e a ih =>
    obtain ⟨h1, h2, h3⟩ := separators_tail h
    obtain ⟨i1, i2, i3⟩ := ih h3
    refine ⟨?_, i2, ?_⟩
    · cases a with
      | nil => exact h1
      | cons f a => exact ⟨⟨h2.resolve_left (by simp), h1⟩, i1⟩
    · rcases i3 with rfl | i3
      · exact .inl rfl
      · by_cases hb : b = []
        · exact .inl hb
        · right
          intro f hf
          rcases List.mem_cons.1 hf with rfl | hf
          · exact h2.resolve_left (by simp [hb])
          · exact i3 f hf

theorem words_entries {es : List (ZoneEntry × Str)} (h : ∀ e ∈ es, PlainEntry e.1) (hs : SeparatorsOk es) {x : Str}
    (hx : (∀ e ∈ es, e.2 ≠ []) ∨ ∀ c ∈ x.head?, isSpace c = true) :
    (words (uncomma (entriesText es) ++ x)).filter (· ≠ ['=']) =
      es.flatMap tokensOf ++ (words x).filter (· ≠ ['=']) := by
  induction es with
  | nil => rfl
  | cons e es ih =>
    obtain ⟨h1, h2, h3⟩ := separators_tail hs
    obtain ⟨hk, hl, hr, hv, -⟩ := (h e (by simp)).parts
    have hu := uncomma_sep h1
    rw [entriesText_cons, uncomma_append, text_uncomma (h e (by simp)), uncomma_append, List.append_assoc,
      List.append_assoc, ZoneEntry.text, words_entry hk hl hr hv, words_spaces_append hu, ih
        (fun f hf => h f (by simp [hf])) h3 (hx.imp_left fun hx f hf => hx f (by simp [hf])), List.flatMap_cons,
      List.append_assoc]
    · rfl
    · by_cases he : e.2 = []
      · have hes : es = [] := h2.resolve_right (by simpa using he)
        have hx' := hx.resolve_left fun hx => hx e (by simp) he
        subst hes
        rw [he]
        simpa [uncomma, entriesText] using hx'
      · obtain ⟨d, s, hd⟩ := List.exists_cons_of_ne_nil he
        intro c hc
        rw [hd] at hc hu
        apply hu
        simp only [uncomma, List.map_cons, List.cons_append, List.head?_cons, Option.mem_def,
          Option.some.injEq] at hc
        simp [uncomma, hc]

/-- The dictionary of the entries. -/
def entriesDict (es : List (ZoneEntry × Str)) : Zone := es.map fun e => (e.1.key, (e.1.result).getD (.txt []))

theorem zoneTypes_text {k : Str} (h : k ∈ textKeys) : dictGet zoneTypes k = .ok false ∧ k ∉ numberKeys := by
  have : ∀ k ∈ textKeys, dictGet zoneTypes k = .ok false ∧ k ∉ numberKeys := by decide
  exact this k h

theorem zoneTypes_number {k : Str} (h : k ∈ numberKeys) : dictGet zoneTypes k = .ok true := by
  have : ∀ k ∈ numberKeys, dictGet zoneTypes k = .ok true := by decide
  exact this k h

theorem zoneValue_result {e : ZoneEntry} (h : PlainEntry e) :
    ∃ v, e.result = some v ∧ zoneValue e.key e.value.text = .ok v := by
  obtain ⟨⟨-, -, h3⟩, s, hs⟩ := h
  rw [ZoneEntry.result]
  rw [hs] at h3 ⊢
  rcases h3.1 with hk | ⟨hk, hi⟩
  · obtain ⟨h1, h2⟩ := zoneTypes_text hk
    refine ⟨.txt s, by simp [h2], ?_⟩
    rw [zoneValue, h1, ok_bind]
    rfl
  · obtain ⟨i, hi⟩ := Option.isSome_iff_exists.1 hi
    refine ⟨.int i, by simp [hk, hi], ?_⟩
    rw [zoneValue, zoneTypes_number hk, ok_bind, if_pos rfl]
    simp only [ZoneText.text, hi]

theorem zoneLoop_entries {es : List (ZoneEntry × Str)} (h : ∀ e ∈ es, PlainEntry e.1) {ts : List Str}
    (hl : (∀ e ∈ es.getLast?, ¬ e.1.Glued) ∨ ts ≠ []) (z : Zone) :
    zoneLoop (es.flatMap tokensOf ++ ts) z = zoneLoop ts (updateDict z (entriesDict es)) := by
  induction es generalizing z with
  | nil => rfl
  | cons e es ih =>
    obtain ⟨hk, -, -, hv, -⟩ := (h e (by simp)).parts
    obtain ⟨v, h1, h2⟩ := zoneValue_result (h e (by simp))
    rw [List.flatMap_cons, List.append_assoc, tokensOf, zoneLoop_entry hk hv, h2, ok_bind, ih
      (fun f hf => h f (by simp [hf]))]
    · simp only [entriesDict, List.map_cons, updateDict, List.foldl_cons, h1, Option.getD_some]
    · refine hl.imp_left fun hl f hf => hl f ?_
      cases es with
      | nil => simp at hf
      | cons g es => rw [List.getLast?_cons_cons]; exact hf
    · by_cases hes : es = []
      · subst hes
        rcases hl with hl | hl
        · have := hl e (by simp)
          rw [ZoneEntry.Glued] at this
          obtain ⟨s, hs⟩ := (h e (by simp)).2
          by_contra hn
          push Not at hn
          exact this ⟨hn.1, hn.2.1, s, hs⟩
        · right; right
          simpa using hl
      · right; right
        obtain ⟨f, es, rfl⟩ := List.exists_cons_of_ne_nil hes
        rw [List.flatMap_cons]
        simp [tokensOf_ne_nil]

/-! ### VARLOCATION -/

theorem location_notMem {s : Str} (h : ∀ c ∈ s, isSpace c = true ∨ c = ',' ∨ c = '=') :
    ∀ c ∈ s, c ∉ "VARLOCATION".toList := by
  intro c hc hm
  have : ∀ c ∈ "VARLOCATION".toList, isSpace c = false ∧ c ≠ ',' ∧ c ≠ '=' := by decide
  obtain ⟨h1, h2, h3⟩ := this c hm
  rcases h c hc with h | h | h
  · rw [h1] at h; cases h
  · exact h2 h
  · exact h3 h

theorem text_noLocation {e : ZoneEntry} (h : PlainEntry e) {x : Str} (hx : ¬ "VARLOCATION".toList <:+: e.value.text ++ x) :
    ¬ "VARLOCATION".toList <:+: e.text ++ x := by
  obtain ⟨hk, hl, hr, hv, hkk⟩ := h.parts
  have : e.text ++ x = e.key ++ ((e.left ++ '=' :: e.right) ++ (e.value.text ++ x)) := by simp [ZoneEntry.text]
  rw [this]
  intro hi
  rcases infix_runs (by simp) (location_notMem (by
    intro c hc
    rcases List.mem_append.1 hc with hc | hc
    · exact .inl (hl c hc)
    · rcases List.mem_cons.1 hc with hc | hc
      · exact .inr (.inr hc)
      · exact .inl (hr c hc))) hi with hi | hi
  · have : ∀ k ∈ textKeys ++ numberKeys, ¬ "VARLOCATION".toList <:+: k := by decide
    exact this _ (List.mem_append.2 hkk) hi
  · exact hx hi

theorem entries_noLocation {es : List (ZoneEntry × Str)} (h : ∀ e ∈ es, PlainEntry e.1) (hs : SeparatorsOk es) :
    ¬ "VARLOCATION".toList <:+: entriesText es := by
  induction es with
  | nil => decide
  | cons e es ih =>
    obtain ⟨h1, h2, h3⟩ := separators_tail hs
    have hv := (h e (by simp)).parts.2.2.2.1
    rw [entriesText_cons]
    apply text_noLocation (h e (by simp))
    by_cases he : e.2 = []
    · have hes : es = [] := h2.resolve_right (by simpa using he)
      subst hes
      rw [he]
      simpa [entriesText] using hv.2.2
    · intro hi
      rcases infix_runs he (location_notMem fun c hc => (h1 c hc).imp_right .inl) hi with hi | hi
      · exact hv.2.2 hi
      · exact ih (fun f hf => h f (by simp [hf])) h3 hi

theorem text_chars {e : ZoneEntry} (h : PlainEntry e) : ∀ c ∈ e.text, c ≠ '"' ∧ c ≠ '(' ∧ c ≠ ')' := by
  obtain ⟨hk, hl, hr, hv, hkk⟩ := h.parts
  intro c hc
  have hsp : ∀ c, isSpace c = true → c ≠ '"' ∧ c ≠ '(' ∧ c ≠ ')' := by
    intro c hc
    refine ⟨?_, ?_, ?_⟩ <;> rintro rfl <;> exact absurd hc (by decide)
  rw [ZoneEntry.text] at hc
  rcases List.mem_append.1 hc with hc | hc
  · have : ∀ k ∈ textKeys ++ numberKeys, ∀ c ∈ k, c ≠ '"' ∧ c ≠ '(' ∧ c ≠ ')' := by decide
    exact this _ (List.mem_append.2 hkk) c hc
  rcases List.mem_append.1 hc with hc | hc
  · exact hsp c (hl c hc)
  rcases List.mem_cons.1 hc with rfl | hc
  · decide
  rcases List.mem_append.1 hc with hc | hc
  · exact hsp c (hr c hc)
  · exact (hv.2.1 c hc).2.2.2

theorem sep_chars {s : Str} (h : ∀ c ∈ s, isSpace c = true ∨ c = ',') : ∀ c ∈ s, c ≠ '"' ∧ c ≠ '(' ∧ c ≠ ')' := by
  intro c hc
  refine ⟨?_, ?_, ?_⟩ <;> rintro rfl <;> exact absurd (h _ hc) (by decide)

theorem entries_chars {es : List (ZoneEntry × Str)} (h : ∀ e ∈ es, PlainEntry e.1) (hs : SeparatorsOk es) :
    ∀ c ∈ entriesText es, c ≠ '"' ∧ c ≠ '(' ∧ c ≠ ')' := by
  induction es with
  | nil => simp [entriesText]
  | cons e es ih =>
    obtain ⟨h1, h2, h3⟩ := separators_tail hs
    intro c hc
    rw [entriesText_cons] at hc
    rcases List.mem_append.1 hc with hc | hc
    · exact text_chars (h e (by simp)) c hc
    rcases List.mem_append.1 hc with hc | hc
    · exact sep_chars h1 c hc
    · exact ih (fun f hf => h f (by simp [hf])) h3 c hc

theorem zoneLocation_none {s : Str} (h : ¬ "VARLOCATION".toList <:+: s) : zoneLocation s = ([], s) := by
  rw [zoneLocation, pyFind_notInfix (by decide) h]
  rfl

theorem pySlice_part {a b c : Str} {i j : ℤ} (hi : i = a.length) (hj : j = a.length + b.length) :
    pySlice (a ++ (b ++ c)) i j = b := by
  subst hi
  have : j = ((a.length + b.length : ℕ) : ℤ) := by rw [hj]; simp
  rw [this, pySlice, sliceIdx_nat, sliceIdx_nat, List.drop_take, List.drop_left]
  simp

theorem zoneLocation_some {pre mid loc post : Str}
    (h1 : pre = [] ∨ ∃ a' c, pre = a' ++ [c] ∧ c ∉ "VARLOCATION".toList ∧ ¬ "VARLOCATION".toList <:+: a')
    (h2 : ∀ c ∈ pre ++ mid, c ≠ '(' ∧ c ≠ ')') (h3 : ')' ∉ loc) :
    zoneLocation (pre ++ ("VARLOCATION".toList ++ (mid ++ '(' :: (loc ++ ')' :: post)))) =
      ([("VARLOCATION".toList, .txt ('(' :: (loc.filter (· ≠ ' ') ++ [')'])))], pre ++ post) := by
  have hV : ∀ c ∈ "VARLOCATION".toList, c ≠ '(' ∧ c ≠ ')' := by decide
  obtain ⟨p, hp⟩ : ∃ p, p = "VARLOCATION".toList := ⟨_, rfl⟩
  rw [← hp] at h1 hV ⊢
  have e1 : pyFind p (pre ++ (p ++ (mid ++ '(' :: (loc ++ ')' :: post)))) = pre.length := pyFind_first h1
  have hpar : ∀ c ∈ pre ++ (p ++ mid), c ≠ '(' ∧ c ≠ ')' := by
    intro c hc
    rcases List.mem_append.1 hc with hc | hc
    · exact h2 c (by simp [hc])
    rcases List.mem_append.1 hc with hc | hc
    · exact hV c hc
    · exact h2 c (by simp [hc])
  have s1 : pre ++ (p ++ (mid ++ '(' :: (loc ++ ')' :: post))) =
      (pre ++ (p ++ mid)) ++ '(' :: (loc ++ ')' :: post) := by simp
  have s2 : pre ++ (p ++ (mid ++ '(' :: (loc ++ ')' :: post))) =
      (pre ++ (p ++ (mid ++ '(' :: loc))) ++ ')' :: post := by simp
  have e2 : pyFind ['('] (pre ++ (p ++ (mid ++ '(' :: (loc ++ ')' :: post)))) = (pre ++ (p ++ mid)).length := by
    rw [s1, pyFind_char fun h => (hpar _ h).1 rfl]
  have e3 : pyFind [')'] (pre ++ (p ++ (mid ++ '(' :: (loc ++ ')' :: post)))) =
      (pre ++ (p ++ (mid ++ '(' :: loc))).length := by
    rw [s2, pyFind_char]
    intro h
    have : ')' ∈ (pre ++ (p ++ mid)) ++ '(' :: loc := by simpa using h
    rcases List.mem_append.1 this with h | h
    · exact (hpar _ h).2 rfl
    · rcases List.mem_cons.1 h with h | h
      · revert h; decide
      · exact h3 h
  have f1 : pySlice (pre ++ (p ++ (mid ++ '(' :: (loc ++ ')' :: post)))) 0 (pre.length : ℤ) = pre :=
    pySlice_part (a := []) rfl (by simp)
  have f2 : pySlice (pre ++ (p ++ (mid ++ '(' :: (loc ++ ')' :: post)))) ((pre ++ (p ++ mid)).length : ℤ)
      (((pre ++ (p ++ (mid ++ '(' :: loc))).length : ℤ) + 1) = '(' :: (loc ++ [')']) := by
    rw [show pre ++ (p ++ (mid ++ '(' :: (loc ++ ')' :: post))) =
      (pre ++ (p ++ mid)) ++ ('(' :: (loc ++ [')']) ++ post) by simp]
    exact pySlice_part rfl (by simp; ring)
  have f3 : pySlice (pre ++ (p ++ (mid ++ '(' :: (loc ++ ')' :: post))))
      (((pre ++ (p ++ (mid ++ '(' :: loc))).length : ℤ) + 1)
      ((pre ++ (p ++ (mid ++ '(' :: (loc ++ ')' :: post)))).length : ℤ) = post := by
    have := pySlice_part (a := pre ++ (p ++ (mid ++ '(' :: (loc ++ [')'])))) (b := post) (c := []) (i :=
      ((pre ++ (p ++ (mid ++ '(' :: loc))).length : ℤ) + 1)
      (j := ((pre ++ (p ++ (mid ++ '(' :: (loc ++ ')' :: post)))).length : ℤ)) (by simp; ring) (by simp; ring)
    simpa using this
  rw [zoneLocation, ← hp]
  simp only [e1, e2, e3, f1, f2, f3]
  rw [if_pos (by omega)]
  congr 4
  simp

/-! ### zones -/

theorem located_key {e : ZoneEntry} (h : e.Ok) (hl : e.Located) : ∃ s, e.value = .located s ∧
    e.key = "VARLOCATION".toList ∧ '"' ∉ s ∧ '(' ∉ s ∧ ')' ∉ s := by
  obtain ⟨s, hs⟩ := hl
  obtain ⟨-, -, h⟩ := h
  rw [hs] at h
  exact ⟨s, hs, h⟩

theorem plain_of {e : ZoneEntry} (h : e.Ok) (hl : ¬ e.Located) (hq : ∀ s, e.value ≠ .quoted s) : PlainEntry e := by
  refine ⟨h, ?_⟩
  cases hv : e.value with
  | plain s => exact ⟨s, rfl⟩
  | quoted s => exact absurd hv (hq s)
  | located s => exact absurd ⟨s, hv⟩ hl

theorem filter_split {α : Type} {p : α → Bool} {l a b : List α} {x : α} (h : l = a ++ x :: b)
    (ha : ∀ y ∈ a, p y = true) (hb : ∀ y ∈ b, p y = true) (hx : p x = false) : l.filter p = a ++ b ∧
      l.filter (fun y => !p y) = [x] := by
  subst h
  constructor
  · rw [List.filter_append, List.filter_cons_of_neg (by simp [hx]), List.filter_eq_self.2 ha,
      List.filter_eq_self.2 hb]
  · rw [List.filter_append, List.filter_cons_of_pos (by simp [hx])]
    rw [List.filter_eq_nil_iff.2 (by simpa using ha), List.filter_eq_nil_iff.2 (by simpa using hb)]
    rfl

/-- Without a title: the entries of `VARLOCATION` and the words of all others. -/
theorem zoneLocation_entries {es : List (ZoneEntry × Str)} (h : ∀ e ∈ es, e.1.Ok) (hs : SeparatorsOk es)
    (hn : (es.map fun e => e.1.key).Nodup) (hq : ∀ e ∈ es, ∀ s, e.1.value ≠ .quoted s) :
    ∃ line, zoneLocation (entriesText es) = (entriesDict (es.filter fun e => e.1.Located), line) ∧
      (words (uncomma line)).filter (· ≠ ['=']) = (es.filter fun e => ¬ e.1.Located).flatMap tokensOf := by
  by_cases hex : ∃ e ∈ es, e.1.Located
  · obtain ⟨e, he, hl⟩ := hex
    obtain ⟨a, b, rfl⟩ := List.append_of_mem he
    obtain ⟨s, h1, h2, h3, h4, h5⟩ := located_key (h e he) hl
    have hother : ∀ f ∈ a ++ b, ¬ f.1.Located := by
      intro f hf hfl
      have hfm : f ∈ a ++ e :: b := by
        rcases List.mem_append.1 hf with hf | hf <;> simp [hf]
      obtain ⟨-, -, h6, -⟩ := located_key (h f hfm) hfl
      rw [List.map_append, List.map_cons] at hn
      have hn' := List.nodup_middle.1 hn
      rw [List.nodup_cons] at hn'
      apply hn'.1
      rw [← List.map_append, h2, ← h6]
      exact List.mem_map_of_mem hf
    have hpl : ∀ f ∈ a ++ b, PlainEntry f.1 := by
      intro f hf
      have hfm : f ∈ a ++ e :: b := by
        rcases List.mem_append.1 hf with hf | hf <;> simp [hf]
      exact plain_of (h f hfm) (hother f hf) (hq f hfm)
    have hpa : ∀ f ∈ a, PlainEntry f.1 := fun f hf => hpl f (by simp [hf])
    have hpb : ∀ f ∈ b, PlainEntry f.1 := fun f hf => hpl f (by simp [hf])
    obtain ⟨s1, s2, s3⟩ := separators_append hs
    have s3 := s3.resolve_left (by simp)
    obtain ⟨t1, t2, t3⟩ := separators_tail s2
    obtain ⟨f1, f2⟩ := filter_split (p := fun f : ZoneEntry × Str => decide (¬ f.1.Located)) (l := a ++ e :: b) rfl
      (fun f hf => decide_eq_true (hother f (by simp [hf]))) (fun f hf => decide_eq_true (hother f (by simp [hf])))
      (by simpa using hl)
    have f2' : (a ++ e :: b).filter (fun e => decide e.1.Located) = [e] := by
      rw [← f2]
      apply List.filter_congr
      intro f _
      simp
    refine ⟨entriesText a ++ (e.2 ++ entriesText b), ?_, ?_⟩
    · rw [f2']
      have ht : entriesText (a ++ e :: b) = entriesText a ++ ("VARLOCATION".toList ++
          ((e.1.left ++ '=' :: e.1.right) ++ '(' :: (s ++ ')' :: (e.2 ++ entriesText b)))) := by
        rw [entriesText_append, entriesText_cons, ZoneEntry.text, h1, h2]
        simp [ZoneText.text]
      rw [ht, zoneLocation_some]
      · have hr : e.1.result = some (.txt ('(' :: (s.filter (· ≠ ' ') ++ [')']))) := by
          rw [ZoneEntry.result, h1]
        simp only [entriesDict, List.map_cons, List.map_nil, hr, h2, Option.getD_some]
      · by_cases ha : a = []
        · left; rw [ha]; rfl
        · right
          obtain ⟨a', f, rfl⟩ := (List.eq_nil_or_concat' a).resolve_left ha
          obtain ⟨s', c, hc⟩ := (List.eq_nil_or_concat' f.2).resolve_left (s3 f (by simp))
          have ht : entriesText (a' ++ [f]) = (entriesText a' ++ (f.1.text ++ s')) ++ [c] := by
            rw [entriesText_append, entriesText_cons, hc]
            simp [entriesText]
          refine ⟨_, c, ht, ?_, ?_⟩
          · have hsep := (separators_tail (separators_append s1).2.1).1
            exact location_notMem (s := f.2) (fun d hd => (hsep d hd).imp_right .inl) c (by rw [hc]; simp)
          · intro hi
            apply entries_noLocation hpa s1
            rw [ht]
            exact hi.trans (List.prefix_append _ _).isInfix
      · intro c hc
        rcases List.mem_append.1 hc with hc | hc
        · exact (entries_chars hpa s1 c hc).2
        · have hk := (h e (by simp))
          rcases List.mem_append.1 hc with hc | hc
          · exact (sep_chars (fun c hc => .inl (hk.1 c hc)) c hc).2
          · rcases List.mem_cons.1 hc with rfl | hc
            · decide
            · exact (sep_chars (fun c hc => .inl (hk.2.1 c hc)) c hc).2
      · exact h5
    · rw [f1, uncomma_append, words_entries hpa s1 (.inl s3), uncomma_append, words_spaces_append (uncomma_sep t1)]
      have := words_entries hpb t3 (x := []) (.inr (by simp))
      rw [List.append_nil] at this
      rw [this, List.flatMap_append]
      simp [words, wordsFrom]
  · push Not at hex
    have hpl : ∀ f ∈ es, PlainEntry f.1 := fun f hf => plain_of (h f hf) (hex f hf) (hq f hf)
    refine ⟨entriesText es, ?_, ?_⟩
    · rw [zoneLocation_none (entries_noLocation hpl hs), List.filter_eq_nil_iff.2]
      · rfl
      · intro e he
        simpa using hex e he
    · have hf : (es.filter fun e => ¬ e.1.Located) = es :=
        List.filter_eq_self.2 fun e he => decide_eq_true (hex e he)
      have := words_entries hpl hs (x := []) (.inr (by simp))
      rw [List.append_nil] at this
      rw [hf, this]
      simp [words, wordsFrom]

theorem result_isSome {e : ZoneEntry} (h : e.Ok) : e.result.isSome = true := by
  obtain ⟨-, -, h⟩ := h
  rw [ZoneEntry.result]
  cases hv : e.value with
  | plain s =>
    rw [hv] at h
    simp only
    split
    · rename_i hk
      rcases h.1 with h | h
      · exact absurd hk (zoneTypes_text h).2
      · simpa using h.2
    · rfl
  | quoted s => rfl
  | located s => rfl

/-- The value of a key in a list of entries. -/
def entryOf (es : List (ZoneEntry × Str)) (k : Str) : Option ZVal := (es.find? fun e => e.1.key = k).bind (·.1.result)

theorem entryOf_mem {es : List (ZoneEntry × Str)} (hn : (es.map fun e => e.1.key).Nodup) {e : ZoneEntry × Str}
    (he : e ∈ es) : entryOf es e.1.key = e.1.result := by
  rw [entryOf]
  have : es.find? (fun f => decide (f.1.key = e.1.key)) = some e := by
    induction es with
    | nil => simp at he
    | cons f es ih =>
      rw [List.map_cons, List.nodup_cons] at hn
      rcases List.mem_cons.1 he with rfl | he
      · simp
      · rw [List.find?_cons_of_neg, ih hn.2 he]
        intro h
        exact hn.1 (by rw [of_decide_eq_true h]; exact List.mem_map_of_mem (f := fun e => e.1.key) he)
  rw [this]
  rfl

theorem entryOf_absent {es : List (ZoneEntry × Str)} {k : Str} (h : k ∉ es.map fun e => e.1.key) :
    entryOf es k = none := by
  rw [entryOf, List.find?_eq_none.2]
  · rfl
  · intro e he hk
    exact h (by rw [← of_decide_eq_true hk]; exact List.mem_map_of_mem (f := fun e => e.1.key) he)

theorem entriesDict_keys (es : List (ZoneEntry × Str)) : (entriesDict es).map (·.1) = es.map fun e => e.1.key := by
  simp [entriesDict]

theorem lookup_mem {κ β : Type} [BEq κ] [LawfulBEq κ] {d : List (κ × β)} {k : κ} {v : β} (hn : (d.map (·.1)).Nodup)
    (h : (k, v) ∈ d) : d.lookup k = some v := by
  induction d with
  | nil => simp at h
  | cons e d ih =>
    rw [List.map_cons, List.nodup_cons] at hn
    rw [List.lookup_cons]
    rcases List.mem_cons.1 h with h | h
    · rw [← h]; simp
    · have : (k == e.1) = false := by
        rw [beq_eq_false_iff_ne]
        rintro rfl
        exact hn.1 (List.mem_map_of_mem (f := (·.1)) h)
      rw [this]
      exact ih hn.2 h

theorem lookup_set {β : Type} (d : List (Str × β)) (k j : Str) (v : β) :
    (dictSet d k v).lookup j = if j = k then some v else d.lookup j := by
  have : (instBEqOfDecidableEq : BEq Str) = List.instBEq := by
    apply lawful_beq_subsingleton
  have h := lookup_dictSet d k j v
  rw [this] at h
  exact h

theorem lookup_entriesDict {es : List (ZoneEntry × Str)} (h : ∀ e ∈ es, e.1.Ok)
    (hn : (es.map fun e => e.1.key).Nodup) (k : Str) : (entriesDict es).lookup k = entryOf es k := by
  by_cases hk : k ∈ es.map fun e => e.1.key
  · obtain ⟨e, he, rfl⟩ := List.mem_map.1 hk
    rw [entryOf_mem hn he]
    obtain ⟨v, hv⟩ := Option.isSome_iff_exists.1 (result_isSome (h e he))
    rw [hv]
    exact lookup_mem (by rw [entriesDict_keys]; exact hn) (List.mem_map.2 ⟨e, he, by rw [hv]; rfl⟩)
  · rw [entryOf_absent hk, lookup_none _ _ (by rw [entriesDict_keys]; exact hk)]

theorem entryOf_perm {es fs : List (ZoneEntry × Str)} (hn : (es.map fun e => e.1.key).Nodup) (hp : es.Perm fs) (k : Str) :
    entryOf es k = entryOf fs k := by
  have hp' := hp.map fun e : ZoneEntry × Str => e.1.key
  by_cases hk : k ∈ es.map fun e => e.1.key
  · obtain ⟨e, he, rfl⟩ := List.mem_map.1 hk
    rw [entryOf_mem hn he, entryOf_mem (hp'.nodup_iff.1 hn) (hp.mem_iff.1 he)]
  · rw [entryOf_absent hk, entryOf_absent fun h => hk (hp'.mem_iff.2 h)]

theorem updateDict_append {β : Type} {d e : List (Str × β)} (h : ((d ++ e).map (·.1)).Nodup) : updateDict d e = d ++ e := by
  have := foldl_dictSet (fun e : Str × β => e.1) (fun e => e.2) e d (by simpa using h)
  simpa [updateDict] using this

/-- Without a title: what is found in the entries, up to a title at the end. -/
theorem zone_untitled {es : List (ZoneEntry × Str)} (h : ∀ e ∈ es, e.1.Ok) (hs : SeparatorsOk es)
    (hn : (es.map fun e => e.1.key).Nodup) (hq : ∀ e ∈ es, ∀ s, e.1.value ≠ .quoted s) :
    ∃ line z0 z, zoneLocation (entriesText es) = (z0, line) ∧
      zoneLoop ((words (uncomma line)).filter (· ≠ ['='])) z0 = .ok z ∧
      ((∀ e ∈ (es.filter fun e => ¬ e.1.Located).getLast?, ¬ e.1.Glued) → ∀ k, z.lookup k = entryOf es k) ∧
      ∀ e ∈ (es.filter fun e => ¬ e.1.Located).getLast?, e.1.Glued →
        ∀ k, z.lookup k = if k = e.1.key then none else entryOf es k := by
  obtain ⟨line, h1, h2⟩ := zoneLocation_entries h hs hn hq
  have hperm : (es.filter (fun e => decide e.1.Located) ++ es.filter (fun e => decide ¬ e.1.Located)).Perm es := by
    have := List.filter_append_perm (fun e : ZoneEntry × Str => decide e.1.Located) es
    simpa using this
  have hpl : ∀ f ∈ es.filter (fun e => decide ¬ e.1.Located), PlainEntry f.1 := by
    intro f hf
    rw [List.mem_filter] at hf
    exact plain_of (h f hf.1) (of_decide_eq_true hf.2) (hq f hf.1)
  have hok : ∀ f ∈ es.filter (fun e => decide e.1.Located) ++ es.filter (fun e => decide ¬ e.1.Located), f.1.Ok :=
    fun f hf => h f (hperm.mem_iff.1 hf)
  have hnd := ((hperm.map fun e : ZoneEntry × Str => e.1.key).nodup_iff).2 hn
  generalize es.filter (fun e => decide e.1.Located) = A at *
  generalize es.filter (fun e => decide ¬ e.1.Located) = B at *
  refine ⟨line, entriesDict A, ?_⟩
  by_cases hg : ∀ e ∈ B.getLast?, ¬ e.1.Glued
  · refine ⟨updateDict (entriesDict A) (entriesDict B), h1, ?_, fun _ k => ?_, fun e he hge => absurd hge (hg e he)⟩
    · have := zoneLoop_entries hpl (ts := []) (.inl hg) (entriesDict A)
      rw [List.append_nil] at this
      rw [h2, this]
      rfl
    · have : entriesDict A ++ entriesDict B = entriesDict (A ++ B) := by simp [entriesDict]
      rw [updateDict_append (by rw [this, entriesDict_keys]; exact hnd), this, lookup_entriesDict hok hnd,
        entryOf_perm hnd hperm]
  · push Not at hg
    obtain ⟨e, he, hge⟩ := hg
    obtain ⟨C, hC⟩ := List.getLast?_eq_some_iff.1 he
    refine ⟨updateDict (entriesDict A) (entriesDict C), h1, ?_, fun hne => absurd hge (hne e he), ?_⟩
    · have ht : tokensOf e = [e.1.key ++ '=' :: e.1.value.text] := by
        rw [tokensOf, entryTokens, if_pos hge.1, if_pos hge.2.1]
      have := zoneLoop_entries (es := C) (fun f hf => hpl f (by rw [hC]; simp [hf])) (ts := tokensOf e)
        (.inr (tokensOf_ne_nil e)) (entriesDict A)
      rw [h2, hC, List.flatMap_append, List.flatMap_cons, List.flatMap_nil, List.append_nil, this, ht]
      rfl
    · intro f hf _ k
      obtain rfl : e = f := by
        rw [Option.mem_def] at he hf
        rw [he] at hf
        exact Option.some.inj hf
      rw [hC] at hnd hok hperm
      rw [← List.append_assoc] at hnd hok hperm
      have hnd' : ((A ++ C).map fun e => e.1.key).Nodup := by
        rw [List.map_append] at hnd
        exact hnd.of_append_left
      have hek : e.1.key ∉ (A ++ C).map fun e => e.1.key := by
        rw [List.map_append] at hnd
        intro hm
        exact List.disjoint_of_nodup_append hnd hm (by simp)
      have : entriesDict A ++ entriesDict C = entriesDict (A ++ C) := by simp [entriesDict]
      rw [updateDict_append (by rw [this, entriesDict_keys]; exact hnd'), this, lookup_entriesDict
        (fun f hf => hok f (by
          rcases List.mem_append.1 hf with hf | hf <;> simp [hf])) hnd']
      split
      · rename_i hk
        rw [hk, entryOf_absent hek]
      · rename_i hk
        rw [← entryOf_perm hnd hperm, entryOf, entryOf, List.find?_append (ys := [e]), List.find?_cons_of_neg]
        · simp
        · intro h
          exact hk (of_decide_eq_true h).symm

theorem text_noQuote {e : ZoneEntry} (h : e.Ok) (hq : ∀ s, e.value ≠ .quoted s) : '"' ∉ e.text := by
  by_cases hl : e.Located
  · obtain ⟨s, h1, h2, h3, -, -⟩ := located_key h hl
    intro hc
    rw [ZoneEntry.text, h1, h2] at hc
    rcases List.mem_append.1 hc with hc | hc
    · revert hc; decide
    rcases List.mem_append.1 hc with hc | hc
    · exact absurd (h.1 _ hc) (by decide)
    rcases List.mem_cons.1 hc with hc | hc
    · revert hc; decide
    rcases List.mem_append.1 hc with hc | hc
    · exact absurd (h.2.1 _ hc) (by decide)
    rcases List.mem_cons.1 hc with hc | hc
    · revert hc; decide
    rcases List.mem_append.1 hc with hc | hc
    · exact h3 hc
    · revert hc; decide
  · exact fun hc => (text_chars (plain_of h hl hq) _ hc).1 rfl

theorem entries_noQuote {es : List (ZoneEntry × Str)} (h : ∀ e ∈ es, e.1.Ok) (hs : SeparatorsOk es)
    (hq : ∀ e ∈ es, ∀ s, e.1.value ≠ .quoted s) : '"' ∉ entriesText es := by
  induction es with
  | nil => simp [entriesText]
  | cons e es ih =>
    obtain ⟨h1, h2, h3⟩ := separators_tail hs
    intro hc
    rw [entriesText_cons] at hc
    rcases List.mem_append.1 hc with hc | hc
    · exact text_noQuote (h e (by simp)) (hq e (by simp)) hc
    rcases List.mem_append.1 hc with hc | hc
    · exact (sep_chars h1 _ hc).1 rfl
    · exact ih (fun f hf => h f (by simp [hf])) h3 (fun f hf => hq f (by simp [hf])) hc

theorem separators_swap {a b : List (ZoneEntry × Str)} {e f : ZoneEntry} {s : Str} (h : SeparatorsOk (a ++ (e, s) :: b)) :
    SeparatorsOk (a ++ (f, s) :: b) := by
  induction a with
  | nil =>
    cases b with
    | nil => exact h
    | cons g b => exact h
  | cons g a ih =>
    obtain ⟨h1, h2, h3⟩ := separators_tail h
    have := ih h3
    cases a with
    | nil => exact ⟨⟨h2.resolve_left (by simp), h1⟩, this⟩
    | cons g' a => exact ⟨⟨h2.resolve_left (by simp), h1⟩, this⟩

theorem T_text : "T".toList ∈ textKeys := by decide

theorem zonePlain_placeholder : ZonePlain "PLACEHOLDER".toList := by
  refine ⟨by decide, by decide, ?_⟩
  intro h
  exact absurd (h.subset (show 'V' ∈ "VARLOCATION".toList by decide)) (by decide)

theorem readZone_entries {es : List (ZoneEntry × Str)} (hz : ZoneOk es) {h : Str} (h5 : h.length = 5) :
    ∃ z, readZone (h ++ entriesText es) = .ok z ∧ ∀ k, z.lookup k = entryOf es k := by
  obtain ⟨he, hs, hn, hl⟩ := hz
  have hd : (h ++ entriesText es).drop 5 = entriesText es := by rw [← h5, List.drop_left]
  by_cases hq : ∃ e ∈ es, ∃ s, e.1.value = .quoted s
  · obtain ⟨⟨e, t⟩, hem, s, hes⟩ := hq
    simp only at hes
    obtain ⟨a, b, rfl⟩ := List.append_of_mem hem
    have heo := he _ hem
    obtain ⟨hl1, hl2, hq3⟩ := heo
    simp only [hes] at hl1 hl2 hq3
    obtain ⟨hT, hs0, hsq⟩ := hq3
    have hnm : e.key ∉ (a ++ b).map fun e => e.1.key := by
      have h1 := hn
      rw [List.map_append, List.map_cons] at h1
      have h2 := List.nodup_middle.1 h1
      rw [List.nodup_cons, ← List.map_append] at h2
      exact h2.1
    have hother : ∀ f ∈ a ++ b, f.1.Ok ∧ ∀ s, f.1.value ≠ .quoted s := by
      intro f hf
      have hfm : f ∈ a ++ (e, t) :: b := by
        rcases List.mem_append.1 hf with hf | hf <;> simp [hf]
      refine ⟨he f hfm, fun s' hs' => hnm ?_⟩
      have := (he f hfm).2.2
      rw [hs'] at this
      rw [hT, ← this.1]
      exact List.mem_map_of_mem (f := fun e => e.1.key) hf
    obtain ⟨s1, s2, -⟩ := separators_append hs
    obtain ⟨t1, -, t3⟩ := separators_tail s2
    obtain ⟨e', he'⟩ : ∃ e' : ZoneEntry, e' = ⟨e.key, e.left, e.right, .plain "PLACEHOLDER".toList⟩ := ⟨_, rfl⟩
    have hek : e'.key = e.key := by rw [he']
    have hplain : PlainEntry e' := by
      rw [he']
      exact ⟨⟨hl1, hl2, .inl (hT ▸ T_text), zonePlain_placeholder⟩, _, rfl⟩
    have htitle : zoneTitle (entriesText (a ++ (e, t) :: b)) = (some s, entriesText (a ++ (e', t) :: b)) := by
      have e1 : entriesText (a ++ (e, t) :: b) = (entriesText a ++ (e.key ++ (e.left ++ '=' :: e.right))) ++
          '"' :: (s ++ '"' :: (t ++ entriesText b)) := by
        rw [entriesText_append, entriesText_cons, ZoneEntry.text]
        simp only [hes, ZoneText.text]
        simp
      have e2 : entriesText (a ++ (e', t) :: b) = (entriesText a ++ (e.key ++ (e.left ++ '=' :: e.right))) ++
          ("PLACEHOLDER".toList ++ (t ++ entriesText b)) := by
        rw [entriesText_append, entriesText_cons, ZoneEntry.text, he']
        simp only [ZoneText.text]
        simp
      rw [e1, e2, zoneTitle_eq]
      · intro hc
        rcases List.mem_append.1 hc with hc | hc
        · exact entries_noQuote (fun f hf => (hother f (by simp [hf])).1) s1
            (fun f hf => (hother f (by simp [hf])).2) hc
        rcases List.mem_append.1 hc with hc | hc
        · rw [hT] at hc; revert hc; decide
        rcases List.mem_append.1 hc with hc | hc
        · exact absurd (hl1 _ hc) (by decide)
        rcases List.mem_cons.1 hc with hc | hc
        · revert hc; decide
        · exact absurd (hl2 _ hc) (by decide)
      · exact hsq
      · intro hc
        rcases List.mem_append.1 hc with hc | hc
        · exact (sep_chars t1 _ hc).1 rfl
        · exact entries_noQuote (fun f hf => (hother f (by simp [hf])).1) t3
            (fun f hf => (hother f (by simp [hf])).2) hc
    have hmem' : ∀ f ∈ a ++ (e', t) :: b, f = (e', t) ∨ f ∈ a ++ b := by
      intro f hf
      rcases List.mem_append.1 hf with hf | hf
      · exact .inr (by simp [hf])
      · rcases List.mem_cons.1 hf with hf | hf
        · exact .inl hf
        · exact .inr (by simp [hf])
    obtain ⟨line, z0, z, h1, h2, h3, h4⟩ := zone_untitled (es := a ++ (e', t) :: b)
      (fun f hf => by
        rcases hmem' f hf with rfl | hf
        · exact hplain.1
        · exact (hother f hf).1) (separators_swap hs)
      (by simpa [hek] using hn)
      (fun f hf => by
        rcases hmem' f hf with rfl | hf
        · rw [he']; simp
        · exact (hother f hf).2)
    obtain ⟨c, s', hcs⟩ := List.exists_cons_of_ne_nil hs0
    refine ⟨dictSet z "T".toList (.txt s), ?_, ?_⟩
    · rw [readZone, hd, htitle]
      simp only
      rw [h1]
      simp only
      rw [h2, ok_bind, hcs]
    · intro k
      rw [lookup_set]
      split
      · rename_i hk
        rw [hk, ← hT, show e.key = ((e, t) : ZoneEntry × Str).1.key from rfl, entryOf_mem hn hem, ZoneEntry.result]
        simp only [hes]
      · rename_i hk
        have hsame : entryOf (a ++ (e', t) :: b) k = entryOf (a ++ (e, t) :: b) k := by
          rw [entryOf, entryOf, List.find?_append, List.find?_append, List.find?_cons_of_neg,
            List.find?_cons_of_neg]
          · intro h
            exact hk (by rw [← of_decide_eq_true h, ← hT])
          · intro h
            exact hk (by rw [← of_decide_eq_true h, ← hT, hek])
        by_cases hg : ∀ f ∈ ((a ++ (e', t) :: b).filter fun e => ¬ e.1.Located).getLast?, ¬ f.1.Glued
        · rw [h3 hg, hsame]
        · push Not at hg
          obtain ⟨f, hf, hfg⟩ := hg
          rw [h4 f hf hfg, if_neg, hsame]
          have hne : ¬ e.Located := by
            rintro ⟨x, hx⟩
            rw [hes] at hx
            cases hx
          have hne' : ¬ e'.Located := by
            rintro ⟨x, hx⟩
            rw [he'] at hx
            cases hx
          have hc1 : ((e', t) :: b).filter (fun e => decide ¬ e.1.Located) =
              (e', t) :: b.filter fun e => decide ¬ e.1.Located := List.filter_cons_of_pos (decide_eq_true hne')
          have hc2 : ((e, t) :: b).filter (fun e => decide ¬ e.1.Located) =
              (e, t) :: b.filter fun e => decide ¬ e.1.Located := List.filter_cons_of_pos (decide_eq_true hne)
          rw [List.filter_append, hc1, List.getLast?_append_cons] at hf
          rw [List.filter_append, hc2, List.getLast?_append_cons] at hl
          cases hB : b.filter fun e => decide ¬ e.1.Located with
          | nil =>
            rw [hB] at hf
            have : f = (e', t) := by simpa using hf.symm
            rw [this, hek, hT]
            exact hk
          | cons g B =>
            rw [hB, List.getLast?_cons_cons] at hf hl
            exact absurd hfg (hl f hf)
  · push Not at hq
    have hno := entries_noQuote he hs hq
    obtain ⟨line, z0, z, h1, h2, h3, -⟩ := zone_untitled he hs hn hq
    refine ⟨z, ?_, h3 hl⟩
    have ht : zoneTitle (entriesText es) = (none, entriesText es) := by
      rw [zoneTitle, pyFind_none hno]
      rfl
    rw [readZone, hd, ht]
    simp only
    rw [h1]
    simp only
    rw [h2]
    rfl

/-- Without a title, a last entry without blanks is lost. -/
theorem readZone_glued {es : List (ZoneEntry × Str)} (he : ∀ e ∈ es, e.1.Ok) (hs : SeparatorsOk es)
    (hn : (es.map fun e => e.1.key).Nodup) (hq : ∀ e ∈ es, ∀ s, e.1.value ≠ .quoted s) {e : ZoneEntry × Str}
    (hl : (es.filter fun e => ¬ e.1.Located).getLast? = some e) (hg : e.1.Glued) {h : Str} (h5 : h.length = 5) :
    ∃ z, readZone (h ++ entriesText es) = .ok z ∧
      ∀ k, z.lookup k = if k = e.1.key then none else entryOf es k := by
  have hd : (h ++ entriesText es).drop 5 = entriesText es := by rw [← h5, List.drop_left]
  have hno := entries_noQuote he hs hq
  obtain ⟨line, z0, z, h1, h2, -, h3⟩ := zone_untitled he hs hn hq
  refine ⟨z, ?_, h3 e hl hg⟩
  have ht : zoneTitle (entriesText es) = (none, entriesText es) := by
    rw [zoneTitle, pyFind_none hno]
    rfl
  rw [readZone, hd, ht]
  simp only
  rw [h1]
  simp only
  rw [h2]
  rfl

end Verif.Model
