import Verif.Model.Petrasim
import Verif.Spec.Petrasim
import Verif.Lemmas.Csv
import Verif.Lemmas.Incon

/-!
# Lemmas about Petrasim output files
-/

namespace Verif.Model
open Verif.Py Verif.Spec

/-! ### times -/

theorem keyLt_iff (a b : ℤ × ℚ) : keyLt a b = true ↔ a.1 < b.1 ∨ (a.1 = b.1 ∧ a.2 < b.2) := by
  unfold keyLt
  simp

theorem keyLt_trans {a b c : ℤ × ℚ} (h1 : keyLt a b = true) (h2 : keyLt b c = true) :
    keyLt a c = true := by
  rw [keyLt_iff] at *
  rcases h1 with h1 | ⟨h1, h1'⟩ <;> rcases h2 with h2 | ⟨h2, h2'⟩
  · left; omega
  · left; omega
  · left; omega
  · right; exact ⟨h1.trans h2, h1'.trans h2'⟩

theorem keyLt_total {a b : ℤ × ℚ} (h1 : ¬ keyLt a b = true) (h2 : a ≠ b) : keyLt b a = true := by
  rw [keyLt_iff] at *
  rw [not_or, not_and] at h1
  rcases lt_trichotomy a.1 b.1 with h | h | h
  · exact absurd h h1.1
  · refine Or.inr ⟨h.symm, ?_⟩
    rcases lt_trichotomy a.2 b.2 with h' | h' | h'
    · exact absurd h' (h1.2 h)
    · exact absurd (Prod.ext h h') h2
    · exact h'
  · exact Or.inl h

theorem mem_insTime {t x : Flt} {us : List Flt} (h : x ∈ insTime t us) : x = t ∨ x ∈ us := by
  induction us with
  | nil => simpa [insTime] using h
  | cons u us ih =>
    unfold insTime at h
    split at h
    · simpa using h
    · split at h
      · exact Or.inr h
      · rcases List.mem_cons.1 h with h | h
        · exact Or.inr (by simp [h])
        · rcases ih h with h | h
          · exact Or.inl h
          · exact Or.inr (List.mem_cons_of_mem _ h)

theorem insTime_keeps {t x : Flt} {us : List Flt} (h : x ∈ us) : x ∈ insTime t us := by
  induction us with
  | nil => simp at h
  | cons u us ih =>
    unfold insTime
    split
    · exact List.mem_cons_of_mem _ h
    · split
      · exact h
      · rcases List.mem_cons.1 h with h | h
        · simp [h]
        · exact List.mem_cons_of_mem _ (ih h)

theorem insTime_has (t : Flt) (us : List Flt) : ∃ u ∈ insTime t us, timeKey u = timeKey t := by
  induction us with
  | nil => exact ⟨t, by simp [insTime], rfl⟩
  | cons u us ih =>
    unfold insTime
    split
    · exact ⟨t, by simp, rfl⟩
    · split
      · next h => exact ⟨u, by simp, h.symm⟩
      · obtain ⟨v, hv, he⟩ := ih
        exact ⟨v, List.mem_cons_of_mem _ hv, he⟩

/-- Strictly ascending times. -/
def Ascending (us : List Flt) : Prop :=
  us.Pairwise fun a b => keyLt (timeKey a) (timeKey b) = true

theorem insTime_ascending {t : Flt} {us : List Flt} (h : Ascending us) : Ascending (insTime t us) := by
  induction us with
  | nil => simp [insTime, Ascending]
  | cons u us ih =>
    obtain ⟨h1, h2⟩ := List.pairwise_cons.1 h
    unfold insTime
    split
    · next hlt =>
      refine List.pairwise_cons.2 ⟨fun x hx => ?_, h⟩
      rcases List.mem_cons.1 hx with rfl | hx
      · exact hlt
      · exact keyLt_trans hlt (h1 x hx)
    · split
      · exact h
      · next hlt hne =>
        refine List.pairwise_cons.2 ⟨fun x hx => ?_, ih h2⟩
        rcases mem_insTime hx with rfl | hx
        · exact keyLt_total hlt hne
        · exact h1 x hx

theorem uniqueTimes_spec (ts : List Flt) : Ascending (uniqueTimes ts) ∧
    (∀ u ∈ uniqueTimes ts, u ∈ ts) ∧ ∀ t ∈ ts, ∃ u ∈ uniqueTimes ts, timeKey u = timeKey t := by
  unfold uniqueTimes
  have main : ∀ (ts us : List Flt), Ascending us →
      Ascending (ts.foldl (fun us t => insTime t us) us) ∧
      (∀ u ∈ ts.foldl (fun us t => insTime t us) us, u ∈ ts ∨ u ∈ us) ∧
      (∀ u ∈ us, u ∈ ts.foldl (fun us t => insTime t us) us) ∧
      ∀ t ∈ ts, ∃ u ∈ ts.foldl (fun us t => insTime t us) us, timeKey u = timeKey t := by
    intro ts
    induction ts with
    | nil => intro us h; exact ⟨h, fun u hu => Or.inr hu, fun u hu => hu, by simp⟩
    | cons t ts ih =>
      intro us h
      obtain ⟨h1, h2, h3, h4⟩ := ih _ (insTime_ascending (t := t) h)
      rw [List.foldl_cons]
      refine ⟨h1, fun u hu => ?_, fun u hu => h3 u (insTime_keeps hu), fun x hx => ?_⟩
      · rcases h2 u hu with hu | hu
        · exact Or.inl (List.mem_cons_of_mem _ hu)
        · rcases mem_insTime hu with hu | hu
          · exact Or.inl (by simp [hu])
          · exact Or.inr hu
      · rcases List.mem_cons.1 hx with rfl | hx
        · obtain ⟨u, hu, he⟩ := insTime_has x us
          exact ⟨u, h3 u hu, he⟩
        · exact h4 x hx
  obtain ⟨h1, h2, -, h4⟩ := main ts [] List.Pairwise.nil
  exact ⟨h1, fun u hu => (h2 u hu).resolve_right (by simp), h4⟩

/-- The place of a time. -/
def placeOf : Time → ℤ × ℚ
  | none => (-1, 0)
  | some none => (1, 0)
  | some (some q) => (0, q)

theorem placeOf_inj {a b : Time} (h : placeOf a = placeOf b) : a = b := by
  rcases a with _ | _ | a <;> rcases b with _ | _ | b <;> simp [placeOf] at h <;> first | rfl | (subst h; rfl)

theorem placeOf_lt {a b : Time} (h : keyLt (placeOf a) (placeOf b) = true) : a < b := by
  rw [keyLt_iff] at h
  rcases a with _ | _ | a <;> rcases b with _ | _ | b <;> simp [placeOf] at h
  · exact WithBot.bot_lt_coe _
  · exact WithBot.bot_lt_coe _
  · exact WithBot.coe_lt_coe.2 (WithTop.coe_lt_top _)
  · exact WithBot.coe_lt_coe.2 (WithTop.coe_lt_coe.2 h)

theorem timeKey_of_value {t : Flt} {q : Time} (h : value t = some q) : timeKey t = placeOf q := by
  cases t with
  | nan => simp [value] at h
  | inf neg => cases neg <;> (simp only [value, Option.some.injEq] at h; subst h; rfl)
  | fin neg mag =>
    simp only [value, Option.some.injEq] at h
    subst h
    rfl

theorem sameTime_of_value {a b : Flt} {q p : Time} (h : value a = some q) (h' : value b = some p) :
    sameTime a b = decide (q = p) := by
  unfold sameTime
  rw [timeKey_of_value h, timeKey_of_value h']
  have h2 : (placeOf q).1 ≠ 2 := by rcases q with _ | _ | q <;> simp [placeOf]
  by_cases hq : q = p
  · subst hq; simp [h2]
  · have : placeOf q ≠ placeOf p := fun h => hq (placeOf_inj h)
    simp [hq, this]

theorem ascending_value {us : List Flt} (h : Ascending us) (f : Flt → Time)
    (hf : ∀ u ∈ us, value u = some (f u)) : (us.map f).Pairwise (· < ·) := by
  rw [List.pairwise_map]
  refine List.Pairwise.imp_of_mem (fun {a b} ha hb hab => ?_) h
  rw [timeKey_of_value (hf a ha), timeKey_of_value (hf b hb)] at hab
  exact placeOf_lt hab

/-! ### the lines written -/

/-- A row as written. -/
def petraText (t : Flt) (l : Str) (i : ℕ) (xs : List Flt) : Str :=
  joinWith ',' (padLeft 20 (fmtE 12 t) :: padLeft 18 l :: padLeft 20 (natStr (i + 1)) ::
    xs.map fun x => padLeft 20 (fmtE 12 x))

theorem field_comma {l : Str} (h : FieldText l) (w : ℕ) : ',' ∉ padLeft w l := by
  intro hc
  rcases List.mem_append.1 hc with hc | hc
  · exact absurd (List.eq_of_mem_replicate hc) (by decide)
  · exact (h.1 _ hc).1 rfl

theorem field_strip {l : Str} (h : FieldText l) (w : ℕ) : strip (padLeft w l) = l := by
  rw [strip_padLeft, strip_eq_self_of h.2.1 h.2.2]

theorem natStr_comma (w n : ℕ) : ',' ∉ padLeft w (natStr n) := by
  intro hc
  rcases List.mem_append.1 hc with hc | hc
  · exact absurd (List.eq_of_mem_replicate hc) (by decide)
  · have := padDigits_isDigit _ _ _ hc
    revert this
    decide

theorem mem_takeWhile_of {p : Char → Bool} {s : Str} {c : Char} (h : c ∈ s.takeWhile p) :
    p c = true := by
  induction s with
  | nil => simp at h
  | cons d s ih =>
    rw [List.takeWhile_cons] at h
    split at h
    · rcases List.mem_cons.1 h with rfl | h
      · assumption
      · exact ih h
    · simp at h

theorem strip_parts (s : Str) : ∃ a b : Str, (∀ c ∈ a, isSpace c = true) ∧
    (∀ c ∈ b, isSpace c = true) ∧ s = a ++ (strip s ++ b) := by
  refine ⟨s.takeWhile isSpace, ((lstrip s).reverse.takeWhile isSpace).reverse, ?_, ?_, ?_⟩
  · intro c hc
    exact mem_takeWhile_of hc
  · intro c hc
    exact mem_takeWhile_of (List.mem_reverse.1 hc)
  · have h1 : strip s ++ ((lstrip s).reverse.takeWhile isSpace).reverse = lstrip s := by
      unfold strip rstrip
      rw [← List.reverse_append, List.takeWhile_append_dropWhile, List.reverse_reverse]
    rw [h1]
    exact List.takeWhile_append_dropWhile.symm

theorem strip_strip (s : Str) : strip (strip s) = strip s :=
  strip_eq_self_of (strip_head_last s).1 (strip_head_last s).2

theorem toFloat_strip (s : Str) : toFloat (strip s) = toFloat s := by
  unfold toFloat pyFloat
  rw [strip_strip]

theorem comma_not_space {c : Char} (h : isSpace c = true) : c ≠ ',' := by
  rintro rfl; revert h; decide

theorem splitOn_ne (sep : Char) (s : Str) : splitOn sep s ≠ [] := by
  cases s with
  | nil => simp [splitOn]
  | cons c s =>
    unfold splitOn
    split
    · simp
    · split <;> simp

theorem splitOn_space_left {a : Str} (ha : ∀ c ∈ a, isSpace c = true) (s : Str) :
    (splitOn ',' (a ++ s)).map strip = (splitOn ',' s).map strip := by
  induction a with
  | nil => rfl
  | cons c a ih =>
    have hc := ha c (by simp)
    rw [← ih fun x hx => ha x (List.mem_cons_of_mem _ hx), List.cons_append, splitOn,
      if_neg (comma_not_space hc)]
    cases hs : splitOn ',' (a ++ s) with
    | nil => exact absurd hs (splitOn_ne _ _)
    | cons x xs =>
      simp only [List.map_cons]
      rw [← strip_spaces_append (s := x) (b := [c]) (by simpa using hc)]
      rfl

theorem splitOn_space_right {b : Str} (hb : ∀ c ∈ b, isSpace c = true) (s : Str) :
    (splitOn ',' (s ++ b)).map strip = (splitOn ',' s).map strip := by
  induction s with
  | nil =>
    have : splitOn ',' b = [b] := splitOn_self fun h => comma_not_space (hb _ h) rfl
    rw [List.nil_append, this]
    have hb' : strip b = [] := (strip_eq_nil_iff b).2 hb
    simp [splitOn, hb', show strip [] = [] from rfl]
  | cons c s ih =>
    rw [List.cons_append, splitOn, splitOn]
    split
    · rw [List.map_cons, List.map_cons, ih]
    · have key : ∀ (t : Str) (ys : List Str), (splitOn ',' s) = t :: ys →
          ∃ b', (∀ c ∈ b', isSpace c = true) ∧ splitOn ',' (s ++ b) = (t ++ b') :: (splitOn ',' (s ++ b)).tail := by
        clear ih
        induction s with
        | nil =>
          intro t ys h
          have : splitOn ',' b = [b] := splitOn_self fun h => comma_not_space (hb _ h) rfl
          simp [splitOn] at h
          obtain ⟨rfl, -⟩ := h
          exact ⟨b, hb, by simp [this]⟩
        | cons d s ih =>
          intro t ys h
          rw [List.cons_append, splitOn]
          rw [splitOn] at h
          split at h
          · next hd =>
            rw [if_pos hd]
            simp at h
            obtain ⟨rfl, -⟩ := h
            exact ⟨[], by simp, by simp⟩
          · next hd =>
            rw [if_neg hd]
            cases hs : splitOn ',' s with
            | nil => exact absurd hs (splitOn_ne _ _)
            | cons x xs =>
              rw [hs] at h
              simp at h
              obtain ⟨rfl, -⟩ := h
              obtain ⟨b', hb', e⟩ := ih x xs hs
              refine ⟨b', hb', ?_⟩
              rw [e]
              simp
      cases hs : splitOn ',' s with
      | nil => exact absurd hs (splitOn_ne _ _)
      | cons x xs =>
        obtain ⟨b', hb', e⟩ := key x xs hs
        rw [e, hs] at ih
        rw [e]
        simp only [List.map_cons, List.cons.injEq] at ih ⊢
        refine ⟨?_, ih.2⟩
        rw [← List.cons_append, strip_append_spaces hb']

/-- Blanks around a line do not matter for its columns. -/
theorem splitOn_strip (s : Str) : (splitOn ',' (strip s)).map strip = (splitOn ',' s).map strip := by
  obtain ⟨a, b, ha, hb, e⟩ := strip_parts s
  conv_rhs => rw [e]
  rw [splitOn_space_left ha, splitOn_space_right hb]

theorem petraLine_eq (line : Str) : petraLine line = (do
    let fields := (splitOn ',' line).map strip
    let t ← toFloat (fields.headD [])
    let l ← rowAt fields 1
    let vals ← (fields.drop 3).mapM toFloat
    .ok ⟨t, l, vals⟩) := by
  unfold petraLine
  simp only
  have h1 : toFloat (((splitOn ',' line).map strip).headD []) = toFloat ((splitOn ',' line).headD []) := by
    cases splitOn ',' line with
    | nil => rfl
    | cons x xs => exact toFloat_strip x
  have h2 : (((splitOn ',' line).map strip).drop 3).mapM toFloat =
      ((splitOn ',' line).drop 3).mapM toFloat := by
    rw [← List.map_drop, List.mapM_map]
    congr 1
    funext x
    exact toFloat_strip x
  rw [h1, h2]
  congr 1
  funext t
  unfold rowAt
  rw [List.getElem?_map]
  cases (splitOn ',' line)[1]? with
  | none => rfl
  | some x => rfl

theorem petraText_ne (t : Flt) (l : Str) (i : ℕ) (xs : List Flt) : strip (petraText t l i xs ++ ['\n']) ≠ [] := by
  rw [Ne, strip_eq_nil_iff]
  intro h
  obtain ⟨c, r, hc⟩ := List.exists_cons_of_ne_nil (fmtE_ne_nil 12 t)
  have := h c (by
    unfold petraText
    rw [joinWith_cons (by simp)]
    simp [padLeft, hc])
  rw [fmtE_nospace 12 t c (by simp [hc])] at this
  cases this

theorem petraLine_text {l : Str} (hl : FieldText l) (t : Flt) (i : ℕ) (xs : List Flt) :
    petraLine (strip (petraText t l i xs ++ ['\n'])) =
      .ok ⟨quant 12 t, l, xs.map (quant 12)⟩ := by
  rw [petraLine_eq, splitOn_strip, splitOn_space_right (by simp; decide)]
  unfold petraText
  rw [splitOn_join (by simp) (by
    intro x hx
    simp only [List.mem_cons, List.mem_map] at hx
    rcases hx with rfl | rfl | rfl | ⟨x, -, rfl⟩
    · exact (numField 20 12 t).2.1
    · exact field_comma hl 18
    · exact natStr_comma _ _
    · exact (numField 20 12 x).2.1)]
  simp only [List.map_cons, List.headD_cons, List.drop_succ_cons, List.drop_zero, List.map_map,
    List.mapM_map]
  rw [strip_fmtE, toFloat_fmtE, ok_bind, field_strip hl]
  have : rowAt (fmtE 12 t :: l :: strip (padLeft 20 (natStr (i + 1))) ::
      xs.map (strip ∘ fun x => padLeft 20 (fmtE 12 x))) 1 = .ok l := rfl
  rw [this, ok_bind, mapM_ok (f := toFloat ∘ strip ∘ fun x => padLeft 20 (fmtE 12 x)) (g := quant 12)
    fun x _ => (numField 20 12 x).2.2.2.2, ok_bind]

/-- The rows of an output. -/
def petraRead (vars : List Str) (o : Output Str Flt) : List PetraRow :=
  o.labels.zipIdx.map fun e =>
    ⟨quant 12 (o.time.getD .nan), e.1, (vars.map (cellOf o.data e.2)).map (quant 12)⟩

/-- The lines of an output. -/
def petraLines (vars : List Str) (o : Output Str Flt) : List Str :=
  o.labels.zipIdx.map fun e =>
    petraText (o.time.getD .nan) e.1 e.2 (vars.map (cellOf o.data e.2)) ++ ['\n']

theorem petraTable_eq {o : Output Str Flt} (h : (o.data.map (·.1)).Nodup) (ho : Full o)
    {vars : List Str} (hne : vars ≠ []) (hv : ∀ k ∈ vars, k ∈ o.data.map (·.1)) :
    petraTable vars o.data =
      .ok ((List.range o.labels.length).map fun i => vars.map (cellOf o.data i)) := by
  have hlen : ∀ k ∈ vars, (varOf o.data k).length = o.labels.length := by
    intro k hk
    obtain ⟨⟨k', v⟩, hm, rfl⟩ := List.mem_map.1 (hv k hk)
    rw [varOf_of_mem h hm]
    exact ho _ hm
  unfold petraTable
  rw [mapM_ok (g := varOf o.data) fun k hk => by
    obtain ⟨⟨k', v⟩, hm, rfl⟩ := List.mem_map.1 (hv k hk)
    rw [varOf_of_mem h hm, dictGet_of_mem h hm], ok_bind]
  obtain ⟨k, ks, rfl⟩ := List.exists_cons_of_ne_nil hne
  simp only [List.map_cons]
  rw [if_pos]
  · congr 1
    rw [hlen k (by simp)]
    refine List.map_congr_left fun i hi => ?_
    rw [List.mem_range] at hi
    rw [← List.map_cons (f := varOf o.data), ← List.map_cons (f := cellOf o.data i),
      List.filterMap_map]
    have hsub : ∀ k' ∈ (k :: ks), ((fun d : List Flt => d[i]?) ∘ varOf o.data) k' =
        some (cellOf o.data i k') := by
      intro k' hk'
      have := hlen k' hk'
      simp only [Function.comp, cellOf]
      rw [List.getElem?_eq_getElem (by omega)]
      rfl
    generalize k :: ks = l at hsub
    clear hlen hv hne
    induction l with
    | nil => rfl
    | cons a l ih =>
      rw [List.filterMap_cons, hsub a (by simp)]
      simp only [List.map_cons]
      rw [ih fun x hx => hsub x (List.mem_cons_of_mem _ hx)]
  · rw [List.all_eq_true]
    intro d hd
    obtain ⟨k', hk', rfl⟩ := List.mem_map.1 hd
    simp [hlen k' (List.mem_cons_of_mem _ hk'), hlen k (by simp)]

theorem petraStep_eq {o : Output Str Flt} (ht : o.time.isSome = true) (h : (o.data.map (·.1)).Nodup)
    (ho : Full o) {vars : List Str} (hne : vars ≠ []) (hv : ∀ k ∈ vars, k ∈ o.data.map (·.1)) :
    petraStep vars o = .ok (petraLines vars o) := by
  obtain ⟨t, ht⟩ := Option.isSome_iff_exists.1 ht
  unfold petraStep
  rw [petraTable_eq h ho hne hv, ok_bind, mapM_ok (g := fun e =>
    petraText t ((o.labels[e.2]?).getD []) e.2 e.1 ++ ['\n'])]
  · congr 1
    unfold petraLines
    refine List.ext_getElem (by simp) fun i h1 h2 => ?_
    have hi : i < o.labels.length := by simpa using h1
    simp [ht, List.getElem?_eq_getElem hi]
  · intro e he
    have := List.mem_zipIdx he
    simp only [Nat.sub_zero, Nat.zero_add, List.length_map, List.length_range] at this
    unfold petraRow
    rw [rowAt_ok.2 (List.getElem?_eq_getElem (by omega)), ok_bind, ht,
      List.getElem?_eq_getElem (by omega)]
    rfl

theorem petraLoop_lines {lines : List Str} {rows : List PetraRow}
    (h : List.Forall₂ (fun l r => strip l ≠ [] ∧ petraLine (strip l) = .ok r) lines rows) :
    petraLoop lines = .ok rows := by
  induction h with
  | nil => rfl
  | cons h _ ih => rw [petraLoop, if_neg h.1, h.2, ok_bind, ih]; rfl

theorem petraLines_read {o : Output Str Flt} (vars : List Str) (hl : ∀ l ∈ o.labels, FieldText l) :
    List.Forall₂ (fun l r => strip l ≠ [] ∧ petraLine (strip l) = .ok r) (petraLines vars o)
      (petraRead vars o) := by
  unfold petraLines petraRead
  rw [List.forall₂_map_left_iff, List.forall₂_map_right_iff, List.forall₂_same]
  intro e he
  exact ⟨petraText_ne _ _ _ _, petraLine_text (hl e.1 (List.fst_mem_of_mem_zipIdx he)) _ _ _⟩

theorem petra_headers {vars : List Str} (hv : ∀ k ∈ vars, FieldText k) :
    ((splitOn ',' (strip (joinWith ',' (("TIME [sec]".toList :: "ELEM".toList :: "INDEX".toList ::
      vars).map (padLeft 18)) ++ ['\n']))).drop 3).map strip = vars := by
  have hf : ∀ x ∈ ("TIME [sec]".toList :: "ELEM".toList :: "INDEX".toList :: vars), FieldText x := by
    intro x hx
    simp only [List.mem_cons] at hx
    rcases hx with rfl | rfl | rfl | hx
    · decide
    · decide
    · decide
    · exact hv x hx
  rw [List.map_drop, splitOn_strip, splitOn_space_right (by simp; decide), splitOn_join (by simp) (by
    intro x hx
    obtain ⟨y, hy, rfl⟩ := List.mem_map.1 hx
    exact field_comma (hf y hy) 18), List.map_map]
  have : ("TIME [sec]".toList :: "ELEM".toList :: "INDEX".toList :: vars).map (strip ∘ padLeft 18) =
      "TIME [sec]".toList :: "ELEM".toList :: "INDEX".toList :: vars := by
    conv_rhs => rw [← List.map_id ("TIME [sec]".toList :: "ELEM".toList :: "INDEX".toList :: vars)]
    exact List.map_congr_left fun x hx => field_strip (hf x hx) 18
  rw [this]
  rfl

theorem entry_of_lookup {κ β : Type} [DecidableEq κ] {d : List (κ × β)} {k : κ} {v : β} (h : d.lookup k = some v) : (k, v) ∈ d := by
  induction d with
  | nil => cases h
  | cons e d ih =>
    obtain ⟨k', v'⟩ := e
    rw [List.lookup_cons] at h
    split at h
    · rename_i hk
      cases h
      rw [eq_of_beq hk]
      exact List.mem_cons_self
    · exact List.mem_cons_of_mem _ (ih h)

theorem lookup_of_mem {β : Type} {d : List (Str × β)} (h : (d.map (·.1)).Nodup)
    {k : Str} {v : β} (hm : (k, v) ∈ d) : d.lookup k = some v := by
  induction d with
  | nil => simp at hm
  | cons e d ih =>
    rw [List.map_cons, List.nodup_cons] at h
    obtain ⟨k', v'⟩ := e
    rw [List.lookup_cons]
    rcases List.mem_cons.1 hm with hm' | hm'
    · cases hm'; simp
    · have hne : (k == k') = false := by
        rw [beq_eq_false_iff_ne]
        intro hk
        exact h.1 (List.mem_map.2 ⟨_, hm', hk⟩)
      rw [hne]
      exact ih h.2 hm'

/-- The columns of the rows of several outputs. -/
theorem petraColumn_flatMap {vars : List Str} {j : ℕ} (hj : j < vars.length)
    (outs : List (Output Str Flt))
    (h : ∀ o ∈ outs, (o.data.map (·.1)).Nodup ∧ Full o ∧ vars[j] ∈ o.data.map (·.1)) :
    petraColumn (outs.flatMap (petraRead vars)) j =
      outs.flatMap fun o => ((o.data.lookup vars[j]).getD []).map (quant 12) := by
  induction outs with
  | nil => rfl
  | cons o outs ih =>
    obtain ⟨h1, h2, h3⟩ := h o (by simp)
    rw [List.flatMap_cons, List.flatMap_cons, ← ih fun o ho => h o (List.mem_cons_of_mem _ ho)]
    unfold petraColumn
    rw [List.filterMap_append]
    congr 1
    obtain ⟨⟨k, v⟩, hm, hk⟩ := List.mem_map.1 h3
    simp only at hk
    have hlen := h2 _ hm
    simp only at hlen
    have hlk : (o.data.lookup vars[j]).getD [] = v := by
      rw [← hk, lookup_of_mem h1 hm]; rfl
    rw [hlk]
    unfold petraRead
    rw [List.filterMap_map]
    have e : ((fun r : PetraRow => r.vals[j]?) ∘ fun e : Str × ℕ =>
        (⟨quant 12 (o.time.getD .nan), e.1, (vars.map (cellOf o.data e.2)).map (quant 12)⟩ : PetraRow)) =
        fun e => some (quant 12 ((v[e.2]?).getD .nan)) := by
      funext e
      simp [Function.comp, cellOf, List.getElem?_eq_getElem hj, ← hk, varOf_of_mem h1 hm]
    rw [e, List.filterMap_eq_map', zipIdx_map_snd o.labels fun i => quant 12 ((v[i]?).getD .nan),
      map_range_getD _ _ _ _ hlen]

theorem filter_petraRead {vars : List Str} {q : Time} (t : Flt) (ht : value t = some q)
    (outs : List (Output Str Flt)) (h : ∀ o ∈ outs, (outTime o).isSome = true) :
    (outs.flatMap (petraRead vars)).filter (fun r => sameTime r.time t) =
      (outs.filter fun o => outTime o = some q).flatMap (petraRead vars) := by
  induction outs with
  | nil => rfl
  | cons o outs ih =>
    rw [List.flatMap_cons, List.filter_append, ih fun o ho => h o (List.mem_cons_of_mem _ ho)]
    obtain ⟨p, hp⟩ := Option.isSome_iff_exists.1 (h o (by simp))
    have hv : value (quant 12 (o.time.getD .nan)) = some p := by
      unfold outTime at hp
      cases hto : o.time with
      | none => rw [hto] at hp; cases hp
      | some u => rw [hto] at hp; exact hp
    have hall : ∀ r ∈ petraRead vars o, sameTime r.time t = decide (p = q) := by
      intro r hr
      unfold petraRead at hr
      obtain ⟨e, -, rfl⟩ := List.mem_map.1 hr
      exact sameTime_of_value hv ht
    rw [List.filter_cons, hp]
    by_cases hpq : p = q
    · subst hpq
      simp only [decide_true, if_true, List.flatMap_cons]
      congr 1
      rw [List.filter_eq_self]
      intro r hr
      rw [hall r hr]
      simp
    · rw [if_neg (by simpa using hpq), List.filter_eq_nil_iff.2, List.nil_append]
      intro r hr
      rw [hall r hr]
      simpa using hpq

theorem petraRead_labels (vars : List Str) (outs : List (Output Str Flt)) :
    (outs.flatMap (petraRead vars)).map (·.label) = outs.flatMap (·.labels) := by
  rw [List.map_flatMap]
  congr 1
  funext o
  unfold petraRead
  rw [List.map_map]
  refine List.ext_getElem (by simp) fun i h1 h2 => ?_
  simp

end Verif.Model
