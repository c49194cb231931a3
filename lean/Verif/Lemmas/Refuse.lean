import Verif.Spec.Refuse
import Verif.Lemmas.RowOrder
import Verif.Lemmas.Layout
import Mathlib.Tactic.IntervalCases

/-! Helper lemmas: what the input file writer refuses. -/

namespace Verif.Model
open Verif.Py Verif.Spec

theorem recText_error (ts : List Tok) (vs : List Val) (e : PyErr) :
    recText ts vs = .error e ↔ ((ts.zip vs).findSome? fun p => refusal p.1.kind p.2) = some e := by
  have h0 : ∀ (t : Tok) (v : Val), (∃ s, toStr t v = .ok s ∧ refusal t.kind v = none) ∨
      ∃ x, toStr t v = .error x ∧ refusal t.kind v = some x := by
    rintro ⟨k, w, p⟩ v
    cases k <;> cases v <;> first | exact .inl ⟨_, rfl, rfl⟩ | exact .inr ⟨_, rfl, rfl⟩
  induction ts generalizing vs with
  | nil => simp [recText]
  | cons t ts ih =>
    cases vs with
    | nil => simp [recText]
    | cons v vs =>
      rw [recText, List.zip_cons_cons, List.findSome?_cons]
      rcases h0 t v with ⟨s, h1, h2⟩ | ⟨x, h1, h2⟩
      · rw [h1, h2]
        show (recText ts vs >>= _) = _ ↔ _
        refine Iff.trans ?_ (ih vs)
        cases recText ts vs with
        | error x => rfl
        | ok s' => simp
      · rw [h1, h2]
        show Except.error x = _ ↔ some x = some e
        simp

theorem writeRecord_error (ts : List Tok) (vs : List Val) (e : PyErr) :
    writeRecord ts vs = .error e ↔ ((ts.zip vs).findSome? fun p => refusal p.1.kind p.2) = some e := by
  rw [← recText_error]
  unfold writeRecord
  cases recText ts vs with
  | error x => rfl
  | ok s => simp

theorem foldl_max {l : List ℕ} {n m : ℕ} (h : ∀ x ∈ l, x ≤ n) (hm : m ≤ n) (he : n ∈ l ∨ m = n) :
    l.foldl max m = n := by
  induction l generalizing m with
  | nil => simpa using he
  | cons a l ih =>
    rw [List.foldl_cons]
    have ha := h a (by simp)
    refine ih (fun x hx => h x (by simp [hx])) (by omega) ?_
    rcases he with he | he
    · rcases List.mem_cons.1 he with he | he
      · right; omega
      · exact .inl he
    · right; omega

theorem maxLen_longest {keys : List Val} {n : ℕ} (h : Longest n keys) : maxLen keys = .ok n := by
  obtain ⟨⟨s, hs, hn⟩, hall⟩ := h
  have hk : keys.mapM keyLen = .ok (keys.map fun k => match k with | .str s => s.length | _ => 0) := by
    refine mapM_ok fun k hk => ?_
    obtain ⟨s, rfl, _⟩ := hall k hk
    rfl
  have hf : (keys.map fun k => match k with | .str s => s.length | _ => 0).foldl max 0 = n := by
    refine foldl_max ?_ (Nat.zero_le _) (.inl ?_)
    · intro x hx
      obtain ⟨k, hk, rfl⟩ := List.mem_map.1 hx
      obtain ⟨s, rfl, hl⟩ := hall k hk
      exact hl
    · exact List.mem_map.2 ⟨_, hs, hn⟩
  unfold maxLen
  rw [hk, ok_bind]
  cases keys with
  | nil => simp at hs
  | cons k ks =>
    rw [← hf]
    rfl

theorem maxLen_noText {keys : List Val} (h : ∃ k ∈ keys, NoText k = true) : maxLen keys = .error .typeError := by
  have hk : keys.mapM keyLen = .error .typeError := by
    induction keys with
    | nil => simp at h
    | cons k ks ih =>
      rw [List.mapM_cons]
      by_cases hn : NoText k = true
      · have : keyLen k = .error .typeError := by
          cases k <;> first | rfl | cases hn
        rw [this]
        rfl
      · obtain ⟨k', hk', hn'⟩ := h
        have hks : ∃ k ∈ ks, NoText k = true := by
          rcases List.mem_cons.1 hk' with rfl | h'
          · exact absurd hn' hn
          · exact ⟨k', h', hn'⟩
        rw [ih hks]
        cases k with
        | str s => rfl
        | _ => exact absurd rfl hn
  unfold maxLen
  rw [hk]
  rfl

theorem concatM_error_at {α β : Type} {f : α → Except PyErr (List β)} {a b : List α} {k : α} {x : List β} {e : PyErr}
    (ha : concatM f a = .ok x) (hk : f k = .error e) : concatM f (a ++ k :: b) = .error e := by
  induction a generalizing x with
  | nil => rw [List.nil_append, concatM, hk]; rfl
  | cons y a ih =>
    rw [concatM] at ha
    obtain ⟨u, hu, ha⟩ := bind_eq_ok.1 ha
    obtain ⟨v, hv, ha⟩ := bind_eq_ok.1 ha
    rw [List.cons_append, concatM, hu, ok_bind, ih hv]
    rfl

theorem block_ok_inv {kw : String} {multi : Bool} {b : Except PyErr (List Str)} {ls : List Str} (h : block kw multi b = .ok ls) :
    ∃ x, b = .ok x := by
  unfold block at h
  obtain ⟨x, hx, _⟩ := bind_eq_ok.1 h
  exact ⟨x, hx⟩

theorem block_error {kw : String} {multi : Bool} {b : Except PyErr (List Str)} {e : PyErr} (h : b = .error e) :
    block kw multi b = .error e := by
  rw [h]
  rfl

theorem formatFor_none {table : ℕ → Option (List Tok)} {n : ℕ} (h : table n = none) : formatFor table n = .error .keyError := by
  unfold formatFor
  rw [h]

theorem tables_none {n : ℕ} (h : ¬ (5 ≤ n ∧ n ≤ 9)) :
    Fmt.eleme n = none ∧ Fmt.conne n = none ∧ Fmt.incon n = none ∧ Fmt.gener n = none := by
  have hx : ∀ i, 5 ≤ i → i ≤ 9 → n ≠ i := by intro i h1 h2 h3; omega
  refine ⟨?_, ?_, ?_, ?_⟩
  · exact Fmt.eleme.eq_6 n (hx 5 (by decide) (by decide)) (hx 6 (by decide) (by decide)) (hx 7 (by decide) (by decide))
      (hx 8 (by decide) (by decide)) (hx 9 (by decide) (by decide))
  · exact Fmt.conne.eq_6 n (hx 5 (by decide) (by decide)) (hx 6 (by decide) (by decide)) (hx 7 (by decide) (by decide))
      (hx 8 (by decide) (by decide)) (hx 9 (by decide) (by decide))
  · exact Fmt.incon.eq_6 n (hx 5 (by decide) (by decide)) (hx 6 (by decide) (by decide)) (hx 7 (by decide) (by decide))
      (hx 8 (by decide) (by decide)) (hx 9 (by decide) (by decide))
  · exact Fmt.gener.eq_6 n (hx 5 (by decide) (by decide)) (hx 6 (by decide) (by decide)) (hx 7 (by decide) (by decide))
      (hx 8 (by decide) (by decide)) (hx 9 (by decide) (by decide))

/-- A block of rows fails at the first row that fails. -/
theorem rows_error {kw : String} {fmt : Except PyErr (List Tok)} {f : List Tok → Val → Except PyErr (List Str)} {a b : List Val}
    {k : Val} {e : PyErr} {lines : List Str} (h : block kw true (fmt >>= fun t => concatM (f t) a) = .ok lines)
    (hk : ∀ t, fmt = .ok t → f t k = .error e) : block kw true (fmt >>= fun t => concatM (f t) (a ++ k :: b)) = .error e := by
  obtain ⟨x, hx⟩ := block_ok_inv h
  obtain ⟨t, ht, hx⟩ := bind_eq_ok.1 hx
  refine block_error ?_
  rw [ht, ok_bind]
  exact concatM_error_at hx (hk t ht)

theorem rowOrder_getD {β : Type} (order : Option (List Val)) (d : List (Val × β)) :
    rowOrder order d = order.getD (d.map (·.1)) := by
  cases order <;> rfl

theorem dictGet_of_lookup {β : Type} {d : List (Val × β)} {k : Val} {v : β} (h : d.lookup k = some v) : dictGet d k = .ok v := by
  unfold dictGet
  rw [h]

theorem dictGet_missing {β : Type} {d : List (Val × β)} {k : Val} (h : k ∉ d.map (·.1)) : dictGet d k = .error .keyError := by
  have : d.lookup k = none := by
    rw [List.lookup_eq_none_iff]
    intro p hp
    rw [bne_iff_ne] 
    rintro rfl
    exact h (List.mem_map_of_mem hp)
  unfold dictGet
  rw [this]

/-- The blocks of rows with labels. -/
theorem writeEleme_rows (order : Option (List Val)) (elems : List (Val × Elem)) :
    writeEleme order elems = block "ELEME" true ((maxLen (elems.map (·.1)) >>= formatFor Fmt.eleme) >>= fun t =>
      concatM (fun k => dictGet elems k >>= writeElem t k) (order.getD (elems.map (·.1)))) := by
  rw [← rowOrder_getD]
  unfold writeEleme
  rw [bind_assoc]

theorem writeConne_rows (order : Option (List Val)) (conns : List (Val × Conn)) :
    writeConne order conns = block "CONNE" true ((maxLen (conns.map (·.1)) >>= fun n => formatFor Fmt.conne (n / 2)) >>= fun t =>
      concatM (fun k => dictGet conns k >>= writeConn t k) (order.getD (conns.map (·.1)))) := by
  rw [← rowOrder_getD]
  unfold writeConne
  rw [bind_assoc]

theorem writeIncon_rows (order : Option (List Val)) (ics : List (Val × Incon)) :
    writeIncon order ics = block "INCON" true ((maxLen (ics.map (·.1)) >>= formatFor Fmt.incon) >>= fun t =>
      concatM (fun k => dictGet ics k >>= writeInconRow t k) (order.getD (ics.map (·.1)))) := by
  rw [← rowOrder_getD]
  unfold writeIncon
  rw [bind_assoc]

theorem writeCoord_rows (order : Option (List Val)) (elems : List (Val × Elem)) :
    writeCoord order elems = block "COORD" true ((Except.ok [] : Except PyErr (List Tok)) >>= fun _ =>
      concatM (fun k => dictGet elems k >>= fun e => writeCenter e.center) (order.getD (elems.map (·.1)))) := by
  rw [← rowOrder_getD]
  rfl

theorem splitGens_singles {a : List (Val × Gen)} (h : ∀ x ∈ a, ∃ c, x.2 = .single c) : ∃ cs, splitGens a = .ok cs := by
  unfold splitGens
  induction a with
  | nil => exact ⟨[], rfl⟩
  | cons x a ih =>
    obtain ⟨c, hc⟩ := h x (by simp)
    obtain ⟨cs, hcs⟩ := ih fun y hy => h y (by simp [hy])
    exact ⟨_, by rw [concatM, hc, hcs]; rfl⟩

theorem check_refusal {α : Type} (n : ℕ) (f : Fld α) :
    (f.check n = .ok () ∧ entryRefusal n f = none) ∨ ∃ e, f.check n = .error e ∧ entryRefusal n f = some e := by
  cases f with
  | none => exact .inl ⟨rfl, rfl⟩
  | scalar => exact .inr ⟨_, rfl, rfl⟩
  | list l =>
    by_cases h : l.length = n
    · exact .inl ⟨by rw [Fld.check, if_neg (by simp [h])], by rw [entryRefusal, if_pos h]⟩
    · exact .inr ⟨_, by rw [Fld.check, if_pos h], by rw [entryRefusal, if_neg h]⟩

/-- A sequence of checks fails as the first one that fails. -/
theorem seq_error {α : Type} {o : Option PyErr} {os : List (Option PyErr)} {c : Except PyErr Unit} {r : Except PyErr α} {e : PyErr}
    (hc : (c = .ok () ∧ o = none) ∨ ∃ e, c = .error e ∧ o = some e) (h : (o :: os).findSome? id = some e)
    (hr : os.findSome? id = some e → r = .error e) : (c >>= fun _ => r) = .error e := by
  rcases hc with ⟨rfl, rfl⟩ | ⟨x, rfl, rfl⟩
  · exact hr (by simpa using h)
  · have : x = e := by simpa using h
    rw [this]
    rfl

theorem ltab_refusal {c : Comp} {e : PyErr} (h : (tableRefusal c.times c.rates <|> tableRefusal c.times c.enthalpy) = some e) :
    ltabOf c = .error e := by
  have key : ∀ t x, (tableCheck t x = .ok () ∧ ∀ l, l.length = t → tableRefusal (.many l) x = none) ∨
      ∃ e, tableCheck t x = .error e ∧ ∀ l, l.length = t → tableRefusal (.many l) x = some e := by
    intro t x
    cases x with
    | one v =>
      cases v with
      | none => exact .inl ⟨rfl, fun _ _ => rfl⟩
      | _ => exact .inr ⟨_, rfl, fun _ _ => rfl⟩
    | many l =>
      by_cases h : 1 < t ∧ t = l.length
      · exact .inl ⟨by rw [tableCheck, if_pos h], fun l' hl => by rw [tableRefusal, if_pos ⟨by omega, by omega⟩]⟩
      · exact .inr ⟨.valueError, by rw [tableCheck, if_neg h], fun l' hl => by
          rw [tableRefusal, if_neg (by rw [hl]; rintro ⟨h1, h2⟩; exact h ⟨by omega, h1⟩)]⟩
  have key2 : ∀ v x, (scalarCheck x = .ok () ∧ tableRefusal (.one v) x = none) ∨
      ∃ e, scalarCheck x = .error e ∧ tableRefusal (.one v) x = some e := by
    intro v x
    cases x with
    | one _ => exact .inl ⟨rfl, rfl⟩
    | many _ => exact .inr ⟨_, rfl, rfl⟩
  unfold ltabOf
  cases ht : c.times with
  | many t =>
    rw [ht] at h
    rcases key t.length c.rates with ⟨h1, h2⟩ | ⟨x, h1, h2⟩
    · rw [h2 t rfl] at h
      rcases key t.length c.enthalpy with ⟨h3, h4⟩ | ⟨x, h3, h4⟩
      · rw [h4 t rfl] at h
        cases h
      · rw [h4 t rfl] at h
        cases h
        simp only [h1, h3, ok_bind]
        rfl
    · rw [h2 t rfl] at h
      cases h
      simp only [h1]
      rfl
  | one v =>
    rw [ht] at h
    rcases key2 v c.rates with ⟨h1, h2⟩ | ⟨x, h1, h2⟩
    · rw [h2] at h
      rcases key2 v c.enthalpy with ⟨h3, h4⟩ | ⟨x, h3, h4⟩
      · rw [h4] at h
        cases h
      · rw [h4] at h
        cases h
        simp only [h1, h3, ok_bind]
        rfl
    · rw [h2] at h
      cases h
      simp only [h1]
      rfl

theorem incon_first {t : List Tok} {ics : List (Val × Incon)} {k : Val} {c : Incon} (hc : ics.lookup k = some c)
    (ht : (maxLen (ics.map (·.1)) >>= formatFor Fmt.incon) = .ok t) (u : List Val) :
    ∃ l, writeRecord t ([k, .none, .none, c.porosity] ++ u) = .ok l := by
  obtain ⟨n, hn, ht⟩ := bind_eq_ok.1 ht
  have hk : NoText k = false := by
    rw [← Bool.not_eq_true]
    intro h
    have hm : k ∈ ics.map (·.1) := by
      by_contra hm
      have := dictGet_missing hm
      rw [dictGet_of_lookup hc] at this
      cases this
    rw [maxLen_noText ⟨k, hm, h⟩] at hn
    cases hn
  obtain ⟨s, rfl⟩ : ∃ s, k = .str s := by
    cases k with
    | str s => exact ⟨s, rfl⟩
    | _ => cases hk
  have hkinds : ∃ w1 w2 w3, t = ⟨.s, w1, 0⟩ :: ⟨.d, w2, 0⟩ :: ⟨.d, w3, 0⟩ :: ⟨.e, 15, 9⟩ :: List.replicate 5 ⟨.e, 10, 3⟩ := by
    unfold formatFor at ht
    by_cases h5 : 5 ≤ n ∧ n ≤ 9
    · obtain ⟨h1, h2⟩ := h5
      interval_cases n <;> (cases ht; exact ⟨_, _, _, rfl⟩)
    · rw [(tables_none h5).2.2.1] at ht
      cases ht
  obtain ⟨w1, w2, w3, rfl⟩ := hkinds
  have he : ∀ (v : Val) (w p : ℕ), refusal (Tok.mk .e w p).kind v = none := by
    intro v w p
    cases v <;> rfl
  cases hr : writeRecord (⟨.s, w1, 0⟩ :: ⟨.d, w2, 0⟩ :: ⟨.d, w3, 0⟩ :: ⟨.e, 15, 9⟩ :: List.replicate 5 ⟨.e, 10, 3⟩)
      ([.str s, .none, .none, c.porosity] ++ u) with
  | ok l => exact ⟨l, rfl⟩
  | error e =>
    rw [writeRecord_error] at hr
    simp only [List.cons_append, List.nil_append, List.zip_cons_cons, List.findSome?_cons, he] at hr
    have : (List.findSome? (fun p : Tok × Val => refusal p.1.kind p.2) ((List.replicate 5 (⟨.e, 10, 3⟩ : Tok)).zip u)) = none := by
      rw [List.findSome?_eq_none_iff]
      intro p hp
      have := List.eq_of_mem_replicate (List.of_mem_zip hp).1
      rw [this]
      exact he _ _ _
    rw [this] at hr
    cases hr

end Verif.Model
