import Verif.Spec.Tools
import Verif.Props.Cli
import Verif.Props.File
import Verif.Lemmas.Save

/-! Helper lemmas: the tools on files of the library. -/

namespace Verif.Props
open Verif.Py Verif.Model Verif.Spec

theorem concatM_append_inv {a b : List (Except PyErr (List Str))} {lines : List Str}
    (h : concatM id (a ++ b) = .ok lines) :
    ∃ x y, concatM id a = .ok x ∧ concatM id b = .ok y ∧ lines = x ++ y := by
  induction a generalizing lines with
  | nil => exact ⟨[], lines, rfl, h, rfl⟩
  | cons w ws ih =>
    rw [List.cons_append, concatM] at h
    cases hw : (id w : Except PyErr (List Str)) with
    | error e => rw [hw] at h; cases h
    | ok x =>
      rw [hw, ok_bind] at h
      cases hc : concatM id (ws ++ b) with
      | error e => rw [hc] at h; cases h
      | ok y =>
        rw [hc, ok_bind] at h
        cases h
        obtain ⟨x', y', h1, h2, rfl⟩ := ih hc
        exact ⟨x ++ x', y', by rw [concatM, hw, ok_bind, h1]; rfl, h2, by simp⟩

/-- The blocks before the mesh. -/
def front (p : Params) : List (Except PyErr (List Str)) := ((middle p).take 17).map (·.2)

/-- The blocks of the mesh. -/
def meshParts (p : Params) : List (Except PyErr (List Str)) := (((middle p).drop 17).take 3).map (·.2)

/-- The block of the initial conditions. -/
def inconParts (p : Params) : List (Except PyErr (List Str)) := (((middle p).drop 20).take 1).map (·.2)

/-- The block NOVER. -/
def noverParts (p : Params) : List (Except PyErr (List Str)) := ((middle p).drop 21).map (·.2)

theorem selected_all (p : Params) : selected "all" p = [.ok (p.title.lines.map titleLine)] ++ (front p ++
    (meshParts p ++ (inconParts p ++ (noverParts p ++ [.ok [endLine]])))) := rfl

theorem selected_rest (p : Params) : selected "all" (withoutMesh p) = [.ok (p.title.lines.map titleLine)] ++ (front p ++
    ([.ok [], .ok [], .ok []] ++ ([.ok []] ++ (noverParts p ++ [.ok [endLine]])))) := rfl

theorem selected_mesh (p : Params) : selected "mesh" p = meshParts p := rfl

theorem selected_incon (p : Params) : selected "incon" p = inconParts p := rfl

theorem writeFile_ok {p : Params} {blk : String} {lines : List Str} (h : writeFile p blk = .ok lines) :
    (p.eos = [] ∨ p.eos ∈ eosTable.map (·.1)) ∧ concatM id (selected blk p) = .ok lines := by
  rw [writeFile] at h
  split at h
  · cases h
  · split at h
    · cases h
    · rename_i he
      refine ⟨?_, h⟩
      by_contra hc
      exact he ⟨fun h0 => hc (.inl h0), fun h0 => hc (.inr h0)⟩

theorem writeFile_of {p : Params} {blk : String} {lines : List Str} (hb : blk ∈ ["all", "gener", "mesh", "incon"])
    (he : p.eos = [] ∨ p.eos ∈ eosTable.map (·.1)) (h : concatM id (selected blk p) = .ok lines) :
    writeFile p blk = .ok lines := by
  rw [writeFile, if_neg (not_not.2 hb), if_neg (fun h => he.elim h.1 h.2), h]

/-- The file without mesh: what comes before the mesh, NOVER, and the end. -/
theorem rest_parts {p : Params} {a : List Str} (h : writeFile (withoutMesh p) "all" = .ok a) :
    ∃ f n, concatM id (front p) = .ok f ∧ concatM id (noverParts p) = .ok n ∧
      a = p.title.lines.map titleLine ++ f ++ n ++ [endLine] := by
  obtain ⟨-, h0⟩ := writeFile_ok h
  rw [selected_rest] at h0
  obtain ⟨t, y1, ht, h1, rfl⟩ := concatM_append_inv h0
  obtain ⟨f, y2, hf, h2, rfl⟩ := concatM_append_inv h1
  obtain ⟨e, y3, he, h3, rfl⟩ := concatM_append_inv h2
  obtain ⟨e', y4, he', h4, rfl⟩ := concatM_append_inv h3
  obtain ⟨n, y5, hn, h5, rfl⟩ := concatM_append_inv h4
  refine ⟨f, n, hf, hn, ?_⟩
  simp [concatM] at ht he he' h5
  subst ht he he' h5
  simp

theorem front_heads {p : Params} {f : List Str} (h : concatM id (front p) = .ok f) :
    [headLine "ROCKS", headLine "PARAM"].Sublist f := by
  have e : front p = [writeRocks p.rocksOrder p.merged] ++ ((((middle p).drop 1).take 5).map (·.2) ++
      ([writeParam p.options p.extraOptions p.initCond] ++ (((middle p).drop 7).take 10).map (·.2))) := rfl
  rw [e] at h
  obtain ⟨x1, y1, h1, g1, rfl⟩ := concatM_append_inv h
  obtain ⟨x2, y2, h2, g2, rfl⟩ := concatM_append_inv g1
  obtain ⟨x3, y3, h3, g3, rfl⟩ := concatM_append_inv g2
  have hx : ∀ {w : Except PyErr (List Str)} {x : List Str}, concatM id [w] = .ok x → w = .ok x := by
    intro w x hw
    rw [concatM] at hw
    cases w with
    | error e => cases hw
    | ok z => simpa [concatM] using hw
  obtain ⟨b1, rfl⟩ := block_head (hx h1)
  obtain ⟨b3, rfl⟩ := block_head (hx h3)
  show ([headLine "ROCKS"] ++ [headLine "PARAM"]).Sublist _
  refine List.Sublist.append (by simp) ?_
  refine List.Sublist.trans ?_ (List.sublist_append_right x2 _)
  simp

theorem clean_isLines {ls : List Str} (h : CleanLines ls) : IsLines ls.flatten ls ∧ Complete ls.flatten := by
  refine ⟨⟨rfl, fun l hl => ⟨?_, (h l hl).2⟩, fun l hl => (h l (List.mem_of_mem_dropLast hl)).1⟩, ?_⟩
  · rintro rfl
    have := (h _ hl).1
    simp at this
  · rcases List.eq_nil_or_concat ls with rfl | ⟨l, x, rfl⟩
    · exact .inl rfl
    · right
      have hx := (h x (by simp)).1
      rw [List.concat_eq_append, List.flatten_append, List.flatten_singleton]
      rw [List.getLast?_append, hx]
      rfl

theorem opens_flatten {kw : String} {ls : List Str} (hk : kw ∈ keywords) (hlen : kw.length = 5) :
    Opens kw (headLine kw :: ls).flatten := by
  unfold Opens
  rw [List.flatten_cons, List.take_append_of_le_length]
  · revert hk hlen
    revert kw
    decide +kernel
  · revert hk hlen
    revert kw
    decide +kernel

/-! ### SAVE files -/

theorem unUnderscore_head {b : Bool} {c : Char} {s t : Str} (hc : c ≠ '_') (h : unUnderscore b (c :: s) = some t) :
    ∃ t', t = c :: t' := by
  unfold unUnderscore at h
  split at h
  · rename_i h1; cases h1
  · rename_i h1; injection h1 with h1 _; exact absurd h1 hc
  · rename_i h1; injection h1 with h1 _; exact absurd h1 hc
  · rename_i h1
    injection h1 with h1 h2
    subst h1 h2
    cases hu : unUnderscore (isDigit c) s with
    | none => rw [hu] at h; cases h
    | some t' => rw [hu] at h; cases h; exact ⟨t', rfl⟩

theorem parseDec_bad {c : Char} {s : Str} (h1 : isDigit c = false) (h2 : c ≠ '.') : parseDec (c :: s) = none := by
  unfold parseDec
  simp only [List.takeWhile_cons, h1, List.dropWhile_cons, Bool.false_eq_true, if_false]
  split
  · rename_i h; injection h with h _; exact absurd h h2
  · simp

theorem pyFloat_bad {c d : Char} {s : Str} (hs : strip (c :: d :: s) = c :: d :: s)
    (h : c = 'e' ∨ c = '+' ∧ (d = '+' ∨ d = 'e')) : pyFloat (c :: d :: s) = none := by
  unfold pyFloat
  rw [hs]
  cases hu : unUnderscore false (c :: d :: s) with
  | none => rfl
  | some t =>
    rcases h with rfl | ⟨rfl, hd⟩
    · obtain ⟨t', rfl⟩ := unUnderscore_head (by decide) hu
      have hsp : splitSign ('e' :: t') = (false, 'e' :: t') := rfl
      simp only [hsp]
      rw [if_neg, if_neg, parseDec_bad (by decide) (by decide)]
      · rfl
      · intro h; simp [lower] at h; exact absurd h.1 (by decide)
      · rintro (h | h) <;> (simp [lower] at h; exact absurd h.1 (by decide))
    · have hu' : ∃ t', t = '+' :: d :: t' := by
        unfold unUnderscore at hu
        split at hu
        · rename_i h1; cases h1
        · rename_i h1; injection h1 with h1 _; exact absurd h1 (by decide)
        · rename_i h1; injection h1 with h1 _; exact absurd h1 (by decide)
        · rename_i h1
          injection h1 with h1 h2
          subst h1 h2
          cases hv : unUnderscore (isDigit '+') (d :: s) with
          | none => rw [hv] at hu; cases hu
          | some t' =>
            rw [hv] at hu
            cases hu
            obtain ⟨t'', rfl⟩ := unUnderscore_head (by rcases hd with rfl | rfl <;> decide) hv
            exact ⟨t'', rfl⟩
      obtain ⟨t', rfl⟩ := hu'
      have hsp : splitSign ('+' :: d :: t') = (false, d :: t') := rfl
      simp only [hsp]
      rw [if_neg, if_neg, parseDec_bad (by rcases hd with rfl | rfl <;> decide) (by rcases hd with rfl | rfl <;> decide)]
      · rfl
      · intro h; rcases hd with rfl | rfl <;> (simp [lower] at h; exact absurd h.1 (by decide))
      · rintro (h | h) <;> rcases hd with rfl | rfl <;> (simp [lower] at h; exact absurd h.1 (by decide))

theorem str2float_plus {r : Str} (hs : strip ('+' :: '+' :: '+' :: r) = '+' :: '+' :: '+' :: r) :
    str2float ('+' :: '+' :: '+' :: r) = .error .valueError := by
  have hl := (strip_head_last ('+' :: '+' :: '+' :: r)).2
  rw [hs] at hl
  have key : ∀ (a b : Str) (c d : Char) (s : Str), a ++ b = '+' :: '+' :: '+' :: r → b ≠ [] →
      a ++ 'e' :: b = c :: d :: s → (c = 'e' ∨ c = '+' ∧ (d = '+' ∨ d = 'e')) →
      pyFloat (a ++ 'e' :: b) = none := by
    intro a b c d s hab hb he hcd
    have hst : strip (a ++ 'e' :: b) = a ++ 'e' :: b := by
      refine strip_eq_self_of ?_ ?_
      · intro x hx
        rw [he] at hx
        simp at hx
        subst hx
        rcases hcd with rfl | ⟨rfl, _⟩ <;> rfl
      · intro x hx
        refine hl x ?_
        rw [← hab, List.getLast?_append_of_ne_nil _ hb]
        rw [List.getLast?_append_of_ne_nil _ (by simp), List.getLast?_cons_of_ne_nil hb] at hx
        exact hx
    rw [he] at hst ⊢
    exact pyFloat_bad hst hcd
  have h2 : pyFloat (('+' :: '+' :: '+' :: r).take (('+' :: '+' :: '+' :: r).length - 4) ++ 'e' ::
      ('+' :: '+' :: '+' :: r).drop (('+' :: '+' :: '+' :: r).length - 4)) = none := by
    have hd : ('+' :: '+' :: '+' :: r).drop (('+' :: '+' :: '+' :: r).length - 4) ≠ [] := by
      intro h
      have := congrArg List.length h
      simp at this
      omega
    rcases r with _ | ⟨x, _ | ⟨y, _ | ⟨z, r⟩⟩⟩
    · exact key _ _ 'e' '+' _ (List.take_append_drop _ _) hd rfl (.inl rfl)
    · exact key _ _ 'e' '+' _ (List.take_append_drop _ _) hd rfl (.inl rfl)
    · exact key _ _ '+' 'e' _ (List.take_append_drop _ _) hd rfl (.inr ⟨rfl, .inr rfl⟩)
    · exact key _ _ '+' '+' _ (List.take_append_drop _ _) hd rfl (.inr ⟨rfl, .inl rfl⟩)
  unfold str2float
  rw [pyFloat_bad hs (.inr ⟨rfl, .inl rfl⟩)]
  simp only [h2]

theorem strip_plus (x : Str) : ∃ y, strip ('+' :: '+' :: '+' :: x) = '+' :: '+' :: '+' :: y := by
  obtain ⟨a, b, ha, hb, h⟩ := strip_parts ('+' :: '+' :: '+' :: x)
  have hsp : isSpace '+' ≠ true := by decide
  have hb' : ∀ t, b ≠ '+' :: t := by
    rintro t rfl
    exact hsp (hb _ (by simp))
  cases a with
  | cons c a =>
    injection h with h1 _
    subst h1
    exact absurd (ha _ (by simp)) hsp
  | nil =>
    rw [List.nil_append] at h
    generalize strip ('+' :: '+' :: '+' :: x) = t at h
    rcases t with _ | ⟨c, _ | ⟨d, _ | ⟨e, t⟩⟩⟩
    · exact absurd h.symm (hb' _)
    · injection h with _ h
      exact absurd h.symm (hb' _)
    · injection h with _ h
      injection h with _ h
      exact absurd h.symm (hb' _)
    · injection h with h1 h
      injection h with h2 h
      injection h with h3 h
      subst h1 h2 h3
      exact ⟨t, rfl⟩

theorem startsPlus_cons {l : Str} (h : startsPlus l = true) : ∃ x, l = '+' :: '+' :: '+' :: x := by
  unfold startsPlus startsWith at h
  rw [List.isPrefixOf_iff_prefix] at h
  obtain ⟨x, rfl⟩ := h
  exact ⟨x, rfl⟩

theorem readRecord_plus {plus : Str} (h : startsPlus plus = true) : readRecord Fmt.incon0 plus = .error .valueError := by
  obtain ⟨x, rfl⟩ := startsPlus_cons h
  have hf : readField ⟨.e, 20, 13⟩ (slice ('+' :: '+' :: '+' :: x) 0 20) = .error .valueError := by
    have hs : slice ('+' :: '+' :: '+' :: x) 0 20 = '+' :: '+' :: '+' :: x.take 17 := rfl
    rw [hs]
    obtain ⟨y, hy⟩ := strip_plus (x.take 17)
    have hyy := strip_strip ('+' :: '+' :: '+' :: x.take 17)
    rw [hy] at hyy
    unfold readField
    simp only [reduceCtorEq, if_false, hy, str2float_plus hyy]
    rfl
  show readFrom _ 0 (⟨.e, 20, 13⟩ :: _) = _
  rw [readFrom, hf]
  rfl

theorem inconStep_plus {fmt : Except PyErr (List Tok)} {plus : Str} (hp : startsPlus plus = true) (B : List Str) (s : InconState)
    {body : List Str} (hb : ∀ l ∈ body, stopsRows l = false) {t : Turn InconState} {rest : List Str}
    (h : inconStep fmt s (body ++ plus :: B) = .ok (t, rest)) :
    (∃ s', t = .stop s' ∧ rest = B ∧ inconStep fmt s (body ++ [['\n']]) = .ok (t, [])) ∨
      ∃ s' body', t = .more s' ∧ rest = body' ++ plus :: B ∧ (∀ l ∈ body', stopsRows l = false) ∧
        inconStep fmt s (body ++ [['\n']]) = .ok (t, body' ++ [['\n']]) := by
  have hsp : stopsRows plus = true := by rw [stopsRows, hp, Bool.or_true]
  have hsn : stopsRows ['\n'] = true := by decide
  cases body with
  | nil =>
    left
    unfold inconStep at h ⊢
    simp only [List.nil_append, next, ok_bind, hsp, hsn, if_true] at h ⊢
    cases h
    exact ⟨s, rfl, rfl, rfl⟩
  | cons l body =>
    right
    have hl := hb l (by simp)
    unfold inconStep at h ⊢
    simp only [List.cons_append, next, ok_bind, hl, Bool.false_eq_true, if_false] at h ⊢
    obtain ⟨f, hf, h⟩ := bind_eq_ok.1 h
    obtain ⟨d1, hd1, h⟩ := bind_eq_ok.1 h
    cases body with
    | nil =>
      simp only [List.nil_append, next, ok_bind, readRecord_plus hp] at h
      cases h
    | cons l2 body =>
      simp only [List.cons_append, next, ok_bind] at h ⊢
      obtain ⟨d2, hd2, h⟩ := bind_eq_ok.1 h
      obtain ⟨⟨d3, two, ls⟩, hd3, h⟩ := bind_eq_ok.1 h
      cases h
      rw [hf, ok_bind, hd1, ok_bind, hd2, ok_bind]
      have hb2 : ∀ l ∈ body, stopsRows l = false := fun l hl => hb l (by simp [hl])
      have key : ∃ body', ls = body' ++ plus :: B ∧ (∀ l ∈ body', stopsRows l = false) ∧
          readThird Fmt.incon0 stopsRows s.2 (body ++ [['\n']]) = .ok (d3, two, body' ++ [['\n']]) := by
        unfold readThird at hd3 ⊢
        cases h2 : s.2 with
        | false =>
          rw [h2] at hd3
          cases hd3
          exact ⟨body, rfl, hb2, rfl⟩
        | true =>
          rw [h2] at hd3
          simp only [if_true] at hd3 ⊢
          cases body with
          | nil =>
            simp only [List.nil_append, next, ok_bind, hsp, if_true] at hd3
            cases hd3
            exact ⟨[], rfl, by simp, rfl⟩
          | cons l3 body =>
            have h3 := hb2 l3 (by simp)
            simp only [List.cons_append, next, ok_bind, h3, Bool.false_eq_true, if_false] at hd3 ⊢
            split at hd3
            · cases hd3
              exact ⟨body, rfl, fun l hl => hb2 l (by simp [hl]), rfl⟩
            · cases hd3
              exact ⟨l3 :: body, rfl, hb2, rfl⟩
            · cases hd3
      obtain ⟨body', rfl, h1, h2⟩ := key
      exact ⟨_, body', rfl, rfl, h1, by rw [h2]; rfl⟩

theorem loop_plus {fmt : Except PyErr (List Tok)} {plus : Str} (hp : startsPlus plus = true) (B : List Str) (n : ℕ)
    (s s' : InconState) {body : List Str} (hb : ∀ l ∈ body, stopsRows l = false) {rest : List Str}
    (h : loop (inconStep fmt) n s (body ++ plus :: B) = .ok (s', rest)) :
    rest = B ∧ loop (inconStep fmt) n s (body ++ [['\n']]) = .ok (s', []) := by
  induction n generalizing s body with
  | zero => cases h
  | succ n ih =>
    rw [loop] at h ⊢
    cases hx : inconStep fmt s (body ++ plus :: B) with
    | error e => rw [hx] at h; cases h
    | ok x =>
      obtain ⟨x, t⟩ := x
      rw [hx] at h
      rcases inconStep_plus hp B s hb hx with ⟨s1, rfl, rfl, h1⟩ | ⟨s1, body', rfl, rfl, h1, h2⟩
      · rw [h1]
        cases h
        exact ⟨rfl, rfl⟩
      · rw [h2]
        exact ih s1 h1 h

theorem safe_inconStep {fmt : Except PyErr (List Tok)} (hf : NoDiv fmt) (s : InconState) (ls : List Str) :
    SafeTurn ls.length (inconStep fmt s ls) := by
  refine safeTurn_then (safe_next ls) fun line ls1 h1 => ?_
  dsimp only
  split
  · show ls1.length ≤ ls.length; omega
  · refine safeTurn_bind hf fun f => ?_
    refine safeTurn_bind (noDiv_readRecord _ _) fun d => ?_
    refine safeTurn_then (k := 1) ((safe_next ls1).mono (by omega)) fun line ls2 h2 => ?_
    refine safeTurn_bind (noDiv_readRecord _ _) fun d => ?_
    refine safeTurn_third fun d' two ls3 (h3 : ls3.length ≤ ls2.length) => ?_
    show ls3.length + 1 ≤ ls.length
    omega

theorem readIncon_plus {given : Option ℕ} {plus : Str} (hp : startsPlus plus = true) {B body : List Str}
    (hb : ∀ l ∈ body, stopsRows l = false) {x : Table Incon} {rest : List Str}
    (h : readIncon given (body ++ plus :: B) = .ok (x, rest)) :
    rest = B ∧ readIncon given (body ++ [['\n']]) = .ok (x, []) := by
  unfold readIncon at h ⊢
  obtain ⟨⟨l, ls⟩, h1, h⟩ := bind_eq_ok.1 h
  obtain ⟨⟨s, ls'⟩, h2, h⟩ := bind_eq_ok.1 h
  cases h
  unfold whileTrue at h2
  obtain ⟨rfl, h3⟩ := loop_plus hp B _ _ _ hb h2
  refine ⟨rfl, ?_⟩
  cases body with
  | nil =>
    cases h3
    rfl
  | cons l' body =>
    cases h1
    rw [loop_fuel (safe_inconStep (noDiv_formatFor _ _)) _ ((l :: body ++ [['\n']]).length + 1) _ _
      (by simp) (by omega)] at h3
    show whileTrue _ _ _ >>= _ = _
    unfold whileTrue
    rw [h3]
    rfl

end Verif.Props
