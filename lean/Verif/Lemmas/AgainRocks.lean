import Verif.Lemmas.Again

/-! Helper lemmas: ROCKS, RPCAP and INDOM of a file that was read. -/

set_option linter.unusedSimpArgs false

namespace Verif.Model
open Verif.Py Verif.Spec Verif.Props

theorem concatM_map {α β γ : Type} (f : β → Except PyErr (List γ)) (g : α → β) (l : List α) :
    concatM f (l.map g) = concatM (fun a => f (g a)) l := by
  induction l with
  | nil => rfl
  | cons a l ih => simp only [List.map_cons, concatM, ih]

theorem concatM_keys {β γ : Type} {d l : List (Val × β)} (G : Val → β → Except PyErr (List γ))
    (h : ∀ e ∈ l, dictGet d e.1 = .ok e.2) :
    concatM (fun k => do
      let r ← dictGet d k
      G k r) (l.map (·.1)) = concatM (fun e => G e.1 e.2) l := by
  rw [concatM_map]
  exact concatM_congr fun e he => by simp [h e he]

theorem dictGet_rows {β : Type} {l : List (Val × β)} (h : (l.map (·.1)).Nodup) :
    ∀ e ∈ l, dictGet l e.1 = .ok e.2 := fun e he => dictGet_mem (k := e.1) (v := e.2) h he

theorem rockOrder_self {β : Type} (l : List (Val × β)) :
    rockOrder (some (l.map (·.1))) l = l.map (·.1) := by
  unfold rockOrder
  simp only
  rw [List.filter_eq_nil_iff.2 (by simp), List.append_nil]

/-- Rocks written in their own order. -/
theorem concatM_self {β γ : Type} {l : List (Val × β)} (G : Val → β → Except PyErr (List γ))
    (h : (l.map (·.1)).Nodup) :
    concatM (fun k => do
      let r ← dictGet l k
      G k r) (rockOrder (some (l.map (·.1))) l) = concatM (fun e => G e.1 e.2) l := by
  rw [rockOrder_self]
  exact concatM_keys G (dictGet_rows h)

variable {p : Params}

/-- Rocks written in the order of the parameters. -/
theorem concatM_rocks {β γ : Type} (hr : RocksOk p) (f : Val × RawRock → β)
    (G : Val → β → Except PyErr (List γ)) :
    concatM (fun k => do
      let r ← dictGet (p.rocks.map fun e => (e.1, f e)) k
      G k r) (rockOrder p.rocksOrder (p.rocks.map fun e => (e.1, f e))) =
      concatM (fun e => G e.1 (f e)) (rockRows p) := by
  have hk : (p.rocks.map fun e => (e.1, f e)).map (·.1) = p.rocks.map (·.1) := by
    simp [List.map_map, Function.comp_def]
  obtain ⟨hperm, hkeys⟩ := rocks_arranged hr
  have hks : rockOrder p.rocksOrder (p.rocks.map fun e => (e.1, f e)) =
      ((rockRows p).map fun e => (e.1, f e)).map (·.1) := by
    rw [rockOrder_eq, hk, ← hkeys]
    simp [List.map_map, Function.comp_def]
  rw [hks, concatM_keys, concatM_map]
  intro e he
  obtain ⟨x, hx, rfl⟩ := List.mem_map.1 he
  exact dictGet_mem (by rw [hk]; exact hr.1) (List.mem_map.2 ⟨x, hperm.mem_iff.1 hx, rfl⟩)

/-! ### Rocks -/

theorem keyed_getD (v : Val) : (keyed v).getD .none = v := by
  unfold keyed
  split
  · rename_i h; rw [h]; rfl
  · rfl

theorem raw_merge (d : DefaultRead) (r : Rock) : mergeRock d.raw r.raw = r := by
  obtain ⟨⟩ := r
  simp only [mergeRock, Rock.raw, DefaultRead.raw, Option.or_none, keyed_getD]
  congr 1
  split
  · rename_i h; rw [h]; rfl
  · rfl

theorem modBack?_some {m : Option Mod} (h : ∀ x ∈ m, ModTame x) : modBack? m = m.map modBack := by
  cases m with
  | none => rfl
  | some m =>
    have h1 := h m rfl
    simp [modBack?, stored_d_none_iff h1.2.1, h1.1]

theorem writeMod_back {m : Option Mod} (h : ∀ x ∈ m, ModTame x) (hf : ∀ x ∈ m, ModFits 5 7 x) :
    writeMod (modBack? m) = writeMod m := by
  rw [modBack?_some h]
  cases m with
  | none => rfl
  | some m =>
    obtain ⟨h1, h2, h3⟩ := h m rfl
    obtain ⟨f1, f2, f3⟩ := hf m rfl
    have e : Fmt.rpcap = dCol 5 :: sCol 5 :: List.replicate 7 (eCol 10 3) := rfl
    show writeRecord Fmt.rpcap _ = writeRecord Fmt.rpcap _
    refine writeRecord_alike (by decide) ?_ ?_
    · rw [e]
      exact ⟨f1, by simp [Fits], allFit_replicate _ _ _ f3⟩
    · rw [e]
      exact ⟨toStr_dcol f1 h2, rfl, alike_drop row_kind (alike_row (by decide) f3 h3)⟩

theorem permList_back {s : SoL} {a b c : Val} (h : perm3 s = [a, b, c]) :
    permList (permBack s) = .ok (num 4 a, num 4 b, num 4 c) := by
  unfold permBack
  rw [h]
  simp only [List.map_cons, List.map_nil]
  split
  · rename_i he
    rw [← he.1, ← he.2.1]; rfl
  · rfl

theorem writeRock_back {k : Val} {r : Rock} (m1 m2 : Option Mod) (ic : Option (List Val))
    (hk : NameFits 5 k) (hf : RockFits r) (ht : RockTame r) :
    writeRock k { rockBack r with permModel := m1, eqPore := m2, initCond := ic } = writeRock k r := by
  obtain ⟨f1, f2, f3, f4, f5⟩ := hf
  obtain ⟨t1, t2, t3, t4, -⟩ := ht
  obtain ⟨a, b, c, hl, hp⟩ := permList_eq f2
  have n4 : ∀ v, Fits (eCol 10 4) v → Tame v → toStr (eCol 10 4) (num 4 v) = toStr (eCol 10 4) v :=
    fun v h1 h2 => toStr_num (by decide) h1 h2
  simp only [List.mem_cons, List.not_mem_nil, or_false, forall_eq_or_imp, forall_eq] at f1 t1
  rw [hp] at f3 t2
  simp only [List.mem_cons, List.not_mem_nil, or_false, forall_eq_or_imp, forall_eq] at f3 t2
  obtain ⟨x1, x2, x3, x4, x5, x6, x7, x8, x9, x10, x11⟩ := f1
  obtain ⟨y1, y2, y3, y4, y5, y6, y7, y8, y9, y10, y11⟩ := t1
  obtain ⟨p1, p2, p3⟩ := f3
  obtain ⟨q1, q2, q3⟩ := t2
  set r' : Rock := { rockBack r with permModel := m1, eqPore := m2, initCond := ic } with hr'
  have hsec : r'.hasSecondary = r.hasSecondary := by
    simp [hr', Rock.hasSecondary, Rock.secondary, rockBack, num_none_iff, *]
  have hrel : r'.relPerm = r.relPerm.map modBack := by rw [hr']; exact modBack?_some t3
  have hcap : r'.cap = r.cap.map modBack := by rw [hr']; exact modBack?_some t4
  have hnad : r'.nad = r.nad := by
    simp [Rock.nad, hsec, hrel, hcap]
  have hnadfit : Fits (dCol 5) (if r.nad = 0 then .str [] else .int r.nad) := by
    have : r.nad = 0 ∨ r.nad = 1 ∨ r.nad = 2 := by
      unfold Rock.nad
      split
      · simp
      · split <;> simp
    rcases this with h | h | h <;> rw [h] <;> decide
  have hkf : Fits (sCol 5) k := by
    cases k <;> first | exact ⟨hk.2.1, hk.2.2⟩ | exact hk.elim
  have e1 : writeRecord Fmt.rocks1 [k, if r.nad = 0 then .str [] else .int r.nad, num 4 r.density,
      num 4 r.porosity, num 4 a, num 4 b, num 4 c, num 4 r.conductivity, num 4 r.specificHeat] =
      writeRecord Fmt.rocks1 [k, if r.nad = 0 then .str [] else .int r.nad, r.density, r.porosity,
        a, b, c, r.conductivity, r.specificHeat] :=
    writeRecord_alike (by decide)
      ⟨hkf, hnadfit, x1, x2, p1, p2, p3, x3, x4, trivial⟩
      ⟨rfl, rfl, n4 _ x1 y1, n4 _ x2 y2, n4 _ p1 q1, n4 _ p2 q2, n4 _ p3 q3, n4 _ x3 y3,
        n4 _ x4 y4, trivial⟩
  have e2 : writeRecord Fmt.rocks2 r'.secondary = writeRecord Fmt.rocks2 r.secondary :=
    writeRecord_alike (by decide) ⟨x5, x6, x7, x8, x9, x10, x11, trivial⟩
      ⟨n4 _ x5 y5, n4 _ x6 y6, n4 _ x7 y7, n4 _ x8 y8, n4 _ x9 y9, n4 _ x10 y10, n4 _ x11 y11,
        trivial⟩
  have e3 : writeMod r'.relPerm = writeMod r.relPerm := by rw [hr']; exact writeMod_back t3 f4
  have e4 : writeMod r'.cap = writeMod r.cap := by rw [hr']; exact writeMod_back t4 f5
  have e5 : permList r'.permeability = .ok (num 4 a, num 4 b, num 4 c) := by
    rw [hr']; exact permList_back hp
  unfold writeRock
  rw [e5, hl, ok_bind, ok_bind]
  simp only [hnad, hsec, e2, e3, e4]
  rw [← e1]
  rfl

theorem rockFull_eq (hf : p.flac = none) (r : RawRock) :
    rockFull p r = { rockBack (mergeRock p.dflt r) with
      permModel := none, eqPore := none, initCond := initOf r.initCond } := by
  simp [rockFull, hf]

theorem params_dflt : (fileBack p).params.dflt = DefaultRead.raw ⟨modBack? p.dflt.relPerm,
    modBack? p.dflt.cap, nonEmpty (initBack p.initCond) (initBack p.initCond)⟩ := rfl

theorem params_rocks : (fileBack p).params.rocks =
    (rockRows p).map fun e => (e.1, (rockFull p e.2).raw) := by
  simp [FileRead.params, fileBack, List.map_map, Function.comp_def]

theorem params_merged : (fileBack p).params.merged =
    (rockRows p).map fun e => (e.1, rockFull p e.2) := by
  unfold Params.merged
  rw [params_rocks, params_dflt, List.map_map]
  simp only [Function.comp_def, raw_merge]

theorem params_rocksOrder : (fileBack p).params.rocksOrder = some ((rockRows p).map (·.1)) := rfl

theorem rockRows_mem (hr : RocksOk p) {e : Val × RawRock} : e ∈ rockRows p ↔ e ∈ p.rocks :=
  (rocks_arranged hr).1.mem_iff

theorem again_rocks (hr : RocksOk p) (hf : p.flac = none)
    (ht : ∀ e ∈ p.rocks, RockTame (mergeRock p.dflt e.2)) :
    writeRocks (fileBack p).params.rocksOrder (fileBack p).params.merged =
      writeRocks p.rocksOrder p.merged := by
  unfold writeRocks
  rw [params_merged, params_rocksOrder]
  congr 1
  have hk : ((rockRows p).map fun e => (e.1, rockFull p e.2)).map (·.1) = (rockRows p).map (·.1) := by
    simp [List.map_map, Function.comp_def]
  have h1 := concatM_self (l := (rockRows p).map fun e => (e.1, rockFull p e.2)) writeRock
    (by rw [hk]; exact rockRows_nodup hr)
  rw [hk] at h1
  have h2 := concatM_rocks hr (fun e => mergeRock p.dflt e.2) writeRock
  unfold Params.merged
  rw [h1, h2, concatM_map]
  refine concatM_congr fun e he => ?_
  have he := (rockRows_mem hr).1 he
  dsimp only
  rw [rockFull_eq hf]
  exact writeRock_back _ _ _ (hr.2.2.1 e he).1 (hr.2.2.1 e he).2 (ht e he)

/-! ### Default models -/

theorem hasId_back {m : Option Mod} (h : ∀ x ∈ m, ModTame x) : hasId (modBack? m) = hasId m := by
  rw [modBack?_some h]
  cases m with
  | none => rfl
  | some m =>
    have h1 := h m rfl
    simp [hasId, modBack, stored_d_none_iff h1.2.1, h1.1]

theorem again_rpcap (hr : RocksOk p) (h1 : ∀ m ∈ p.dflt.relPerm, ModTame m)
    (h2 : ∀ m ∈ p.dflt.cap, ModTame m) :
    onlyIf (fileBack p).params.hasRpcap
        (writeRpcap (fileBack p).params.dflt.relPerm (fileBack p).params.dflt.cap) =
      onlyIf p.hasRpcap (writeRpcap p.dflt.relPerm p.dflt.cap) := by
  have e : (fileBack p).params.hasRpcap = p.hasRpcap := by
    unfold Params.hasRpcap
    rw [params_dflt]
    simp only [DefaultRead.raw, hasId_back h1, hasId_back h2]
  rw [e, params_dflt]
  simp only [DefaultRead.raw, writeRpcap, writeMod_back h1 hr.2.2.2.1,
    writeMod_back h2 hr.2.2.2.2.1]

/-! ### Initial conditions of the rocks -/

theorem take_any {l : List Val} (n : ℕ) :
    ((dropTrailing l).take n).any (· ≠ .none) = (l.take n).any (· ≠ .none) := by
  obtain ⟨k, h1, -⟩ := isPruned_dropTrailing l
  conv_rhs => rw [h1]
  rw [List.take_append, List.any_append, List.take_replicate]
  have : (List.replicate (min (n - (dropTrailing l).length) k) Val.none).any (· ≠ .none) = false := by
    rw [List.any_eq_false]
    intro x hx
    simp [(List.mem_replicate.1 hx).2]
  rw [this, Bool.or_false]

theorem initBack_any {l : List Val} (ht : ∀ v ∈ l, Tame v) (n : ℕ) :
    ((initBack l).take n).any (· ≠ .none) = (l.take n).any (· ≠ .none) := by
  unfold initBack
  rw [take_any, ← List.map_take, List.any_map, Bool.eq_iff_iff]
  simp only [List.any_eq_true, Function.comp_def, decide_eq_true_eq]
  constructor
  · rintro ⟨v, hv, hn⟩
    exact ⟨v, hv, fun e => hn ((num_none_iff (ht v (List.mem_of_mem_take hv))).2 e)⟩
  · rintro ⟨v, hv, hn⟩
    exact ⟨v, hv, fun e => hn ((num_none_iff (ht v (List.mem_of_mem_take hv))).1 e)⟩

theorem hasInit_back {ic : Option (List Val)} (ht : ∀ l ∈ ic, ∀ v ∈ l, Tame v) :
    ((initOf ic).any fun d => (d.take 4).any (· ≠ .none)) =
      ic.any fun d => (d.take 4).any (· ≠ .none) := by
  cases ic with
  | none => rfl
  | some l =>
    simp only [initOf, Option.bind_some]
    split
    · simp only [Option.any_some]
      exact initBack_any (ht l rfl) 4
    · rename_i h
      simp only [Option.any_none, Option.any_some]
      symm
      rw [List.any_eq_false]
      intro x hx
      have : ¬ ∃ v ∈ l, v ≠ .none := by simpa using h
      by_contra hx'
      exact this ⟨x, List.mem_of_mem_take hx, by simpa using hx'⟩

theorem indomFits_of (hi : IndomOk p) {e : Val × RawRock} (he : e ∈ p.rocks) {l : List Val}
    (hl : e.2.initCond = some l) (ha : l.any (· ≠ .none) = true) : IndomFits (e.1, l) := by
  refine hi.1 (e.1, l) (List.mem_filterMap.2 ⟨(e.1, e.2.initCond), ?_, ?_⟩)
  · exact List.mem_map.2 ⟨e, he, rfl⟩
  · simp only [hl, Option.bind_some, ha, if_true]

theorem isNumber_ne {v : Val} (h : IsNumber v) : v ≠ .none := by rintro rfl; exact h

theorem writeIndomRock_back {k : Val} {ic : Option (List Val)}
    (ht : ∀ l ∈ ic, ∀ v ∈ l, Tame v)
    (hf : ∀ l ∈ ic, l.any (· ≠ .none) = true → IndomFits (k, l)) :
    writeIndomRock k (initOf ic) = writeIndomRock k ic := by
  cases ic with
  | none => rfl
  | some l =>
    have ht := ht l rfl
    simp only [initOf, Option.bind_some]
    by_cases ha : l.any (· ≠ .none) = true
    · obtain ⟨-, -, h3, h4⟩ := hf l rfl ha
      have hany : (initBack l).any (· ≠ .none) = true := by
        have hne : initBack l ≠ [] := by
          rw [ne_eq, init_nil ht]
          obtain ⟨v, hv, hn⟩ := List.any_eq_true.1 ha
          intro h
          exact absurd (h v hv) (by simpa using hn)
        have := (dropTrailing_length (l := l.map (num 13)) (n := 0)).1
          (List.length_pos_iff.2 hne)
        have h0 := initBack_any ht l.length
        have hlen : (initBack l).length ≤ l.length := by
          obtain ⟨k, h1, -⟩ := isPruned_dropTrailing (l.map (num 13))
          have := congrArg List.length h1
          simp only [List.length_map, List.length_append, List.length_replicate] at this
          unfold initBack
          omega
        rw [List.take_of_length_le hlen, List.take_length] at h0
        rw [h0]; exact ha
      have hlen : 4 < (initBack l).length ↔ 4 < l.length := by
        rw [init_length ht]
        constructor
        · rintro ⟨v, hv, -⟩
          by_contra hle
          rw [List.drop_eq_nil_of_le (by omega)] at hv
          simp at hv
        · intro h
          obtain ⟨v, hv, hn⟩ := h4 h
          exact ⟨v, hv, isNumber_ne hn⟩
      rw [if_pos ha]
      unfold writeIndomRock
      simp only [hany, ha, if_true, hlen]
      have e : Fmt.indom0 = List.replicate 4 (eCol 20 13) := rfl
      rw [e, init_take h3 ht, init_drop h3 ht]
    · rw [if_neg ha]
      unfold writeIndomRock
      simp only [ha, if_false]
      rfl

theorem again_indom (hr : RocksOk p) (hi : IndomOk p)
    (ht : ∀ e ∈ p.rocks, RockTame (mergeRock p.dflt e.2)) :
    onlyIf (fileBack p).params.hasIndom (writeIndom (fileBack p).params.rocksOrder
        ((fileBack p).params.merged.map fun e => (e.1, e.2.initCond))) =
      onlyIf p.hasIndom (writeIndom p.rocksOrder (p.merged.map fun e => (e.1, e.2.initCond))) := by
  have ht' : ∀ e ∈ p.rocks, ∀ l ∈ e.2.initCond, ∀ v ∈ l, Tame v := fun e he => (ht e he).2.2.2.2
  have e1 : (fileBack p).params.hasIndom = p.hasIndom := by
    unfold Params.hasIndom
    rw [params_rocks, List.any_map]
    have : ∀ e ∈ rockRows p, ((fun e : Val × RawRock => rockHasInit e.2) ∘
        fun e => (e.1, (rockFull p e.2).raw)) e = rockHasInit e.2 := by
      intro e he
      exact hasInit_back (ht' e ((rockRows_mem hr).1 he))
    have hc : ∀ (f g : Val × RawRock → Bool) (l : List (Val × RawRock)), (∀ e ∈ l, f e = g e) →
        l.any f = l.any g := by
      intro f g l h
      induction l with
      | nil => rfl
      | cons a l ih => rw [List.any_cons, List.any_cons, h a (by simp), ih fun e he => h e (by simp [he])]
    rw [hc _ _ _ this]
    exact (rocks_arranged hr).1.any_eq
  have e2 : writeIndom (fileBack p).params.rocksOrder
      ((fileBack p).params.merged.map fun e => (e.1, e.2.initCond)) =
      writeIndom p.rocksOrder (p.merged.map fun e => (e.1, e.2.initCond)) := by
    unfold writeIndom Params.merged
    rw [← Params.merged, params_merged, params_rocksOrder, List.map_map, List.map_map]
    simp only [Function.comp_def]
    congr 1
    have hk : ((rockRows p).map fun e => (e.1, (rockFull p e.2).initCond)).map (·.1) =
        (rockRows p).map (·.1) := by
      simp [List.map_map, Function.comp_def]
    have h1 := concatM_self (l := (rockRows p).map fun e => (e.1, (rockFull p e.2).initCond))
      writeIndomRock (by rw [hk]; exact rockRows_nodup hr)
    rw [hk] at h1
    have h2 := concatM_rocks hr (fun e => (mergeRock p.dflt e.2).initCond) writeIndomRock
    rw [h1, h2, concatM_map]
    refine concatM_congr fun e he => ?_
    have he := (rockRows_mem hr).1 he
    exact writeIndomRock_back (ht' e he) fun l hl ha => indomFits_of hi he hl ha
  rw [e1, e2]

end Verif.Model
