import Verif.Lemmas.Rocks
import Verif.Lemmas.Order

/-!
# Properties of the ROCKS, RPCAP and FLAC blocks (C09-C11)
-/

set_option linter.unusedSimpArgs false

namespace Verif.Props
open Verif.Py Verif.Model Verif.Spec

/-! ## C09: ROCKS -/

/-- C09. For rocks with distinct, fitting names and fitting properties, and any
admissible rock order, the ROCKS block is written, and reading its body followed
by anything gives every rock back, in the requested order, each with its own
rounded properties and models, and leaves exactly what follows the block. -/
theorem C09_rocks_round_trip (order : Option (List Val)) (rocks : List (Val × Rock))
    (hn : (rocks.map (·.1)).Nodup) (ho : OrderOk order (rocks.map (·.1)))
    (hfit : ∀ e ∈ rocks, NameFits 5 e.1 ∧ RockFits e.2) :
    ∃ (body : List Str) (l : List (Val × Rock)),
      Arranges l rocks (orderOf order (rocks.map (·.1))) ∧
      writeRocks order rocks = .ok (headLine "ROCKS" :: body) ∧
      ∀ rest, readRocks (body ++ rest) =
        .ok ((l.map fun e => (e.1, rockBack e.2), l.map (·.1)), rest) := by
  obtain ⟨l, hl, hget⟩ := exists_arranged rocks hn ho
  have hlfit : ∀ e ∈ l, NameFits 5 e.1 ∧ RockFits e.2 := fun e he => hfit e (hl.1.mem_iff.1 he)
  let comp (r : Rock) : Val × Val × Val :=
    (entry (perm3 r.permeability) 0, entry (perm3 r.permeability) 1, entry (perm3 r.permeability) 2)
  have hcomp : ∀ r, RockFits r → perm3 r.permeability = [(comp r).1, (comp r).2.1, (comp r).2.2] ∧
      permList r.permeability = .ok (comp r) := by
    intro r hr
    obtain ⟨a, b, c, h1, h2⟩ := permList_eq hr.2.1
    have : comp r = (a, b, c) := by simp [comp, h2, entry]
    rw [this]; exact ⟨h2, h1⟩
  let w (e : Val × Rock) : List Str := rockLines e.1 e.2 (comp e.2)
  refine ⟨l.flatMap w ++ [['\n']], l, hl, ?_, ?_⟩
  · have hw : concatM (fun k => dictGet rocks k >>= fun r => writeRock k r)
        (l.map (·.1)) = .ok (l.flatMap w) := by
      rw [concatM_ok (g := fun k => match rocks.lookup k with
        | some r => w (k, r)
        | none => [])]
      · rw [List.flatMap_map]
        congr 1
        apply List.flatMap_congr
        intro e he
        have := hget e he
        unfold dictGet at this
        cases h : rocks.lookup e.1 with
        | none => rw [h] at this; cases this
        | some r => rw [h] at this; cases this; rfl
      · intro k hk
        obtain ⟨e, he, rfl⟩ := List.mem_map.1 hk
        have hg := hget e he
        have hfit := hlfit e he
        rw [hg, ok_bind]
        have h2 : rocks.lookup e.1 = some e.2 := by
          unfold dictGet at hg
          cases h : rocks.lookup e.1 with
          | none => rw [h] at hg; cases hg
          | some r => rw [h] at hg; cases hg; rfl
        rw [h2]
        exact writeRock_eq hfit.1 hfit.2 (hcomp e.2 hfit.2).1 (hcomp e.2 hfit.2).2
    unfold writeRocks block
    rw [rockOrder_eq, ← hl.2, hw]
    rfl
  · intro rest
    have h := whileTrue_items (step := rockStep) w
      (fun s e => (dictSet s.1 e.1 (rockBack e.2), s.2 ++ [e.1]))
      (fun e => NameFits 5 e.1 ∧ RockFits e.2)
      (fun e _ => by simp [w, rockLines])
      (fun s e rest he => rockStep_rockLines s he.1 he.2 (hcomp e.2 he.2).1 rest)
      l hlfit ([], []) ['\n'] rest (fun s => by simp [rockStep, isBlank_newline])
    have e1 : (l.flatMap w ++ [['\n']]) ++ rest = l.flatMap w ++ ['\n'] :: rest := by simp
    rw [readRocks, e1, h]
    have hfold : ∀ (l : List (Val × Rock)) (s : RocksState), (s.1.map (·.1) ++ l.map (·.1)).Nodup →
        l.foldl (fun s e => (dictSet s.1 e.1 (rockBack e.2), s.2 ++ [e.1])) s =
          (s.1 ++ l.map (fun e => (e.1, rockBack e.2)), s.2 ++ l.map (·.1)) := by
      intro l
      induction l with
      | nil => intro s _; simp
      | cons e l ih =>
        intro s hs
        have hx : e.1 ∉ s.1.map (·.1) := by
          intro h
          have := List.disjoint_of_nodup_append hs h
          simp at this
        rw [List.foldl_cons, ih]
        · simp [dictSet_of_notMem _ _ _ hx]
        · simpa [dictSet_of_notMem _ _ _ hx] using hs
    rw [hfold l ([], []) (by simpa [hl.2] using orderOf_nodup ho hn)]
    simp

example : let r : Rock := { Rock.empty with
      density := .flt (.fin false 2600)
      permeability := SoL.many
        [.flt (.fin false (1 / 10 ^ 12)), .flt (.fin false (1 / 10 ^ 13)), .int 0]
      tortuosity := .flt (.fin false (1 / 4))
      cap := some ⟨.int 7, [.flt (.fin true (9 / 20))]⟩ }
    let rocks : List (Val × Rock) := [(.str "SAND".toList, r), (.str "CLAY".toList, Rock.empty)]
    (rocks.map (·.1)).Nodup ∧ OrderOk (some [.str "CLAY".toList]) (rocks.map (·.1)) ∧
      ∀ e ∈ rocks, NameFits 5 e.1 ∧ RockFits e.2 := by
  decide +kernel

/-! ## C10: RPCAP -/

/-- C10. The two default models come back with their ids and rounded parameters;
a model that is not set stays unset; the reader takes exactly the two lines. -/
theorem C10_rpcap_round_trip (relPerm cap : Option Mod)
    (h1 : ∀ m ∈ relPerm, ModFits 5 7 m) (h2 : ∀ m ∈ cap, ModFits 5 7 m) :
    ∃ body, writeRpcap relPerm cap = .ok (headLine "RPCAP" :: body) ∧
      ∀ rest, readRpcap (body ++ rest) = .ok ((modBack? relPerm, modBack? cap), rest) := by
  refine ⟨[modLine relPerm, modLine cap], ?_, ?_⟩
  · simp [writeRpcap, block, writeMod_eq h1, writeMod_eq h2]
  · intro rest
    simp [readRpcap, readMod_modLine h1, readMod_modLine h2]

example : ∀ m ∈ some (Model.Mod.mk (.int 3) [.flt (.fin false (3 / 10)), .none, .int (-1)]), ModFits 5 7 m := by
  decide +kernel

/-- C10. A model with an integer id keeps the id and, if its last parameter is
present, the number of parameters. -/
theorem C10_id_and_parameter_count (i : ℤ) (ps : List Val) (hl : ps.getLast? ≠ some .none)
    (hp : ∀ v ∈ ps, v = .none ∨ ∃ x, v = .flt x) :
    (modBack ⟨.int i, ps⟩).id = .int i ∧ (modBack ⟨.int i, ps⟩).params = ps.map (num 3) := by
  refine ⟨by simp [modBack, stored], ?_⟩
  have h : IsPruned (ps.map (num 3)) (ps.map (num 3)) := by
    refine ⟨0, by simp, ?_⟩
    rw [List.getLast?_map]
    cases h : ps.getLast? with
    | none => simp
    | some v =>
      have hv := hp v (List.mem_of_getLast? h)
      rcases hv with rfl | ⟨x, rfl⟩
      · exact absurd h hl
      · simp [num, stored]
  exact isPruned_unique _ _ _ (isPruned_dropTrailing _) h

example : ([.none, .flt (.fin false 2)] : List Val).getLast? ≠ some .none := by decide

/-! ## C11: FLAC -/

theorem flacRock_lines (m : Mod × Mod) (h1 : ModFits 10 7 m.1) (h2 : ModFits 5 7 m.2) :
    AllFit Fmt.flac2 (m.1.id :: m.1.params) ∧ AllFit Fmt.flac3 (m.2.id :: .none :: m.2.params) ∧
    storedAll Fmt.flac2 (m.1.id :: m.1.params) = stored (dCol 10) m.1.id ::
      (m.1.params.map (num 3) ++ List.replicate (7 - m.1.params.length) .none) ∧
    storedAll Fmt.flac3 (m.2.id :: .none :: m.2.params) = stored (dCol 5) m.2.id :: .none ::
      (m.2.params.map (num 3) ++ List.replicate (7 - m.2.params.length) .none) := by
  refine ⟨⟨h1.1, allFit_replicate 7 (eCol 10 3) _ h1.2.2⟩, allFit_rpcap h2, ?_,
    storedAll_rpcap m.2 h2.2.1⟩
  show stored (dCol 10) m.1.id :: storedAll (List.replicate 7 (eCol 10 3)) m.1.params = _
  rw [storedAll_replicate 7 (eCol 10 3) _ h1.2.1]
  simp [stored_e, num_none]

/-- C11. The FLAC block gives back the creep flag as 0 or 1, the porosity model
and the version, and for every rock of the rock order its own two models; the
blank line that ends the block is left for the main loop, which skips it. -/
theorem C11_flac_round_trip (flac : Flac) (order : Option (List Val))
    (rocks : List (Val × (Mod × Mod))) (hn : (rocks.map (·.1)).Nodup)
    (ho : OrderOk order (rocks.map (·.1)))
    (hf1 : Fits (dCol 5) flac.porosityModel) (hf2 : Fits (dCol 5) flac.version)
    (hfit : ∀ e ∈ rocks, ModFits 10 7 e.2.1 ∧ ModFits 5 7 e.2.2) :
    ∃ (body : List Str) (l : List (Val × (Mod × Mod))),
      Arranges l rocks (orderOf order (rocks.map (·.1))) ∧
      writeFlac flac order rocks = .ok (headLine "FLAC" :: body ++ [['\n']]) ∧
      ∀ rest, readFlac (orderOf order (rocks.map (·.1))) (body ++ rest) =
        .ok ((⟨.int (if truthy flac.creep then 1 else 0), stored (dCol 5) flac.porosityModel,
          stored (dCol 5) flac.version⟩, l.map fun e => (e.1, flacBack e.2)), rest) := by
  obtain ⟨l, hl, hget⟩ := exists_arranged rocks hn ho
  have hlfit : ∀ e ∈ l, ModFits 10 7 e.2.1 ∧ ModFits 5 7 e.2.2 :=
    fun e he => hfit e (hl.1.mem_iff.1 he)
  let w (m : Mod × Mod) : List Str :=
    [lineOf Fmt.flac2 (m.1.id :: m.1.params), lineOf Fmt.flac3 (m.2.id :: .none :: m.2.params)]
  have hrec : AllFit Fmt.flac1 [.bool (truthy flac.creep), flac.porosityModel, flac.version] := by
    refine ⟨?_, hf1, hf2, trivial⟩
    cases truthy flac.creep <;> decide
  have hw1 : width Fmt.flac1 ≤ 80 := by decide
  have hw2 : width Fmt.flac2 ≤ 80 := by decide
  have hw3 : width Fmt.flac3 ≤ 80 := by decide
  refine ⟨lineOf Fmt.flac1 [.bool (truthy flac.creep), flac.porosityModel, flac.version] ::
    l.flatMap (fun e => w e.2), l, hl, ?_, ?_⟩
  · have hw : ∀ l' : List (Val × (Mod × Mod)), (∀ e ∈ l', e ∈ l) →
        concatM (fun k => dictGet rocks k >>= fun m => writeFlacRock m.1 m.2)
        (l'.map (·.1)) = .ok (l'.flatMap fun e => w e.2) := by
      intro l'
      induction l' with
      | nil => intro _; rfl
      | cons e l' ih =>
        intro hm
        have hfe := hlfit e (hm e (by simp))
        obtain ⟨a1, a2, -, -⟩ := flacRock_lines e.2 hfe.1 hfe.2
        have hone : writeFlacRock e.2.1 e.2.2 = .ok (w e.2) := by
          simp [writeFlacRock, writeRecord_eq a1, writeRecord_eq a2, w]
        simp only [List.map_cons, concatM, hget e (hm e (by simp)), ok_bind, hone,
          ih (fun x hx => hm x (by simp [hx])), List.flatMap_cons]
    unfold writeFlac block
    rw [rockOrder_eq, ← hl.2, hw l (fun _ h => h), writeRecord_eq hrec]
    rfl
  · intro rest
    have hread : ∀ (l' : List (Val × (Mod × Mod))) (acc : List (Val × (Mod × Mod))),
        (∀ e ∈ l', e ∈ l) → (acc.map (·.1) ++ l'.map (·.1)).Nodup →
        readFlacRocks (l'.map (·.1)) acc (l'.flatMap (fun e => w e.2) ++ rest) =
          .ok (acc ++ l'.map (fun e => (e.1, flacBack e.2)), rest) := by
      intro l'
      induction l' with
      | nil => intro acc _ _; simp [readFlacRocks]
      | cons e l' ih =>
        intro acc hm hnd
        have hfe := hlfit e (hm e (by simp))
        obtain ⟨a1, a2, s1, s2⟩ := flacRock_lines e.2 hfe.1 hfe.2
        have hx : e.1 ∉ acc.map (·.1) := by
          intro h
          have := List.disjoint_of_nodup_append hnd h
          simp at this
        simp only [List.map_cons, List.flatMap_cons, readFlacRocks, w, List.cons_append,
          List.nil_append, next_cons, ok_bind, readRecord_lineOf hw2 a1, readRecord_lineOf hw3 a2,
          s1, s2, entry, List.getD_cons_zero, List.drop_succ_cons, List.drop_zero, pruneNones_eq,
          dropTrailing_append_none]
        have := ih (dictSet acc e.1 (flacBack e.2)) (fun x hx => hm x (by simp [hx]))
          (by simpa [dictSet_of_notMem _ _ _ hx] using hnd)
        simp only [dictSet_of_notMem _ _ _ hx] at this ⊢
        simp only [flacBack] at this ⊢
        rw [this]
        simp
    have hs : storedAll Fmt.flac1 [.bool (truthy flac.creep), flac.porosityModel, flac.version] =
        .int (if truthy flac.creep then 1 else 0) :: stored (dCol 5) flac.porosityModel ::
          stored (dCol 5) flac.version :: storedAll (List.replicate 13 (dCol 5)) [] := by
      rfl
    simp only [readFlac, List.cons_append, next_cons, ok_bind, readRecord_lineOf hw1 hrec, hs,
      entry, List.getD_cons_zero, List.getD_cons_succ, ← hl.2]
    rw [hread l [] (fun _ h => h) (by simpa [hl.2] using orderOf_nodup ho hn)]
    simp

example : let m : Mod := ⟨.int 1, []⟩
    let m' : Mod := ⟨.int 3, [.flt (.fin false (1 / 2)), .none, .flt (.fin true 7)]⟩
    let rocks : List (Val × (Mod × Mod)) := [(.str "A".toList, (m, m')), (.str "B".toList, (m', m))]
    (rocks.map (·.1)).Nodup ∧ OrderOk none (rocks.map (·.1)) ∧
      Fits (dCol 5) (.int 3) ∧ ∀ e ∈ rocks, ModFits 10 7 e.2.1 ∧ ModFits 5 7 e.2.2 := by
  decide +kernel

end Verif.Props
