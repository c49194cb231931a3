import Verif.Spec.AgainFlac
import Verif.Lemmas.AgainMesh

/-! Helper lemmas: a FLAC block that was read. -/

namespace Verif.Model
open Verif.Py Verif.Spec Verif.Props

variable {p : Params}

theorem again_rocks_flac (hr : RocksOk p) (ht : ∀ e ∈ p.rocks, RockTame (mergeRock p.dflt e.2)) :
    writeRocks (fileBack p).params.rocksOrder (fileBack p).params.merged =
      writeRocks p.rocksOrder p.merged := by
  unfold writeRocks
  rw [params_merged, params_rocksOrder]
  congr 1
  have hk : ((rockRows p).map fun e => (e.1, rockFull p e.2)).map (·.1) = (rockRows p).map (·.1) := by
    simp [List.map_map, Function.comp_def]
  have h1 := concatM_self (l := (rockRows p).map fun e => (e.1, rockFull p e.2)) writeRock
    (by rw [hk]; exact rockRows_nodup hr)
  rw [hk] at h1
  have h2 := concatM_rocks hr (fun e => mergeRock p.dflt e.2) writeRock
  unfold Params.merged
  rw [h1, h2, concatM_map]
  refine concatM_congr fun e he => ?_
  have he := (rockRows_mem hr).1 he
  exact writeRock_back _ _ _ (hr.2.2.1 e he).1 (hr.2.2.1 e he).2 (ht e he)

theorem writeFlacRock_back {m : Mod × Mod} (f1 : ModFits 10 7 m.1) (f2 : ModFits 5 7 m.2)
    (t1 : Tame m.1.id ∧ ∀ v ∈ m.1.params, Tame v) (t2 : Tame m.2.id ∧ ∀ v ∈ m.2.params, Tame v) :
    writeFlacRock (flacBack m).1 (flacBack m).2 = writeFlacRock m.1 m.2 := by
  have e2 : Fmt.flac2 = dCol 10 :: List.replicate 7 (eCol 10 3) := rfl
  have e3 : Fmt.flac3 = dCol 5 :: sCol 5 :: List.replicate 7 (eCol 10 3) := rfl
  have a1 : writeRecord Fmt.flac2 ((flacBack m).1.id :: (flacBack m).1.params) =
      writeRecord Fmt.flac2 (m.1.id :: m.1.params) := by
    refine writeRecord_alike (by decide) ?_ ?_
    · rw [e2]
      exact ⟨f1.1, allFit_replicate _ _ _ f1.2.2⟩
    · rw [e2]
      exact ⟨toStr_dcol f1.1 t1.1, alike_drop row_kind (alike_row (by decide) f1.2.2 t1.2)⟩
  have a2 : writeRecord Fmt.flac3 ((flacBack m).2.id :: .none :: (flacBack m).2.params) =
      writeRecord Fmt.flac3 (m.2.id :: .none :: m.2.params) := by
    refine writeRecord_alike (by decide) ?_ ?_
    · rw [e3]
      exact ⟨f2.1, by simp [Fits], allFit_replicate _ _ _ f2.2.2⟩
    · rw [e3]
      exact ⟨toStr_dcol f2.1 t2.1, rfl, alike_drop row_kind (alike_row (by decide) f2.2.2 t2.2)⟩
  unfold writeFlacRock
  rw [a1, a2]

theorem again_flac (hr : RocksOk p) (ht : FlacTame p) :
    (ifSome (fileBack p).params.flac fun f => writeFlac f (fileBack p).params.rocksOrder
        ((fileBack p).params.merged.map fun e => (e.1, flacModels e.2))) =
      ifSome p.flac fun f => writeFlac f p.rocksOrder (p.merged.map fun e => (e.1, flacModels e.2)) := by
  cases hf : p.flac with
  | none =>
    have : (fileBack p).params.flac = none := by simp [FileRead.params, fileBack, hf]
    rw [this]
    rfl
  | some f =>
    have hfit := hr.2.2.2.2.2
    obtain ⟨f1, f2, f3⟩ := hfit f (by rw [hf]; rfl)
    obtain ⟨t1, t2, t3⟩ := ht f (by rw [hf]; rfl)
    have hb : (fileBack p).params.flac = some ⟨.int (if truthy f.creep then 1 else 0),
        stored (dCol 5) f.porosityModel, stored (dCol 5) f.version⟩ := by
      simp [FileRead.params, fileBack, hf]
    rw [hb]
    show writeFlac _ _ _ = writeFlac _ _ _
    have hm : (fileBack p).params.merged.map (fun e => (e.1, flacModels e.2)) =
        (rockRows p).map fun e => (e.1, flacBack (flacModels (mergeRock p.dflt e.2))) := by
      rw [params_merged, List.map_map]
      refine List.map_congr_left fun e _ => ?_
      simp [rockFull, hf, flacModels, Function.comp_def]
    have hm' : p.merged.map (fun e => (e.1, flacModels e.2)) =
        p.rocks.map fun e => (e.1, flacModels (mergeRock p.dflt e.2)) := by
      rw [Params.merged, List.map_map]
      rfl
    have hk : ((rockRows p).map fun e => (e.1, flacBack (flacModels (mergeRock p.dflt e.2)))).map (·.1) =
        (rockRows p).map (·.1) := by
      simp [List.map_map, Function.comp_def]
    have h1 := concatM_self (l := (rockRows p).map fun e => (e.1, flacBack (flacModels (mergeRock p.dflt e.2))))
      (fun _ m => writeFlacRock m.1 m.2) (by rw [hk]; exact rockRows_nodup hr)
    rw [hk] at h1
    have h2 := concatM_rocks hr (fun e => flacModels (mergeRock p.dflt e.2)) (fun _ m => writeFlacRock m.1 m.2)
    have e1 : Fmt.flac1 = List.replicate 16 (dCol 5) := rfl
    have htr : truthy (.int (if truthy f.creep then 1 else 0)) = truthy f.creep := by
      cases truthy f.creep <;> rfl
    have a1 : writeRecord Fmt.flac1 [.bool (truthy (.int (if truthy f.creep then 1 else 0))),
        stored (dCol 5) f.porosityModel, stored (dCol 5) f.version] =
        writeRecord Fmt.flac1 [.bool (truthy f.creep), f.porosityModel, f.version] := by
      rw [htr]
      refine writeRecord_alike (by decide) ?_ ?_
      · rw [e1]
        exact ⟨by cases truthy f.creep <;> decide, f1, f2, trivial⟩
      · rw [e1]
        exact ⟨rfl, toStr_dcol f1 t1, toStr_dcol f2 t2, trivial⟩
    unfold writeFlac
    simp only
    rw [a1, hm, hm', params_rocksOrder, h1, h2, concatM_map]
    congr 1
    have h3 : concatM (fun e : Val × RawRock => writeFlacRock (flacBack (flacModels (mergeRock p.dflt e.2))).1
        (flacBack (flacModels (mergeRock p.dflt e.2))).2) (rockRows p) =
        concatM (fun e : Val × RawRock => writeFlacRock (flacModels (mergeRock p.dflt e.2)).1
          (flacModels (mergeRock p.dflt e.2)).2) (rockRows p) := by
      refine concatM_congr fun e he => ?_
      have he := (rockRows_mem hr).1 he
      exact writeFlacRock_back (f3 e he).1 (f3 e he).2 (t3 e he _ (by simp)) (t3 e he _ (by simp))
    rw [h3]

end Verif.Model
