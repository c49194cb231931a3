import Verif.Lemmas.File
import Verif.Props.Rocks
import Verif.Props.Opts
import Verif.Props.Selec
import Verif.Props.Hist
import Verif.Props.Gener
import Verif.Props.MeshBlocks

/-! Helper lemmas: each block of a file, as read by the main loop. -/

set_option linter.unusedSimpArgs false

namespace Verif.Model
open Verif.Py Verif.Spec Verif.Props

/-- The next line neither starts with a number nor with blanks. -/
def HN (rest : List Str) : Prop :=
  ∃ nxt r, rest = nxt :: r ∧
    (¬ NumberText (strip (nxt.take 20)) ∧ strip (nxt.take 20) ≠ []) ∧
    (¬ NumberText (strip (nxt.take 10)) ∧ strip (nxt.take 10) ≠ [])

theorem heads_HN : Heads HN := fun kw hk _ => ⟨_, _, rfl, C14_headers kw hk, C22_headers kw hk⟩

theorem HN_end (rest : List Str) : HN (endLine :: rest) :=
  ⟨_, _, rfl, by decide +kernel, by decide +kernel⟩

theorem heads_true : Heads fun _ => True := fun _ _ _ => trivial

variable {given : Option ℕ} {Q : List Str → Prop} {p : Params}

theorem dispatch_head (kw : String) (hk : kw ∈ keywords) (kw' : String) (hk' : kw' ∈ keywords) :
    startsWith (headLine kw) kw'.toList = decide (kw = kw') := by
  revert kw' kw
  decide +kernel

theorem ite_head_ne {α : Type} {kw kw' : String} (hk : kw ∈ keywords) (hk' : kw' ∈ keywords)
    (h : kw ≠ kw') (x y : α) : (if startsWith (headLine kw) kw'.toList = true then x else y) = y := by
  rw [dispatch_head kw hk kw' hk', if_neg (by simpa using h)]

theorem ite_head_eq {α : Type} {kw : String} (hk : kw ∈ keywords) (x y : α) :
    (if startsWith (headLine kw) kw.toList = true then x else y) = x := by
  rw [dispatch_head kw hk kw hk, if_pos (by simp)]

/-- Go to the branch of a header. -/
macro "at_head" : tactic => `(tactic| (
  unfold dispatch
  dsimp only
  repeat rw [ite_head_ne (by decide) (by decide) (by decide)]
  rw [ite_head_eq (by decide)]))

theorem keys_merged : p.merged.map (·.1) = p.rocks.map (·.1) := by
  simp [Params.merged, List.map_map, Function.comp_def]

theorem rocks_arranged (hr : RocksOk p) :
    Arranges (rockRows p) p.rocks (orderOf p.rocksOrder (p.rocks.map (·.1))) := by
  obtain ⟨l, hl, _⟩ := exists_arranged p.rocks hr.1 hr.2.1
  rw [rockRows, inOrder_eq hr.1 hl]
  exact hl

theorem inOrder_merged {γ : Type} (f : Val × RawRock → γ) (hr : RocksOk p)
    {l : List (Val × γ)}
    (hl : Arranges l (p.rocks.map fun e => (e.1, f e)) (orderOf p.rocksOrder (p.rocks.map (·.1)))) :
    l = (rockRows p).map fun e => (e.1, f e) := by
  have hk : (p.rocks.map fun e => (e.1, f e)).map (·.1) = p.rocks.map (·.1) := by
    simp [List.map_map, Function.comp_def]
  have ha := rocks_arranged hr
  have : Arranges ((rockRows p).map fun e => (e.1, f e)) (p.rocks.map fun e => (e.1, f e))
      (orderOf p.rocksOrder (p.rocks.map (·.1))) := by
    refine ⟨ha.1.map _, ?_⟩
    rw [← ha.2]
    simp [List.map_map, Function.comp_def]
  rw [← inOrder_eq (by rw [hk]; exact hr.1) hl, inOrder_eq (by rw [hk]; exact hr.1) this]

theorem chain_rocks (hQ : Heads Q) (hr : RocksOk p) (s : FileRead) :
    Chain given Q s [writeRocks p.rocksOrder p.merged]
      { s with rocks := some ((rockRows p).map fun e => (e.1, rockBack (mergeRock p.dflt e.2)),
        (rockRows p).map (·.1)) } := by
  obtain ⟨body, l, hl, hw, hrd⟩ := C09_rocks_round_trip p.rocksOrder p.merged
    (by rw [keys_merged]; exact hr.1) (by rw [keys_merged]; exact hr.2.1) (by
      intro e he
      obtain ⟨e', he', rfl⟩ := List.mem_map.1 he
      exact hr.2.2.1 e' he')
  rw [keys_merged] at hl
  have hl := inOrder_merged (fun e => mergeRock p.dflt e.2) hr hl
  refine Chain.block hQ (kw := "ROCKS") (by decide) (by decide) hw fun rest _ => ?_
  at_head
  rw [hrd, store, ok_bind, hl]
  simp [List.map_map, Function.comp_def]

theorem chain_rpcap (hQ : Heads Q) (hr : RocksOk p) (s : FileRead) (hs : s.dflt = none) :
    Chain given Q s [onlyIf p.hasRpcap (writeRpcap p.dflt.relPerm p.dflt.cap)]
      { s with dflt := if p.hasRpcap then some ⟨modBack? p.dflt.relPerm, modBack? p.dflt.cap, none⟩
        else none } := by
  cases hc : p.hasRpcap with
  | false =>
    have : ∀ x, ({ s with dflt := if false = true then x else none } : FileRead) = s := by
      simp [← hs]
    rw [this]
    exact Chain.skip rfl
  | true =>
    obtain ⟨body, hw, hrd⟩ := C10_rpcap_round_trip p.dflt.relPerm p.dflt.cap hr.2.2.2.1 hr.2.2.2.2.1
    refine Chain.block hQ (kw := "RPCAP") (by decide) (by decide) hw fun rest _ => ?_
    at_head
    rw [caseRpcap, hrd, ok_bind]
    simp [hs]

theorem modBack?_of_not_hasId {m : Option Mod} (h : hasId m = false) : modBack? m = none := by
  cases m with
  | none => rfl
  | some m =>
    have : m.id = .none := by simpa [hasId] using h
    simp [modBack?, this, stored]

theorem updateRows_all {α β υ : Type} (f : β → υ → β) (key : α → Val) (g : α → β)
    (h : α → υ) (l : List α) (hn : (l.map key).Nodup) :
    updateRows f (l.map fun e => (key e, g e)) (l.map fun e => (key e, h e)) =
    .ok (l.map fun e => (key e, f (g e) (h e))) := by
  have := updateRows_spec f key g (fun e => some (h e)) l [] (by simpa using hn)
  simpa [List.filterMap_eq_map] using this

/-- The rock after FLAC. -/
def rockFlac (p : Params) (r : RawRock) : Rock :=
  { rockBack (mergeRock p.dflt r) with
    permModel := p.flac.map fun _ => (flacBack (flacModels (mergeRock p.dflt r))).1
    eqPore := p.flac.map fun _ => (flacBack (flacModels (mergeRock p.dflt r))).2 }

theorem rockRows_nodup (hr : RocksOk p) : ((rockRows p).map (·.1)).Nodup := by
  rw [(rocks_arranged hr).2]
  exact orderOf_nodup hr.2.1 hr.1

theorem chain_flac (hQ : Heads Q) (hr : RocksOk p) (s : FileRead) (hs : s.flac = none)
    (hs' : s.rocks = some ((rockRows p).map fun e => (e.1, rockBack (mergeRock p.dflt e.2)),
        (rockRows p).map (·.1))) :
    Chain given Q s [ifSome p.flac fun f =>
        writeFlac f p.rocksOrder (p.merged.map fun e => (e.1, flacModels e.2))]
      { s with
        flac := (fileBack p).flac
        rocks := some ((rockRows p).map fun e => (e.1, rockFlac p e.2), (rockRows p).map (·.1)) } := by
  cases hc : p.flac with
  | none =>
    have : ({ s with
        flac := (fileBack p).flac
        rocks := some ((rockRows p).map fun e => (e.1, rockFlac p e.2), (rockRows p).map (·.1)) } :
          FileRead) = s := by
      have e1 : (fileBack p).flac = s.flac := by simp [fileBack, hc, hs]
      have e2 : ∀ r, rockFlac p r = rockBack (mergeRock p.dflt r) := by
        intro r
        simp [rockFlac, hc, rockBack]
      simp only [e1, e2, ← hs']
    rw [this]
    exact Chain.skip rfl
  | some f =>
    obtain ⟨h1, h2, h3⟩ := hr.2.2.2.2.2 f (by simp [hc])
    have hm : p.merged.map (fun e => (e.1, flacModels e.2)) =
        p.rocks.map fun e => (e.1, flacModels (mergeRock p.dflt e.2)) := by
      simp [Params.merged, List.map_map, Function.comp_def]
    have hk : (p.rocks.map fun e => (e.1, flacModels (mergeRock p.dflt e.2))).map (·.1) =
        p.rocks.map (·.1) := by simp [List.map_map, Function.comp_def]
    obtain ⟨body, l, hl, hw, hrd⟩ := C11_flac_round_trip f p.rocksOrder
      (p.rocks.map fun e => (e.1, flacModels (mergeRock p.dflt e.2)))
      (by rw [hk]; exact hr.1) (by rw [hk]; exact hr.2.1) h1 h2 (by
        intro e he
        obtain ⟨e', he', rfl⟩ := List.mem_map.1 he
        exact h3 e' he')
    rw [hk] at hl hrd
    have hl := inOrder_merged (fun e => flacModels (mergeRock p.dflt e.2)) hr hl
    refine Chain.of hQ (kw := "FLAC") (body := body ++ [['\n']]) (by decide) ?_ fun rest _ => ?_
    · rw [ifSome, hm, hw]
      rfl
    · refine (runs_turn (s' := { s with
        flac := (fileBack p).flac
        rocks := some ((rockRows p).map fun e => (e.1, rockFlac p e.2), (rockRows p).map (·.1)) })
        (ls' := ['\n'] :: rest) (dispatch_head "FLAC" (by decide) "ENDCY" (by decide)) ?_).trans
        (runs_turn (by decide) (dispatch_plain (by decide)))
      at_head
      rw [caseFlac, hs', getKey, ok_bind]
      dsimp only
      rw [(rocks_arranged hr).2, List.append_assoc, List.singleton_append, hrd, ok_bind]
      dsimp only
      rw [hl, List.map_map]
      have := updateRows_all addFlac (fun e : Val × RawRock => e.1)
        (fun e => rockBack (mergeRock p.dflt e.2))
        (fun e => flacBack (flacModels (mergeRock p.dflt e.2))) (rockRows p) (rockRows_nodup hr)
      simp only [Function.comp_def]
      rw [this, ok_bind]
      simp [fileBack, hc, rockFlac, addFlac]

theorem chain_multi (hQ : Heads Q) (hm : MultiOk p) (s : FileRead) (hs : s.multi = none) :
    Chain given Q s [onlyIf p.hasMulti (writeMultiBlock p.multi)]
      { s with multi := (fileBack p).multi } := by
  have hp : present p "MULTI" = p.hasMulti := rfl
  cases hc : p.hasMulti with
  | false =>
    have : ({ s with multi := (fileBack p).multi } : FileRead) = s := by
      simp [fileBack, hp, hc, ← hs]
    rw [this]
    exact Chain.skip rfl
  | true =>
    obtain ⟨h0, h1, h2, h3, h4⟩ := hm
    obtain ⟨line, hw, _, hrd⟩ := C12_multi_round_trip p.multi (eosRow p.eos) (by
      rcases h0 with h0 | h0
      · left
        exact ⟨h0, by rw [h0]; decide +kernel⟩
      · right
        have : ∀ e ∈ eosTable.map (·.1), (e, eosRow e) ∈ eosTable := by decide +kernel
        exact this _ h0) h1 h2 h3 h4
    refine Chain.block hQ (kw := "MULTI") (by decide) (by decide) hw fun rest _ => ?_
    at_head
    rw [List.singleton_append, hrd, store, ok_bind]
    simp [fileBack, hp, hc, Params.multi]

theorem chain_solvr (hQ : Heads Q) (hm : ∀ s ∈ p.solver, SolverOk s) (s : FileRead)
    (hs : s.solver = none) :
    Chain given Q s [ifSome p.solver writeSolvr] { s with solver := (fileBack p).solver } := by
  cases hc : p.solver with
  | none =>
    have : ({ s with solver := (fileBack p).solver } : FileRead) = s := by
      simp [fileBack, hc, ← hs]
    rw [this]
    exact Chain.skip rfl
  | some o =>
    obtain ⟨h0, h1, h2, h3, h4, h5⟩ := hm o (by simp [hc])
    obtain ⟨line, hw, hrd⟩ := C13_solvr_round_trip (solverFull o) h1 h2 h3 h4 h5
    refine Chain.block hQ (kw := "SOLVR") (body := [line]) (by decide) (by decide) ?_ fun rest _ => ?_
    · rw [ifSome, ← hw]
      obtain ⟨m, z, o', r, e⟩ := o
      cases m with
      | none => exact absurd rfl h0
      | some m => rw [C13_partial]; rfl
    · at_head
      rw [List.singleton_append, hrd, store, ok_bind]
      simp [fileBack, hc, solverBack]

/-- The line after START. -/
def startLine : Str :=
  let out := padRight 5 "----*".toList ++ header ++ ['\n']
  out.take 11 ++ "MOP: 123456789*123456789*1234".toList ++ out.drop 40

theorem chain_start (hQ : Heads Q) (s : FileRead) (hs : s.start = none) :
    Chain given Q s [onlyIf p.start writeStart] { s with start := (fileBack p).start } := by
  cases hc : p.start with
  | false =>
    have : ({ s with start := (fileBack p).start } : FileRead) = s := by
      simp [fileBack, hc, ← hs]
    rw [this]
    exact Chain.skip rfl
  | true =>
    refine Chain.of hQ (kw := "START") (by decide) rfl fun rest _ => ?_
    refine (runs_turn (s' := { s with start := some true }) (ls' := startLine :: rest)
      (dispatch_head "START" (by decide) "ENDCY" (by decide)) ?_).trans ?_
    · at_head
      rfl
    · have e : (fileBack p).start = some true := by simp [fileBack, hc]
      rw [e]
      exact runs_turn (by decide +kernel) (dispatch_plain (by decide +kernel))

theorem param_read (hp : ParamOk p) :
    ∃ body, writeParam p.options p.extraOptions p.initCond = .ok (headLine "PARAM" :: body) ∧
      ∀ nxt rest, (p.initCond.length ≤ 4 →
          ¬ NumberText (strip (nxt.take 20)) ∧ strip (nxt.take 20) ≠ []) →
        readParam (body ++ nxt :: rest) = .ok
          (⟨optionsBack p.options (tStepsBack p.options.tSteps), setEntries 24 p.extraOptions,
            if initBack p.initCond = [] then none else some (initBack p.initCond)⟩, nxt :: rest) := by
  obtain ⟨h1, h2, h3, h4⟩ := hp
  unfold StepsOk at h2
  cases ht : p.options.tSteps with
  | one v =>
    rw [ht] at h2
    by_cases hv : v = .none
    · subst hv
      exact C15_what_happens _ _ _ h1 h3 h4 (.many []) (.inl ⟨ht, rfl⟩)
    · have h2 : IsNumber v ∧ Fits (eCol 10 4) v := by simpa [hv] using h2
      have e : tStepsBack (.one v) = stepsBack [v] := by cases v <;> first | rfl | exact absurd rfl hv
      rw [e]
      exact C14_param_round_trip _ _ _ [v] h1 h3 h4 (.inr ⟨v, ht, rfl⟩) (by simp) (by simpa using h2)
        (by simp)
  | many l =>
    rw [ht] at h2
    cases l with
    | nil => exact C15_what_happens _ _ _ h1 h3 h4 (.one (.int 0)) (.inr ⟨ht, rfl⟩)
    | cons a l =>
      exact C14_param_round_trip _ _ _ (a :: l) h1 h3 h4 (.inl ht) (by simp) h2.1 h2.2

theorem chain_param (hp : ParamOk p) (s : FileRead)
    (hs : s.dflt = if p.hasRpcap then some ⟨modBack? p.dflt.relPerm, modBack? p.dflt.cap, none⟩
        else none) :
    Chain given HN s [writeParam p.options p.extraOptions p.initCond]
      { s with options := (fileBack p).options, dflt := (fileBack p).dflt } := by
  obtain ⟨body, hw, hrd⟩ := param_read hp
  refine Chain.block heads_HN (kw := "PARAM") (by decide) (by decide) hw fun rest h => ?_
  obtain ⟨nxt, r, rfl, h1, _⟩ := h
  at_head
  rw [caseParam, hrd nxt r (fun _ => h1), ok_bind, hs]
  congr 3
  cases hc : p.hasRpcap with
  | true => cases hi : initBack p.initCond <;> simp [fileBack, nonEmpty, hi]
  | false =>
    have h1 : hasId p.dflt.relPerm = false := by
      unfold Params.hasRpcap at hc; simp at hc; exact hc.1
    have h2 : hasId p.dflt.cap = false := by
      unfold Params.hasRpcap at hc; simp at hc; exact hc.2
    cases hi : initBack p.initCond <;>
      simp [fileBack, nonEmpty, hi, modBack?_of_not_hasId h1, modBack?_of_not_hasId h2]

theorem chain_selec (hQ : Heads Q) (hm : ∀ s ∈ p.selections, SelecOk s) (s : FileRead)
    (hs : s.selections = none) :
    Chain given Q s [ifSome p.selections fun s => writeSelec s.1 s.2]
      { s with selections := (fileBack p).selections } := by
  cases hc : p.selections with
  | none =>
    have : ({ s with selections := (fileBack p).selections } : FileRead) = s := by
      simp [fileBack, hc, ← hs]
    rw [this]
    exact Chain.skip rfl
  | some o =>
    obtain ⟨h0, h1, h2, h3⟩ := hm o (by simp [hc])
    obtain ⟨d, fl⟩ := o
    cases d with
    | none => exact absurd rfl h0
    | some d =>
      have hb : (fileBack p).selections = some (selecBack (some d, fl)) := by simp [fileBack, hc]
      rw [hb]
      by_cases hr : rowsOf fl = []
      · obtain ⟨rfl, h4⟩ : fl = .row [] ∧ valueAt d 1 = .int 0 := by simpa [hr] using h3
        obtain ⟨line, hw, hrd⟩ := C16_partial d h1 h4
        refine Chain.block hQ (kw := "SELEC") (by decide) (by decide) hw fun rest _ => ?_
        at_head
        rw [List.singleton_append, hrd, store, ok_bind]
        rfl
      · obtain ⟨body, hw, hrd⟩ := C16_selec_round_trip d fl h1 hr h2
        refine Chain.block hQ (kw := "SELEC") (by decide) (by decide) hw fun rest _ => ?_
        at_head
        rw [hrd, store, ok_bind]
        simp [selecBack, hr]

theorem indom_filterMap (l : List (Val × RawRock)) :
    ((indomRows (l.map fun e => (e.1, e.2.initCond))).map fun e => (e.1, initBack e.2)) =
      l.filterMap fun e => (initOf e.2.initCond).map fun u => (e.1, u) := by
  unfold indomRows
  rw [List.filterMap_map, List.map_filterMap]
  apply List.filterMap_congr
  intro e _
  simp only [Function.comp_def, initOf]
  cases e.2.initCond with
  | none => rfl
  | some ic =>
    simp only [Option.bind_some]
    split <;> rfl

theorem chain_indom (hQ : Heads Q) (hr : RocksOk p) (hi : IndomOk p) (s : FileRead)
    (hs : s.rocks = some ((rockRows p).map fun e => (e.1, rockFlac p e.2), (rockRows p).map (·.1))) :
    Chain given Q s [onlyIf p.hasIndom
        (writeIndom p.rocksOrder (p.merged.map fun e => (e.1, e.2.initCond)))]
      { s with rocks := (fileBack p).rocks } := by
  have hpr : present p "INDOM" = p.hasIndom := rfl
  have hfull : ∀ e : Val × RawRock, (match initOf e.2.initCond with
      | some u => addInit (rockFlac p e.2) u
      | none => rockFlac p e.2) = rockFull p e.2 := by
    intro e
    cases h : initOf e.2.initCond <;> simp [rockFull, rockFlac, addInit, h, rockBack]
  have hmap := updateRows_spec addInit (fun e : Val × RawRock => e.1) (fun e => rockFlac p e.2)
    (fun e => initOf e.2.initCond) (rockRows p) [] (by simpa using rockRows_nodup hr)
  rw [List.nil_append, List.nil_append] at hmap
  have hmap := hmap.trans (congrArg Except.ok
    (List.map_congr_left (g := fun e => (e.1, rockFull p e.2)) fun e _ => by
      rw [← hfull e]
      cases initOf e.2.initCond <;> rfl))
  cases hc : p.hasIndom with
  | false =>
    have hnil : indomRows (rockInits p) = [] := by
      by_contra hne
      have := hi.2.2 hne
      rw [hpr, hc] at this
      cases this
    have hnone : ∀ e ∈ rockRows p, initOf e.2.initCond = none := by
      intro e he
      have he' := (rocks_arranged hr).1.mem_iff.1 he
      cases h : initOf e.2.initCond with
      | none => rfl
      | some u =>
        have h1 := indom_filterMap p.rocks
        have h2 : (e.1, u) ∈ p.rocks.filterMap fun e => (initOf e.2.initCond).map fun u => (e.1, u) :=
          List.mem_filterMap.2 ⟨e, he', by simp [h]⟩
        rw [← h1] at h2
        unfold rockInits at hnil
        rw [hnil] at h2
        simp at h2
    have : ({ s with rocks := (fileBack p).rocks } : FileRead) = s := by
      have : (fileBack p).rocks = s.rocks := by
        rw [hs]
        simp only [fileBack]
        congr 2
        apply List.map_congr_left
        intro e he
        have := hfull e
        rw [hnone e he] at this
        rw [← this]
      rw [this]
    rw [this]
    exact Chain.skip rfl
  | true =>
    have hk : (rockInits p).map (·.1) = p.rocks.map (·.1) := by
      simp [rockInits, List.map_map, Function.comp_def]
    have hm : p.merged.map (fun e => (e.1, e.2.initCond)) = rockInits p := by
      simp [Params.merged, rockInits, List.map_map, Function.comp_def, mergeRock]
    obtain ⟨body, l, hl, hw, hrd⟩ := C17_indom_round_trip_partial p.rocksOrder (rockInits p)
      (by rw [hk]; exact hr.1) (by rw [hk]; exact hr.2.1) hi.1 (by rw [hk]; exact hi.2.1)
    rw [hk] at hl
    have hl := inOrder_merged (fun e => e.2.initCond) hr hl
    rw [onlyIf, if_pos rfl, hm]
    refine Chain.block hQ (kw := "INDOM") (by decide) (by decide) hw fun rest _ => ?_
    at_head
    rw [caseIndom, hrd, ok_bind, hl, indom_filterMap]
    dsimp only
    have hup : indomUpdate s.rocks
        ((rockRows p).filterMap fun e => (initOf e.2.initCond).map fun u => (e.1, u)) =
        .ok (fileBack p).rocks := by
      rw [hs]
      unfold indomUpdate
      split
      · rename_i h0
        rw [h0] at hmap
        rw [updateRows] at hmap
        have := Except.ok.inj hmap
        simp only [this, fileBack]
      · rw [getKey, ok_bind]
        dsimp only
        rw [hmap, ok_bind]
        rfl
    rw [hup, ok_bind]

theorem chain_momop (hQ : Heads Q) (hm : DigitsOk 40 p.moreOptions) (s : FileRead)
    (hs : s.moreOptions = none) :
    Chain given Q s [onlyIf (p.moreOptions ≠ []) (writeMomop p.moreOptions)]
      { s with moreOptions := (fileBack p).moreOptions } := by
  by_cases hc : p.moreOptions = []
  · have : ({ s with moreOptions := (fileBack p).moreOptions } : FileRead) = s := by
      simp [fileBack, nonEmpty, hc, ← hs]
    rw [this]
    exact Chain.skip (by simp [onlyIf, hc])
  · obtain ⟨line, hw, hrd⟩ := C18_momop_round_trip p.moreOptions hm
    refine Chain.block hQ (kw := "MOMOP") (body := [line]) (by decide) (by decide)
      (by simp [onlyIf, hc, hw]) fun rest _ => ?_
    at_head
    rw [List.singleton_append, hrd, store, ok_bind]
    simp [fileBack, nonEmpty, hc]

theorem chain_times (hQ : Heads Q) (hm : ∀ t ∈ p.times, TimesFit t.toList) (s : FileRead)
    (hs : s.times = none) :
    Chain given Q s [ifSome p.times writeTimes] { s with times := (fileBack p).times } := by
  cases hc : p.times with
  | none =>
    have : (fileBack p).times = s.times := by simp [fileBack, hc, hs]
    rw [this]
    exact Chain.skip rfl
  | some o =>
    obtain ⟨body, hw, hrd⟩ := C19_times_round_trip o (hm o (by simp [hc]))
    refine Chain.block hQ (kw := "TIMES") (by decide) (by decide) hw fun rest _ => ?_
    at_head
    rw [hrd, store, ok_bind]
    simp [fileBack, hc]

theorem hist_read {w : ℕ} {l : List Val} (h : ∀ v ∈ l, HistName w v) :
    l = (l.map textOf).map .str ∧ ∀ s ∈ l.map textOf, s ≠ [] ∧ s.length ≤ w ∧ rstrip s = s := by
  have key : ∀ v ∈ l, ∃ s, v = .str s ∧ s ≠ [] ∧ s.length ≤ w ∧ rstrip s = s := by
    intro v hv
    have := h v hv
    unfold HistName at this
    split at this
    · exact ⟨_, rfl, this⟩
    · exact this.elim
  constructor
  · rw [List.map_map]
    conv_lhs => rw [← List.map_id l]
    apply List.map_congr_left
    intro v hv
    obtain ⟨s, rfl, _⟩ := key v hv
    rfl
  · intro s hs
    obtain ⟨v, hv, rfl⟩ := List.mem_map.1 hs
    obtain ⟨s, rfl, h⟩ := key v hv
    exact h

theorem chain_foft (hQ : Heads Q) (hm : ∀ l ∈ p.elementHistory, ∀ v ∈ l, HistName 5 v) (s : FileRead)
    (hs : s.elementHistory = none) :
    Chain given Q s [ifSome p.elementHistory writeFoft]
      { s with elementHistory := (fileBack p).elementHistory } := by
  cases hc : p.elementHistory with
  | none =>
    have : ({ s with elementHistory := (fileBack p).elementHistory } : FileRead) = s := by
      simp [fileBack, hc, ← hs]
    rw [this]
    exact Chain.skip rfl
  | some o =>
    obtain ⟨h1, h2⟩ := hist_read (hm o (by simp [hc]))
    obtain ⟨body, hw, hrd⟩ := C20_partial ("FOFT", 5, writeFoft) (by simp [histories]) _ h2
    rw [← h1] at hw
    refine Chain.block hQ (kw := "FOFT") (by decide) (by decide) hw fun rest _ => ?_
    at_head
    rw [hrd, store, ok_bind]
    simp [fileBack, hc]

theorem chain_coft (hQ : Heads Q) (hm : ∀ l ∈ p.connectionHistory, ∀ v ∈ l, HistName 10 v)
    (s : FileRead) (hs : s.connectionHistory = none) :
    Chain given Q s [ifSome p.connectionHistory writeCoft]
      { s with connectionHistory := (fileBack p).connectionHistory } := by
  cases hc : p.connectionHistory with
  | none =>
    have : ({ s with connectionHistory := (fileBack p).connectionHistory } : FileRead) = s := by
      simp [fileBack, hc, ← hs]
    rw [this]
    exact Chain.skip rfl
  | some o =>
    obtain ⟨h1, h2⟩ := hist_read (hm o (by simp [hc]))
    obtain ⟨body, hw, hrd⟩ := C20_partial ("COFT", 10, writeCoft) (by simp [histories]) _ h2
    rw [← h1] at hw
    refine Chain.block hQ (kw := "COFT") (by decide) (by decide) hw fun rest _ => ?_
    at_head
    rw [hrd, store, ok_bind]
    simp [fileBack, hc]

theorem chain_goft (hQ : Heads Q) (hm : ∀ l ∈ p.generatorHistory, ∀ v ∈ l, HistName 5 v)
    (s : FileRead) (hs : s.generatorHistory = none) :
    Chain given Q s [ifSome p.generatorHistory writeGoft]
      { s with generatorHistory := (fileBack p).generatorHistory } := by
  cases hc : p.generatorHistory with
  | none =>
    have : ({ s with generatorHistory := (fileBack p).generatorHistory } : FileRead) = s := by
      simp [fileBack, hc, ← hs]
    rw [this]
    exact Chain.skip rfl
  | some o =>
    obtain ⟨h1, h2⟩ := hist_read (hm o (by simp [hc]))
    obtain ⟨body, hw, hrd⟩ := C20_partial ("GOFT", 5, writeGoft) (by simp [histories]) _ h2
    rw [← h1] at hw
    refine Chain.block hQ (kw := "GOFT") (by decide) (by decide) hw fun rest _ => ?_
    at_head
    rw [hrd, store, ok_bind]
    simp [fileBack, hc]

theorem chain_gener (hQ : Heads Q) (hm : GenerOk given p.generators) (s : FileRead)
    (hs : s.generators = none) :
    Chain given Q s [onlyIf (p.generators ≠ []) (writeGener p.generators)]
      { s with generators := genersBack p } := by
  by_cases hc : p.generators = []
  · have : ({ s with generators := genersBack p } : FileRead) = s := by
      simp [genersBack, nonEmpty, hc, ← hs]
    rw [this]
    exact Chain.skip (by simp [onlyIf, hc])
  · obtain ⟨L, _, h1, h2, h3⟩ := hm.resolve_left hc
    obtain ⟨body, hw, hrd⟩ := C21_gener_round_trip_partial L given p.generators h1 h2 h3
    refine Chain.block hQ (kw := "GENER") (body := body) (by decide) (by decide)
      (by simp [onlyIf, hc, hw]) fun rest _ => ?_
    at_head
    rw [hrd, store, ok_bind]
    simp [genersBack, nonEmpty, hc]

theorem chain_diffu (hm : ∀ l ∈ p.diffusion, ∀ r ∈ l, DiffuFits r) (s : FileRead)
    (hs : s.diffusion = none) :
    Chain given HN s [ifSome p.diffusion writeDiffu] { s with diffusion := (fileBack p).diffusion } := by
  cases hc : p.diffusion with
  | none =>
    have : (fileBack p).diffusion = s.diffusion := by simp [fileBack, hc, hs]
    rw [this]
    exact Chain.skip rfl
  | some o =>
    obtain ⟨body, hw, hrd⟩ := C22_diffu_round_trip o (hm o (by simp [hc]))
    refine Chain.block heads_HN (kw := "DIFFU") (by decide) (by decide) hw fun rest h => ?_
    obtain ⟨nxt, r, rfl, _, h1⟩ := h
    at_head
    rw [hrd nxt r h1.1 h1.2, store, ok_bind]
    simp [fileBack, hc]

theorem chain_outpu (hQ : Heads Q)
    (hm : ∀ o ∈ p.output, (o.1 = [] ∨ FormatFits o.1) ∧ VarsFit o.2 ∧ o.2 ≠ []) (s : FileRead)
    (hs : s.output = none) :
    Chain given Q s [ifSome p.output fun o => writeOutpu o.1 o.2]
      { s with output := (fileBack p).output } := by
  cases hc : p.output with
  | none =>
    have : ({ s with output := (fileBack p).output } : FileRead) = s := by simp [fileBack, hc, ← hs]
    rw [this]
    exact Chain.skip rfl
  | some o =>
    obtain ⟨h1, h2, h3⟩ := hm o (by simp [hc])
    obtain ⟨body, hw, hrd⟩ := C23_outpu_round_trip_partial o.1 o.2 h1 h2 h3
    refine Chain.block hQ (kw := "OUTPU") (by decide) (by decide) hw fun rest _ => ?_
    at_head
    rw [hrd, store, ok_bind]
    simp [fileBack, hc]

theorem chain_eleme (hQ : Heads Q) (hm : ElemsOk given p) (s : FileRead)
    (hs : s.elements = none) (hs' : s.coordinates = none) :
    Chain given Q s [onlyIf (p.elements ≠ []) (writeEleme p.elementsOrder p.elements)]
      { s with
        elements := nonEmpty p.elements
          ((rowsFor p.elementsOrder p.elements).map fun e => (e.1, elemBack e.2),
            (rowsFor p.elementsOrder p.elements).map (·.1))
        coordinates := nonEmpty p.elements false } := by
  by_cases hc : p.elements = []
  · have : ∀ x : Table Elem, ({ s with
        elements := nonEmpty p.elements x
        coordinates := nonEmpty p.elements false } : FileRead) = s := by
      intro x
      simp only [nonEmpty, if_pos hc]
      obtain ⟨⟩ := s
      simp_all
    rw [this]
    exact Chain.skip (by simp [onlyIf, hc])
  · obtain ⟨L, _, h1, h2, h3⟩ := hm.2.1.resolve_left hc
    obtain ⟨body, hw, hrd⟩ := C24_eleme_round_trip_partial L given p.elementsOrder p.elements h1 hm.1
      h2 h3
    refine Chain.block hQ (kw := "ELEME") (body := body) (by decide) (by decide)
      (by simp [onlyIf, hc, hw]) fun rest _ => ?_
    at_head
    rw [hrd, store, ok_bind]
    simp [nonEmpty, hc]

theorem chain_coord (hQ : Heads Q) (hm : ElemsOk given p) (s : FileRead)
    (hs : s.elements = nonEmpty p.elements
          ((rowsFor p.elementsOrder p.elements).map fun e => (e.1, elemBack e.2),
            (rowsFor p.elementsOrder p.elements).map (·.1)))
    (hs' : s.coordinates = nonEmpty p.elements false) :
    Chain given Q s [onlyIf p.coordinates (writeCoord p.elementsOrder p.elements)]
      { s with
        elements := elemsBack p
        coordinates := nonEmpty p.elements p.coordinates } := by
  cases hc : p.coordinates with
  | false =>
    have : ({ s with
        elements := elemsBack p
        coordinates := nonEmpty p.elements false } : FileRead) = s := by
      have : elemsBack p = s.elements := by simp [elemsBack, hs, hc, elemFull]
      rw [this, ← hs']
    rw [this]
    exact Chain.skip rfl
  | true =>
    obtain ⟨h1, h2⟩ := hm.2.2 hc
    obtain ⟨L, _, h3, _⟩ := hm.2.1.resolve_left h1
    obtain ⟨body, cs, hw, hrd, _, hset⟩ := C25_coord_round_trip p.elementsOrder p.elements
      h3.2.2.1 hm.1 h2
    refine Chain.block hQ (kw := "COORD") (by decide) (by decide) hw fun rest _ => ?_
    at_head
    rw [caseCoord, hrd, ok_bind, hs]
    simp only [nonEmpty, if_neg h1, getKey, ok_bind]
    rw [hset fun e => elemBack e.2, ok_bind]
    simp [elemsBack, nonEmpty, h1, elemFull, hc]

theorem chain_conne (hQ : Heads Q) (hm : ConnsOk given p) (s : FileRead) (hs : s.connections = none) :
    Chain given Q s [onlyIf (p.connections ≠ []) (writeConne p.connectionsOrder p.connections)]
      { s with connections := connsBack p } := by
  by_cases hc : p.connections = []
  · have : ({ s with connections := connsBack p } : FileRead) = s := by
      simp [connsBack, nonEmpty, hc, ← hs]
    rw [this]
    exact Chain.skip (by simp [onlyIf, hc])
  · obtain ⟨L, _, h1, h2, h3⟩ := hm.2.resolve_left hc
    obtain ⟨body, hw, hrd⟩ := C26_conne_round_trip L given p.connectionsOrder p.connections h1 hm.1
      h2 h3
    refine Chain.block hQ (kw := "CONNE") (body := body) (by decide) (by decide)
      (by simp [onlyIf, hc, hw]) fun rest _ => ?_
    at_head
    rw [hrd, store, ok_bind]
    simp [connsBack, nonEmpty, hc]

theorem chain_incon (hQ : Heads Q) (hm : InconsOk given p) (s : FileRead)
    (hs : s.initialConditions = none) :
    Chain given Q s [onlyIf (p.initialConditions ≠ [])
        (writeIncon p.initialConditionsOrder p.initialConditions)]
      { s with initialConditions := inconsBack p } := by
  by_cases hc : p.initialConditions = []
  · have : ({ s with initialConditions := inconsBack p } : FileRead) = s := by
      simp [inconsBack, nonEmpty, hc, ← hs]
    rw [this]
    exact Chain.skip (by simp [onlyIf, hc])
  · obtain ⟨L, _, h1, h2, h3, h4⟩ := hm.2.resolve_left hc
    obtain ⟨body, hw, hrd⟩ := C27_incon_round_trip_partial L given p.initialConditionsOrder
      p.initialConditions h1 (fun e he => (h2 e he).1) hm.1 (fun e he => (h2 e he).2) h3 h4
    refine Chain.block hQ (kw := "INCON") (body := body) (by decide) (by decide)
      (by simp [onlyIf, hc, hw]) fun rest _ => ?_
    at_head
    rw [hrd, store, ok_bind]
    simp [inconsBack, nonEmpty, hc]

theorem chain_nover (hQ : Heads Q) (s : FileRead) (hs : s.nover = none) :
    Chain given Q s [onlyIf p.nover (block "NOVER" false (.ok []))]
      { s with nover := (fileBack p).nover } := by
  cases hc : p.nover with
  | false =>
    have : ({ s with nover := (fileBack p).nover } : FileRead) = s := by simp [fileBack, hc, ← hs]
    rw [this]
    exact Chain.skip rfl
  | true =>
    refine Chain.block hQ (kw := "NOVER") (body := []) (by decide) (by decide) rfl fun rest _ => ?_
    at_head
    simp [fileBack, hc]

end Verif.Model
