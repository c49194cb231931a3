import Verif.Lemmas.Petrasim
import Verif.Props.OutType
import Verif.Props.Csv

/-!
# Petrasim output files (C37, C56)
-/

namespace Verif.Props
open Verif.Py Verif.Model Verif.Spec

/-- What the Petrasim writer writes. -/
theorem writePetrasim_eq (ks : List Str) (outs : List (Output Str Flt)) (hne : outs ≠ [])
    (h : PetraOk ks outs) : ∃ vars, vars = varOrder ((outs.getLast hne).data.map (·.1)) ∧ vars.Perm ks ∧
      writePetrasim outs = .ok
        ((joinWith ',' (("TIME [sec]".toList :: "ELEM".toList :: "INDEX".toList :: vars).map
          (padLeft 18)) ++ ['\n']) :: outs.flatMap (petraLines vars)) := by
  obtain ⟨hk0, hnd, hvar, hsteps⟩ := h
  obtain ⟨-, hp, -⟩ := hsteps _ (List.getLast_mem hne)
  have hvp : (varOrder ((outs.getLast hne).data.map (·.1))).Perm ks :=
    (varOrder_perm (hp.nodup_iff.2 hnd)).trans hp
  refine ⟨_, rfl, hvp, ?_⟩
  unfold writePetrasim
  rw [List.getLast?_eq_getLast_of_ne_nil hne]
  simp only
  rw [concatM_ok (g := petraLines (varOrder ((outs.getLast hne).data.map (·.1))))]
  · rfl
  · intro o ho
    obtain ⟨h1, h2, h3, h4⟩ := hsteps o ho
    refine petraStep_eq ?_ (h2.nodup_iff.2 hnd) h3 ?_ fun k hk => h2.symm.subset (hvp.subset hk)
    · cases hto : o.time with
      | none => rw [outTime, hto] at h1; cases h1
      | some t => rfl
    · intro h0
      rw [h0] at hvp
      exact hk0 (List.nil_perm.1 hvp)

/-- What is read of the lines of some outputs. -/
theorem readPetrasim_lines (ks vars : List Str) (hvp : vars.Perm ks) (outs : List (Output Str Flt))
    (h : PetraOk ks outs) :
    ∃ rs qs, readPetrasim ((joinWith ',' (("TIME [sec]".toList :: "ELEM".toList :: "INDEX".toList ::
        vars).map (padLeft 18)) ++ ['\n']) :: outs.flatMap (petraLines vars)) none = .ok rs ∧
      (∀ r ∈ rs, r.data.map (·.1) = vars) ∧
      qs.Pairwise (· < ·) ∧
      (∀ q, q ∈ qs ↔ ∃ o ∈ outs, o.labels ≠ [] ∧ outTime o = some q) ∧
      List.Forall₂ (GroupBack ks outs) qs rs := by
  obtain ⟨hk0, hnd, hvar, hsteps⟩ := h
  have hread : petraLoop (outs.flatMap (petraLines vars)) = .ok (outs.flatMap (petraRead vars)) := by
    apply petraLoop_lines
    rw [List.flatMap, List.flatMap]
    induction outs with
    | nil => exact .nil
    | cons o outs ih =>
      rw [List.map_cons, List.flatten_cons, List.map_cons, List.flatten_cons]
      exact List.rel_append (petraLines_read vars (hsteps o (by simp)).2.2.2)
        (ih fun o ho => hsteps o (List.mem_cons_of_mem _ ho))
  have hval : ∀ r ∈ outs.flatMap (petraRead vars), r.vals.length = vars.length ∧
      ∃ o ∈ outs, o.labels ≠ [] ∧ r.time = quant 12 (o.time.getD .nan) ∧
        value r.time = outTime o ∧ some r.time = o.time.map (quant 12) := by
    intro r hr
    obtain ⟨o, ho, hr⟩ := List.mem_flatMap.1 hr
    unfold petraRead at hr
    obtain ⟨e, he, rfl⟩ := List.mem_map.1 hr
    refine ⟨by simp, o, ho, ?_, rfl, ?_⟩
    · intro h0; rw [h0] at he; simp at he
    · have h1 := (hsteps o ho).1
      unfold outTime at h1 ⊢
      cases hto : o.time with
      | none => rw [hto] at h1; cases h1
      | some u => exact ⟨rfl, rfl⟩
  obtain ⟨u1, u2, u3⟩ := uniqueTimes_spec ((outs.flatMap (petraRead vars)).map (·.time))
  have hu : ∀ u ∈ uniqueTimes ((outs.flatMap (petraRead vars)).map (·.time)),
      ∃ o ∈ outs, o.labels ≠ [] ∧ value u = outTime o ∧ some u = o.time.map (quant 12) := by
    intro u hu
    obtain ⟨r, hr, rfl⟩ := List.mem_map.1 (u2 u hu)
    obtain ⟨-, o, ho, h1, -, h2, h3⟩ := hval r hr
    exact ⟨o, ho, h1, h2, h3⟩
  have hf : ∀ u ∈ uniqueTimes ((outs.flatMap (petraRead vars)).map (·.time)),
      value u = some ((value u).getD 0) := by
    intro u h
    obtain ⟨o, ho, -, h2, -⟩ := hu u h
    obtain ⟨q, hq⟩ := Option.isSome_iff_exists.1 (hsteps o ho).1
    rw [h2, hq]; rfl
  have hshape : ((outs.flatMap (petraRead vars)).all fun r => r.vals.length =
      (petraWidth (outs.flatMap (petraRead vars)))) = true := by
    rw [List.all_eq_true]
    intro r hr
    rw [decide_eq_true_eq, (hval r hr).1]
    cases hc : outs.flatMap (petraRead vars) with
    | nil => rw [hc] at hr; simp at hr
    | cons r' rs => exact ((hval r' (by rw [hc]; simp)).1).symm
  have hall : ∀ u ∈ uniqueTimes ((outs.flatMap (petraRead vars)).map (·.time)),
      GroupBack ks outs ((value u).getD 0) (petraOutput vars (petraWidth (outs.flatMap (petraRead vars)))
        (outs.flatMap (petraRead vars)) u) ∧
      (petraOutput vars (petraWidth (outs.flatMap (petraRead vars)))
        (outs.flatMap (petraRead vars)) u).data.map (·.1) = vars := by
    intro u h1
    have hq := hf u h1
    obtain ⟨o, ho, -, h2, h3⟩ := hu u h1
    generalize (value u).getD 0 = q at hq
    have hfil := filter_petraRead (vars := vars) u hq outs fun o ho => (hsteps o ho).1
    have hm : (petraWidth (outs.flatMap (petraRead vars))) = vars.length := by
      obtain ⟨r, hr, -⟩ := List.mem_map.1 (u2 u h1)
      cases hc : outs.flatMap (petraRead vars) with
      | nil => rw [hc] at hr; simp at hr
      | cons r' rs => exact (hval r' (by rw [hc]; simp)).1
    rw [hm]
    have hz : vars.zip ((List.range vars.length).map
        (petraColumn ((outs.filter fun o => outTime o = some q).flatMap (petraRead vars)))) =
        vars.map fun k => (k, (outs.filter fun o => outTime o = some q).flatMap fun o =>
          ((o.data.lookup k).getD []).map (quant 12)) := by
      refine List.ext_getElem (by simp) fun j h1 h2 => ?_
      have hj : j < vars.length := by simpa using h2
      simp only [List.getElem_zip, List.getElem_map, List.getElem_range, Prod.mk.injEq, true_and]
      refine petraColumn_flatMap hj _ fun o ho => ?_
      obtain ⟨-, h2, h3, -⟩ := hsteps o (List.mem_filter.1 ho).1
      exact ⟨h2.nodup_iff.2 hnd, h3, h2.symm.subset (hvp.subset (List.getElem_mem hj))⟩
    have hnv : vars.Nodup := hvp.nodup_iff.2 hnd
    have hdata : (petraOutput vars vars.length (outs.flatMap (petraRead vars)) u).data =
        vars.map fun k => (k, (outs.filter fun o => outTime o = some q).flatMap fun o =>
          ((o.data.lookup k).getD []).map (quant 12)) := by
      unfold petraOutput
      simp only [hfil]
      rw [hz, updateDict_nil_of_nodup]
      rw [List.map_map]
      have : ((fun x : Str × List Flt => x.1) ∘ fun k => (k, (outs.filter fun o =>
          outTime o = some q).flatMap fun o => ((o.data.lookup k).getD []).map (quant 12))) = id := by
        funext k; rfl
      rw [this, List.map_id]
      exact hnv
    have hkeys : (petraOutput vars vars.length (outs.flatMap (petraRead vars)) u).data.map (·.1) =
        vars := by
      rw [hdata, List.map_map]
      conv_rhs => rw [← List.map_id vars]
      rfl
    refine ⟨⟨⟨o, ho, by rw [← h2, hq], h3⟩, ?_, ?_, fun k hk => ?_⟩, hkeys⟩
    · unfold petraOutput
      simp only [hfil]
      exact petraRead_labels _ _
    · rw [hkeys]
      exact hvp
    · apply lookup_of_mem
      · rw [hkeys]; exact hnv
      · rw [hdata]
        exact List.mem_map.2 ⟨k, hvp.symm.subset hk, rfl⟩
  refine ⟨(uniqueTimes ((outs.flatMap (petraRead vars)).map (·.time))).map
      (petraOutput vars (petraWidth (outs.flatMap (petraRead vars))) (outs.flatMap (petraRead vars))),
    (uniqueTimes ((outs.flatMap (petraRead vars)).map (·.time))).map
    fun u => (value u).getD 0, ?_, ?_, ascending_value u1 _ hf, ?_, ?_⟩
  · unfold readPetrasim
    simp only [List.headD_cons, List.tail_cons]
    rw [hread, ok_bind, petra_headers fun k hk => hvar k (hvp.subset hk)]
    rw [if_pos hshape]
    rfl
  · rw [List.forall_mem_map]
    exact fun u hu => (hall u hu).2
  · intro q
    rw [List.mem_map]
    constructor
    · rintro ⟨u, h1, rfl⟩
      obtain ⟨o, ho, h2, h3, -⟩ := hu u h1
      exact ⟨o, ho, h2, by rw [← h3]; exact hf u h1⟩
    · rintro ⟨o, ho, hl, hq⟩
      obtain ⟨l, ls, hl⟩ := List.exists_cons_of_ne_nil hl
      obtain ⟨u, h1, h2⟩ := u3 (quant 12 (o.time.getD .nan)) (by
        rw [List.mem_map]
        refine ⟨⟨quant 12 (o.time.getD .nan), l, (vars.map (cellOf o.data 0)).map (quant 12)⟩, ?_, rfl⟩
        refine List.mem_flatMap.2 ⟨o, ho, ?_⟩
        unfold petraRead
        rw [hl]
        simp [List.zipIdx_cons])
      refine ⟨u, h1, ?_⟩
      have hv : value (quant 12 (o.time.getD .nan)) = some q := by
        unfold outTime at hq
        cases hto : o.time with
        | none => rw [hto] at hq; cases hq
        | some u => rw [hto] at hq; exact hq
      rw [timeKey_of_value hv, timeKey_of_value (hf u h1)] at h2
      exact placeOf_inj h2
  · rw [List.forall₂_map_left_iff, List.forall₂_map_right_iff, List.forall₂_same]
    exact fun u hu => (hall u hu).1

/-- C56. Outputs with the same variables at finite or infinite times, written in the Petrasim
format, are read back as one output per time, in ascending order of the times,
with the labels and values of all outputs at that time. -/
theorem C56_groups (ks : List Str) (outs : List (Output Str Flt)) (hne : outs ≠ [])
    (h : PetraOk ks outs) :
    ∃ lines rs qs, writePetrasim outs = .ok lines ∧ readPetrasim lines none = .ok rs ∧
      qs.Pairwise (· < ·) ∧
      (∀ q, q ∈ qs ↔ ∃ o ∈ outs, o.labels ≠ [] ∧ outTime o = some q) ∧
      List.Forall₂ (GroupBack ks outs) qs rs := by
  obtain ⟨vars, -, hvp, hw⟩ := writePetrasim_eq ks outs hne h
  obtain ⟨rs, qs, h1, -, h2, h3, h4⟩ := readPetrasim_lines ks vars hvp outs h
  exact ⟨_, rs, qs, hw, h1, h2, h3, h4⟩

/-- C56. Outputs with labels at increasing times come back one by one, with their
times, labels and variables.
Missing: other orders of the times, see the violations below. -/
theorem C56_round_trip_partial (ks : List Str) (outs : List (Output Str Flt)) (hne : outs ≠ [])
    (h : PetraOk ks outs) (hl : ∀ o ∈ outs, o.labels ≠ [])
    (ht : (outs.map fun o => (outTime o).getD 0).Pairwise (· < ·)) :
    ∃ lines rs, writePetrasim outs = .ok lines ∧ readPetrasim lines none = .ok rs ∧
      List.Forall₂ (fun o r => r.time = o.time.map (quant 12) ∧ r.labels = o.labels ∧
        r.data.Perm (o.data.map fun e => (e.1, e.2.map (quant 12)))) outs rs := by
  obtain ⟨lines, rs, qs, hw, hr, hqs, hmem, hback⟩ := C56_groups ks outs hne h
  refine ⟨lines, rs, hw, hr, ?_⟩
  have hsome : ∀ o ∈ outs, outTime o = some ((outTime o).getD 0) := by
    intro o ho
    obtain ⟨q, hq⟩ := Option.isSome_iff_exists.1 (h.2.2.2 o ho).1
    rw [hq]; rfl
  have hqe : qs = outs.map fun o => (outTime o).getD 0 := by
    have hp : qs.Perm (outs.map fun o => (outTime o).getD 0) := by
      rw [List.perm_ext_iff_of_nodup (hqs.imp fun h => ne_of_lt h) (ht.imp fun h => ne_of_lt h)]
      intro q
      rw [hmem, List.mem_map]
      constructor
      · rintro ⟨o, ho, -, hq⟩
        exact ⟨o, ho, by rw [hq]; rfl⟩
      · rintro ⟨o, ho, rfl⟩
        exact ⟨o, ho, hl o ho, hsome o ho⟩
    exact hp.eq_of_pairwise (fun a b _ _ h1 h2 => absurd h1 (not_lt.2 h2.le)) hqs ht
  rw [hqe, List.forall₂_map_left_iff] at hback
  have huniq : ∀ o ∈ outs, ∀ o' ∈ outs, outTime o = outTime o' → o = o' := by
    intro o ho o' ho' he
    have hn : (outs.map fun o => (outTime o).getD 0).Nodup := ht.imp fun h => ne_of_lt h
    exact List.inj_on_of_nodup_map hn ho ho' (by rw [he])
  have hnodup : outs.Nodup := by
    rw [List.pairwise_map] at ht
    exact ht.imp fun h he => by rw [he] at h; exact lt_irrefl _ h
  have hfil : ∀ o ∈ outs, (outs.filter fun o' => outTime o' = some ((outTime o).getD 0)) = [o] := by
    intro o ho
    have : (outs.filter fun o' => outTime o' = some ((outTime o).getD 0)).Perm [o] := by
      rw [List.perm_ext_iff_of_nodup (hnodup.filter _) (by simp)]
      intro a
      rw [List.mem_filter, decide_eq_true_eq, ← hsome o ho, List.mem_singleton]
      constructor
      · rintro ⟨ha, he⟩
        exact huniq a ha o ho he
      · rintro rfl
        exact ⟨ho, rfl⟩
    exact List.perm_singleton.1 this
  have hconv := (List.forall₂_iff_get.1 hback)
  refine List.forall₂_iff_get.2 ⟨hconv.1, fun i h1 h2 => ?_⟩
  have hb := hconv.2 i h1 h2
  generalize hog : outs.get ⟨i, h1⟩ = o at hb
  generalize rs.get ⟨i, h2⟩ = r at hb
  have ho : o ∈ outs := by rw [← hog]; exact List.get_mem _ _
  obtain ⟨⟨o', ho', e1, e2⟩, e3, e4, e5⟩ := hb
  rw [hfil o ho] at e3
  have : o' = o := huniq o' ho' o ho (by rw [e1, ← hsome o ho])
  subst this
  obtain ⟨-, hp, -⟩ := h.2.2.2 o' ho'
  have hnd := hp.nodup_iff.2 h.2.1
  refine ⟨e2, by simpa using e3, ?_⟩
  have hrn : (r.data.map (·.1)).Nodup := e4.nodup_iff.2 h.2.1
  have key : ∀ (d : List (Str × List Flt)), (d.map (·.1)).Nodup → (d.map (·.1)).Perm ks →
      (∀ k ∈ ks, d.lookup k = some (((o'.data.lookup k).getD []).map (quant 12))) →
      d.Perm (ks.map fun k => (k, ((o'.data.lookup k).getD []).map (quant 12))) := by
    intro d hd hdp hdl
    have : d = (d.map (·.1)).map fun k => (k, ((o'.data.lookup k).getD []).map (quant 12)) := by
      rw [List.map_map]
      conv_lhs => rw [← List.map_id d]
      refine List.map_congr_left fun e he => ?_
      have h1 := hdl e.1 (hdp.subset (List.mem_map_of_mem he))
      rw [lookup_of_mem hd (show (e.1, e.2) ∈ d from he)] at h1
      simp only [Option.some.injEq] at h1
      simp only [Function.comp, id, ← h1]
    rw [this]
    exact hdp.map _
  refine (key r.data hrn e4 fun k hk => ?_).trans (key _ ?_ ?_ fun k hk => ?_).symm
  · rw [e5 k hk, hfil o' ho]
    simp
  · rw [List.map_map]; exact hnd
  · rw [List.map_map]; exact hp
  · obtain ⟨⟨k', v⟩, hm, rfl⟩ := List.mem_map.1 (hp.symm.subset hk)
    have h1 : ((o'.data.map fun e => (e.1, e.2.map (quant 12))).map (·.1)).Nodup := by
      rw [List.map_map]; exact hnd
    rw [lookup_of_mem hnd hm, lookup_of_mem h1 (List.mem_map.2 ⟨_, hm, rfl⟩)]
    rfl

example : csvSample ≠ [] ∧ PetraOk ["X".toList, "PRES".toList, "SG".toList] csvSample ∧
    (∀ o ∈ csvSample, o.labels ≠ []) ∧
    (csvSample.map fun o => (outTime o).getD 0).Pairwise (· < ·) := by
  refine ⟨by simp [csvSample], ⟨by decide, by decide, by decide, ?_⟩, by simp [csvSample], ?_⟩
  · unfold Full
    simp only [csvSample, List.mem_cons, List.not_mem_nil, or_false, forall_eq_or_imp, forall_eq,
      List.map_cons, List.map_nil, List.length_cons, List.length_nil]
    decide +kernel
  · decide +kernel

/-- C56. Outputs without a time cannot be written, whatever the others are. -/
theorem C56_without_time (outs : List (Output Str Flt)) (o : Output Str Flt) (ho : o ∈ outs) (ht : o.time = none)
    (hl : o.labels ≠ []) (hf : Full o) (last : Output Str Flt) (hlast : outs.getLast? = some last)
    (hd : last.data ≠ []) (lines : List Str) : writePetrasim outs ≠ .ok lines := by
  intro hw
  unfold writePetrasim at hw
  rw [hlast] at hw
  simp only at hw
  obtain ⟨steps, hs, -⟩ := bind_eq_ok.1 hw
  have hstep : ∃ ls, petraStep (varOrder (last.data.map (·.1))) o = .ok ls := by
    clear hlast hw
    induction outs generalizing steps with
    | nil => cases ho
    | cons x outs ih =>
      rw [concatM] at hs
      obtain ⟨a, ha, hs⟩ := bind_eq_ok.1 hs
      obtain ⟨b, hb, -⟩ := bind_eq_ok.1 hs
      rcases List.mem_cons.1 ho with rfl | ho
      · exact ⟨a, ha⟩
      · exact ih ho b hb
  obtain ⟨ls, hls⟩ := hstep
  unfold petraStep at hls
  obtain ⟨rows, hr, hls⟩ := bind_eq_ok.1 hls
  unfold petraTable at hr
  obtain ⟨cols, hc, hr⟩ := bind_eq_ok.1 hr
  have hv : varOrder (last.data.map (·.1)) ≠ [] := by
    obtain ⟨e, es, he⟩ := List.exists_cons_of_ne_nil hd
    intro h0
    have hm : e.1 ∈ last.data.map (·.1) := by rw [he]; simp
    by_cases hx : e.1 = "X".toList ∨ e.1 = "Y".toList ∨ e.1 = "Z".toList
    · unfold varOrder at h0
      simp only [List.append_eq_nil_iff, ite_eq_right_iff, reduceCtorEq, imp_false] at h0
      obtain ⟨⟨⟨h1, h2⟩, h3⟩, -⟩ := h0
      rcases hx with hx | hx | hx <;> rw [hx] at hm
      · exact h1 hm
      · exact h2 hm
      · exact h3 hm
    · have : e.1 ∈ varOrder (last.data.map (·.1)) := by
        unfold varOrder
        refine List.mem_append_right _ (List.mem_filter.2 ⟨hm, ?_⟩)
        simpa using hx
      rw [h0] at this
      cases this
  have hF := mapM_eq_ok hc
  obtain ⟨k, ks, hk⟩ := List.exists_cons_of_ne_nil hv
  rw [hk] at hF
  cases hF with
  | @cons _ c _ cs h1 _ =>
    have hcl : c.length = o.labels.length := by
      unfold dictGet at h1
      split at h1
      · rename_i v hv
        cases h1
        exact hf _ (entry_of_lookup hv)
      · cases h1
    simp only at hr
    split at hr
    swap
    · cases hr
    cases hr
    obtain ⟨l, ls', hl'⟩ := List.exists_cons_of_ne_nil hl
    rw [hl', List.length_cons] at hcl
    rw [hcl, List.range_succ_eq_map, List.map_cons, List.zipIdx_cons, List.mapM_cons] at hls
    obtain ⟨a, ha, -⟩ := bind_eq_ok.1 hls
    unfold petraRow at ha
    rw [hl', ht] at ha
    cases ha

example : ∃ (o : Output Str Flt), o.time = none ∧ o.labels ≠ [] ∧ Full o ∧ [o].getLast? = some o ∧ o.data ≠ [] :=
  ⟨⟨none, ["A1100".toList], [("P".toList, [.fin false 5])]⟩, rfl, by simp, by simp [Full], rfl, by simp⟩

/-- C56 is violated by the code for a time that is not a number: nothing is found at that time. -/
theorem C56_nan_violated :
    (writePetrasim [⟨some .nan, ["A1100".toList], [("P".toList, [.fin false 5])]⟩] >>= fun lines =>
      readPetrasim lines none >>= fun rs => .ok (rs.map fun r => (r.labels, r.data))) =
    (.ok [([], [("P".toList, [])])] : Except PyErr (List (List Str × List (Str × List Flt)))) := by
  decide +kernel

/-- C56 is violated by the code for outputs that are not in the order of their
times: they come back in another order. -/
theorem C56_order_violated :
    (writePetrasim
      [⟨some (.fin false 2), ["A1100".toList], [("P".toList, [.fin false 5])]⟩,
       ⟨some (.fin false 1), ["A1101".toList], [("P".toList, [.fin false 6])]⟩] >>= fun lines =>
      readPetrasim lines none >>= fun rs => .ok (rs.map fun r => r.labels)) =
    (.ok [["A1101".toList], ["A1100".toList]] : Except PyErr (List (List Str))) := by
  decide +kernel

/-- C56 is violated by the code for two times that agree to thirteen digits: the
two outputs become one. -/
theorem C56_merge_violated :
    (writePetrasim
      [⟨some (.fin false 100000000000000), ["A1100".toList], [("P".toList, [.fin false 5])]⟩,
       ⟨some (.fin false 100000000000001), ["A1100".toList], [("P".toList, [.fin false 6])]⟩] >>=
      fun lines => readPetrasim lines none >>= fun rs => .ok (rs.map fun r => r.labels)) =
    (.ok [["A1100".toList, "A1100".toList]] : Except PyErr (List (List Str))) := by
  decide +kernel

/-- C56 is violated by the code for outputs without variables: labels and times
are lost. -/
theorem C56_empty_violated (outs : List (Output Str Flt)) (hne : outs ≠ [])
    (h : ∀ o ∈ outs, o.data = []) :
    ∃ lines, writePetrasim outs = .ok lines ∧ readPetrasim lines none = .ok [] := by
  have hv : varOrder ((outs.getLast hne).data.map (·.1)) = [] := by
    rw [h _ (List.getLast_mem hne)]; decide
  refine ⟨[joinWith ',' (["TIME [sec]".toList, "ELEM".toList, "INDEX".toList].map (padLeft 18)) ++ ['\n']],
    ?_, ?_⟩
  swap
  · have hh := petra_headers (vars := []) (by simp)
    unfold readPetrasim
    simp only [List.headD_cons, List.tail_cons]
    rw [hh]
    rfl
  unfold writePetrasim
  rw [List.getLast?_eq_getLast_of_ne_nil hne]
  simp only
  rw [hv, concatM_ok (f := petraStep []) (g := fun _ => []) (fun o _ => rfl)]
  have : outs.flatMap (fun _ => ([] : List Str)) = [] := by simp
  rw [this]
  rfl

example : ∃ outs : List (Output Str Flt), outs ≠ [] ∧ (∀ o ∈ outs, o.data = []) ∧
    ∃ o ∈ outs, o.labels ≠ [] :=
  ⟨[⟨some (.fin false 1), ["A1100".toList], []⟩], by simp⟩

/-- C37. A Petrasim file is recognised, unless a name contains an equal sign. -/
theorem C37_petrasim_header_partial (ks : List Str) (outs : List (Output Str Flt)) (hne : outs ≠ [])
    (h : PetraOk ks outs) (hk : ∀ k ∈ ks, '=' ∉ k) (lines : List Str)
    (hw : writePetrasim outs = .ok lines) : outputType lines = .ok (.element, .petrasim) := by
  obtain ⟨vars, -, hvp, hw'⟩ := writePetrasim_eq ks outs hne h
  rw [hw'] at hw
  cases hw
  have hj : ∀ (xs : List Str), (∀ x ∈ xs, '=' ∉ x) → '=' ∉ joinWith ',' xs := by
    intro xs hx
    induction xs with
    | nil => simp [joinWith]
    | cons x xs ih =>
      by_cases hn : xs = []
      · subst hn; exact hx x (by simp)
      · rw [joinWith_cons hn]
        simp only [List.mem_append, List.mem_cons, not_or]
        exact ⟨hx x (by simp), by decide, ih fun y hy => hx y (List.mem_cons_of_mem _ hy)⟩
  generalize hline : joinWith ',' (("TIME [sec]".toList :: "ELEM".toList :: "INDEX".toList ::
    vars).map (padLeft 18)) = line
  have hstart : ∃ r, strip (line ++ ['\n']) = "TIME".toList ++ r := by
    rw [← hline, List.map_cons, joinWith_cons (by simp)]
    have e : padLeft 18 "TIME [sec]".toList = blanks 8 ++ ("TIME".toList ++ " [sec]".toList) := by
      decide
    rw [e, List.append_assoc, List.append_assoc, List.append_assoc,
      strip_spaces_append (blanks_space 8)]
    generalize (" [sec]".toList ++ (',' :: joinWith ',' (("ELEM".toList :: "INDEX".toList ::
      vars).map (padLeft 18)) ++ ['\n'])) = r
    unfold strip
    rw [lstrip_eq_self (by
      intro c hc
      have : c = 'T' := by simpa using hc.symm
      subst this; decide)]
    unfold rstrip
    rw [List.reverse_append, List.dropWhile_append]
    split
    · exact ⟨[], by decide⟩
    · rw [List.reverse_append]
      exact ⟨(r.reverse.dropWhile isSpace).reverse, by simp⟩
  obtain ⟨r, hr⟩ := hstart
  have hno : '=' ∉ strip (line ++ ['\n']) := by
    obtain ⟨a, b, -, -, e⟩ := strip_parts (line ++ ['\n'])
    intro hc
    have h1 : '=' ∈ line ++ ['\n'] := by
      rw [e]
      simp [hc]
    rcases List.mem_append.1 h1 with h1 | h1
    · rw [← hline] at h1
      refine hj _ ?_ h1
      intro x hx hxe
      obtain ⟨y, hy, rfl⟩ := List.mem_map.1 hx
      rcases List.mem_append.1 hxe with hxe | hxe
      · exact absurd (List.eq_of_mem_replicate hxe) (by decide)
      · simp only [List.mem_cons] at hy
        rcases hy with rfl | rfl | rfl | hy
        · revert hxe; decide
        · revert hxe; decide
        · revert hxe; decide
        · exact hk y (hvp.subset hy) hxe
    · revert h1; decide
  have hl1 : line1 ((line ++ ['\n']) :: outs.flatMap (petraLines vars)) = "TIME".toList ++ r := hr
  rw [C37_output_type, if_neg, if_neg, if_neg, if_pos]
  · unfold IsPetrasim; rw [hl1]; exact ⟨r, rfl⟩
  · unfold HasEqual; rw [hl1, ← hr]; exact hno
  · unfold IsSave; rw [hl1]
    rintro ⟨t, ht⟩
    have := congrArg List.head? ht
    simp at this
  · unfold IsTough; rw [hl1]
    rintro (⟨h0, -⟩ | ⟨t, ht⟩)
    · simp at h0
    · have := congrArg List.head? ht
      simp at this

example : ∀ k ∈ ["X".toList, "PRES".toList, "SG".toList], '=' ∉ k := by decide

/-- C56. Reading stops at the first empty line: nothing after it counts. -/
theorem C56_blank_line (head : Str) (a b : List Str) (l : Str) (h : ∀ c ∈ l, isSpace c = true)
    (order : Option (List Str)) :
    readPetrasim (head :: (a ++ l :: b)) order = readPetrasim (head :: a) order := by
  have e : petraLoop (a ++ l :: b) = petraLoop a := by
    induction a with
    | nil =>
      rw [List.nil_append, petraLoop.eq_2, if_pos ((strip_eq_nil_iff _).2 h), petraLoop]
    | cons x a ih => rw [List.cons_append, petraLoop.eq_2, petraLoop.eq_2, ih]
  unfold readPetrasim
  simp only [List.headD_cons, List.tail_cons]
  rw [e]

example : readPetrasim ("TIME [sec],ELEM,INDEX,P\n".toList :: (["1.0,AAA 0,1,2.0\n".toList] ++
    " \n".toList :: ["2.0,AAA 0,1,2.0\n".toList])) none =
    readPetrasim ("TIME [sec],ELEM,INDEX,P\n".toList :: ["1.0,AAA 0,1,2.0\n".toList]) none :=
  C56_blank_line _ _ _ _ (by decide) _

/-- C37 is violated by the code for a variable with an equal sign in its name. -/
theorem C37_petrasim_violated :
    (writePetrasim [⟨some (.fin false 2), ["A1100".toList], [("a=b".toList, [.fin false 5])]⟩] >>=
      outputType) = .ok (.element, .tecplot) := by
  decide +kernel

end Verif.Props
