import Verif.Lemmas.RowOrder

/-!
# The order of the rows in a file (C32)
-/

namespace Verif.Props
open Verif.Py Verif.Model Verif.Spec

/-- C32. Writing elements with an order list that names every element once is
writing the dictionary arranged in that order: same lines or same exception. -/
theorem C32_eleme_order (elems : List (Val × Elem)) (o : List Val)
    (hd : (elems.map (·.1)).Nodup) (hp : o.Perm (elems.map (·.1))) :
    writeEleme (some o) elems = writeEleme none (inOrder elems o) := by
  obtain ⟨h1, h2⟩ := reordered hd hp
  unfold writeEleme
  simp only [rowOrder, h1, maxLen_perm hp]
  refine congrArg _ (bind_congr fun n => bind_congr fun fmt => concatM_congr fun k hk => ?_)
  rw [h2 k hk]

/-- C32. The same for COORD. -/
theorem C32_coord_order (elems : List (Val × Elem)) (o : List Val)
    (hd : (elems.map (·.1)).Nodup) (hp : o.Perm (elems.map (·.1))) :
    writeCoord (some o) elems = writeCoord none (inOrder elems o) := by
  obtain ⟨h1, h2⟩ := reordered hd hp
  unfold writeCoord
  simp only [rowOrder, h1]
  refine congrArg _ (concatM_congr fun k hk => ?_)
  rw [h2 k hk]

/-- C32. The same for connections. -/
theorem C32_conne_order (conns : List (Val × Conn)) (o : List Val)
    (hd : (conns.map (·.1)).Nodup) (hp : o.Perm (conns.map (·.1))) :
    writeConne (some o) conns = writeConne none (inOrder conns o) := by
  obtain ⟨h1, h2⟩ := reordered hd hp
  unfold writeConne
  simp only [rowOrder, h1, maxLen_perm hp]
  refine congrArg _ (bind_congr fun n => bind_congr fun fmt => concatM_congr fun k hk => ?_)
  rw [h2 k hk]

/-- C32. The same for initial conditions. -/
theorem C32_incon_order (ics : List (Val × Incon)) (o : List Val)
    (hd : (ics.map (·.1)).Nodup) (hp : o.Perm (ics.map (·.1))) :
    writeIncon (some o) ics = writeIncon none (inOrder ics o) := by
  obtain ⟨h1, h2⟩ := reordered hd hp
  unfold writeIncon
  simp only [rowOrder, h1, maxLen_perm hp]
  refine congrArg _ (bind_congr fun n => bind_congr fun fmt => concatM_congr fun k hk => ?_)
  rw [h2 k hk]

/-- C32. Rocks are written as the dictionary arranged as follows: first the rocks
of the order list, in its order, then the others, in dictionary order; every rock
appears exactly once. -/
theorem C32_rocks_order (rocks : List (Val × Rock)) (order : Option (List Val))
    (hd : (rocks.map (·.1)).Nodup) (ho : OrderOk order (rocks.map (·.1))) :
    writeRocks order rocks = writeRocks none (inOrder rocks (orderOf order (rocks.map (·.1)))) ∧
      (orderOf order (rocks.map (·.1))).Perm (rocks.map (·.1)) := by
  have hp : (orderOf order (rocks.map (·.1))).Perm (rocks.map (·.1)) := by
    rw [List.perm_ext_iff_of_nodup (orderOf_nodup ho hd) hd]
    exact mem_orderOf ho
  refine ⟨?_, hp⟩
  obtain ⟨h1, h2⟩ := reordered hd hp
  unfold writeRocks
  rw [rockOrder_eq order, rockOrder_eq none, h1]
  have : orderOf none (orderOf order (rocks.map (·.1))) = orderOf order (rocks.map (·.1)) := by
    simp [orderOf]
  rw [this]
  refine congrArg _ (concatM_congr fun k hk => ?_)
  rw [h2 k hk]

/-- C32. An order list naming an unknown entry is never written, in any of the
five blocks. -/
theorem C32_unknown_rejected (o : List Val) (k : Val) (hk : k ∈ o) (lines : List Str) :
    (∀ elems : List (Val × Elem), k ∉ elems.map (·.1) →
      writeEleme (some o) elems ≠ .ok lines ∧ writeCoord (some o) elems ≠ .ok lines) ∧
    (∀ conns : List (Val × Conn), k ∉ conns.map (·.1) → writeConne (some o) conns ≠ .ok lines) ∧
    (∀ ics : List (Val × Incon), k ∉ ics.map (·.1) → writeIncon (some o) ics ≠ .ok lines) ∧
    (∀ rocks : List (Val × Rock), k ∉ rocks.map (·.1) →
      writeRocks (some o) rocks ≠ .ok lines) := by
  have hblock : ∀ (kw : String) (b : Except PyErr (List Str)), (∀ r, b ≠ .ok r) →
      block kw true b ≠ .ok lines := by
    intro kw b hb h
    unfold block at h
    cases b with
    | error x => cases h
    | ok r => exact hb r rfl
  refine ⟨fun d hd => ⟨?_, ?_⟩, fun d hd => ?_, fun d hd => ?_, fun d hd => ?_⟩
  · refine hblock _ _ fun r h => ?_
    cases hm : maxLen (d.map (·.1)) with
    | error x => rw [hm] at h; cases h
    | ok n =>
      rw [hm, ok_bind] at h
      cases hf : formatFor Fmt.eleme n with
      | error x => rw [hf] at h; cases h
      | ok fmt =>
        rw [hf, ok_bind] at h
        exact concatM_error (a := k) hk (by rw [dictGet_unknown hd]; rfl) r h
  · refine hblock _ _ fun r h => ?_
    exact concatM_error (a := k) hk (by rw [dictGet_unknown hd]; rfl) r h
  · refine hblock _ _ fun r h => ?_
    cases hm : maxLen (d.map (·.1)) with
    | error x => rw [hm] at h; cases h
    | ok n =>
      rw [hm, ok_bind] at h
      cases hf : formatFor Fmt.conne (n / 2) with
      | error x => rw [hf] at h; cases h
      | ok fmt =>
        rw [hf, ok_bind] at h
        exact concatM_error (a := k) hk (by rw [dictGet_unknown hd]; rfl) r h
  · refine hblock _ _ fun r h => ?_
    cases hm : maxLen (d.map (·.1)) with
    | error x => rw [hm] at h; cases h
    | ok n =>
      rw [hm, ok_bind] at h
      cases hf : formatFor Fmt.incon n with
      | error x => rw [hf] at h; cases h
      | ok fmt =>
        rw [hf, ok_bind] at h
        exact concatM_error (a := k) hk (by rw [dictGet_unknown hd]; rfl) r h
  · refine hblock _ _ fun r h => ?_
    refine concatM_error (a := k) (l := rockOrder (some o) d) ?_
      (by rw [dictGet_unknown hd]; rfl) r h
    simp [rockOrder, hk]

/-- Three elements, their labels in another order, and an unknown label. -/
example : let es := [(Val.str "AAA11".toList, ()), (.str "AAA12".toList, ()),
      (.str "AAA13".toList, ())]
    (es.map (·.1)).Nodup ∧ [Val.str "AAA13".toList, .str "AAA11".toList, .str "AAA12".toList].Perm
      (es.map (·.1)) ∧ OrderOk (some [.str "AAA12".toList]) (es.map (·.1)) ∧
      Val.str "BBB".toList ∉ es.map (·.1) := by
  decide +kernel

end Verif.Props
