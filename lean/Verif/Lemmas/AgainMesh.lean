import Verif.Lemmas.AgainGener

/-! Helper lemmas: the mesh and the initial conditions of a file that was read. -/

set_option linter.unusedSimpArgs false

namespace Verif.Model
open Verif.Py Verif.Spec Verif.Props

variable {p : Params}

/-- The rows that are written are all entries. -/
theorem rowsFor_arranged {β : Type} {order : Option (List Val)} {d : List (Val × β)}
    (hd : (d.map (·.1)).Nodup) (ho : OrderOk order (d.map (·.1)))
    (hn : NamesAll order (d.map (·.1))) :
    (rowsFor order d).Perm d ∧ (rowsFor order d).map (·.1) = rowOrder order d := by
  cases order with
  | none => exact ⟨List.Perm.refl _, rfl⟩
  | some o =>
    have hp : o.Perm (d.map (·.1)) :=
      (List.perm_ext_iff_of_nodup (ho o rfl).1 hd).2 fun k => ⟨(ho o rfl).2 k, hn o rfl k⟩
    obtain ⟨l, h1, h2, h3⟩ := exists_rows d hd o fun k hk => hp.mem_iff.1 hk
    have hln : (l.map (·.1)).Nodup := h1 ▸ (ho o rfl).1
    have harr : Arranges l d o :=
      ⟨rows_perm hd hln h2 fun k hk => h1 ▸ hp.mem_iff.2 hk, h1⟩
    show (inOrder d o).Perm d ∧ (inOrder d o).map (·.1) = o
    rw [inOrder_eq hd harr]
    exact harr

/-- A block of rows written from the entries as they come back. -/
theorem again_rows {β γ : Type} {order : Option (List Val)} {d : List (Val × β)} (g : β → β)
    {W : Val → β → Except PyErr (List γ)} (hd : (d.map (·.1)).Nodup)
    (ho : OrderOk order (d.map (·.1))) (hn : NamesAll order (d.map (·.1)))
    (hW : ∀ e ∈ d, W e.1 (g e.2) = W e.1 e.2) :
    let d' := (rowsFor order d).map fun e => (e.1, g e.2)
    let o' := (rowsFor order d).map (·.1)
    maxLen (d'.map (·.1)) = maxLen (d.map (·.1)) ∧
    concatM (fun k => do
      let e ← dictGet d' k
      W k e) (rowOrder (some o') d') =
    concatM (fun k => do
      let e ← dictGet d k
      W k e) (rowOrder order d) := by
  intro d' o'
  obtain ⟨hp, hk⟩ := rowsFor_arranged hd ho hn
  have hkeys : d'.map (·.1) = o' := by simp [d', o', List.map_map, Function.comp_def]
  have hop : o'.Perm (d.map (·.1)) := hp.map _
  have hon : (d'.map (·.1)).Nodup := by rw [hkeys]; exact hop.nodup_iff.2 hd
  refine ⟨by rw [hkeys]; exact maxLen_perm hop, ?_⟩
  have e1 : rowOrder (some o') d' = d'.map (·.1) := hkeys.symm
  rw [e1, concatM_keys W (dictGet_rows hon), ← hk,
    concatM_keys W fun e he => dictGet_mem (k := e.1) (v := e.2) hd (hp.mem_iff.1 he), concatM_map]
  exact concatM_congr fun e he => hW e (hp.mem_iff.1 he)

/-! ### ELEME and COORD -/

theorem toStr_same {v : Val} (h : Fits (eCol 10 3) v) (ht : Tame v) (hs : SameDigits v) :
    toStr (eCol 10 3) (num 13 v) = toStr (eCol 10 3) v := by
  cases v with
  | none => rfl
  | str s => exact absurd h ht
  | bool b => exact h.elim
  | int i =>
    have hs : fmtE 3 (quant 13 (fltOfInt i)) = fmtE 3 (fltOfInt i) := hs
    simp [num, stored, toStr, hs]
  | flt x =>
    have hs : fmtE 3 (quant 13 x) = fmtE 3 x := hs
    simp [num, stored, toStr, hs]

theorem writeElem_back {L : ℕ} (hL : 5 ≤ L ∧ L ≤ 9) {k : Val} (hk : NameFits L k) {e : Elem}
    {b : Bool} (h : ElemFits L e) (ht : ElemTame b e) :
    writeElem (elemFmt L) k (elemFull b e) = writeElem (elemFmt L) k e := by
  obtain ⟨t1, t2⟩ := ht
  obtain ⟨h1, h2, h3, h4, h5, h6⟩ := h
  simp only [List.mem_append, List.mem_cons, List.not_mem_nil, or_false, or_imp, forall_and,
    forall_eq_or_imp, forall_eq] at t1 h4
  obtain ⟨⟨a1, a2, a3, a4, a5⟩, a6⟩ := t1
  cases hc : e.center with
  | absent => rw [hc] at h5; simp [centerOf] at h5
  | null => rw [hc] at h5; simp [centerOf] at h5
  | list l =>
    rw [hc] at h5 h6 a6 t2
    match l, h5 with
    | [x, y, z], _ =>
      have ex : ∃ q, (elemFull b e).center = .list [num q x, num q y, num q z] ∧
          ∀ v ∈ [x, y, z], toStr (eCol 10 3) (num q v) = toStr (eCol 10 3) v := by
        cases b with
        | true =>
          refine ⟨13, by simp [elemFull, hc, centerOf], fun v hv => ?_⟩
          exact toStr_same (h6 v hv) (a6 v hv) (t2 rfl v hv)
        | false =>
          exact ⟨3, by simp [elemFull, elemBack, hc, centerOf],
            fun v hv => toStr_num (by decide) (h6 v hv) (a6 v hv)⟩
      obtain ⟨q, hq, hv⟩ := ex
      have hrest : (elemFull b e).nseq = stored (dCol 5) e.nseq ∧
          (elemFull b e).nadd = stored (dCol 5) e.nadd ∧ (elemFull b e).material = e.material ∧
          (elemFull b e).volume = num 4 e.volume ∧ (elemFull b e).area = num 4 e.area ∧
          (elemFull b e).permMod = num 4 e.permMod := by
        cases b <;> exact ⟨rfl, rfl, rfl, rfl, rfl, rfl⟩
      obtain ⟨r1, r2, r3, r4, r5, r6⟩ := hrest
      have n4 : ∀ v, Fits (eCol 10 4) v → Tame v →
          toStr (eCol 10 4) (num 4 v) = toStr (eCol 10 4) v :=
        fun v h1 h2 => toStr_num (by decide) h1 h2
      unfold writeElem
      simp only [hq, hc, Center.at, index, List.getElem?_cons_zero, List.getElem?_cons_succ, ok_bind,
        r1, r2, r3, r4, r5, r6]
      rw [writeRecord_text]
      · obtain ⟨l1, l2⟩ := hL
        interval_cases L <;> decide
      · have tx : ∀ {t : Tok} {v : Val}, Fits t v → ∃ s, toStr t v = .ok s ∧ s.length = t.w :=
          fun h => ⟨_, toStr_eq h, fieldOf_length h⟩
        obtain ⟨m, m1, m2, -⟩ := cell_material h3
        exact ⟨tx (fits_name hk), tx h1, tx h2, ⟨m, m1, m2⟩, tx h4.1, tx h4.2.1, tx h4.2.2,
          tx (h6 x (by simp [centerOf])), tx (h6 y (by simp [centerOf])),
          tx (h6 z (by simp [centerOf])), trivial⟩
      · exact ⟨rfl, toStr_dcol h1 a1, toStr_dcol h2 a2, rfl, n4 _ h4.1 a3, n4 _ h4.2.1 a4,
          n4 _ h4.2.2 a5, hv x (by simp), hv y (by simp), hv z (by simp), trivial⟩

theorem writeCenter_back {e : Elem} (h : CenterFits e.center)
    (ht : ∀ v ∈ centerOf e.center, Tame v) :
    writeCenter (elemFull true e).center = writeCenter e.center := by
  obtain ⟨h1, h2, h3⟩ := h
  cases hc : e.center with
  | absent => rw [hc] at h1; simp [centerOf] at h1
  | null => rw [hc] at h1; simp [centerOf] at h1
  | list l =>
    rw [hc] at h1 h2 ht
    have e1 : (elemFull true e).center = .list (l.map (num 13)) := by
      simp [elemFull, hc, centerOf]
    have e2 : writeRecord Fmt.coord (l.map (num 13)) = writeRecord Fmt.coord l :=
      writeRow_num (n := 3) (w := 20) (p := 13) (by decide) le_rfl h2 ht
    rw [e1]
    simp only [writeCenter, e2]

theorem params_elems : (fileBack p).params.elements =
      (rowsFor p.elementsOrder p.elements).map (fun e => (e.1, elemFull p.coordinates e.2)) ∧
    (p.elements ≠ [] → (fileBack p).params.elementsOrder =
      some ((rowsFor p.elementsOrder p.elements).map (·.1))) ∧
    (p.elements ≠ [] → (fileBack p).params.coordinates = p.coordinates) := by
  by_cases h : p.elements = []
  · have : rowsFor p.elementsOrder p.elements = [] := by
      rw [h]
      cases p.elementsOrder with
      | none => rfl
      | some o => simp [rowsFor, inOrder]
    refine ⟨?_, fun h' => absurd h h', fun h' => absurd h h'⟩
    rw [this]
    simp [FileRead.params, fileBack, elemsBack, nonEmpty, h]
  · exact ⟨by simp [FileRead.params, fileBack, elemsBack, nonEmpty, h],
      fun _ => by simp [FileRead.params, fileBack, elemsBack, nonEmpty, h],
      fun _ => by simp [FileRead.params, fileBack, nonEmpty, h]⟩

theorem again_eleme {given : Option ℕ} (he : ElemsOk given p)
    (hn : NamesAll p.elementsOrder (p.elements.map (·.1)))
    (ht : ∀ e ∈ p.elements, ElemTame p.coordinates e.2) :
    onlyIf ((fileBack p).params.elements ≠ [])
        (writeEleme (fileBack p).params.elementsOrder (fileBack p).params.elements) =
      onlyIf (p.elements ≠ []) (writeEleme p.elementsOrder p.elements) ∧
    onlyIf (fileBack p).params.coordinates
        (writeCoord (fileBack p).params.elementsOrder (fileBack p).params.elements) =
      onlyIf p.coordinates (writeCoord p.elementsOrder p.elements) := by
  obtain ⟨h1, h2, h3⟩ := he
  by_cases hc : p.elements = []
  · have hb : p.coordinates = false := by
      cases hb : p.coordinates with
      | false => rfl
      | true => exact absurd hc (h3 hb).1
    have e1 : (fileBack p).params.elements = [] := by
      simp [FileRead.params, fileBack, elemsBack, nonEmpty, hc]
    have e2 : (fileBack p).params.coordinates = false := by
      simp [FileRead.params, fileBack, nonEmpty, hc]
    rw [e1, e2, hb, hc]
    exact ⟨rfl, rfl⟩
  · obtain ⟨L, -, hl, hf, -⟩ := h2.resolve_left hc
    obtain ⟨l1, l2, l3, l4, l5⟩ := hl
    obtain ⟨e1, e2, e3⟩ := params_elems (p := p)
    have e2 := e2 hc
    have e3 := e3 hc
    obtain ⟨r1, r2⟩ := again_rows (elemFull p.coordinates) (W := writeElem (elemFmt L)) l3 h1 hn
      fun e he => writeElem_back ⟨l1, l2⟩ (l4 e.1 (List.mem_map.2 ⟨e, he, rfl⟩)) (hf e he) (ht e he)
    have hmax : maxLen (p.elements.map (·.1)) = .ok L := maxLen_eq ⟨l1, l2, l3, l4, l5⟩
    have hne : (rowsFor p.elementsOrder p.elements).map
        (fun e => (e.1, elemFull p.coordinates e.2)) ≠ [] := by
      intro h
      have := (rowsFor_arranged l3 h1 hn).1.length_eq
      rw [List.map_eq_nil_iff.1 h] at this
      exact hc (List.length_eq_zero_iff.1 this.symm)
    rw [e1, e2, e3]
    constructor
    · unfold onlyIf writeEleme
      rw [if_pos (decide_eq_true hne), if_pos (decide_eq_true hc), r1, hmax]
      simp only [ok_bind, (formatFor_eleme ⟨l1, l2⟩).1, r2]
    · cases hb : p.coordinates with
      | false => rfl
      | true =>
        obtain ⟨-, r3⟩ := again_rows (elemFull p.coordinates) (W := fun _ e => writeCenter e.center)
          l3 h1 hn fun e he => by
            rw [hb]
            exact writeCenter_back ((h3 hb).2 e he) fun v hv => (ht e he).1 v (by simp [hv])
        rw [hb] at r3
        unfold onlyIf writeCoord
        rw [if_pos rfl, if_pos rfl, r3]

/-! ### CONNE -/

theorem writeConn_back {L : ℕ} (hL : 5 ≤ L ∧ L ≤ 9) {k : Val} (hk : NameFits (2 * L) k) {c : Conn}
    (h : ConnFits L c) (ht : ConnTame c) :
    writeConn (connFmt L) k (connBack c) = writeConn (connFmt L) k c := by
  obtain ⟨h1, h2, h3, h4, h5, h6, h7, h8⟩ := h
  unfold ConnTame at ht
  simp only [List.mem_append, List.mem_cons, List.not_mem_nil, or_false, or_imp, forall_and,
    forall_eq_or_imp, forall_eq] at ht h7 h8
  obtain ⟨⟨⟨t1, t2, t3, t4, t5⟩, t6⟩, t7⟩ := ht
  obtain ⟨n1, n2, hn⟩ : ∃ n1 n2, pairOf c.nadd = [n1, n2] := by
    generalize pairOf c.nadd = l at h2
    match l, h2 with
    | [a, b], _ => exact ⟨a, b, rfl⟩
  obtain ⟨d1, d2, hd⟩ : ∃ n1 n2, pairOf c.distances = [n1, n2] := by
    generalize pairOf c.distances = l at h6
    match l, h6 with
    | [a, b], _ => exact ⟨a, b, rfl⟩
  rw [hn] at h3 t6
  rw [hd] at h7 t7
  obtain ⟨ds, hds⟩ := Option.ne_none_iff_exists'.1 h5
  have hds' : ds = [d1, d2] := by rw [← hd, hds]; rfl
  have f1 : naddAt c.nadd 0 = .ok n1 ∧ naddAt c.nadd 1 = .ok n2 := by
    cases hc : c.nadd with
    | none => rw [hc] at hn; cases hn; exact ⟨rfl, rfl⟩
    | some l => rw [hc] at hn; cases hn; exact ⟨rfl, rfl⟩
  have f2 : distAt c.distances 0 = .ok d1 ∧ distAt c.distances 1 = .ok d2 := by
    rw [hds, hds']; exact ⟨rfl, rfl⟩
  have f3 : naddAt (connBack c).nadd 0 = .ok (stored (dCol 5) n1) ∧
      naddAt (connBack c).nadd 1 = .ok (stored (dCol 5) n2) := by
    simp only [connBack, hn]; exact ⟨rfl, rfl⟩
  have f4 : distAt (connBack c).distances 0 = .ok (num 4 d1) ∧
      distAt (connBack c).distances 1 = .ok (num 4 d2) := by
    simp only [connBack, hd]; exact ⟨rfl, rfl⟩
  have n4 : ∀ v, Fits (eCol 10 4) v → Tame v → toStr (eCol 10 4) (num 4 v) = toStr (eCol 10 4) v :=
    fun v h1 h2 => toStr_num (by decide) h1 h2
  have n3 : ∀ v, Fits (eCol 10 3) v → Tame v → toStr (eCol 10 3) (num 3 v) = toStr (eCol 10 3) v :=
    fun v h1 h2 => toStr_num (by decide) h1 h2
  unfold writeConn
  simp only [f1.1, f1.2, f2.1, f2.2, f3.1, f3.2, f4.1, f4.2, ok_bind]
  rw [writeRecord_alike]
  · obtain ⟨l1, l2⟩ := hL
    interval_cases L <;> decide
  · exact ⟨fits_name hk, h1, h3 n1 (by simp), h3 n2 (by simp), h4, h7.2 d1 (by simp),
      h7.2 d2 (by simp), h7.1, h8.1, h8.2, trivial⟩
  · exact ⟨rfl, toStr_dcol h1 t1, toStr_dcol (h3 n1 (by simp)) (t6 n1 (by simp)),
      toStr_dcol (h3 n2 (by simp)) (t6 n2 (by simp)), toStr_dcol h4 t2,
      n4 _ (h7.2 d1 (by simp)) (t7 d1 (by simp)), n4 _ (h7.2 d2 (by simp)) (t7 d2 (by simp)),
      n4 _ h7.1 t3, n3 _ h8.1 t4, n3 _ h8.2 t5, trivial⟩

theorem again_conne {given : Option ℕ} (hg : ConnsOk given p)
    (hn : NamesAll p.connectionsOrder (p.connections.map (·.1)))
    (ht : ∀ e ∈ p.connections, ConnTame e.2) :
    onlyIf ((fileBack p).params.connections ≠ [])
        (writeConne (fileBack p).params.connectionsOrder (fileBack p).params.connections) =
      onlyIf (p.connections ≠ []) (writeConne p.connectionsOrder p.connections) := by
  obtain ⟨h1, h2⟩ := hg
  by_cases hc : p.connections = []
  · have e1 : (fileBack p).params.connections = [] := by
      simp [FileRead.params, fileBack, connsBack, nonEmpty, hc]
    rw [e1, hc]; rfl
  · obtain ⟨L, -, hl, hf, -⟩ := h2.resolve_left hc
    obtain ⟨l1, l2, l3, l4, l5⟩ := hl
    have e1 : (fileBack p).params.connections =
        (rowsFor p.connectionsOrder p.connections).map fun e => (e.1, connBack e.2) := by
      simp [FileRead.params, fileBack, connsBack, nonEmpty, hc]
    have e2 : (fileBack p).params.connectionsOrder =
        some ((rowsFor p.connectionsOrder p.connections).map (·.1)) := by
      simp [FileRead.params, fileBack, connsBack, nonEmpty, hc]
    obtain ⟨r1, r2⟩ := again_rows connBack (W := writeConn (connFmt L)) l3 h1 hn
      fun e he => writeConn_back ⟨l1, l2⟩ (l4 e.1 (List.mem_map.2 ⟨e, he, rfl⟩)).1 (hf e he) (ht e he)
    have hmax : maxLen (p.connections.map (·.1)) = .ok (2 * L) :=
      maxLen_eq' (fun k hk => (l4 k hk).1) (fun k hk => (keyLen_of_nameFits (l4 k hk).1).2) l5
    have hne : (rowsFor p.connectionsOrder p.connections).map (fun e => (e.1, connBack e.2)) ≠ [] := by
      intro h
      have := (rowsFor_arranged l3 h1 hn).1.length_eq
      rw [List.map_eq_nil_iff.1 h] at this
      exact hc (List.length_eq_zero_iff.1 this.symm)
    rw [e1, e2]
    unfold onlyIf writeConne
    rw [if_pos (decide_eq_true hne), if_pos (decide_eq_true hc), r1, hmax]
    have : 2 * L / 2 = L := by omega
    simp only [ok_bind, this, formatFor_conne ⟨l1, l2⟩, r2]

/-! ### INCON -/

theorem alike_nones {f : List Tok} {vs : List Val} (hk : ∀ t ∈ f, t.kind ≠ .f)
    (h : Alike f vs []) (k : ℕ) : Alike f vs (List.replicate k .none) := by
  induction f generalizing vs k with
  | nil => trivial
  | cons t ts ih =>
    have ht := toStr_none (hk t (by simp))
    have hts := fun t h => hk t (List.mem_cons_of_mem _ h)
    cases k with
    | zero => exact h
    | succ k =>
      cases vs with
      | nil => exact ⟨ht, ih hts (by cases ts <;> exact trivial) k⟩
      | cons v vs => exact ⟨ht.trans h.1.symm, ih hts h.2 k⟩

theorem writeIncon_back {L : ℕ} (hL : 5 ≤ L ∧ L ≤ 9) {k : Val} (hk : NameFits L k) {c : Incon}
    (h : InconFits c) (ht : InconTame c) :
    writeInconRow (inconFmt L) k (inconBack c).again = writeInconRow (inconFmt L) k c := by
  have hf := allFit_incon hk h
  obtain ⟨h1, h2, h3, h4, h5, h6, h7⟩ := h
  unfold InconTame at ht
  simp only [List.mem_append, List.mem_cons, or_imp, forall_and, forall_eq] at ht
  obtain ⟨t1, t2, t3⟩ := ht
  obtain ⟨u, hu⟩ := Option.ne_none_iff_exists'.1 h2
  obtain ⟨vs, hv⟩ := Option.ne_none_iff_exists'.1 h5
  obtain ⟨po, us, va⟩ := c
  dsimp only at hu hv
  subst hu hv
  simp only [Option.getD_some] at *
  have e1 : (inconBack ⟨po, some u, some vs⟩).again = ⟨num 9 po,
      some ((inconBack ⟨po, some u, some vs⟩).userx.getD (List.replicate 5 .none)),
      some (initBack vs)⟩ := rfl
  have e2 : ∃ u', (inconBack ⟨po, some u, some vs⟩).userx.getD (List.replicate 5 .none) = u' ∧
      Alike (List.replicate 5 (eCol 10 3)) u u' := by
    have ha := alike_drop row_kind (alike_row (n := 5) (w := 10) (p := 3) (by decide) h4 t2)
    refine ⟨_, rfl, ?_⟩
    simp only [inconBack, Option.getD_some]
    split
    · rename_i hd
      rw [hd] at ha
      exact alike_nones row_kind ha 5
    · exact ha
  obtain ⟨u', hu', ha⟩ := e2
  rw [e1, hu']
  have k1 : writeRecord (inconFmt L) ([k, .none, .none, num 9 po] ++ u') =
      writeRecord (inconFmt L) ([k, .none, .none, po] ++ u) :=
    writeRecord_alike (formatFor_incon hL).2.1 hf
      ⟨rfl, rfl, rfl, toStr_num (by decide) h1 t1, ha⟩
  have k2 : writeRecord Fmt.incon0 ((initBack vs).take (min 4 (initBack vs).length)) =
      writeRecord Fmt.incon0 (vs.take (min 4 vs.length)) := by
    have := init_take h6 t3
    have hm : ∀ l : List Val, l.take (min 4 l.length) = l.take 4 := by
      intro l
      rw [List.take_eq_take_iff]
      omega
    rw [hm, hm]
    exact this
  have k3 : writeThird (initBack vs) = writeThird vs := by
    have hl : 4 < (initBack vs).length ↔ 4 < vs.length := by
      rw [init_length t3]
      constructor
      · rintro ⟨v, hv, -⟩
        by_contra hlt
        rw [List.drop_eq_nil_of_le (by omega)] at hv
        simp at hv
      · intro hlt
        obtain ⟨v, hv, hn⟩ := h7 hlt
        exact ⟨v, hv, fun h => by rw [h] at hn; exact hn⟩
    have := init_drop h6 t3
    unfold writeThird
    simp only [hl]
    split
    · have : writeRecord Fmt.incon0 ((initBack vs).drop 4) = writeRecord Fmt.incon0 (vs.drop 4) := this
      rw [this]
    · rfl
  unfold writeInconRow
  simp only [listOf, ok_bind, k1, k2, k3]

theorem again_incon {given : Option ℕ} (hg : InconsOk given p)
    (hn : NamesAll p.initialConditionsOrder (p.initialConditions.map (·.1)))
    (ht : ∀ e ∈ p.initialConditions, InconTame e.2) :
    onlyIf ((fileBack p).params.initialConditions ≠ [])
        (writeIncon (fileBack p).params.initialConditionsOrder
          (fileBack p).params.initialConditions) =
      onlyIf (p.initialConditions ≠ []) (writeIncon p.initialConditionsOrder p.initialConditions) := by
  obtain ⟨h1, h2⟩ := hg
  by_cases hc : p.initialConditions = []
  · have e1 : (fileBack p).params.initialConditions = [] := by
      simp [FileRead.params, fileBack, inconsBack, nonEmpty, hc]
    rw [e1, hc]; rfl
  · obtain ⟨L, -, hl, hf, -⟩ := h2.resolve_left hc
    obtain ⟨l1, l2, l3, l4, l5⟩ := hl
    have e1 : (fileBack p).params.initialConditions =
        (rowsFor p.initialConditionsOrder p.initialConditions).map
          fun e => (e.1, (inconBack e.2).again) := by
      simp [FileRead.params, fileBack, inconsBack, nonEmpty, hc, List.map_map, Function.comp_def]
    have e2 : (fileBack p).params.initialConditionsOrder =
        some ((rowsFor p.initialConditionsOrder p.initialConditions).map (·.1)) := by
      simp [FileRead.params, fileBack, inconsBack, nonEmpty, hc]
    obtain ⟨r1, r2⟩ := again_rows (fun c => (inconBack c).again) (W := writeInconRow (inconFmt L)) l3
      h1 hn fun e he => writeIncon_back ⟨l1, l2⟩ (l4 e.1 (List.mem_map.2 ⟨e, he, rfl⟩)) (hf e he).2
        (ht e he)
    have hmax : maxLen (p.initialConditions.map (·.1)) = .ok L := maxLen_eq ⟨l1, l2, l3, l4, l5⟩
    have hne : (rowsFor p.initialConditionsOrder p.initialConditions).map
        (fun e => (e.1, (inconBack e.2).again)) ≠ [] := by
      intro h
      have := (rowsFor_arranged l3 h1 hn).1.length_eq
      rw [List.map_eq_nil_iff.1 h] at this
      exact hc (List.length_eq_zero_iff.1 this.symm)
    rw [e1, e2]
    unfold onlyIf writeIncon
    rw [if_pos (decide_eq_true hne), if_pos (decide_eq_true hc), r1, hmax]
    simp only [ok_bind, (formatFor_incon ⟨l1, l2⟩).1, r2]

end Verif.Model
