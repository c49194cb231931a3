import Verif.Spec.Typed
import Verif.Props.Check

/-!
# Parameters of the right types pass the checks
-/

namespace Verif.Props
open Verif.Py Verif.Model Verif.Spec

/-- An entry that is not bad. -/
def Fine (types : Types) (k : Key) (v : Tree) : Prop :=
  v = .none ∨ ∀ name, types.lookup k = some name → Meets name v

theorem not_bad {types : Types} {d : List (Key × Tree)} (h : ∀ e ∈ d, Fine types e.1 e.2) :
    ¬ Bad types d := by
  rintro ⟨e, he, hn, name, hl, hm⟩
  exact (h e he).elim hn fun h => hm (h name hl)

theorem fine_of {types : Types} {k : Key} {v : Tree} (name : String)
    (hl : types.lookup k = some name) (h : v = .none ∨ Meets name v) : Fine types k v := by
  refine h.imp id fun h n hn => ?_
  rw [hl] at hn
  cases hn
  exact h

theorem int_tree {v : Val} (h : AsInt v) : v.tree = .none ∨ Meets "int" v.tree := by
  cases v <;> simp_all [AsInt, Val.tree, Meets, IsInt]

theorem num_tree {v : Val} (h : AsNum v) : v.tree = .none ∨ Meets "scalar" v.tree := by
  cases v <;> simp_all [AsNum, Val.tree, Meets, IsNum, IsInt]

theorem text_tree {v : Val} (h : AsText v) : v.tree = .none ∨ Meets "str" v.tree := by
  cases v <;> simp_all [AsText, Val.tree, Meets, IsText]

theorem texts_tree {v : Val} (h : AsText v) : v.tree = .none ∨ Meets "str_array_like" v.tree := by
  cases v <;> simp_all [AsText, Val.tree, Meets, IsText]

theorem flag_tree {v : Val} (h : AsFlag v) : v.tree = .none ∨ Meets "bool" v.tree := by
  cases v <;> simp_all [AsFlag, Val.tree, Meets, IsFlag]

theorem material_tree {v : Val} (h : AsText v ∨ AsInt v) :
    v.tree = .none ∨ Meets "str_int" v.tree := by
  cases v <;> simp_all [AsText, AsInt, Val.tree, Meets, IsText, IsInt]

theorem nums_tree {v : SoL} (h : AsNums v) : v.tree = .none ∨ Meets "scalar_array_like" v.tree := by
  cases v with
  | one v => cases v <;> simp_all [AsNums, AsNum, SoL.tree, Val.tree, Meets, IsNum, IsInt, IsSeq]
  | many l => exact .inr (.inr trivial)

theorem numl_tree {v : Val} (h : AsNum v) : v.tree = .none ∨ Meets "scalar_array_like" v.tree :=
  nums_tree (v := .one v) h

theorem list_tree (l : List Val) : listTree l = .none ∨ Meets "array_like" (listTree l) :=
  .inr trivial

theorem orList_tree (l : Option (List Val)) :
    orNone listTree l = .none ∨ Meets "array_like" (orNone listTree l) := by
  cases l
  · exact .inl rfl
  · exact .inr trivial

theorem model_fine {m : Mod} (h : AsInt m.id) : ∃ d, m.tree = .dict d ∧ ¬ Bad dtModel d := by
  refine ⟨_, rfl, not_bad ?_⟩
  simp only [List.forall_mem_cons, List.not_mem_nil, false_imp_iff, implies_true, and_true]
  exact ⟨fine_of "int" rfl (int_tree h), fine_of "array_like" rfl (list_tree _)⟩

theorem ifKey_fine {α : Type} {types : Types} {k : String} {f : α → Tree} {o : Option α}
    (h : ∀ a ∈ o, Fine types (key k) (f a)) : ∀ e ∈ ifKey k f o, Fine types e.1 e.2 := by
  cases o with
  | none => simp [ifKey]
  | some a => simpa [ifKey] using h

theorem rock_fine {r : Rock} (h : RockTyped r) : ¬ Bad dtRocks (Rock.entries r) := by
  obtain ⟨h1, h2, -⟩ := h
  simp only [List.forall_mem_cons, List.not_mem_nil, false_imp_iff, implies_true, and_true] at h1
  obtain ⟨a1, a2, a3, a4, a5, a6, a7, a8, a9, a10, a11⟩ := h1
  refine not_bad ?_
  unfold Rock.entries
  simp only [List.forall_mem_append]
  refine ⟨⟨⟨⟨?_, ?_⟩, ifKey_fine fun m _ => fine_of "dict" rfl (.inr trivial)⟩,
    ifKey_fine fun m _ => fine_of "dict" rfl (.inr trivial)⟩,
    ifKey_fine fun m _ => fine_of "array_like" rfl (.inr trivial)⟩
  · unfold Rock.scalars
    simp only [List.forall_mem_cons, List.not_mem_nil, false_imp_iff, implies_true, and_true]
    exact ⟨fine_of "scalar" rfl (num_tree a1), fine_of "scalar" rfl (num_tree a2),
      fine_of "scalar_array_like" rfl (nums_tree h2), fine_of "scalar" rfl (num_tree a3),
      fine_of "scalar" rfl (num_tree a4), fine_of "scalar" rfl (num_tree a5),
      fine_of "scalar" rfl (num_tree a6), fine_of "scalar" rfl (num_tree a7),
      fine_of "scalar" rfl (num_tree a8), fine_of "scalar" rfl (num_tree a9),
      fine_of "scalar" rfl (num_tree a10), fine_of "scalar" rfl (num_tree a11)⟩
  · simp only [List.forall_mem_cons, List.not_mem_nil, false_imp_iff, implies_true, and_true]
    exact ⟨fine_of "dict" rfl (.inr trivial), fine_of "dict" rfl (.inr trivial)⟩

theorem flac_fine {f : Flac} (h : FlacTyped f) : ∃ d, f.tree = .dict d ∧ ¬ Bad dtFlac d := by
  refine ⟨_, rfl, not_bad ?_⟩
  simp only [List.forall_mem_cons, List.not_mem_nil, false_imp_iff, implies_true, and_true]
  exact ⟨fine_of "bool" rfl (flag_tree h.1), fine_of "int" rfl (int_tree h.2.1),
    fine_of "int" rfl (int_tree h.2.2)⟩

theorem solver_fine {s : SolverOf (Option Val)} (h : SolverTyped s) :
    ∃ d, SolverOf.tree s = .dict d ∧ ¬ Bad dtSolvr d := by
  refine ⟨_, rfl, not_bad ?_⟩
  simp only [List.forall_mem_append]
  obtain ⟨h1, h2, h3, h4, h5⟩ := h
  exact ⟨⟨⟨⟨ifKey_fine fun v hv => fine_of "int" rfl (int_tree (h1 v hv)),
    ifKey_fine fun v hv => fine_of "str" rfl (text_tree (h2 v hv))⟩,
    ifKey_fine fun v hv => fine_of "str" rfl (text_tree (h3 v hv))⟩,
    ifKey_fine fun v hv => fine_of "scalar" rfl (num_tree (h4 v hv))⟩,
    ifKey_fine fun v hv => fine_of "scalar" rfl (num_tree (h5 v hv))⟩

theorem options_fine {o : Options} (h : OptionsTyped o) :
    ∃ d, Options.tree o = .dict d ∧ ¬ Bad dtParam d := by
  refine ⟨_, rfl, not_bad ?_⟩
  obtain ⟨h1, h2, h3⟩ := h
  simp only [List.forall_mem_cons, List.not_mem_nil, false_imp_iff, implies_true, and_true] at h1 h2 ⊢
  obtain ⟨a1, a2, a3, a4, a5⟩ := h1
  obtain ⟨b1, b2, b3, b4, b5, b6, b7, b8, b9, b10, b11, b12, b13⟩ := h2
  exact ⟨fine_of "int" rfl (int_tree a1), fine_of "int" rfl (int_tree a2),
    fine_of "int" rfl (int_tree a3), fine_of "int" rfl (int_tree a4),
    fine_of "int" rfl (int_tree a5), fine_of "scalar" rfl (num_tree b1),
    fine_of "scalar" rfl (num_tree b2), fine_of "scalar" rfl (num_tree b3),
    fine_of "scalar" rfl (num_tree b4), fine_of "scalar_array_like" rfl (nums_tree h3),
    fine_of "scalar" rfl (num_tree b5), fine_of "scalar" rfl (num_tree b6),
    fine_of "scalar" rfl (num_tree b7), fine_of "scalar" rfl (num_tree b8),
    fine_of "scalar" rfl (num_tree b9), fine_of "scalar" rfl (num_tree b10),
    fine_of "scalar" rfl (num_tree b11), fine_of "scalar" rfl (num_tree b12),
    fine_of "scalar" rfl (num_tree b13)⟩

theorem digits_fine {n : ℕ} {d : List (ℤ × Val)}
    (h : ∀ e ∈ d, 1 ≤ e.1 → e.1 ≤ n → AsInt e.2) :
    ¬ Bad (dtDigits n) (d.map fun e => (.int e.1, e.2.tree)) := by
  refine not_bad ?_
  intro e he
  obtain ⟨x, hx, rfl⟩ := List.mem_map.1 he
  by_cases hr : 1 ≤ x.1 ∧ x.1 ≤ n
  · refine (int_tree (h x hx hr.1 hr.2)).imp id fun hm name hl => ?_
    have := lookup_mem hl
    simp only [dtDigits, List.mem_map] at this
    obtain ⟨i, -, hi⟩ := this
    have hn : "int" = name := (Prod.ext_iff.1 hi).2
    subst hn
    exact hm
  · refine .inr fun name hl => absurd ?_ hr
    have := lookup_mem hl
    simp only [dtDigits, List.mem_map, List.mem_range] at this
    obtain ⟨i, hi, he⟩ := this
    have hk : Key.int ((i : ℤ) + 1) = Key.int x.1 := (Prod.ext_iff.1 he).1
    have hx : (i : ℤ) + 1 = x.1 := by injection hk
    omega

theorem selec_fine (s : Option (List (ℤ × Val)) × Floats) :
    ∃ d, selecTree s = .dict d ∧ ¬ Bad dtSelec d := by
  refine ⟨_, rfl, not_bad ?_⟩
  simp only [List.forall_mem_append]
  refine ⟨ifKey_fine fun v _ => fine_of "dict" rfl (.inr trivial), ?_⟩
  cases s.2 with
  | absent => simp [Floats.entries]
  | none =>
    simp only [Floats.entries, List.forall_mem_cons, List.not_mem_nil, false_imp_iff, implies_true, and_true]
    exact .inl rfl
  | row l =>
    simp only [Floats.entries, List.forall_mem_cons, List.not_mem_nil, false_imp_iff, implies_true, and_true]
    exact fine_of "array_like" rfl (.inr trivial)
  | rows l =>
    simp only [Floats.entries, List.forall_mem_cons, List.not_mem_nil, false_imp_iff, implies_true, and_true]
    exact fine_of "array_like" rfl (.inr trivial)

theorem fld_tree {α : Type} (f : α → Tree) (x : Fld α) :
    x.tree f = .none ∨ IsSeq (x.tree f) := by
  cases x <;> simp [Fld.tree, IsSeq]

theorem gen_fine {g : Gen} (h : GenTyped g) : ¬ Bad dtGener (Gen.entries g) := by
  refine not_bad ?_
  cases g with
  | noType => simp [Gen.entries]
  | single c =>
    obtain ⟨h1, h2, h3, h4⟩ := h
    unfold Gen.entries
    simp only [List.forall_mem_cons, List.not_mem_nil, false_imp_iff, implies_true, and_true] at h3 h4 ⊢
    exact ⟨fine_of "str_array_like" rfl (texts_tree h1),
      fine_of "scalar_array_like" rfl (numl_tree h3.1),
      fine_of "scalar_array_like" rfl (numl_tree h3.2.1),
      fine_of "scalar_array_like" rfl (numl_tree h3.2.2.1),
      fine_of "str_array_like" rfl (texts_tree h2),
      fine_of "scalar_array_like" rfl (nums_tree h4.1),
      fine_of "scalar_array_like" rfl (nums_tree h4.2.1),
      fine_of "scalar_array_like" rfl (nums_tree h4.2.2),
      fine_of "scalar_array_like" rfl (numl_tree h3.2.2.2)⟩
  | multi m =>
    unfold Gen.entries
    simp only [List.forall_mem_cons, List.not_mem_nil, false_imp_iff, implies_true, and_true]
    exact ⟨fine_of "str_array_like" rfl ((fld_tree _ _).imp id .inr),
      fine_of "scalar_array_like" rfl ((fld_tree _ _).imp id .inr),
      fine_of "scalar_array_like" rfl ((fld_tree _ _).imp id .inr),
      fine_of "scalar_array_like" rfl ((fld_tree _ _).imp id .inr),
      fine_of "str_array_like" rfl (.inr (.inr trivial)),
      fine_of "scalar_array_like" rfl ((fld_tree _ _).imp id .inr),
      fine_of "scalar_array_like" rfl ((fld_tree _ _).imp id .inr),
      fine_of "scalar_array_like" rfl ((fld_tree _ _).imp id .inr),
      fine_of "scalar_array_like" rfl ((fld_tree _ _).imp id .inr)⟩

theorem outpu_fine (o : Str × List (Str × Args)) :
    ∃ d, outpuTree o = .dict d ∧ ¬ Bad dtOutpu d := by
  refine ⟨_, rfl, not_bad ?_⟩
  simp only [List.forall_mem_cons, List.not_mem_nil, false_imp_iff, implies_true, and_true]
  exact ⟨fine_of "str" rfl (.inr trivial), fine_of "dict" rfl (.inr trivial)⟩

theorem elem_fine {e : Elem} (h : ElemTyped e) : ¬ Bad dtEleme (Elem.entries e) := by
  refine not_bad ?_
  obtain ⟨h1, h2, h3, h4⟩ := h
  unfold Elem.entries
  simp only [List.forall_mem_append]
  constructor
  · simp only [List.forall_mem_cons, List.not_mem_nil, false_imp_iff, implies_true, and_true] at h4 ⊢
    exact ⟨fine_of "int" rfl (int_tree h1), fine_of "int" rfl (int_tree h2),
      fine_of "str_int" rfl (material_tree h3), fine_of "scalar" rfl (num_tree h4.1),
      fine_of "scalar" rfl (num_tree h4.2.1), fine_of "scalar" rfl (num_tree h4.2.2)⟩
  · cases e.center with
    | absent => simp [Center.entries]
    | null =>
      simp only [Center.entries, List.forall_mem_cons, List.not_mem_nil, false_imp_iff, implies_true, and_true]
      exact .inl rfl
    | list l =>
      simp only [Center.entries, List.forall_mem_cons, List.not_mem_nil, false_imp_iff, implies_true, and_true]
      exact fine_of "array_like" rfl (.inr trivial)

theorem conn_fine {c : Conn} (h : ConnTyped c) : ¬ Bad dtConne (Conn.entries c) := by
  refine not_bad ?_
  obtain ⟨h1, h2, h3⟩ := h
  unfold Conn.entries
  simp only [List.forall_mem_cons, List.not_mem_nil, false_imp_iff, implies_true, and_true] at h3 ⊢
  exact ⟨fine_of "int" rfl (int_tree h1), fine_of "array_like" rfl (orList_tree _),
    fine_of "int" rfl (int_tree h2), fine_of "array_like" rfl (orList_tree _),
    fine_of "scalar" rfl (num_tree h3.1), fine_of "scalar" rfl (num_tree h3.2.1),
    fine_of "scalar" rfl (num_tree h3.2.2)⟩

theorem incon_fine {c : Incon} (h : AsNum c.porosity) : ¬ Bad dtIncon (Incon.entries c) := by
  refine not_bad ?_
  unfold Incon.entries
  simp only [List.forall_mem_cons, List.not_mem_nil, false_imp_iff, implies_true, and_true]
  exact ⟨fine_of "scalar" rfl (num_tree h), fine_of "array_like" rfl (orList_tree _),
    fine_of "array_like" rfl (orList_tree _)⟩

theorem orNone_tree {α : Type} {f : α → Tree} {name : String} (o : Option α)
    (h : ∀ a ∈ o, Meets name (f a)) : orNone f o = .none ∨ Meets name (orNone f o) := by
  cases o
  · exact .inl rfl
  · exact .inr (h _ rfl)

theorem getD_tree {α : Type} {f : α → Tree} (o : Option α) (h : ∀ a, IsDict (f a)) :
    IsDict ((o.map f).getD (.dict [])) := by
  cases o
  · trivial
  · exact h _

theorem params_fine {p : Params} (h : ∀ t ∈ p.times, AsNums t) : ¬ Bad dtParameters p.tree := by
  refine not_bad ?_
  unfold Params.tree
  simp only [List.forall_mem_cons, List.not_mem_nil, false_imp_iff, implies_true, and_true]
  have ht : orNone SoL.tree p.times = .none ∨
      Meets "scalar_array_like" (orNone SoL.tree p.times) := by
    cases hp : p.times with
    | none => exact .inl rfl
    | some t => exact nums_tree (h t hp)
  exact ⟨fine_of "str_array_like" rfl (.inr (.inr trivial)), fine_of "str" rfl (.inr trivial),
    fine_of "int" rfl (orNone_tree _ fun _ _ => trivial),
    fine_of "int" rfl (orNone_tree _ fun _ _ => trivial),
    fine_of "int" rfl (orNone_tree _ fun _ _ => trivial),
    fine_of "dict" rfl (orNone_tree _ fun _ _ => trivial),
    fine_of "bool" rfl (.inr trivial), fine_of "bool" rfl (.inr trivial),
    fine_of "bool" rfl (.inr trivial), fine_of "dict" rfl (.inr trivial),
    fine_of "array_like" rfl (orList_tree _), fine_of "dict" rfl (.inr trivial),
    fine_of "dict" rfl (.inr trivial), fine_of "dict" rfl (.inr trivial),
    fine_of "dict" rfl (.inr (getD_tree _ fun _ => trivial)),
    fine_of "dict" rfl (.inr (getD_tree _ fun _ => trivial)),
    fine_of "dict" rfl (.inr trivial),
    fine_of "array_like" rfl (orNone_tree _ fun _ _ => trivial),
    fine_of "scalar_array_like" rfl ht,
    fine_of "array_like" rfl (orList_tree _), fine_of "array_like" rfl (orList_tree _),
    fine_of "array_like" rfl (orList_tree _),
    fine_of "dict" rfl (orNone_tree _ fun _ _ => trivial), fine_of "dict" rfl (.inr trivial),
    fine_of "array_like" rfl (orList_tree _), fine_of "bool" rfl (.inr trivial),
    fine_of "dict" rfl (.inr trivial), fine_of "array_like" rfl (orList_tree _),
    fine_of "dict" rfl (.inr trivial), fine_of "array_like" rfl (orList_tree _),
    fine_of "dict" rfl (.inr trivial)⟩

/-! ## The checks -/

theorem passAll_ok {l : List (Except PyErr Unit)} (h : ∀ x ∈ l, x = .ok ()) :
    passAll l = .ok () := by
  induction l with
  | nil => rfl
  | cons x l ih =>
    rw [passAll, h x List.mem_cons_self]
    exact ih fun y hy => h y (List.mem_cons_of_mem _ hy)

/-- A check without list. -/
theorem check_dict {types : Types} (ht : TableOk types) {k : Key} {t d : List (Key × Tree)}
    (hk : t.lookup k = some (.dict d)) (hb : ¬ Bad types d) :
    (checkParameters types [k] false t).2 = .ok () :=
  ((C31_dictionary types ht [k] t d (.down hk (.here _))).2.1).2 hb

theorem check_dict2 {types : Types} (ht : TableOk types) {k k' : Key} {t d d' : List (Key × Tree)}
    (hk : t.lookup k = some (.dict d)) (hk' : d.lookup k' = some (.dict d')) (hb : ¬ Bad types d') :
    (checkParameters types [k, k'] false t).2 = .ok () :=
  ((C31_dictionary types ht [k, k'] t d' (.down hk (.down hk' (.here _)))).2.1).2 hb

/-- A check of a dictionary of dictionaries. -/
theorem check_rows {β : Type} {types : Types} (ht : TableOk types) {k : Key}
    {t : List (Key × Tree)} {f : β → List (Key × Tree)} {rows : List (Val × β)}
    (hk : t.lookup k = some (rowsTree f rows)) (hb : ∀ e ∈ rows, ¬ Bad types (f e.2)) :
    (checkParameters types [k] true t).2 = .ok () := by
  refine (C31_list_first types ht k [] t _ hk).1 fun e he => ?_
  obtain ⟨x, hx, rfl⟩ := List.mem_map.1 he
  exact .inl ⟨_, .here _, hb x hx⟩

/-- A check of the models of the rocks. -/
theorem check_models {β : Type} {types : Types} (ht : TableOk types) {k k' : Key}
    {t : List (Key × Tree)} {f : β → List (Key × Tree)} {rows : List (Val × β)}
    (hk : t.lookup k = some (rowsTree f rows))
    (hb : ∀ e ∈ rows, (f e.2).lookup k' = none ∨
      ∃ d, (f e.2).lookup k' = some (.dict d) ∧ ¬ Bad types d) :
    (checkParameters types [k, k'] true t).2 = .ok () := by
  refine (C31_list_first types ht k [k'] t _ hk).1 fun e he => ?_
  obtain ⟨x, hx, rfl⟩ := List.mem_map.1 he
  rcases hb x hx with h | ⟨d, h, h'⟩
  · exact .inr (.here h)
  · exact .inl ⟨d, .down h (.here _), h'⟩

theorem rock_relPerm (r : Rock) :
    (Rock.entries r).lookup (key "relative_permeability") = r.relPerm.map Mod.tree := by
  obtain ⟨a, b, c, d, e, f, g, h, i, j, k, l, m, n, o, p, q⟩ := r
  cases m <;> cases n <;> cases q <;> rfl

theorem rock_cap (r : Rock) :
    (Rock.entries r).lookup (key "capillarity") = r.cap.map Mod.tree := by
  obtain ⟨a, b, c, d, e, f, g, h, i, j, k, l, m, n, o, p, q⟩ := r
  cases m <;> cases n <;> cases q <;> rfl

theorem rock_permModel (r : Rock) :
    (Rock.entries r).lookup (key "permeability_model") = some (flacModels r).1.tree := by
  obtain ⟨a, b, c, d, e, f, g, h, i, j, k, l, m, n, o, p, q⟩ := r
  cases m <;> cases n <;> cases q <;> rfl

theorem rock_eqPore (r : Rock) :
    (Rock.entries r).lookup (key "equivalent_pore_pressure") = some (flacModels r).2.tree := by
  obtain ⟨a, b, c, d, e, f, g, h, i, j, k, l, m, n, o, p, q⟩ := r
  cases m <;> cases n <;> cases q <;> rfl

theorem flacModels_typed {r : Rock} (h : FlacModelsTyped r) :
    AsInt (flacModels r).1.id ∧ AsInt (flacModels r).2.id := by
  obtain ⟨h5, h6⟩ := h
  constructor
  · cases hr : r.permModel with
    | none => simp [flacModels, hr, AsInt]
    | some m => simpa [flacModels, hr] using h5 m hr
  · cases hr : r.eqPore with
    | none => simp [flacModels, hr, AsInt]
    | some m => simpa [flacModels, hr] using h6 m hr

/-- The rock of which the entries are the defaults. -/
def defaultRock (d : RawRock) : Rock := { mergeRock d d with
    relPerm := some (d.relPerm.getD Mod.absent)
    cap := some (d.cap.getD Mod.absent)
    initCond := some (d.initCond.getD (List.replicate 6 .none)) }

theorem defaultRock_typed {d : RawRock} (h : RockTyped (mergeRock d d)) :
    RockTyped (defaultRock d) := by
  obtain ⟨h1, h2, h3, h4⟩ := h
  refine ⟨h1, h2, ?_, ?_⟩
  · rintro m hm
    cases hm
    cases hr : d.relPerm with
    | none => trivial
    | some m => exact h3 m hr
  · rintro m hm
    cases hm
    cases hr : d.cap with
    | none => trivial
    | some m => exact h4 m hr

theorem tables_ok : ∀ e ∈ decorators, TableOk e.2.1 := by decide +kernel

theorem checks_buffer {p : Params} (h : TypedBut p) : runChecks "write_buffer" p.tree = .ok () := by
  have : runChecks "write_buffer" p.tree =
      passAll [(checkParameters dtParameters [] false p.tree).2] := rfl
  rw [this]
  refine passAll_ok ?_
  simp only [List.forall_mem_cons, List.not_mem_nil, false_imp_iff, implies_true, and_true]
  exact ((C31_entries dtParameters (by decide +kernel) _).2.1).2
    (params_fine h.2.2.2.2.2.2.2.1)

theorem checks_rocks {p : Params} (h : TypedBut p) : runChecks "_write_rocks" p.tree = .ok () := by
  have : runChecks "_write_rocks" p.tree =
      passAll [(checkParameters dtRocks [key "default"] false p.tree).2,
        (checkParameters dtRocks [key "rocks"] true p.tree).2,
        (checkParameters dtModel [key "rocks", key "relative_permeability"] true p.tree).2,
        (checkParameters dtModel [key "rocks", key "capillarity"] true p.tree).2] := rfl
  rw [this]
  have hr : p.tree.lookup (key "rocks") = some (rowsTree Rock.entries p.merged) := rfl
  have hm : ∀ e ∈ p.merged, RockTyped e.2 := by
    intro e he
    obtain ⟨x, hx, rfl⟩ := List.mem_map.1 he
    exact h.2.1 x hx
  refine passAll_ok ?_
  simp only [List.forall_mem_cons, List.not_mem_nil, false_imp_iff, implies_true, and_true]
  refine ⟨check_dict (d := Rock.entries (defaultRock p.dflt)) (by decide +kernel) rfl
      (rock_fine (defaultRock_typed h.1)),
    check_rows (by decide +kernel) hr fun e he => rock_fine (hm e he),
    check_models (by decide +kernel) hr fun e he => ?_,
    check_models (by decide +kernel) hr fun e he => ?_⟩
  · rw [rock_relPerm]
    cases hx : e.2.relPerm with
    | none => exact .inl rfl
    | some m =>
      obtain ⟨d, h1, h2⟩ := model_fine ((hm e he).2.2.1 m hx)
      exact .inr ⟨d, by simp [h1], h2⟩
  · rw [rock_cap]
    cases hx : e.2.cap with
    | none => exact .inl rfl
    | some m =>
      obtain ⟨d, h1, h2⟩ := model_fine ((hm e he).2.2.2 m hx)
      exact .inr ⟨d, by simp [h1], h2⟩

theorem checks_rpcap {p : Params} (h : TypedBut p) : runChecks "_write_rpcap" p.tree = .ok () := by
  have : runChecks "_write_rpcap" p.tree =
      passAll [(checkParameters dtModel [key "default", key "relative_permeability"] false p.tree).2,
        (checkParameters dtModel [key "default", key "capillarity"] false p.tree).2] := rfl
  rw [this]
  have hd : p.tree.lookup (key "default") = some (.dict (Rock.entries (defaultRock p.dflt))) := rfl
  have ht := defaultRock_typed h.1
  refine passAll_ok ?_
  simp only [List.forall_mem_cons, List.not_mem_nil, false_imp_iff, implies_true, and_true]
  constructor
  · obtain ⟨d, h1, h2⟩ := model_fine (ht.2.2.1 _ rfl)
    exact check_dict2 (by decide +kernel) hd (by rw [rock_relPerm, ← h1]; rfl) h2
  · obtain ⟨d, h1, h2⟩ := model_fine (ht.2.2.2 _ rfl)
    exact check_dict2 (by decide +kernel) hd (by rw [rock_cap, ← h1]; rfl) h2

theorem checks_flac {p : Params} (h : Typed p) {f : Flac} (hf : p.flac = some f) :
    runChecks "_write_flac" p.tree = .ok () := by
  have : runChecks "_write_flac" p.tree =
      passAll [(checkParameters dtFlac [key "flac"] false p.tree).2,
        (checkParameters dtModel [key "default", key "permeability_model"] false p.tree).2,
        (checkParameters dtModel [key "default", key "equivalent_pore_pressure"] false p.tree).2,
        (checkParameters dtModel [key "rocks", key "permeability_model"] true p.tree).2,
        (checkParameters dtModel [key "rocks", key "equivalent_pore_pressure"] true p.tree).2] := rfl
  rw [this]
  have hr : p.tree.lookup (key "rocks") = some (rowsTree Rock.entries p.merged) := rfl
  have hl : p.tree.lookup (key "flac") = some (orNone Flac.tree p.flac) := rfl
  have hd : p.tree.lookup (key "default") = some (.dict (Rock.entries (defaultRock p.dflt))) := rfl
  obtain ⟨hf1, hf2, hf3⟩ := h.2 f hf
  have ht : AsInt (flacModels (defaultRock p.dflt)).1.id ∧ AsInt (flacModels (defaultRock p.dflt)).2.id :=
    flacModels_typed hf2
  have hm : ∀ e ∈ p.merged, FlacModelsTyped e.2 := by
    intro e he
    obtain ⟨x, hx, rfl⟩ := List.mem_map.1 he
    exact hf3 x hx
  refine passAll_ok ?_
  simp only [List.forall_mem_cons, List.not_mem_nil, false_imp_iff, implies_true, and_true]
  refine ⟨?_, ?_, ?_, check_models (by decide +kernel) hr fun e he => .inr ?_,
    check_models (by decide +kernel) hr fun e he => .inr ?_⟩
  · obtain ⟨d, h1, h2⟩ := flac_fine hf1
    rw [hf] at hl
    exact check_dict (by decide +kernel) (by rw [hl, ← h1]; rfl) h2
  · obtain ⟨d, h1, h2⟩ := model_fine ht.1
    exact check_dict2 (by decide +kernel) hd (by rw [rock_permModel, ← h1]) h2
  · obtain ⟨d, h1, h2⟩ := model_fine ht.2
    exact check_dict2 (by decide +kernel) hd (by rw [rock_eqPore, ← h1]) h2
  · obtain ⟨d, h1, h2⟩ := model_fine (flacModels_typed (hm e he)).1
    exact ⟨d, by rw [rock_permModel, ← h1], h2⟩
  · obtain ⟨d, h1, h2⟩ := model_fine (flacModels_typed (hm e he)).2
    exact ⟨d, by rw [rock_eqPore, ← h1], h2⟩

theorem checks_one {p : Params} {fn : String} {types : Types} {k : Key} {d : List (Key × Tree)}
    (hr : runChecks fn p.tree = passAll [(checkParameters types [k] false p.tree).2])
    (ht : TableOk types) (hk : p.tree.lookup k = some (.dict d)) (hb : ¬ Bad types d) :
    runChecks fn p.tree = .ok () := by
  rw [hr]
  refine passAll_ok ?_
  simp only [List.forall_mem_cons, List.not_mem_nil, false_imp_iff, implies_true, and_true]
  exact check_dict ht hk hb

theorem checks_table {β : Type} {p : Params} {fn : String} {types : Types} {k : Key}
    {f : β → List (Key × Tree)} {rows : List (Val × β)}
    (hr : runChecks fn p.tree = passAll [(checkParameters types [k] true p.tree).2])
    (ht : TableOk types) (hk : p.tree.lookup k = some (rowsTree f rows))
    (hb : ∀ e ∈ rows, ¬ Bad types (f e.2)) : runChecks fn p.tree = .ok () := by
  rw [hr]
  refine passAll_ok ?_
  simp only [List.forall_mem_cons, List.not_mem_nil, false_imp_iff, implies_true, and_true]
  exact check_rows ht hk hb

theorem checks_solvr {p : Params} (h : TypedBut p) {s : SolverOf (Option Val)} (hs : p.solver = some s) :
    runChecks "_write_solvr" p.tree = .ok () := by
  obtain ⟨d, h1, h2⟩ := solver_fine (h.2.2.1 s hs)
  have hl : p.tree.lookup (key "solver") = some ((p.solver.map SolverOf.tree).getD (.dict [])) := rfl
  rw [hs] at hl
  exact checks_one rfl (by decide +kernel) (by rw [hl, ← h1]; rfl) h2

theorem checks_param {p : Params} (h : TypedBut p) : runChecks "_write_param" p.tree = .ok () := by
  have : runChecks "_write_param" p.tree =
      passAll [(checkParameters dtParam [key "options"] false p.tree).2,
        (checkParameters (dtDigits 24) [key "extra_options"] false p.tree).2] := rfl
  rw [this]
  refine passAll_ok ?_
  simp only [List.forall_mem_cons, List.not_mem_nil, false_imp_iff, implies_true, and_true]
  obtain ⟨d, h1, h2⟩ := options_fine h.2.2.2.1
  exact ⟨check_dict (by decide +kernel) (by rw [← h1]; rfl) h2,
    check_dict (by decide +kernel) rfl (digits_fine h.2.2.2.2.1)⟩

theorem checks_selec {p : Params} {s : Option (List (ℤ × Val)) × Floats}
    (hs : p.selections = some s) : runChecks "_write_selec" p.tree = .ok () := by
  obtain ⟨d, h1, h2⟩ := selec_fine s
  have hl : p.tree.lookup (key "selections") =
      some ((p.selections.map selecTree).getD (.dict [])) := rfl
  rw [hs] at hl
  exact checks_one rfl (by decide +kernel) (by rw [hl, ← h1]; rfl) h2

theorem checks_momop {p : Params} (h : TypedBut p) : runChecks "_write_momop" p.tree = .ok () :=
  checks_one rfl (by decide +kernel) rfl (digits_fine h.2.2.2.2.2.1)

theorem checks_gener {p : Params} (h : TypedBut p) : runChecks "_write_gener" p.tree = .ok () :=
  checks_table rfl (by decide +kernel) rfl fun e he => gen_fine (h.2.2.2.2.2.2.1 e he)

theorem checks_outpu {p : Params} {o : Str × List (Str × Args)} (ho : p.output = some o) :
    runChecks "_write_outpu" p.tree = .ok () := by
  obtain ⟨d, h1, h2⟩ := outpu_fine o
  have hl : p.tree.lookup (key "output") = some (orNone outpuTree p.output) := rfl
  rw [ho] at hl
  exact checks_one rfl (by decide +kernel) (by rw [hl, ← h1]; rfl) h2

theorem checks_eleme {p : Params} (h : TypedBut p) : runChecks "_write_eleme" p.tree = .ok () :=
  checks_table rfl (by decide +kernel) rfl fun e he => elem_fine (h.2.2.2.2.2.2.2.2.1 e he)

theorem checks_conne {p : Params} (h : TypedBut p) : runChecks "_write_conne" p.tree = .ok () :=
  checks_table rfl (by decide +kernel) rfl fun e he => conn_fine (h.2.2.2.2.2.2.2.2.2.1 e he)

theorem checks_incon {p : Params} (h : TypedBut p) : runChecks "_write_incon" p.tree = .ok () :=
  checks_table rfl (by decide +kernel) rfl fun e he => incon_fine (h.2.2.2.2.2.2.2.2.2.2 e he)

theorem guarded_ok {fn : String} {p : Params} (h : runChecks fn p.tree = .ok ())
    (w : Except PyErr (List Str)) : guarded fn p w = w := by
  rw [guarded, h]
  rfl

theorem ifSome_congr {α : Type} {x : Option α} {f g : α → Except PyErr (List Str)}
    (h : ∀ a, x = some a → f a = g a) : ifSome x f = ifSome x g := by
  cases x with
  | none => rfl
  | some a => exact h a rfl

/-- The FLAC block with its checks. -/
def flacPart (p : Params) : Except PyErr (List Str) :=
  ifSome p.flac fun f => guarded "_write_flac" p
    (writeFlac f p.rocksOrder (p.merged.map fun e => (e.1, flacModels e.2)))

theorem checkedParts_but {p : Params} (h : TypedBut p) :
    checkedParts p = (fileParts p).take 3 ++ ("FLAC", ["all"], flacPart p) ::
      (fileParts p).drop 4 := by
  unfold checkedParts fileParts flacPart
  rw [guarded_ok (checks_rocks h), guarded_ok (checks_rpcap h), guarded_ok (checks_param h),
    guarded_ok (checks_momop h), guarded_ok (checks_gener h), guarded_ok (checks_eleme h),
    guarded_ok (checks_conne h), guarded_ok (checks_incon h),
    ifSome_congr fun f hf => guarded_ok (checks_solvr h hf) _,
    ifSome_congr fun f hf => guarded_ok (checks_selec hf) _,
    ifSome_congr fun f hf => guarded_ok (checks_outpu hf) _]
  rfl

theorem checkedParts_eq {p : Params} (h : Typed p) : checkedParts p = fileParts p := by
  rw [checkedParts_but h.1, flacPart, ifSome_congr fun f hf => guarded_ok (checks_flac h hf) _]
  rfl

/-- Parameters of the right types are written as without checks. -/
theorem writeChecked_eq {p : Params} (h : Typed p) (blk : String) :
    writeChecked p blk = writeFile p blk := by
  unfold writeChecked writeFile selected
  rw [checkedParts_eq h, checks_buffer h.1]
  rfl

/-- Without FLAC options of the right types all but the whole file is written. -/
theorem writeChecked_but {p : Params} (h : TypedBut p) (blk : String) (hb : blk ≠ "all") :
    writeChecked p blk = writeFile p blk := by
  unfold writeChecked writeFile selected
  rw [checkedParts_but h, checks_buffer h]
  have : (fileParts p).filter (fun e => e.2.1.contains blk) =
      ((fileParts p).take 3 ++ ("FLAC", ["all"], flacPart p) :: (fileParts p).drop 4).filter
        fun e => e.2.1.contains blk := by
    have h3 : fileParts p = (fileParts p).take 3 ++
        ("FLAC", ["all"], ((fileParts p).getD 3 ("", [], .ok [])).2.2) :: (fileParts p).drop 4 := rfl
    have hn : (["all"] : List String).contains blk = false := by simp [hb]
    conv_lhs => rw [h3]
    rw [List.filter_append, List.filter_append, List.filter_cons, List.filter_cons, hn]
    rfl
  rw [this]
  rfl

end Verif.Props
