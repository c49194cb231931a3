import Verif.Lemmas.Typed
import Verif.Lemmas.RowOrder
import Verif.Lemmas.Layout

/-!
# Only parameters of the right types pass the checks
-/

namespace Verif.Props
open Verif.Py Verif.Model Verif.Spec

theorem meets_of {types : Types} {d : List (Key × Tree)} (h : ¬ Bad types d) {k : Key} {v : Tree}
    (hm : (k, v) ∈ d) (name : String) (hl : types.lookup k = some name) :
    v = .none ∨ Meets name v := by
  by_contra hc
  rw [not_or] at hc
  exact h ⟨(k, v), hm, hc.1, name, hl, hc.2⟩

theorem int_of {v : Val} (h : v.tree = .none ∨ Meets "int" v.tree) : AsInt v := by
  cases v <;> simp_all [AsInt, Val.tree, Meets, IsInt]

theorem num_of {v : Val} (h : v.tree = .none ∨ Meets "scalar" v.tree) : AsNum v := by
  cases v <;> simp_all [AsNum, Val.tree, Meets, IsNum, IsInt]

theorem text_of {v : Val} (h : v.tree = .none ∨ Meets "str" v.tree) : AsText v := by
  cases v <;> simp_all [AsText, Val.tree, Meets, IsText]

theorem texts_of {v : Val} (h : v.tree = .none ∨ Meets "str_array_like" v.tree) : AsText v := by
  cases v <;> simp_all [AsText, Val.tree, Meets, IsText, IsSeq]

theorem flag_of {v : Val} (h : v.tree = .none ∨ Meets "bool" v.tree) : AsFlag v := by
  cases v <;> simp_all [AsFlag, Val.tree, Meets, IsFlag]

theorem material_of {v : Val} (h : v.tree = .none ∨ Meets "str_int" v.tree) :
    AsText v ∨ AsInt v := by
  cases v <;> simp_all [AsText, AsInt, Val.tree, Meets, IsText, IsInt]

theorem nums_of {v : SoL} (h : v.tree = .none ∨ Meets "scalar_array_like" v.tree) : AsNums v := by
  cases v with
  | one v => cases v <;> simp_all [AsNums, AsNum, SoL.tree, Val.tree, Meets, IsNum, IsInt, IsSeq]
  | many l => trivial

theorem numl_of {v : Val} (h : v.tree = .none ∨ Meets "scalar_array_like" v.tree) : AsNum v :=
  nums_of (v := .one v) h

theorem model_of {m : Mod} {d : List (Key × Tree)} (hd : m.tree = .dict d) (h : ¬ Bad dtModel d) :
    AsInt m.id := by
  cases hd
  exact int_of (meets_of h (k := key "id") (by simp) "int" rfl)

/-- The scalar properties of a rock. -/
theorem rock_of {r : Rock} (h : ¬ Bad dtRocks (Rock.entries r)) :
    (∀ v ∈ [r.density, r.porosity, r.conductivity, r.specificHeat, r.compressibility, r.expansivity,
      r.conductivityDry, r.tortuosity, r.klinkenberg, r.dist3, r.dist4], AsNum v) ∧
    AsNums r.permeability := by
  have hs : ∀ {k : Key} {v : Tree}, (k, v) ∈ r.scalars → (k, v) ∈ Rock.entries r := by
    intro k v hm
    unfold Rock.entries
    simp only [List.mem_append]
    exact .inl (.inl (.inl (.inl hm)))
  have key : ∀ (s : String) (v : Val), (key s, v.tree) ∈ r.scalars →
      dtRocks.lookup (key s) = some "scalar" → AsNum v :=
    fun s v hm hl => num_of (meets_of h (hs hm) _ hl)
  constructor
  · simp only [List.forall_mem_cons, List.not_mem_nil, false_imp_iff, implies_true, and_true]
    refine ⟨key "density" _ ?_ rfl, key "porosity" _ ?_ rfl, key "conductivity" _ ?_ rfl,
      key "specific_heat" _ ?_ rfl, key "compressibility" _ ?_ rfl, key "expansivity" _ ?_ rfl,
      key "conductivity_dry" _ ?_ rfl, key "tortuosity" _ ?_ rfl,
      key "klinkenberg_parameter" _ ?_ rfl, key "distribution_coefficient_3" _ ?_ rfl,
      key "distribution_coefficient_4" _ ?_ rfl⟩ <;> simp [Rock.scalars]
  · exact nums_of (meets_of h (k := Verif.Model.key "permeability")
      (hs (by simp [Rock.scalars])) _ rfl)

theorem flac_of {f : Flac} {d : List (Key × Tree)} (hd : f.tree = .dict d) (h : ¬ Bad dtFlac d) :
    FlacTyped f := by
  cases hd
  exact ⟨flag_of (meets_of h (k := key "creep") (by simp) "bool" rfl),
    int_of (meets_of h (k := key "porosity_model") (by simp) "int" rfl),
    int_of (meets_of h (k := key "version") (by simp) "int" rfl)⟩

theorem mem_ifKey {α : Type} {s : String} {f : α → Tree} {o : Option α} {a : α} (h : a ∈ o) :
    (key s, f a) ∈ ifKey s f o := by
  cases h
  simp [ifKey]

theorem solver_of {s : SolverOf (Option Val)} {d : List (Key × Tree)}
    (hd : SolverOf.tree s = .dict d) (h : ¬ Bad dtSolvr d) : SolverTyped s := by
  cases hd
  refine ⟨fun v hv => int_of (meets_of h (k := key "method") ?_ _ rfl),
    fun v hv => text_of (meets_of h (k := key "z_precond") ?_ _ rfl),
    fun v hv => text_of (meets_of h (k := key "o_precond") ?_ _ rfl),
    fun v hv => num_of (meets_of h (k := key "rel_iter_max") ?_ _ rfl),
    fun v hv => num_of (meets_of h (k := key "eps") ?_ _ rfl)⟩ <;> simp only [List.mem_append]
  · exact .inl (.inl (.inl (.inl (mem_ifKey hv))))
  · exact .inl (.inl (.inl (.inr (mem_ifKey hv))))
  · exact .inl (.inl (.inr (mem_ifKey hv)))
  · exact .inl (.inr (mem_ifKey hv))
  · exact .inr (mem_ifKey hv)

theorem options_of {o : Options} {d : List (Key × Tree)} (hd : Options.tree o = .dict d)
    (h : ¬ Bad dtParam d) : OptionsTyped o := by
  cases hd
  refine ⟨?_, ?_, nums_of (meets_of h (k := key "t_steps") (by simp) _ rfl)⟩ <;>
    simp only [List.forall_mem_cons, List.not_mem_nil, false_imp_iff, implies_true, and_true]
  · exact ⟨int_of (meets_of h (k := key "n_iteration") (by simp) _ rfl),
      int_of (meets_of h (k := key "n_cycle") (by simp) _ rfl),
      int_of (meets_of h (k := key "n_second") (by simp) _ rfl),
      int_of (meets_of h (k := key "n_cycle_print") (by simp) _ rfl),
      int_of (meets_of h (k := key "verbosity") (by simp) _ rfl)⟩
  · exact ⟨num_of (meets_of h (k := key "temperature_dependence_gas") (by simp) _ rfl),
      num_of (meets_of h (k := key "effective_strength_vapor") (by simp) _ rfl),
      num_of (meets_of h (k := key "t_ini") (by simp) _ rfl),
      num_of (meets_of h (k := key "t_max") (by simp) _ rfl),
      num_of (meets_of h (k := key "t_step_max") (by simp) _ rfl),
      num_of (meets_of h (k := key "t_reduce_factor") (by simp) _ rfl),
      num_of (meets_of h (k := key "gravity") (by simp) _ rfl),
      num_of (meets_of h (k := key "mesh_scale_factor") (by simp) _ rfl),
      num_of (meets_of h (k := key "eps1") (by simp) _ rfl),
      num_of (meets_of h (k := key "eps2") (by simp) _ rfl),
      num_of (meets_of h (k := key "w_upstream") (by simp) _ rfl),
      num_of (meets_of h (k := key "w_newton") (by simp) _ rfl),
      num_of (meets_of h (k := key "derivative_factor") (by simp) _ rfl)⟩

theorem lookup_digits {n : ℕ} {i : ℤ} (h1 : 1 ≤ i) (h2 : i ≤ n) :
    (dtDigits n).lookup (.int i) = some "int" := by
  cases hl : (dtDigits n).lookup (.int i) with
  | none =>
    rw [List.lookup_eq_none_iff] at hl
    have := hl (.int i, "int") (by
      simp only [dtDigits, List.mem_map, List.mem_range]
      exact ⟨(i - 1).toNat, by omega, by
        rw [show ((i - 1).toNat : ℤ) + 1 = i by omega]⟩)
    simp at this
  | some name =>
    have := lookup_mem hl
    simp only [dtDigits, List.mem_map] at this
    obtain ⟨x, -, hx⟩ := this
    have hn : "int" = name := (Prod.ext_iff.1 hx).2
    rw [hn]

theorem digits_of {n : ℕ} {d : List (ℤ × Val)}
    (h : ¬ Bad (dtDigits n) (d.map fun e => (.int e.1, e.2.tree))) :
    ∀ e ∈ d, 1 ≤ e.1 → e.1 ≤ n → AsInt e.2 := by
  intro e he h1 h2
  exact int_of (meets_of h (k := .int e.1) (List.mem_map.2 ⟨e, he, rfl⟩) _ (lookup_digits h1 h2))

theorem gen_of {g : Gen} (h : ¬ Bad dtGener (Gen.entries g)) : GenTyped g := by
  cases g with
  | noType => trivial
  | multi m => trivial
  | single c =>
    refine ⟨texts_of (meets_of h (k := key "name") (by simp [Gen.entries]) _ rfl),
      texts_of (meets_of h (k := key "type") (by simp [Gen.entries]) _ rfl), ?_, ?_⟩ <;>
      simp only [List.forall_mem_cons, List.not_mem_nil, false_imp_iff, implies_true, and_true]
    · exact ⟨numl_of (meets_of h (k := key "nseq") (by simp [Gen.entries]) _ rfl),
        numl_of (meets_of h (k := key "nadd") (by simp [Gen.entries]) _ rfl),
        numl_of (meets_of h (k := key "nads") (by simp [Gen.entries]) _ rfl),
        numl_of (meets_of h (k := key "layer_thickness") (by simp [Gen.entries]) _ rfl)⟩
    · exact ⟨nums_of (meets_of h (k := key "times") (by simp [Gen.entries]) _ rfl),
        nums_of (meets_of h (k := key "rates") (by simp [Gen.entries]) _ rfl),
        nums_of (meets_of h (k := key "specific_enthalpy") (by simp [Gen.entries]) _ rfl)⟩

theorem elem_of {e : Elem} (h : ¬ Bad dtEleme (Elem.entries e)) : ElemTyped e := by
  refine ⟨int_of (meets_of h (k := key "nseq") (by simp [Elem.entries]) _ rfl),
    int_of (meets_of h (k := key "nadd") (by simp [Elem.entries]) _ rfl),
    material_of (meets_of h (k := key "material") (by simp [Elem.entries]) _ rfl), ?_⟩
  simp only [List.forall_mem_cons, List.not_mem_nil, false_imp_iff, implies_true, and_true]
  exact ⟨num_of (meets_of h (k := key "volume") (by simp [Elem.entries]) _ rfl),
    num_of (meets_of h (k := key "heat_exchange_area") (by simp [Elem.entries]) _ rfl),
    num_of (meets_of h (k := key "permeability_modifier") (by simp [Elem.entries]) _ rfl)⟩

theorem conn_of {c : Conn} (h : ¬ Bad dtConne (Conn.entries c)) : ConnTyped c := by
  refine ⟨int_of (meets_of h (k := key "nseq") (by simp [Conn.entries]) _ rfl),
    int_of (meets_of h (k := key "permeability_direction") (by simp [Conn.entries]) _ rfl), ?_⟩
  simp only [List.forall_mem_cons, List.not_mem_nil, false_imp_iff, implies_true, and_true]
  exact ⟨num_of (meets_of h (k := key "interface_area") (by simp [Conn.entries]) _ rfl),
    num_of (meets_of h (k := key "gravity_cosine_angle") (by simp [Conn.entries]) _ rfl),
    num_of (meets_of h (k := key "radiant_emittance_factor") (by simp [Conn.entries]) _ rfl)⟩

theorem incon_of {c : Incon} (h : ¬ Bad dtIncon (Incon.entries c)) : AsNum c.porosity :=
  num_of (meets_of h (k := key "porosity") (by simp [Incon.entries]) _ rfl)

theorem times_of {p : Params} (h : ¬ Bad dtParameters p.tree) : ∀ t ∈ p.times, AsNums t := by
  intro t ht
  have : (key "times", orNone SoL.tree p.times) ∈ p.tree := by
    unfold Params.tree
    simp
  rw [Option.mem_def.1 ht] at this
  exact nums_of (meets_of h this _ rfl)

/-! ## The checks -/

theorem passAll_mem {l : List (Except PyErr Unit)} (h : passAll l = .ok ()) :
    ∀ x ∈ l, x = .ok () := by
  induction l with
  | nil => simp
  | cons x l ih =>
    rw [passAll] at h
    obtain ⟨u, hu, hr⟩ := bind_eq_ok.1 h
    simp only [List.forall_mem_cons]
    exact ⟨hu, ih hr⟩

theorem dict_of {types : Types} (ht : TableOk types) {k : Key} {t d : List (Key × Tree)}
    (hk : t.lookup k = some (.dict d)) (h : (checkParameters types [k] false t).2 = .ok ()) :
    ¬ Bad types d :=
  ((C31_dictionary types ht [k] t d (.down hk (.here _))).2.1).1 h

theorem dict2_of {types : Types} (ht : TableOk types) {k k' : Key} {t d d' : List (Key × Tree)}
    (hk : t.lookup k = some (.dict d)) (hk' : d.lookup k' = some (.dict d'))
    (h : (checkParameters types [k, k'] false t).2 = .ok ()) : ¬ Bad types d' :=
  ((C31_dictionary types ht [k, k'] t d' (.down hk (.down hk' (.here _)))).2.1).1 h

theorem rows_of {β : Type} {types : Types} (ht : TableOk types) {k : Key}
    {t : List (Key × Tree)} {f : β → List (Key × Tree)} {rows : List (Val × β)}
    (hk : t.lookup k = some (rowsTree f rows))
    (h : (checkParameters types [k] true t).2 = .ok ()) : ∀ e ∈ rows, ¬ Bad types (f e.2) := by
  intro e he hb
  refine ((C31_list_partial types ht k [] t _ hk ?_).2).1 h
    ⟨(labelKey e.1, .dict (f e.2)), List.mem_map.2 ⟨e, he, rfl⟩, f e.2, .here _, hb⟩
  intro x hx
  obtain ⟨y, -, rfl⟩ := List.mem_map.1 hx
  exact .inl ⟨_, .here _⟩

theorem models_of {β : Type} {types : Types} (ht : TableOk types) {k k' : Key}
    {t : List (Key × Tree)} {f : β → List (Key × Tree)} {rows : List (Val × β)}
    (hk : t.lookup k = some (rowsTree f rows))
    (hd : ∀ e ∈ rows, (f e.2).lookup k' = none ∨ ∃ d, (f e.2).lookup k' = some (.dict d))
    (h : (checkParameters types [k, k'] true t).2 = .ok ()) :
    ∀ e ∈ rows, ∀ d, (f e.2).lookup k' = some (.dict d) → ¬ Bad types d := by
  intro e he d hl hb
  refine ((C31_list_partial types ht k [k'] t _ hk ?_).2).1 h
    ⟨(labelKey e.1, .dict (f e.2)), List.mem_map.2 ⟨e, he, rfl⟩, d, .down hl (.here _), hb⟩
  intro x hx
  obtain ⟨y, hy, rfl⟩ := List.mem_map.1 hx
  rcases hd y hy with hn | ⟨d', hd'⟩
  · exact .inr (.here hn)
  · exact .inl ⟨d', .down hd' (.here _)⟩

theorem rocks_of {p : Params} (h : runChecks "_write_rocks" p.tree = .ok ()) :
    ((∀ v ∈ [(mergeRock p.dflt p.dflt).density, (mergeRock p.dflt p.dflt).porosity,
        (mergeRock p.dflt p.dflt).conductivity, (mergeRock p.dflt p.dflt).specificHeat,
        (mergeRock p.dflt p.dflt).compressibility, (mergeRock p.dflt p.dflt).expansivity,
        (mergeRock p.dflt p.dflt).conductivityDry, (mergeRock p.dflt p.dflt).tortuosity,
        (mergeRock p.dflt p.dflt).klinkenberg, (mergeRock p.dflt p.dflt).dist3,
        (mergeRock p.dflt p.dflt).dist4], AsNum v) ∧ AsNums (mergeRock p.dflt p.dflt).permeability) ∧
      ∀ e ∈ p.rocks, RockTyped (mergeRock p.dflt e.2) := by
  have he : runChecks "_write_rocks" p.tree =
      passAll [(checkParameters dtRocks [key "default"] false p.tree).2,
        (checkParameters dtRocks [key "rocks"] true p.tree).2,
        (checkParameters dtModel [key "rocks", key "relative_permeability"] true p.tree).2,
        (checkParameters dtModel [key "rocks", key "capillarity"] true p.tree).2] := rfl
  rw [he] at h
  have h := passAll_mem h
  simp only [List.forall_mem_cons, List.not_mem_nil, false_imp_iff, implies_true, and_true] at h
  obtain ⟨h1, h2, h3, h4⟩ := h
  have hd : p.tree.lookup (key "default") = some (.dict (Rock.entries (defaultRock p.dflt))) := rfl
  have hr : p.tree.lookup (key "rocks") = some (rowsTree Rock.entries p.merged) := rfl
  have tr : TableOk dtRocks := by decide +kernel
  have tm : TableOk dtModel := by decide +kernel
  have hdf := rock_of (dict_of tr hd h1)
  refine ⟨⟨hdf.1, hdf.2⟩, fun e he => ?_⟩
  have hm : (e.1, mergeRock p.dflt e.2) ∈ p.merged := List.mem_map.2 ⟨e, he, rfl⟩
  have hrk := rock_of (rows_of tr hr h2 _ hm)
  refine ⟨hrk.1, hrk.2, fun m hmm => ?_, fun m hmm => ?_⟩
  · refine model_of (d := [(key "id", m.id.tree), (key "parameters", listTree m.params)]) rfl
      (models_of tm hr ?_ h3 _ hm _ ?_)
    · intro x _
      rw [rock_relPerm]
      cases x.2.relPerm with
      | none => exact .inl rfl
      | some y => exact .inr ⟨_, rfl⟩
    · rw [rock_relPerm, Option.mem_def.1 hmm]
      rfl
  · refine model_of (d := [(key "id", m.id.tree), (key "parameters", listTree m.params)]) rfl
      (models_of tm hr ?_ h4 _ hm _ ?_)
    · intro x _
      rw [rock_cap]
      cases x.2.cap with
      | none => exact .inl rfl
      | some y => exact .inr ⟨_, rfl⟩
    · rw [rock_cap, Option.mem_def.1 hmm]
      rfl

theorem rpcap_of {p : Params} (h : runChecks "_write_rpcap" p.tree = .ok ()) :
    (∀ m ∈ p.dflt.relPerm, AsInt m.id) ∧ ∀ m ∈ p.dflt.cap, AsInt m.id := by
  have he : runChecks "_write_rpcap" p.tree =
      passAll [(checkParameters dtModel [key "default", key "relative_permeability"] false p.tree).2,
        (checkParameters dtModel [key "default", key "capillarity"] false p.tree).2] := rfl
  rw [he] at h
  have h := passAll_mem h
  simp only [List.forall_mem_cons, List.not_mem_nil, false_imp_iff, implies_true, and_true] at h
  have hd : p.tree.lookup (key "default") = some (.dict (Rock.entries (defaultRock p.dflt))) := rfl
  have tm : TableOk dtModel := by decide +kernel
  refine ⟨fun m hm => ?_, fun m hm => ?_⟩
  · refine model_of (d := [(key "id", m.id.tree), (key "parameters", listTree m.params)]) rfl
      (dict2_of tm hd ?_ h.1)
    rw [rock_relPerm, defaultRock, Option.mem_def.1 hm]
    rfl
  · refine model_of (d := [(key "id", m.id.tree), (key "parameters", listTree m.params)]) rfl
      (dict2_of tm hd ?_ h.2)
    rw [rock_cap, defaultRock, Option.mem_def.1 hm]
    rfl

theorem flacModels_of {r : Rock} (h1 : AsInt (flacModels r).1.id) (h2 : AsInt (flacModels r).2.id) :
    FlacModelsTyped r := by
  constructor
  · intro m hm
    rw [flacModels, Option.mem_def.1 hm] at h1
    exact h1
  · intro m hm
    rw [flacModels, Option.mem_def.1 hm] at h2
    exact h2

theorem flacChecks_of {p : Params} {f : Flac} (hf : p.flac = some f)
    (h : runChecks "_write_flac" p.tree = .ok ()) :
    FlacTyped f ∧ FlacModelsTyped (mergeRock p.dflt p.dflt) ∧
      ∀ e ∈ p.rocks, FlacModelsTyped (mergeRock p.dflt e.2) := by
  have he : runChecks "_write_flac" p.tree =
      passAll [(checkParameters dtFlac [key "flac"] false p.tree).2,
        (checkParameters dtModel [key "default", key "permeability_model"] false p.tree).2,
        (checkParameters dtModel [key "default", key "equivalent_pore_pressure"] false p.tree).2,
        (checkParameters dtModel [key "rocks", key "permeability_model"] true p.tree).2,
        (checkParameters dtModel [key "rocks", key "equivalent_pore_pressure"] true p.tree).2] := rfl
  rw [he] at h
  have h := passAll_mem h
  simp only [List.forall_mem_cons, List.not_mem_nil, false_imp_iff, implies_true, and_true] at h
  obtain ⟨h1, h2, h3, h4, h5⟩ := h
  have hr : p.tree.lookup (key "rocks") = some (rowsTree Rock.entries p.merged) := rfl
  have hl : p.tree.lookup (key "flac") = some (orNone Flac.tree p.flac) := rfl
  have hd : p.tree.lookup (key "default") = some (.dict (Rock.entries (defaultRock p.dflt))) := rfl
  have tm : TableOk dtModel := by decide +kernel
  have tf : TableOk dtFlac := by decide +kernel
  rw [hf] at hl
  refine ⟨flac_of rfl (dict_of tf hl h1), flacModels_of ?_ ?_, fun e he => flacModels_of ?_ ?_⟩
  · exact model_of (m := (flacModels (defaultRock p.dflt)).1) rfl
      (dict2_of tm hd (rock_permModel _) h2)
  · exact model_of (m := (flacModels (defaultRock p.dflt)).2) rfl
      (dict2_of tm hd (rock_eqPore _) h3)
  · exact model_of rfl (models_of tm hr (fun x _ => .inr ⟨_, rock_permModel _⟩) h4
      (e.1, mergeRock p.dflt e.2) (List.mem_map.2 ⟨e, he, rfl⟩) _ (rock_permModel _))
  · exact model_of rfl (models_of tm hr (fun x _ => .inr ⟨_, rock_eqPore _⟩) h5
      (e.1, mergeRock p.dflt e.2) (List.mem_map.2 ⟨e, he, rfl⟩) _ (rock_eqPore _))

theorem guarded_of {fn : String} {p : Params} {w : Except PyErr (List Str)} {x : List Str}
    (h : guarded fn p w = .ok x) : runChecks fn p.tree = .ok () := by
  obtain ⟨u, hu, -⟩ := bind_eq_ok.1 h
  exact hu

theorem table_of {β : Type} {p : Params} {fn : String} {types : Types} {k : Key}
    {f : β → List (Key × Tree)} {rows : List (Val × β)} {w : Except PyErr (List Str)} {x : List Str}
    (hc : runChecks fn p.tree = passAll [(checkParameters types [k] true p.tree).2])
    (ht : TableOk types) (hk : p.tree.lookup k = some (rowsTree f rows)) [Decidable (rows ≠ [])]
    (h : onlyIf (decide (rows ≠ [])) (guarded fn p w) = .ok x) :
    (rows ≠ [] → runChecks fn p.tree = .ok ()) ∧ ∀ e ∈ rows, ¬ Bad types (f e.2) := by
  by_cases hr : rows = []
  · exact ⟨fun h => absurd hr h, by simp [hr]⟩
  · simp only [onlyIf, ne_eq, hr, not_false_eq_true, decide_true, if_true] at h
    have := guarded_of h
    refine ⟨fun _ => this, ?_⟩
    rw [hc] at this
    exact rows_of ht hk (passAll_mem this _ (by simp))

theorem part_ok {p : Params} {l : List Str} (h : writeChecked p "all" = .ok l) :
    runChecks "write_buffer" p.tree = .ok () ∧ ∀ e ∈ checkedParts p, ∃ x, e.2.2 = .ok x := by
  unfold writeChecked at h
  rw [if_neg (by decide)] at h
  obtain ⟨u, hu, h⟩ := bind_eq_ok.1 h
  refine ⟨hu, fun e he => ?_⟩
  split at h
  · cases h
  · cases hr : e.2.2 with
    | ok x => exact ⟨x, rfl⟩
    | error y =>
      refine absurd h (concatM_error (a := e.2.2) ?_ hr l)
      refine List.mem_map.2 ⟨e, List.mem_filter.2 ⟨he, ?_⟩, rfl⟩
      have : ∀ e ∈ (checkedParts p).map (·.2.1), e.contains "all" := by
        show ∀ e ∈ [["all"], ["all"], ["all"], ["all"], ["all"], ["all"], ["all"], ["all"], ["all"],
          ["all"], ["all"], ["all"], ["all"], ["all"], ["all"], ["all", "gener"], ["all"], ["all"],
          ["all", "mesh"], ["all", "mesh"], ["all", "mesh"], ["all", "incon"], ["all"], ["all"]],
          e.contains "all"
        decide
      exact this _ (List.mem_map.2 ⟨e, he, rfl⟩)

theorem guarded_or {fn : String} {p : Params} {c : Bool} {w : Except PyErr (List Str)}
    (h : c = true → runChecks fn p.tree = .ok ()) :
    onlyIf c (guarded fn p w) = onlyIf c w := by
  cases c with
  | false => rfl
  | true => rw [guarded_ok (h rfl)]

/-- A file that is written with checks is written without, and its parameters have
the types that are asked for. -/
theorem writeChecked_only {p : Params} {l : List Str} (h : writeChecked p "all" = .ok l) :
    writeFile p "all" = .ok l ∧ Typed p := by
  obtain ⟨hb, hp⟩ := part_ok h
  have hw := h
  unfold checkedParts at hp
  simp only [List.forall_mem_cons, List.not_mem_nil, false_imp_iff, implies_true, and_true] at hp
  obtain ⟨-, ⟨x1, p1⟩, ⟨x2, p2⟩, ⟨x3, p3⟩, -, ⟨x5, p5⟩, -, ⟨x7, p7⟩, -, -, ⟨x10, p10⟩, -, -, -, -,
    ⟨x15, p15⟩, -, -, ⟨x18, p18⟩, -, ⟨x20, p20⟩, ⟨x21, p21⟩, -, -⟩ := hp
  have c1 := guarded_of p1
  have c2 : p.hasRpcap = true → runChecks "_write_rpcap" p.tree = .ok () := by
    intro hc
    rw [hc] at p2
    exact guarded_of p2
  have c3 : ∀ f, p.flac = some f → runChecks "_write_flac" p.tree = .ok () := by
    intro f hf
    rw [hf] at p3
    exact guarded_of p3
  have c5 : ∀ s, p.solver = some s → runChecks "_write_solvr" p.tree = .ok () := by
    intro f hf
    rw [hf] at p5
    exact guarded_of p5
  have c7 := guarded_of p7
  have c10 : p.moreOptions ≠ [] → runChecks "_write_momop" p.tree = .ok () := by
    intro hc
    simp only [onlyIf, ne_eq, hc, not_false_eq_true, decide_true, if_true] at p10
    exact guarded_of p10
  have t15 := table_of (k := key "generators") rfl (by decide +kernel) rfl p15
  have t18 := table_of (k := key "elements") rfl (by decide +kernel) rfl p18
  have t20 := table_of (k := key "connections") rfl (by decide +kernel) rfl p20
  have t21 := table_of (k := key "initial_conditions") rfl (by decide +kernel) rfl p21
  constructor
  · have hc : checkedParts p = fileParts p := by
      unfold checkedParts fileParts
      rw [guarded_ok c1, guarded_or c2, guarded_ok c7,
        guarded_or fun hc => c10 (of_decide_eq_true hc),
        guarded_or fun hc => t15.1 (of_decide_eq_true hc),
        guarded_or fun hc => t18.1 (of_decide_eq_true hc),
        guarded_or fun hc => t20.1 (of_decide_eq_true hc),
        guarded_or fun hc => t21.1 (of_decide_eq_true hc),
        ifSome_congr fun f hf => guarded_ok (c3 f hf) _,
        ifSome_congr fun f hf => guarded_ok (c5 f hf) _,
        ifSome_congr fun f hf => guarded_ok (checks_selec hf) _,
        ifSome_congr fun f hf => guarded_ok (checks_outpu hf) _]
    rw [← hw]
    unfold writeChecked writeFile selected
    rw [hc, hb]
    rfl
  · have r1 := rocks_of c1
    refine ⟨⟨⟨r1.1.1, r1.1.2, ?_, ?_⟩, r1.2, fun s hs => ?_,
      ?_, ?_, ?_, fun e he => gen_of (t15.2 e he), ?_, fun e he => elem_of (t18.2 e he),
      fun e he => conn_of (t20.2 e he), fun e he => incon_of (t21.2 e he)⟩,
      fun f hf => flacChecks_of hf (c3 f hf)⟩
    · intro m hm
      by_cases hc : p.hasRpcap = true
      · exact (rpcap_of (c2 hc)).1 m hm
      · have hm' : p.dflt.relPerm = some m := hm
        have : m.id = .none := by
          by_contra hn
          exact hc (by simp [Params.hasRpcap, hasId, hm', hn])
        rw [this]
        trivial
    · intro m hm
      by_cases hc : p.hasRpcap = true
      · exact (rpcap_of (c2 hc)).2 m hm
      · have hm' : p.dflt.cap = some m := hm
        have : m.id = .none := by
          by_contra hn
          exact hc (by simp [Params.hasRpcap, hasId, hm', hn])
        rw [this]
        trivial
    · have h5 := c5 s hs
      have he : runChecks "_write_solvr" p.tree =
        passAll [(checkParameters dtSolvr [key "solver"] false p.tree).2] := rfl
      rw [he] at h5
      have hl : p.tree.lookup (key "solver") =
        some ((p.solver.map SolverOf.tree).getD (.dict [])) := rfl
      rw [Option.mem_def.1 hs] at hl
      exact solver_of rfl (dict_of (by decide +kernel) hl (passAll_mem h5 _ (by simp)))
    · have he : runChecks "_write_param" p.tree =
        passAll [(checkParameters dtParam [key "options"] false p.tree).2,
          (checkParameters (dtDigits 24) [key "extra_options"] false p.tree).2] := rfl
      rw [he] at c7
      have h7 := passAll_mem c7
      simp only [List.forall_mem_cons, List.not_mem_nil, false_imp_iff, implies_true,
        and_true] at h7
      exact options_of rfl (dict_of (t := p.tree) (k := key "options") (by decide +kernel) rfl h7.1)
    · have he : runChecks "_write_param" p.tree =
        passAll [(checkParameters dtParam [key "options"] false p.tree).2,
          (checkParameters (dtDigits 24) [key "extra_options"] false p.tree).2] := rfl
      rw [he] at c7
      have h7 := passAll_mem c7
      simp only [List.forall_mem_cons, List.not_mem_nil, false_imp_iff, implies_true,
        and_true] at h7
      exact digits_of (n := 24) (dict_of (t := p.tree) (k := key "extra_options")
        (by decide +kernel) rfl h7.2)
    · by_cases hm : p.moreOptions = []
      · simp [hm]
      · have h10 := c10 hm
        have he : runChecks "_write_momop" p.tree =
          passAll [(checkParameters (dtDigits 40) [key "more_options"] false p.tree).2] := rfl
        rw [he] at h10
        have h11 := passAll_mem h10 _ List.mem_cons_self
        exact digits_of (n := 40) (dict_of (t := p.tree) (k := key "more_options")
          (by decide +kernel) rfl h11)
    · have he : runChecks "write_buffer" p.tree =
        passAll [(checkParameters dtParameters [] false p.tree).2] := rfl
      rw [he] at hb
      exact times_of (((C31_entries dtParameters (by decide +kernel) _).2.1).1
        (passAll_mem hb _ List.mem_cons_self))

end Verif.Props
