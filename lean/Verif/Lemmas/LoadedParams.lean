import Verif.Lemmas.Loaded

/-!
# The two writers get the same parameters
-/

namespace Verif.Props
open Verif.Py Verif.Model Verif.Spec

theorem within_sub {d d' : List (Key × Tree)} (h : ∀ e ∈ d, e ∈ d') : Within (.dict d) (.dict d') :=
  .dict d d' (·.2) h fun e _ => .same e.2

theorem mem_present {k : String} {v : Val} {e : Key × Tree} (h : e ∈ presentKey k v) : e = (key k, v.tree) := by
  unfold presentKey keyed at h
  split at h
  · simp [ifKey] at h
  · simpa [ifKey] using h

theorem mem_presentSoL {k : String} {v : SoL} {e : Key × Tree} (h : e ∈ presentSoL k v) :
    e = (key k, v.tree) := by
  unfold presentSoL at h
  split at h
  · simp at h
  · simpa using h

theorem ifKey_of_mem {α : Type} {k : String} {f : α → Tree} {o : Option α} {e : Key × Tree}
    (h : e ∈ ifKey k f o) : ∃ a, o = some a ∧ e = (key k, f a) := by
  cases o with
  | none => simp [ifKey] at h
  | some a => exact ⟨a, rfl, by simpa [ifKey] using h⟩

theorem rock_sub (r : Rock) : ∀ e ∈ r.loaded, e ∈ r.entries := by
  intro e he
  unfold Rock.loaded at he
  simp only [List.mem_append] at he
  unfold Rock.entries Rock.scalars
  rcases he with h | h | h | h | h | h | h | h | h | h | h | h | h | h | h | h | h
  · simp [mem_present h]
  · simp [mem_present h]
  · simp [mem_presentSoL h]
  · simp [mem_present h]
  · simp [mem_present h]
  · simp [mem_present h]
  · simp [mem_present h]
  · simp [mem_present h]
  · simp [mem_present h]
  · simp [mem_present h]
  · simp [mem_present h]
  · simp [mem_present h]
  · simp [h]
  · simp [h]
  · obtain ⟨m, h1, h2⟩ := ifKey_of_mem h
    simp [h2, flacModels, h1]
  · obtain ⟨m, h1, h2⟩ := ifKey_of_mem h
    simp [h2, flacModels, h1]
  · simp [h]

theorem options_sub (o : Options) : Within (.dict o.loaded) o.tree := by
  refine within_sub fun e he => ?_
  unfold Options.loaded at he
  simp only [List.mem_append] at he
  rcases he with h | h | h | h | h | h | h | h | h | h | h | h | h | h | h | h | h | h | h <;>
    first
      | simp [mem_present h]
      | simp [mem_presentSoL h]

theorem elem_sub (x : Elem) : ∀ e ∈ x.loaded, e ∈ x.entries := by
  intro e he
  unfold Elem.loaded at he
  simp only [List.mem_append] at he
  unfold Elem.entries
  rcases he with h | h | h | h | h | h | h
  · simp [mem_present h]
  · simp [mem_present h]
  · simp [mem_present h]
  · simp [mem_present h]
  · simp [mem_present h]
  · simp [mem_present h]
  · simp [h]

theorem conn_sub (x : Conn) : ∀ e ∈ x.loaded, e ∈ x.entries := by
  intro e he
  unfold Conn.loaded at he
  simp only [List.mem_append] at he
  unfold Conn.entries
  rcases he with h | h | h | h | h | h | h
  · simp [mem_present h]
  · obtain ⟨m, h1, h2⟩ := ifKey_of_mem h
    simp [h2, h1, orNone]
  · simp [mem_present h]
  · obtain ⟨m, h1, h2⟩ := ifKey_of_mem h
    simp [h2, h1, orNone]
  · simp [mem_present h]
  · simp [mem_present h]
  · simp [mem_present h]

theorem incon_sub (x : Incon) : ∀ e ∈ x.loaded, e ∈ x.again.entries := by
  intro e he
  unfold Incon.loaded at he
  simp only [List.mem_append] at he
  unfold Incon.entries Incon.again
  rcases he with h | h | h
  · simp [mem_present h]
  · obtain ⟨m, h1, h2⟩ := ifKey_of_mem h
    simp [h2, h1, orNone]
  · obtain ⟨m, h1, h2⟩ := ifKey_of_mem h
    simp [h2, h1, orNone]

theorem within_dict {d d' : List (Key × Tree)} (H : ∀ e ∈ d, ∃ t, (e.1, t) ∈ d' ∧ Within e.2 t) :
    Within (.dict d) (.dict d') := by
  classical
  refine .dict _ _ (fun e => if h : e ∈ d then Classical.choose (H e h) else .none) ?_ ?_
  · intro e he
    simp only [dif_pos he]
    exact (Classical.choose_spec (H e he)).1
  · intro e he
    simp only [dif_pos he]
    exact (Classical.choose_spec (H e he)).2

theorem rows_within {β γ : Type} {f : β → List (Key × Tree)} {f' : γ → List (Key × Tree)} (g : β → γ)
    (h : ∀ b, ∀ e ∈ f b, e ∈ f' (g b)) (d : List (Val × β)) :
    Within (rowsTree f d) (rowsTree f' (d.map fun e => (e.1, g e.2))) := by
  refine within_dict fun e he => ?_
  obtain ⟨x, hx, rfl⟩ := List.mem_map.1 he
  exact ⟨_, List.mem_map.2 ⟨(x.1, g x.2), List.mem_map.2 ⟨x, hx, rfl⟩, rfl⟩, within_sub (h _)⟩

theorem gen_sub (n a b c th : Val) (t r h : SoL) (s : Str) :
    ∀ e ∈ GenOut.loaded ⟨.one n, .one a, .one b, .one c, .one (.str s), .one th, .one t, .one r, .one h⟩,
      e ∈ Gen.entries (GenOut.gen ⟨.one n, .one a, .one b, .one c, .one (.str s), .one th, .one t, .one r, .one h⟩) := by
  intro e he
  unfold GenOut.loaded at he
  simp only [List.mem_append, Out.loaded] at he
  have one : ∀ {α : Type} [DecidableEq α] {k : String} {f : α → Tree} {v w : α},
      (e ∈ if v = w then [] else [(key k, f v)]) → e = (key k, f v) := by
    intro α _ k f v w h
    split at h
    · simp at h
    · simpa using h
  simp only [GenOut.gen, Gen.entries, Out.val]
  rcases he with h | h | h | h | h | h | h | h | h <;> simp [one h]

theorem default_sub (d : DefaultRead) : ∀ e ∈ d.loaded, e ∈ defaultEntries d.raw := by
  intro e he
  unfold DefaultRead.loaded at he
  simp only [List.mem_append] at he
  unfold defaultEntries Rock.entries
  rcases he with h | h | h
  · obtain ⟨m, h1, h2⟩ := ifKey_of_mem h
    simp [h2, DefaultRead.raw, h1, ifKey]
  · obtain ⟨m, h1, h2⟩ := ifKey_of_mem h
    simp [h2, DefaultRead.raw, h1, ifKey]
  · obtain ⟨m, h1, h2⟩ := ifKey_of_mem h
    simp [h2, DefaultRead.raw, h1, ifKey]

theorem flac_sub (f : Flac) : Within (.dict f.loaded) f.tree := by
  refine within_sub fun e he => ?_
  unfold Flac.loaded at he
  simp only [List.mem_append] at he
  rcases he with h | h | h <;> simp [mem_present h]

theorem output_sub (o : OutpuRead) :
    Within (.dict o.loaded) (outpuTree (o.format.getD [], o.vars.getD [])) := by
  refine within_sub fun e he => ?_
  unfold OutpuRead.loaded at he
  simp only [List.mem_append] at he
  rcases he with h | h
  · obtain ⟨m, h1, h2⟩ := ifKey_of_mem h
    simp [h2, h1]
  · obtain ⟨m, h1, h2⟩ := ifKey_of_mem h
    simp [h2, h1]

theorem intOpt_tree {v : Val} (h : IntRead v) : orNone Tree.int (intOpt v) = v.tree := by
  cases v <;> first | rfl | exact h.elim

/-- The entries that the JSON writer gets and the ones that the TOUGH writer gets. -/
def Known (p : List (Key × Tree)) (e : Key × Tree) : Prop := ∃ t, (e.1, t) ∈ p ∧ Within e.2 t

theorem known_same {p : List (Key × Tree)} {e : Key × Tree} (h : e ∈ p) : Known p e := ⟨e.2, h, .same _⟩

theorem strs_tree (l : List Str) : textsTree l = listTree (l.map Val.str) := by
  simp [textsTree, listTree, List.map_map, Function.comp_def, Val.tree]

/-- The parts of what is loaded, apart from the title and the generators. -/
theorem loaded_known {r : FileRead} (hr : ReadKeyed r) {e : Key × Tree} (he : e ∈ r.loaded)
    (ht : e.1 ≠ key "title") (hg : e.1 ≠ key "generators") : Known r.params.tree e := by
  unfold FileRead.loaded at he
  simp only [List.mem_append] at he
  rcases he with h | h | h | h | h | h | h | h | h | h | h | h | h | h | h | h | h | h | h | h | h | h
  · obtain ⟨m, h1, h2⟩ := ifKey_of_mem h
    exact absurd (by rw [h2]) ht
  · cases h1 : r.rocks with
    | none => rw [h1] at h; simp [tableLoaded] at h
    | some x =>
      rw [h1] at h
      simp only [tableLoaded, List.mem_append, List.mem_singleton] at h
      rcases h with rfl | rfl
      · refine ⟨rowsTree Rock.entries r.params.merged, by simp [Params.tree], ?_⟩
        have : r.params.merged = x.1.map fun e => (e.1, id e.2) := by
          simp only [Params.merged, FileRead.params, h1, Option.map_some, Option.getD_some, List.map_map]
          refine List.map_congr_left fun e _ => ?_
          cases r.dflt with
          | none => exact Prod.ext rfl (merge_raw _ _)
          | some d => exact Prod.ext rfl (merge_raw _ _)
        rw [this]
        exact rows_within id (fun b => rock_sub b) _
      · exact known_same (by simp [Params.tree, FileRead.params, h1, orNone])
  · obtain ⟨m, h1, rfl⟩ := ifKey_of_mem h
    refine ⟨.dict (defaultEntries r.params.dflt), by simp [Params.tree], ?_⟩
    simp only [FileRead.params, h1, Option.map_some, Option.getD_some]
    exact within_sub (default_sub m)
  · obtain ⟨m, h1, rfl⟩ := ifKey_of_mem h
    exact ⟨m.tree, by simp [Params.tree, FileRead.params, h1, orNone], flac_sub m⟩
  · cases h1 : r.multi with
    | none => rw [h1] at h; simp [multiLoaded] at h
    | some m =>
      rw [h1] at h
      obtain ⟨i1, i2⟩ := hr.multi m h1
      have e1 := intOpt_tree i1
      have e2 := intOpt_tree i2
      simp only [multiLoaded, MultiRead.loaded, List.mem_append, List.mem_singleton] at h
      rcases h with rfl | rfl | rfl
      · refine known_same ?_
        rw [← e1]
        simp [Params.tree, FileRead.params, h1]
      · exact known_same (by simp [Params.tree, FileRead.params, h1])
      · refine known_same ?_
        rw [← e2]
        simp [Params.tree, FileRead.params, h1]
  · obtain ⟨m, h1, rfl⟩ := ifKey_of_mem h
    refine ⟨SolverOf.tree m.again, by simp [Params.tree, FileRead.params, h1], within_sub fun e he => ?_⟩
    simpa [SolverOf.loaded, SolverOf.again, ifKey] using he
  · obtain ⟨m, h1, rfl⟩ := ifKey_of_mem h
    exact known_same (by simp [Params.tree, FileRead.params, h1])
  · cases h1 : r.options with
    | none => rw [h1] at h; simp [paramLoaded] at h
    | some o =>
      rw [h1] at h
      simp only [paramLoaded, List.mem_append, List.mem_singleton] at h
      rcases h with rfl | rfl
      · exact ⟨o.1.tree, by simp [Params.tree, FileRead.params, h1], options_sub _⟩
      · exact known_same (by simp [Params.tree, FileRead.params, h1])
  · obtain ⟨m, h1, rfl⟩ := ifKey_of_mem h
    refine ⟨selecTree m.again, by simp [Params.tree, FileRead.params, h1], within_sub fun e he => ?_⟩
    simpa [SelecRead.loaded, SelecRead.again, ifKey] using he
  · obtain ⟨m, h1, rfl⟩ := ifKey_of_mem h
    exact known_same (by simp [Params.tree, FileRead.params, h1])
  · obtain ⟨m, h1, rfl⟩ := ifKey_of_mem h
    exact known_same (by simp [Params.tree, FileRead.params, h1, orNone])
  · obtain ⟨m, h1, rfl⟩ := ifKey_of_mem h
    rw [strs_tree]
    exact known_same (by simp [Params.tree, FileRead.params, h1, orNone])
  · obtain ⟨m, h1, rfl⟩ := ifKey_of_mem h
    rw [strs_tree]
    exact known_same (by simp [Params.tree, FileRead.params, h1, orNone])
  · obtain ⟨m, h1, rfl⟩ := ifKey_of_mem h
    rw [strs_tree]
    exact known_same (by simp [Params.tree, FileRead.params, h1, orNone])
  · obtain ⟨m, h1, h2⟩ := ifKey_of_mem h
    exact absurd (by rw [h2]) hg
  · obtain ⟨m, h1, rfl⟩ := ifKey_of_mem h
    exact known_same (by simp [Params.tree, FileRead.params, h1, orNone])
  · obtain ⟨m, h1, rfl⟩ := ifKey_of_mem h
    exact ⟨_, by simp [Params.tree, FileRead.params, h1, orNone], output_sub m⟩
  · cases h1 : r.elements with
    | none => rw [h1] at h; simp [tableLoaded] at h
    | some x =>
      rw [h1] at h
      simp only [tableLoaded, List.mem_append, List.mem_singleton] at h
      rcases h with rfl | rfl
      · refine ⟨rowsTree Elem.entries (x.1.map fun e => (e.1, id e.2)),
          by simp [Params.tree, FileRead.params, h1], rows_within id (fun b => elem_sub b) _⟩
      · exact known_same (by simp [Params.tree, FileRead.params, h1, orNone])
  · obtain ⟨m, h1, rfl⟩ := ifKey_of_mem h
    exact known_same (by simp [Params.tree, FileRead.params, h1])
  · cases h1 : r.connections with
    | none => rw [h1] at h; simp [tableLoaded] at h
    | some x =>
      rw [h1] at h
      simp only [tableLoaded, List.mem_append, List.mem_singleton] at h
      rcases h with rfl | rfl
      · refine ⟨rowsTree Conn.entries (x.1.map fun e => (e.1, id e.2)),
          by simp [Params.tree, FileRead.params, h1], rows_within id (fun b => conn_sub b) _⟩
      · exact known_same (by simp [Params.tree, FileRead.params, h1, orNone])
  · cases h1 : r.initialConditions with
    | none => rw [h1] at h; simp [tableLoaded] at h
    | some x =>
      rw [h1] at h
      simp only [tableLoaded, List.mem_append, List.mem_singleton] at h
      rcases h with rfl | rfl
      · refine ⟨rowsTree Incon.entries (x.1.map fun e => (e.1, Incon.again e.2)),
          by simp [Params.tree, FileRead.params, h1], rows_within Incon.again (fun b => incon_sub b) _⟩
      · exact known_same (by simp [Params.tree, FileRead.params, h1, orNone])
  · obtain ⟨m, h1, rfl⟩ := ifKey_of_mem h
    exact known_same (by simp [Params.tree, FileRead.params, h1])

end Verif.Props
