import Verif.Lemmas.LoadedKeys
import Verif.Lemmas.Json
import Verif.Model.Loaded
import Verif.Spec.Loaded

/-!
# What is loaded can be held by a JSON file
-/

namespace Verif.Props
open Verif.Py Verif.Model Verif.Spec

/-- A value that JSON holds as it is. -/
def Pure (t : Tree) : Prop := holds t = true ∧ plain t = t

theorem holdsList_iff (l : List Tree) : holdsList l = true ↔ ∀ t ∈ l, holds t = true := by
  induction l with
  | nil => simp [holdsList]
  | cons t l ih => simp [holdsList, ih]

theorem holdsDict_iff (d : List (Key × Tree)) : holdsDict d = true ↔ ∀ e ∈ d, holds e.2 = true := by
  induction d with
  | nil => simp [holdsDict]
  | cons e d ih =>
    obtain ⟨k, t⟩ := e
    rw [holdsDict, Bool.and_eq_true, ih, List.forall_mem_cons]

theorem plainList_id {l : List Tree} (h : ∀ t ∈ l, plain t = t) : plainList l = l := by
  induction l with
  | nil => rfl
  | cons t l ih =>
    rw [List.forall_mem_cons] at h
    rw [plainList, h.1, ih h.2]

theorem plainDict_id {d : List (Key × Tree)} (h : ∀ e ∈ d, plain e.2 = e.2) : plainDict d = d := by
  induction d with
  | nil => rfl
  | cons e d ih =>
    obtain ⟨k, t⟩ := e
    rw [List.forall_mem_cons] at h
    rw [plainDict, ih h.2]
    simp only at h
    rw [h.1]

theorem pure_str (s : Str) : Pure (.str s) := ⟨rfl, rfl⟩
theorem pure_bool (b : Bool) : Pure (.bool b) := ⟨rfl, rfl⟩

theorem pure_val (v : Val) : Pure v.tree := by cases v <;> exact ⟨rfl, rfl⟩

theorem pure_list {l : List Tree} (h : ∀ t ∈ l, Pure t) : Pure (.list l) := by
  constructor
  · rw [holds, holdsList_iff]
    exact fun t ht => (h t ht).1
  · rw [plain, plainList_id fun t ht => (h t ht).2]

theorem pure_map {α : Type} {l : List α} {f : α → Tree} (h : ∀ a, Pure (f a)) : Pure (.list (l.map f)) := by
  refine pure_list fun t ht => ?_
  obtain ⟨a, -, rfl⟩ := List.mem_map.1 ht
  exact h a

theorem pure_vals (l : List Val) : Pure (listTree l) := pure_map pure_val
theorem pure_texts (l : List Str) : Pure (textsTree l) := pure_map pure_str
theorem pure_rows (l : List (List Val)) : Pure (.list (l.map listTree)) := pure_map pure_vals

theorem pure_sol (v : SoL) : Pure v.tree := by
  cases v with
  | one v => exact pure_val v
  | many l => exact pure_vals l

/-- A part of a dictionary: its keys are among the given ones, in this order. -/
def Part (P : Key × Tree → Prop) (ks : List Key) (d : List (Key × Tree)) : Prop :=
  (d.map (·.1)).Sublist ks ∧ ∀ e ∈ d, P e

theorem part_append {P : Key × Tree → Prop} {ks ks' : List Key} {d d' : List (Key × Tree)} (h : Part P ks d)
    (h' : Part P ks' d') : Part P (ks ++ ks') (d ++ d') := by
  refine ⟨?_, fun e he => (List.mem_append.1 he).elim (h.2 e) (h'.2 e)⟩
  rw [List.map_append]
  exact h.1.append h'.1

theorem part_nil {P : Key × Tree → Prop} (ks : List Key) : Part P ks [] := ⟨List.nil_sublist _, by simp⟩

theorem part_one {P : Key × Tree → Prop} {k : Key} {t : Tree} (h : P (k, t)) : Part P [k] [(k, t)] :=
  ⟨List.Sublist.refl _, by simpa using h⟩

theorem part_if {P : Key × Tree → Prop} {α : Type} (k : String) {f : α → Tree} {o : Option α}
    (h : ∀ a ∈ o, P (key k, f a)) : Part P [key k] (ifKey k f o) := by
  cases o with
  | none => exact part_nil _
  | some a => exact part_one (h a rfl)

/-- Entries with pure values. -/
abbrev Fields : List Key → List (Key × Tree) → Prop := Part fun e => Pure e.2

theorem fields_present (k : String) (v : Val) : Fields [key k] (presentKey k v) := part_if k fun a _ => pure_val a

theorem fields_presentSoL (k : String) (v : SoL) : Fields [key k] (presentSoL k v) := by
  unfold presentSoL
  split
  · exact part_nil _
  · exact part_one (pure_sol v)

theorem fields_if {α : Type} (k : String) {f : α → Tree} (o : Option α) (h : ∀ a, Pure (f a)) :
    Fields [key k] (ifKey k f o) := part_if k fun a _ => h a

theorem pure_dict {ks : List Key} {d : List (Key × Tree)} (h : Fields ks d)
    (hk : ks.all isText = true) (hn : ks.Nodup) : Pure (.dict d) := by
  constructor
  · rw [holds, Bool.and_eq_true, Bool.and_eq_true, decide_eq_true_eq, List.all_eq_true]
    refine ⟨⟨fun k hk' => List.all_eq_true.1 hk k (h.1.subset hk'), hn.sublist h.1⟩, ?_⟩
    exact (holdsDict_iff d).2 fun e he => (h.2 e he).1
  · rw [plain, plainDict_id fun e he => (h.2 e he).2]

theorem pure_mod (m : Mod) : Pure m.tree :=
  pure_dict (ks := [key "id"] ++ [key "parameters"])
    (part_append (part_one (pure_val _)) (part_one (pure_vals _))) (by decide) (by decide)

theorem pure_title (t : Title) : Pure t.tree := by
  cases t with
  | one s => exact pure_str s
  | many l => exact pure_map pure_str

theorem pure_rock (r : Rock) : Pure (.dict r.loaded) := by
  have h : Fields _ r.loaded := part_append (fields_present _ _) (part_append (fields_present _ _)
    (part_append (fields_presentSoL _ _) (part_append (fields_present _ _) (part_append (fields_present _ _)
    (part_append (fields_present _ _) (part_append (fields_present _ _) (part_append (fields_present _ _)
    (part_append (fields_present _ _) (part_append (fields_present _ _) (part_append (fields_present _ _)
    (part_append (fields_present _ _) (part_append (fields_if _ _ pure_mod) (part_append (fields_if _ _ pure_mod)
    (part_append (fields_if _ _ pure_mod) (part_append (fields_if _ _ pure_mod)
    (fields_if _ _ pure_vals))))))))))))))))
  exact pure_dict h (by decide) (by decide)

theorem pure_default (d : DefaultRead) : Pure (.dict d.loaded) :=
  pure_dict (part_append (fields_if _ _ pure_mod) (part_append (fields_if _ _ pure_mod)
    (fields_if _ _ pure_vals))) (by decide) (by decide)

theorem pure_flac (f : Flac) : Pure (.dict f.loaded) :=
  pure_dict (part_append (fields_present _ _) (part_append (fields_present _ _) (fields_present _ _)))
    (by decide) (by decide)

theorem pure_solver (s : SolverOf Val) : Pure (.dict s.loaded) :=
  pure_dict (part_append (part_one (pure_val _)) (part_append (part_one (pure_val _))
    (part_append (part_one (pure_val _)) (part_append (part_one (pure_val _)) (part_one (pure_val _))))))
    (by decide) (by decide)

theorem pure_options (o : Options) : Pure (.dict o.loaded) := by
  have h : Fields _ o.loaded := part_append (fields_present _ _) (part_append (fields_present _ _)
    (part_append (fields_present _ _) (part_append (fields_present _ _) (part_append (fields_present _ _)
    (part_append (fields_present _ _) (part_append (fields_present _ _) (part_append (fields_present _ _)
    (part_append (fields_present _ _) (part_append (fields_presentSoL _ _) (part_append (fields_present _ _)
    (part_append (fields_present _ _) (part_append (fields_present _ _) (part_append (fields_present _ _)
    (part_append (fields_present _ _) (part_append (fields_present _ _) (part_append (fields_present _ _)
    (part_append (fields_present _ _) (fields_present _ _))))))))))))))))))
  exact pure_dict h (by decide) (by decide)

theorem fields_out {α : Type} [DecidableEq α] (k : String) {f : α → Tree} (none : α) (o : Out α)
    (h : ∀ a, Pure (f a)) : Fields [key k] (o.loaded k f none) := by
  unfold Out.loaded
  split
  · split
    · exact part_nil _
    · exact part_one (h _)
  · exact part_one (pure_map h)

theorem pure_gen (g : GenOut) : Pure (.dict g.loaded) := by
  have h : Fields _ g.loaded := part_append (fields_out _ _ _ pure_val) (part_append (fields_out _ _ _ pure_val)
    (part_append (fields_out _ _ _ pure_val) (part_append (fields_out _ _ _ pure_val)
    (part_append (fields_out _ _ _ pure_val) (part_append (fields_out _ _ _ pure_val)
    (part_append (fields_out _ _ _ pure_sol) (part_append (fields_out _ _ _ pure_sol)
    (fields_out _ _ _ pure_sol))))))))
  exact pure_dict h (by decide) (by decide)

theorem pure_args (a : Args) : Pure a.tree := by
  cases a with
  | one v => exact pure_val v
  | list l => exact pure_vals l
  | rows l => exact pure_rows l

theorem pure_vars {v : List (Str × Args)} (h : (v.map (·.1)).Nodup) :
    Pure (.dict (v.map fun e => (.str e.1, e.2.tree))) := by
  refine pure_dict (ks := v.map fun e => .str e.1) ⟨by simp [Function.comp_def], ?_⟩ ?_ ?_
  · intro e he
    obtain ⟨e', -, rfl⟩ := List.mem_map.1 he
    exact pure_args _
  · rw [List.all_eq_true]
    intro k hk
    obtain ⟨e', -, rfl⟩ := List.mem_map.1 hk
    rfl
  · have : (v.map fun e => Key.str e.1) = (v.map (·.1)).map Key.str := by simp
    rw [this]
    exact h.map fun a b hab => by injection hab

theorem pure_outpu {o : OutpuRead} (h : ∀ v ∈ o.vars, (v.map (·.1)).Nodup) : Pure (.dict o.loaded) :=
  pure_dict (part_append (fields_if _ _ pure_str) (part_if _ fun v hv => pure_vars (h v hv)))
    (by decide) (by decide)

theorem fields_center (c : Center) : Fields [key "center"] c.entries := by
  cases c with
  | absent => exact part_nil _
  | null => exact part_one ⟨rfl, rfl⟩
  | list l => exact part_one (pure_vals l)

theorem pure_elem (e : Elem) : Pure (.dict e.loaded) := by
  have h : Fields _ e.loaded := part_append (fields_present _ _) (part_append (fields_present _ _)
    (part_append (fields_present _ _) (part_append (fields_present _ _) (part_append (fields_present _ _)
    (part_append (fields_present _ _) (fields_center _))))))
  exact pure_dict h (by decide) (by decide)

theorem pure_conn (c : Conn) : Pure (.dict c.loaded) := by
  have h : Fields _ c.loaded := part_append (fields_present _ _) (part_append (fields_if _ _ pure_vals)
    (part_append (fields_present _ _) (part_append (fields_if _ _ pure_vals) (part_append (fields_present _ _)
    (part_append (fields_present _ _) (fields_present _ _))))))
  exact pure_dict h (by decide) (by decide)

theorem pure_incon (c : Incon) : Pure (.dict c.loaded) :=
  pure_dict (part_append (fields_present _ _) (part_append (fields_if _ _ pure_vals)
    (fields_if _ _ pure_vals))) (by decide) (by decide)

theorem labelKey_text {v : Val} (h : AsText v) (hn : v ≠ .none) : ∃ s, v = .str s := by
  cases v with
  | str s => exact ⟨s, rfl⟩
  | none => exact absurd rfl hn
  | _ => exact absurd h (by simp [AsText])

theorem pure_table {β : Type} {f : β → List (Key × Tree)} {d : List (Val × β)} (hf : ∀ b, Pure (.dict (f b)))
    (h : Keyed d) (hn : ∀ k ∈ d.map (·.1), k ≠ .none) : Pure (rowsTree f d) := by
  have ht : ∀ k ∈ d.map (·.1), ∃ s, k = .str s := fun k hk => labelKey_text (h.2 k hk) (hn k hk)
  refine pure_dict (ks := (d.map (·.1)).map labelKey) ⟨by simp [Function.comp_def], ?_⟩ ?_ ?_
  · intro e he
    obtain ⟨e', -, rfl⟩ := List.mem_map.1 he
    exact hf _
  · rw [List.all_eq_true]
    intro k hk
    obtain ⟨v, hv, rfl⟩ := List.mem_map.1 hk
    obtain ⟨s, rfl⟩ := ht v hv
    rfl
  · refine h.1.map_on fun a ha b hb hab => ?_
    obtain ⟨s, rfl⟩ := ht a ha
    obtain ⟨t, rfl⟩ := ht b hb
    simp only [labelKey] at hab
    injection hab with hab
    rw [hab]

/-- A dictionary of numbered options that JSON holds as it is. -/
def PureInts (t : Tree) : Prop := isIntDict t = true ∧ ∃ d, t = .dict d ∧ plainDict d = d

theorem pure_digits {d : List (ℤ × Val)} (h : (d.map (·.1)).Nodup) : PureInts (digitsTree d) := by
  have hv : ∀ e ∈ d.map fun e : ℤ × Val => (Key.int e.1, e.2.tree), Pure e.2 := by
    intro e he
    obtain ⟨e', -, rfl⟩ := List.mem_map.1 he
    exact pure_val _
  refine ⟨?_, _, rfl, plainDict_id fun e he => (hv e he).2⟩
  rw [digitsTree, isIntDict, Bool.and_eq_true, Bool.and_eq_true, decide_eq_true_eq]
  refine ⟨⟨?_, ?_⟩, (holdsDict_iff _).2 fun e he => (hv e he).1⟩
  · rw [List.all_eq_true]
    intro k hk
    obtain ⟨e, he, rfl⟩ := List.mem_map.1 hk
    obtain ⟨e', -, rfl⟩ := List.mem_map.1 he
    rfl
  · have : (d.map fun e : ℤ × Val => (Key.int e.1, e.2.tree)).map (·.1) = (d.map (·.1)).map Key.int := by
      simp [Function.comp_def]
    rw [this]
    exact h.map fun a b hab => by injection hab

/-- What is asked of an entry of the parameters. -/
def PureEntry (e : Key × Tree) : Prop :=
  if e.1 = key "extra_options" ∨ e.1 = key "more_options" then PureInts e.2
  else if e.1 = key "selections" then isSelections e.2 = true ∧ ∃ d, e.2 = .dict d ∧
    ∀ x ∈ d, if x.1 = key "integers" then PureInts x.2 else Pure x.2
  else Pure e.2

theorem entry_other {k : String} {t : Tree} (h : Pure t)
    (hk : key k ≠ key "extra_options" ∧ key k ≠ key "more_options" ∧ key k ≠ key "selections") :
    PureEntry (key k, t) := by
  unfold PureEntry
  rw [if_neg (by rintro (h | h); exacts [hk.1 h, hk.2.1 h]), if_neg hk.2.2]
  exact h

theorem entry_selections {s : SelecRead} (h : (s.integers.map (·.1)).Nodup) :
    PureEntry (key "selections", .dict s.loaded) := by
  have hi := pure_digits h
  have hf : ∀ x ∈ (s.floats.getD .absent).entries, x.1 = key "floats" ∧ Pure x.2 := by
    cases s.floats.getD .absent with
    | absent => simp [Floats.entries]
    | none =>
      intro x hx
      rw [Floats.entries, List.mem_singleton] at hx
      rw [hx]
      exact ⟨rfl, rfl, rfl⟩
    | row l =>
      intro x hx
      rw [Floats.entries, List.mem_singleton] at hx
      rw [hx]
      exact ⟨rfl, pure_vals l⟩
    | rows l =>
      intro x hx
      rw [Floats.entries, List.mem_singleton] at hx
      rw [hx]
      exact ⟨rfl, pure_rows l⟩
  have hne : key "floats" ≠ key "integers" := by decide
  have hall : ∀ x ∈ s.loaded, if x.1 = key "integers" then PureInts x.2 else Pure x.2 := by
    intro x hx
    rcases List.mem_append.1 hx with hx | hx
    · rw [List.mem_singleton] at hx
      rw [hx, if_pos rfl]
      exact hi
    · rw [if_neg (by rw [(hf x hx).1]; exact hne)]
      exact (hf x hx).2
  have hkeys : (s.loaded.map (·.1)).Sublist [key "integers", key "floats"] := by
    unfold SelecRead.loaded
    rw [List.map_append]
    refine List.Sublist.append (l₂ := [key "integers"]) (r₂ := [key "floats"]) (List.Sublist.refl _) ?_
    cases s.floats.getD .absent <;> simp [Floats.entries]
  unfold PureEntry
  have h0 : ¬ (key "selections" = key "extra_options" ∨ key "selections" = key "more_options") := by decide
  rw [if_neg h0, if_pos rfl]
  refine ⟨?_, _, rfl, hall⟩
  rw [isSelections, Bool.and_eq_true, Bool.and_eq_true, Bool.and_eq_true, decide_eq_true_eq, decide_eq_true_eq,
    List.all_eq_true, List.all_eq_true]
  refine ⟨⟨⟨fun k hk => ?_, ?_⟩, by simp [SelecRead.loaded]⟩, fun e he => ?_⟩
  · have : [key "integers", key "floats"].all isText = true := by decide
    exact List.all_eq_true.1 this k (hkeys.subset hk)
  · exact List.Nodup.sublist hkeys (by decide)
  · have := hall e he
    split at this
    · rw [if_pos ‹_›]
      exact this.1
    · rw [if_neg ‹_›]
      exact this.1

theorem part_table {β : Type} (k o : String) {f : β → List (Key × Tree)} {t : Option (Table β)}
    (hf : ∀ b, Pure (.dict (f b))) (h : ∀ x ∈ t, Keyed x.1)
    (hn : ∀ l ∈ (t.map fun t => t.1.map (·.1)).getD [], l ≠ .none)
    (hk : key k ≠ key "extra_options" ∧ key k ≠ key "more_options" ∧ key k ≠ key "selections")
    (ho : key o ≠ key "extra_options" ∧ key o ≠ key "more_options" ∧ key o ≠ key "selections") :
    Part PureEntry ([key k] ++ [key o]) (tableLoaded k o f t) := by
  cases t with
  | none => exact part_nil _
  | some t =>
    exact part_append (part_one (entry_other (pure_table hf (h t rfl) hn) hk))
      (part_one (entry_other (pure_vals _) ho))

theorem part_param {o : Option (Options × List (ℤ × Val))} (h : ∀ x ∈ o, (x.2.map (·.1)).Nodup) :
    Part PureEntry ([key "options"] ++ [key "extra_options"]) (paramLoaded o) := by
  cases o with
  | none => exact part_nil _
  | some o =>
    refine part_append (part_one (entry_other (pure_options _) (by decide))) (part_one ?_)
    unfold PureEntry
    rw [if_pos (.inl rfl)]
    exact pure_digits (h o rfl)

theorem part_multi (o : Option MultiRead) :
    Part PureEntry ([key "n_component"] ++ ([key "isothermal"] ++ [key "n_phase"])) (multiLoaded o) := by
  cases o with
  | none => exact part_nil _
  | some m =>
    exact part_append (part_one (entry_other (pure_val _) (by decide)))
      (part_append (part_one (entry_other (pure_bool _) (by decide)))
        (part_one (entry_other (pure_val _) (by decide))))

theorem part_key {α : Type} (k : String) {f : α → Tree} {o : Option α} (h : ∀ a ∈ o, Pure (f a))
    (hk : key k ≠ key "extra_options" ∧ key k ≠ key "more_options" ∧ key k ≠ key "selections") :
    Part PureEntry [key k] (ifKey k f o) := part_if k fun a ha => entry_other (h a ha) hk

/-- The keys of the parameters. -/
def paramKeys : List Key :=
  [key "title"] ++ (([key "rocks"] ++ [key "rocks_order"]) ++ ([key "default"] ++ ([key "flac"] ++
    (([key "n_component"] ++ ([key "isothermal"] ++ [key "n_phase"])) ++ ([key "solver"] ++ ([key "start"] ++
    (([key "options"] ++ [key "extra_options"]) ++ ([key "selections"] ++ ([key "more_options"] ++
    ([key "times"] ++ ([key "element_history"] ++ ([key "connection_history"] ++ ([key "generator_history"] ++
    ([key "generators"] ++ ([key "diffusion"] ++ ([key "output"] ++
    (([key "elements"] ++ [key "elements_order"]) ++ ([key "coordinates"] ++
    (([key "connections"] ++ [key "connections_order"]) ++
    (([key "initial_conditions"] ++ [key "initial_conditions_order"]) ++ [key "nover"]))))))))))))))))))))

theorem loaded_part {r : FileRead} (h : ReadKeyed r) (hn : ∀ l ∈ rowLabels r, l ≠ .none) :
    Part PureEntry paramKeys r.loaded := by
  unfold rowLabels at hn
  simp only [List.mem_append, or_imp, forall_and] at hn
  obtain ⟨n1, n2, n3, n4, n5⟩ := hn
  refine part_append (part_key _ (fun a _ => pure_title a) (by decide))
    (part_append (part_table _ _ pure_rock h.rocks n1 (by decide) (by decide))
    (part_append (part_key _ (fun a _ => pure_default a) (by decide))
    (part_append (part_key _ (fun a _ => pure_flac a) (by decide))
    (part_append (part_multi _)
    (part_append (part_key _ (fun a _ => pure_solver a) (by decide))
    (part_append (part_key _ (fun a _ => pure_bool a) (by decide))
    (part_append (part_param h.options)
    (part_append (part_if _ fun a ha => entry_selections (h.selections a ha))
    (part_append (part_if _ fun a ha => ?_)
    (part_append (part_key _ (fun a _ => pure_sol a) (by decide))
    (part_append (part_key _ (fun a _ => pure_texts a) (by decide))
    (part_append (part_key _ (fun a _ => pure_texts a) (by decide))
    (part_append (part_key _ (fun a _ => pure_texts a) (by decide))
    (part_append (part_key _ (fun a ha => pure_table pure_gen (h.generators a ha) ?_) (by decide))
    (part_append (part_key _ (fun a _ => pure_rows a) (by decide))
    (part_append (part_key _ (fun a ha => pure_outpu (h.output a ha)) (by decide))
    (part_append (part_table _ _ pure_elem h.elements n3 (by decide) (by decide))
    (part_append (part_key _ (fun a _ => pure_bool a) (by decide))
    (part_append (part_table _ _ pure_conn h.connections n4 (by decide) (by decide))
    (part_append (part_table _ _ pure_incon h.initialConditions n5 (by decide) (by decide))
    (part_key _ (fun a _ => pure_bool a) (by decide))))))))))))))))))))))
  · unfold PureEntry
    rw [if_pos (.inr rfl)]
    exact pure_digits (h.moreOptions a ha)
  · have : r.generators = some a := ha
    rw [this] at n2
    exact n2

theorem part_jsonOk {p : List (Key × Tree)} (h : Part PureEntry paramKeys p) : jsonOk p = true := by
  have hk : paramKeys.all isText = true := by decide
  have hn : paramKeys.Nodup := by decide
  rw [jsonOk, Bool.and_eq_true, Bool.and_eq_true, decide_eq_true_eq, List.all_eq_true, List.all_eq_true]
  refine ⟨⟨fun k hk' => List.all_eq_true.1 hk k (h.1.subset hk'), hn.sublist h.1⟩, fun e he => ?_⟩
  have := h.2 e he
  unfold PureEntry at this
  split at this
  · rw [if_pos ‹_›]
    exact this.1
  · rw [if_neg ‹_›]
    split at this
    · rw [if_pos ‹_›]
      exact this.1
    · rw [if_neg ‹_›]
      exact this.1

theorem forall₂_imp_left {α β : Type} {R S : α → β → Prop} {l : List α} {m : List β} (h : List.Forall₂ R l m)
    (hs : ∀ a b, a ∈ l → R a b → S a b) : List.Forall₂ S l m := by
  induction h with
  | nil => exact .nil
  | cons h _ ih =>
    exact .cons (hs _ _ List.mem_cons_self h) (ih fun a b ha => hs a b (List.mem_cons_of_mem _ ha))

theorem sameEntries_of {v v' : Tree} (h : PureInts v) (hb : SameDict v v') : SameEntries v v' := by
  obtain ⟨d, d', rfl, rfl, hp⟩ := hb
  obtain ⟨-, d0, h0, h1⟩ := h
  cases h0
  rw [h1] at hp
  exact ⟨_, _, rfl, rfl, hp⟩

theorem unchanged_of {e : Key × Tree} {v' : Tree} (h : PureEntry e) (hb : Back e.1 e.2 v') :
    Unchanged e.1 e.2 v' := by
  unfold PureEntry at h
  unfold Back at hb
  unfold Unchanged
  split at h
  · rw [if_pos ‹_›] at hb ⊢
    exact sameEntries_of h hb
  · rw [if_neg ‹_›] at hb ⊢
    split at h
    · rw [if_pos ‹_›] at hb ⊢
      obtain ⟨d, d', h1, h2, h3⟩ := hb
      obtain ⟨-, d0, h0, ha⟩ := h
      rw [h1] at h0
      cases h0
      refine ⟨d, d', h1, h2, ?_⟩
      refine forall₂_imp_left h3 ?_
      intro x x' hx ⟨q1, q2⟩
      refine ⟨q1, ?_⟩
      have hx := ha x hx
      split at hx
      · rw [if_pos ‹_›] at q2 ⊢
        exact sameEntries_of hx q2
      · rw [if_neg ‹_›] at q2 ⊢
        rw [q2, hx.2]
    · rw [if_neg ‹_›] at hb ⊢
      rw [hb, h.2]

end Verif.Props
