import Verif.Spec.Check
import Verif.Lemmas.Record
import Mathlib.Tactic.Tauto
import Mathlib.Tactic.Push

/-!
# Validation of parameters (C31)
-/

namespace Verif.Props
open Verif.Py Verif.Model Verif.Spec

/-- The classes of a type name are what the name means. -/
theorem classes_iff : ∀ name ∈ typeNames, ∃ cs, strToDtype.lookup name = some cs ∧
    ∀ v : Tree, cs.any (isInstance v) = true ↔ Meets name v := by
  intro name hn
  simp only [typeNames, List.mem_cons, List.not_mem_nil, or_false] at hn
  rcases hn with rfl | rfl | rfl | rfl | rfl | rfl | rfl | rfl | rfl <;>
  · refine ⟨_, rfl, fun v => ?_⟩
    cases v <;> simp [isInstance, Meets, IsInt, IsNum, IsSeq, IsText, IsFlag, IsDict]

theorem isNone_iff (v : Tree) : isNone v = true ↔ v = .none := by
  cases v <;> simp [isNone]

theorem lookup_mem {types : Types} {k : Key} {name : String} (h : types.lookup k = some name) :
    (k, name) ∈ types := by
  induction types with
  | nil => cases h
  | cons e types ih =>
    obtain ⟨k', n'⟩ := e
    rw [List.lookup_cons] at h
    split at h
    · rename_i hk
      cases h
      have := eq_of_beq hk
      subst this
      simp
    · exact List.mem_cons_of_mem _ (ih h)

theorem bad_cons {types : Types} {k : Key} {v : Tree} {r : List (Key × Tree)} :
    Bad types ((k, v) :: r) ↔
      (v ≠ .none ∧ ∃ name, types.lookup k = some name ∧ ¬ Meets name v) ∨ Bad types r := by
  simp [Bad]

/-- C31. The check of one dictionary, for any type table with the type names in
use: it passes if no entry is bad and raises `TypeError` otherwise; when it
passes, exactly the unknown keys are reported. -/
theorem C31_entries (types : Types) (ht : TableOk types) (d : List (Key × Tree)) :
    ((checkEntries types d).2 = .error .typeError ↔ Bad types d) ∧
    ((checkEntries types d).2 = .ok () ↔ ¬ Bad types d) ∧
    (¬ Bad types d → (checkEntries types d).1 = unknown types d) := by
  induction d with
  | nil => simp [checkEntries, Bad, unknown]
  | cons e r ih =>
    obtain ⟨k, v⟩ := e
    rw [checkEntries, bad_cons]
    cases hk : types.lookup k with
    | none =>
      dsimp only
      refine ⟨by simpa using ih.1, by simpa using ih.2.1, fun h => ?_⟩
      rw [ih.2.2 (by tauto)]
      simp [unknown, hk]
    | some name =>
      obtain ⟨cs, hc, hm⟩ := classes_iff name (ht _ (lookup_mem hk))
      dsimp only
      rw [hc]
      dsimp only
      by_cases hg : (isNone v || cs.any (isInstance v)) = true
      · rw [if_pos hg]
        have : ¬ (v ≠ .none ∧ ∃ name', some name = some name' ∧ ¬ Meets name' v) := by
          rw [Bool.or_eq_true, isNone_iff, hm] at hg
          rintro ⟨h1, n, h2, h3⟩
          cases h2
          tauto
        simp only [this, false_or]
        refine ⟨ih.1, ih.2.1, fun h => ?_⟩
        rw [ih.2.2 (by tauto)]
        simp [unknown, hk]
      · rw [if_neg hg]
        have : v ≠ .none ∧ ∃ name', some name = some name' ∧ ¬ Meets name' v := by
          rw [Bool.or_eq_true, isNone_iff, hm] at hg
          exact ⟨by tauto, name, rfl, by tauto⟩
        exact ⟨iff_of_true rfl (.inl this), iff_of_false (by simp) fun h => h (.inl this),
          fun h => absurd (.inl this) h⟩

theorem follow_reach {v w : Tree} {path : List Key} (h : Reach v path w) : follow v path = .ok w := by
  induction h with
  | here v => rfl
  | down hk _ ih =>
    rw [follow, subscript]
    simp only [Tree.find, hk]
    exact ih

theorem follow_lacks {v : Tree} {path : List Key} (h : Lacks v path) :
    follow v path = .error .keyError := by
  induction h with
  | here hk =>
    rw [follow, subscript]
    simp only [Tree.find, hk]
    rfl
  | down hk _ ih =>
    rw [follow, subscript]
    simp only [Tree.find, hk]
    exact ih

/-- C31. The decorator without list: the dictionary at the end of the path is
checked. -/
theorem C31_dictionary (types : Types) (ht : TableOk types) (keys : List Key)
    (p d : List (Key × Tree)) (h : Reach (.dict p) keys (.dict d)) :
    ((checkParameters types keys false p).2 = .error .typeError ↔ Bad types d) ∧
    ((checkParameters types keys false p).2 = .ok () ↔ ¬ Bad types d) ∧
    (¬ Bad types d → (checkParameters types keys false p).1 = unknown types d) := by
  have key : checkParameters types keys false p = checkEntries types d := by
    cases h with
    | here => rfl
    | down hk h =>
      rw [checkParameters]
      simp only [Tree.find, hk]
      rw [if_neg (by decide), checkAt, follow_reach h]
      rfl
  rw [key]
  exact C31_entries types ht d

theorem checkEach_spec (types : Types) (ht : TableOk types) (path : List Key)
    (es : List (Key × Tree)) (h : ∀ e ∈ es, (∃ d, Reach e.2 path (.dict d)) ∨ Lacks e.2 path) :
    ((checkEach types path es).2 = .error .typeError ↔
      ∃ e ∈ es, ∃ d, Reach e.2 path (.dict d) ∧ Bad types d) ∧
    ((checkEach types path es).2 = .ok () ↔
      ¬ ∃ e ∈ es, ∃ d, Reach e.2 path (.dict d) ∧ Bad types d) := by
  induction es with
  | nil => simp [checkEach]
  | cons e es ih =>
    obtain ⟨k, v⟩ := e
    have ih := ih fun e he => h e (by simp [he])
    rw [checkEach]
    have split : (∃ e ∈ (k, v) :: es, ∃ d, Reach e.2 path (.dict d) ∧ Bad types d) ↔
        (∃ d, Reach v path (.dict d) ∧ Bad types d) ∨
          ∃ e ∈ es, ∃ d, Reach e.2 path (.dict d) ∧ Bad types d := by simp
    rw [split]
    rcases h (k, v) (by simp) with ⟨d, hd⟩ | hl
    · have e1 : checkAt types v path = checkEntries types d := by
        rw [checkAt, follow_reach hd]; rfl
      have uniq : (∃ d, Reach v path (.dict d) ∧ Bad types d) ↔ Bad types d := by
        refine ⟨fun ⟨d', h1, h2⟩ => ?_, fun h => ⟨d, hd, h⟩⟩
        have := (follow_reach hd).symm.trans (follow_reach h1)
        cases this
        exact h2
      obtain ⟨c1, c2, _⟩ := C31_entries types ht d
      rw [e1, uniq]
      by_cases hb : Bad types d
      · rw [c1.2 hb]
        simp [hb]
      · rw [c2.2 hb]
        simp only [hb, false_or]
        exact ih
    · have e1 : checkAt types v path = ([], .error .keyError) := by
        rw [checkAt, follow_lacks hl]
      have none : ¬ ∃ d, Reach v path (.dict d) ∧ Bad types d := by
        rintro ⟨d, h1, _⟩
        have := (follow_lacks hl).symm.trans (follow_reach h1)
        cases this
      rw [e1]
      simp only [none, false_or]
      exact ih

/-- C31, partial: what is missing are entries that are not dictionaries, for
which another error is raised (`C31_violated`). The decorator with list: in every entry the dictionary at the end of the
path is checked; entries that lack a key of the path are skipped, and only
those. -/
theorem C31_list_partial (types : Types) (ht : TableOk types) (k : Key) (path : List Key)
    (p es : List (Key × Tree)) (hk : p.lookup k = some (.dict es))
    (h : ∀ e ∈ es, (∃ d, Reach e.2 path (.dict d)) ∨ Lacks e.2 path) :
    ((checkParameters types (k :: path) true p).2 = .error .typeError ↔
      ∃ e ∈ es, ∃ d, Reach e.2 path (.dict d) ∧ Bad types d) ∧
    ((checkParameters types (k :: path) true p).2 = .ok () ↔
      ¬ ∃ e ∈ es, ∃ d, Reach e.2 path (.dict d) ∧ Bad types d) := by
  have key : checkParameters types (k :: path) true p = checkEach types path es := by
    rw [checkParameters]
    simp only [Tree.find, hk, if_true]
  rw [key]
  exact checkEach_spec types ht path es h

theorem follow_blocked {v w : Tree} {path : List Key} (h : Blocked v path w) :
    (IsNumpy w → follow v path = .error .indexError) ∧ (¬ IsNumpy w → follow v path = .error .typeError) := by
  induction h with
  | @here v k path hv =>
    rw [follow]
    cases v <;> first | exact absurd trivial hv | exact ⟨fun _ => rfl, fun h => absurd trivial h⟩ |
      exact ⟨fun h => h.elim, fun _ => rfl⟩
  | down hk _ ih =>
    rw [follow, subscript]
    simp only [Tree.find, hk]
    exact ih

/-- Every entry is in order or has a fault. -/
theorem passes_or_fault (types : Types) (path : List Key) (v : Tree) : Passes types path v ∨ ∃ e, Fault types path v e := by
  induction path generalizing v with
  | nil =>
    by_cases hd : IsDict v
    · cases v with
      | dict d =>
        by_cases hb : Bad types d
        · exact .inr ⟨_, .bad (.here _) hb⟩
        · exact .inl (.inl ⟨d, .here _, hb⟩)
      | _ => exact hd.elim
    · exact .inr ⟨_, .noDict (.here _) hd⟩
  | cons k path ih =>
    by_cases hd : IsDict v
    · cases v with
      | dict d =>
        cases hk : d.lookup k with
        | none => exact .inl (.inr (.here hk))
        | some x =>
          rcases ih x with (⟨d', h1, h2⟩ | hl) | ⟨e, hf⟩
          · exact .inl (.inl ⟨d', .down hk h1, h2⟩)
          · exact .inl (.inr (.down hk hl))
          · refine .inr ⟨e, ?_⟩
            cases hf with
            | bad h hb => exact .bad (.down hk h) hb
            | noDict h hw => exact .noDict (.down hk h) hw
            | blocked h hw => exact .blocked (.down hk h) hw
            | numpy h hw => exact .numpy (.down hk h) hw
      | _ => exact hd.elim
    · by_cases hn : IsNumpy v
      · exact .inr ⟨_, .numpy (.here k path hd) hn⟩
      · exact .inr ⟨_, .blocked (.here k path hd) hn⟩

theorem checkAt_fault {types : Types} (ht : TableOk types) {path : List Key} {v : Tree} {e : PyErr}
    (h : Fault types path v e) : (checkAt types v path).2 = .error e ∧ e ≠ .keyError := by
  cases h with
  | bad h hb =>
    rw [checkAt, follow_reach h]
    exact ⟨(C31_entries types ht _).1.2 hb, by decide⟩
  | @noDict w h hw =>
    rw [checkAt, follow_reach h]
    refine ⟨?_, by decide⟩
    cases w <;> first | rfl | exact absurd trivial hw
  | blocked h hw =>
    rw [checkAt, (follow_blocked h).2 hw]
    exact ⟨rfl, by decide⟩
  | numpy h hw =>
    rw [checkAt, (follow_blocked h).1 hw]
    exact ⟨rfl, by decide⟩

theorem checkEach_pass {types : Types} (ht : TableOk types) {path : List Key} {e : Key × Tree} {es : List (Key × Tree)}
    (h : Passes types path e.2) : (checkEach types path (e :: es)).2 = (checkEach types path es).2 := by
  obtain ⟨k, v⟩ := e
  rw [checkEach]
  rcases h with ⟨d, h1, h2⟩ | hl
  · have : checkAt types v path = checkEntries types d := by rw [checkAt, follow_reach h1]; rfl
    rw [this, (C31_entries types ht d).2.1.2 h2]
  · have : checkAt types v path = ([], .error .keyError) := by rw [checkAt, follow_lacks hl]
    rw [this]

/-- C31. The decorator with list, for all entries whatsoever: it passes if every entry is in order,
and otherwise the first entry that is not decides which error is raised. Every entry is either in
order or has a fault. -/
theorem C31_list_first (types : Types) (ht : TableOk types) (k : Key) (path : List Key)
    (p es : List (Key × Tree)) (hk : p.lookup k = some (.dict es)) :
    ((∀ e ∈ es, Passes types path e.2) → (checkParameters types (k :: path) true p).2 = .ok ()) ∧
    (∀ pre e post err, es = pre ++ e :: post → (∀ x ∈ pre, Passes types path x.2) → Fault types path e.2 err →
      (checkParameters types (k :: path) true p).2 = .error err) ∧
    ∀ e ∈ es, Passes types path e.2 ∨ ∃ err, Fault types path e.2 err := by
  have key : checkParameters types (k :: path) true p = checkEach types path es := by
    rw [checkParameters]
    simp only [Tree.find, hk, if_true]
  rw [key]
  clear key hk
  refine ⟨fun h => ?_, ?_, fun e _ => passes_or_fault types path e.2⟩
  · induction es with
    | nil => rfl
    | cons e es ih =>
      rw [checkEach_pass ht (h e List.mem_cons_self)]
      exact ih fun x hx => h x (List.mem_cons_of_mem _ hx)
  · rintro pre ⟨k', v⟩ post err rfl hp hf
    induction pre with
    | nil =>
      obtain ⟨h1, h2⟩ := checkAt_fault ht hf
      rw [List.nil_append, checkEach, h1]
      cases err <;> first | rfl | exact absurd rfl h2
    | cons x pre ih =>
      rw [List.cons_append, checkEach_pass ht (hp x List.mem_cons_self)]
      exact ih fun y hy => hp y (List.mem_cons_of_mem _ hy)

example : Passes dtModel [key "capillarity"] (.dict []) ∧
    Fault dtModel [key "capillarity"] (.dict [(key "capillarity", .none)]) .attributeError ∧
    Fault dtModel [key "capillarity"] .none .typeError :=
  ⟨.inr (.here rfl), .noDict (.down rfl (.here _)) (by simp [IsDict]), .blocked (.here _ _ (by simp [IsDict])) (by simp [IsNumpy])⟩

/-- C31. The decorator without list, for all parameters whatsoever. -/
theorem C31_single (types : Types) (ht : TableOk types) (keys : List Key) (p : List (Key × Tree)) :
    (Lacks (.dict p) keys → (checkParameters types keys false p).2 = .error .keyError) ∧
    ∀ err, Fault types keys (.dict p) err → (checkParameters types keys false p).2 = .error err := by
  have key : ∀ k path, keys = k :: path → ∀ v, p.lookup k = some v →
      checkParameters types keys false p = checkAt types v path := by
    rintro k path rfl v hk
    rw [checkParameters]
    simp only [Tree.find, hk]
    rfl
  refine ⟨fun h => ?_, fun err h => ?_⟩
  · cases h with
    | here hk => 
      rw [checkParameters]
      simp only [Tree.find, hk]
    | down hk h =>
      rw [key _ _ rfl _ hk, checkAt, follow_lacks h]
  · cases h with
    | bad h hb => exact ((C31_dictionary types ht keys p _ h).1).2 hb
    | noDict h hw =>
      cases h with
      | here => exact absurd trivial hw
      | down hk h =>
        rw [key _ _ rfl _ hk]
        exact (checkAt_fault ht (.noDict h hw)).1
    | blocked h hw =>
      cases h with
      | here _ _ hv => exact absurd trivial hv
      | down hk h =>
        rw [key _ _ rfl _ hk]
        exact (checkAt_fault ht (.blocked h hw)).1
    | numpy h hw =>
      cases h with
      | here _ _ hv => exact absurd trivial hv
      | down hk h =>
        rw [key _ _ rfl _ hk]
        exact (checkAt_fault ht (.numpy h hw)).1

example : Lacks (.dict []) [key "default", key "capillarity"] ∧
    Fault dtModel [key "default", key "capillarity"] (.dict [(key "default", .int 1)]) .typeError :=
  ⟨.here rfl, .blocked (.down rfl (.here _ _ (by simp [IsDict]))) (by simp [IsNumpy])⟩

/-- C31. The code violates the property when an entry before the bad one is
missing: the check stops with `AttributeError` instead of `TypeError`, although
the bad entry alone is rejected with `TypeError`. -/
theorem C31_violated : ∃ (p d : List (Key × Tree)),
    p.lookup (key "rocks") = some (.dict [(key "A", .none), (key "B", .dict d)]) ∧ Bad dtRocks d ∧
      (checkParameters dtRocks [key "rocks"] true p).2 = .error .attributeError := by
  refine ⟨[(key "rocks", .dict [(key "A", .none), (key "B", .dict [(key "density", .str [])])])],
    [(key "density", .str [])], rfl, ⟨(key "density", .str []), by simp, by simp, "scalar",
      by decide +kernel, by simp [Meets, IsNum, IsInt]⟩, rfl⟩

/-- C31. The unknown keys of all entries are reported. -/
theorem C31_list_unknown (types : Types) (ht : TableOk types) (k : Key)
    (p es : List (Key × Tree)) (hk : p.lookup k = some (.dict es))
    (h : ∀ e ∈ es, ∃ d, e.2 = .dict d ∧ ¬ Bad types d) :
    (checkParameters types [k] true p).1 =
      (es.map fun e => match e.2 with
        | .dict d => unknown types d
        | _ => []).flatten := by
  have key : checkParameters types [k] true p = checkEach types [] es := by
    rw [checkParameters]
    simp only [Tree.find, hk, if_true]
  rw [key]
  clear key hk
  induction es with
  | nil => rfl
  | cons e es ih =>
    obtain ⟨k', v⟩ := e
    obtain ⟨d, hd, hb⟩ := h (k', v) (by simp)
    dsimp only at hd
    subst hd
    obtain ⟨_, c2, c3⟩ := C31_entries types ht d
    rw [checkEach]
    have e1 : checkAt types (.dict d) [] = checkEntries types d := rfl
    rw [e1, c2.2 hb]
    simp only [List.map_cons, List.flatten_cons]
    rw [ih fun e he => h e (by simp [he]), c3 hb]

/-- C31. The tables of the library only use these type names, and no table lists
a key twice. -/
theorem C31_tables : ∀ e ∈ decorators, TableOk e.2.1 ∧ (e.2.1.map (·.1)).Nodup := by
  decide +kernel

theorem lookup_iff_mem {types : Types} (h : (types.map (·.1)).Nodup) (k : Key) (name : String) :
    types.lookup k = some name ↔ (k, name) ∈ types := by
  refine ⟨lookup_mem, fun hm => ?_⟩
  induction types with
  | nil => cases hm
  | cons e types ih =>
    obtain ⟨k', n'⟩ := e
    rw [List.map_cons, List.nodup_cons] at h
    rw [List.lookup_cons]
    rcases List.mem_cons.1 hm with he | hm'
    · cases he
      simp
    · have : (k == k') = false := by
        rw [beq_eq_false_iff_ne]
        rintro rfl
        exact h.1 (List.mem_map.2 ⟨_, hm', rfl⟩)
      rw [this]
      exact ih h.2 hm'

/-- C31. A table knows exactly the keys of its block, each with the kind of value it
holds. -/
theorem C31_kinds : ∀ e ∈ [(dtParameters, allKinds), (dtRocks, rockKinds), (dtModel, modelKinds),
      (dtFlac, flacKinds), (dtParam, paramKinds), (dtSelec, selecKinds), (dtSolvr, solvrKinds),
      (dtGener, generKinds), (dtOutpu, outpuKinds), (dtEleme, elemeKinds), (dtConne, conneKinds),
      (dtIncon, inconKinds)],
    ∀ (k : Key) (name : String),
      e.1.lookup k = some name ↔ ∃ c ∈ e.2, c.1 = name ∧ ∃ s ∈ c.2, k = key s := by
  intro e he k name
  have h : (e.1.map (·.1)).Nodup ∧ e.1.Perm e.2.entries := by
    revert e
    decide +kernel
  rw [lookup_iff_mem h.1, h.2.mem_iff, Kinds.entries, List.mem_flatMap]
  constructor
  · rintro ⟨c, hc, hm⟩
    obtain ⟨s, hs, he⟩ := List.mem_map.1 hm
    cases he
    exact ⟨c, hc, rfl, s, hs, rfl⟩
  · rintro ⟨c, hc, rfl, s, hs, rfl⟩
    exact ⟨c, hc, List.mem_map.2 ⟨s, hs, rfl⟩⟩

/-- C31. The options `1` to `n` hold integers, and no other key is known. -/
theorem C31_option_numbers (n : ℕ) (k : Key) (name : String) :
    (dtDigits n).lookup k = some name ↔
      name = "int" ∧ ∃ i : ℕ, 1 ≤ i ∧ i ≤ n ∧ k = .int (i : ℤ) := by
  rw [lookup_iff_mem]
  · unfold dtDigits
    simp only [List.mem_map, List.mem_range, Prod.mk.injEq]
    constructor
    · rintro ⟨i, hi, rfl, rfl⟩
      exact ⟨rfl, i + 1, by omega, by omega, by push_cast; rfl⟩
    · rintro ⟨rfl, i, h1, h2, rfl⟩
      exact ⟨i - 1, by omega, by congr 1; omega, rfl⟩
  · unfold dtDigits
    rw [List.map_map]
    refine List.nodup_range.map fun i j h => ?_
    simp only [Function.comp, Key.int.injEq] at h
    omega

/-- C31. Each entry is checked for itself in the parameters that are collections,
and only there. -/
theorem C31_collections : ∀ e ∈ decorators, e.2.2.2 = true ↔
    ∃ s ∈ collections, e.2.2.1.head? = some (key s) := by
  decide +kernel

/-- C31. The check by which function of which parameters: extra options are numbered
up to 24, more options up to 40. -/
theorem C31_checked : (∀ e ∈ decorators, ∀ s ∈ collections, e.2.2.1 = [key s] →
      (s, e.2.1) ∈ [("rocks", dtRocks), ("generators", dtGener), ("elements", dtEleme),
        ("connections", dtConne), ("initial_conditions", dtIncon)]) ∧
    (∀ s ∈ collections, ∃ e ∈ decorators, e.2.2.1 = [key s]) ∧
    (∀ e ∈ decorators, e.2.2.1 = [key "extra_options"] → e.2.1 = dtDigits 24) ∧
    (∀ e ∈ decorators, e.2.2.1 = [key "more_options"] → e.2.1 = dtDigits 40) ∧
    ∀ e ∈ decorators, 1 < e.2.2.1.length → e.2.1 = dtModel ∧
      ∃ s ∈ ["relative_permeability", "capillarity", "permeability_model",
        "equivalent_pore_pressure"], e.2.2.1.getLast? = some (key s) := by
  decide +kernel

/-- A value that is missing is accepted for a model, but then the check of the
model itself fails with another error. -/
theorem C31_missing_model (rest : List (Key × Tree)) :
    let rocks : List (Key × Tree) := [(key "SAND", .dict [(key "capillarity", .none)])]
    let p := (key "rocks", .dict rocks) :: rest
    (checkParameters dtRocks [key "rocks"] true p).2 = .ok () ∧
      (checkParameters dtModel [key "rocks", key "capillarity"] true p).2 = .error .attributeError := by
  refine ⟨rfl, rfl⟩

/-- Two rocks, the second with a text as density; an unknown key. -/
def sampleRocks : List (Key × Tree) :=
  [(key "SAND", .dict [(key "density", .int 2600), (key "colour", .other)]),
    (key "CLAY", .dict [(key "density", .str "heavy".toList)])]

example : TableOk dtRocks ∧ [(key "rocks", Tree.dict sampleRocks)].lookup (key "rocks") =
      some (.dict sampleRocks) ∧
    (∀ e ∈ sampleRocks, (∃ d, Reach e.2 [] (.dict d)) ∨ Lacks e.2 []) ∧
    ∃ e ∈ sampleRocks, ∃ d, Reach e.2 [] (.dict d) ∧ Bad dtRocks d := by
  refine ⟨by decide +kernel, rfl, ?_, ?_⟩
  · intro e he
    simp only [sampleRocks, List.mem_cons, List.not_mem_nil, or_false] at he
    rcases he with rfl | rfl
    · exact .inl ⟨_, .here _⟩
    · exact .inl ⟨_, .here _⟩
  · refine ⟨(key "CLAY", .dict [(key "density", .str "heavy".toList)]), by simp [sampleRocks],
      [(key "density", .str "heavy".toList)], .here _, (key "density", .str "heavy".toList),
      by simp, by simp, "scalar", by decide +kernel, ?_⟩
    simp [Meets, IsNum, IsInt]

example : let p : List (Key × Tree) := [(key "flac", .dict [(key "version", .int 6)])]
    Reach (.dict p) [key "flac"] (.dict [(key "version", .int 6)]) ∧
      ¬ Bad dtFlac [(key "version", .int 6)] := by
  refine ⟨.down rfl (.here _), ?_⟩
  rintro ⟨e, he, _, name, hn, hm⟩
  simp only [List.mem_cons, List.not_mem_nil, or_false] at he
  subst he
  have : name = "int" := by
    have h : dtFlac.lookup (key "version") = some "int" := by decide +kernel
    rw [h] at hn
    cases hn
    rfl
  subst this
  exact hm trivial

end Verif.Props
