import Verif.Lemmas.Json

/-!
# JSON parameter files (C33)
-/

namespace Verif.Props
open Verif.Py Verif.Model Verif.Spec

theorem keys_ne : key "extra_options" ≠ key "more_options" ∧
    key "extra_options" ≠ key "selections" ∧ key "more_options" ≠ key "selections" := by decide

/-- C33. Parameters that JSON can hold come back with the same keys in the same
order and the same values, tuples and arrays as lists; the extra options, more
options and selections come back with their integers as keys. -/
theorem C33_json_round_trip_partial (p : List (Key × Tree)) (h : jsonOk p = true) :
    ∃ f r, writeJson (.dict p) = .ok f ∧ readJson f = .ok (.dict r) ∧
      List.Forall₂ (fun e e' => e'.1 = e.1 ∧ Back e.1 e.2 e'.2) p r := by
  rw [jsonOk, Bool.and_eq_true, Bool.and_eq_true, decide_eq_true_eq] at h
  obtain ⟨⟨hk, hn⟩, hp⟩ := h
  rw [List.all_eq_true] at hp
  obtain ⟨n1, n2, n3⟩ := keys_ne
  have hw : ∀ e ∈ p, ∃ v, dumped (jsonify e.2) = .ok v := by
    intro e he
    have := hp e he
    split at this
    · obtain ⟨w, v', h1, -⟩ := intDict_back e.2 this
      exact ⟨w, h1⟩
    · split at this
      · obtain ⟨w, v', h1, -⟩ := selections_back e.2 this
        exact ⟨w, h1⟩
      · exact ⟨_, dumped_jsonify e.2 this⟩
  have hs := dumped_textDict p hk hn hw
  have u1 := updateKey_eq (p.map fun e => (e.1, stored e.2)) (key "extra_options") toInt
    (fun e => got toInt e.2) (by simpa [Function.comp_def] using hn) (by
      intro e he hek
      obtain ⟨e', he', rfl⟩ := List.mem_map.1 he
      simp only at hek ⊢
      have := hp e' he'
      rw [if_pos (Or.inl hek)] at this
      obtain ⟨w, v', h1, h2, -⟩ := intDict_back e'.2 this
      rw [stored_eq h1, h2, got_eq h2])
  rw [List.map_map] at u1
  have u2 := updateKey_eq (p.map ((fun e : Key × Tree => (e.1, if e.1 = key "extra_options" then
      got toInt e.2 else e.2)) ∘ fun e => (e.1, stored e.2))) (key "more_options") toInt
    (fun e => got toInt e.2) (by simpa [Function.comp_def] using hn) (by
      intro e he hek
      obtain ⟨e', he', rfl⟩ := List.mem_map.1 he
      simp only [Function.comp] at hek ⊢
      have := hp e' he'
      rw [if_pos (Or.inr hek)] at this
      obtain ⟨w, v', h1, h2, -⟩ := intDict_back e'.2 this
      rw [if_neg (by rw [hek]; exact fun h => n1 h.symm), stored_eq h1, h2, got_eq h2])
  rw [List.map_map] at u2
  have u3 := updateKey_eq (p.map ((fun e : Key × Tree => (e.1, if e.1 = key "more_options" then
      got toInt e.2 else e.2)) ∘ ((fun e : Key × Tree => (e.1, if e.1 = key "extra_options" then
      got toInt e.2 else e.2)) ∘ fun e => (e.1, stored e.2)))) (key "selections") selectionsInt
    (fun e => got selectionsInt e.2) (by simpa [Function.comp_def] using hn) (by
      intro e he hek
      obtain ⟨e', he', rfl⟩ := List.mem_map.1 he
      simp only [Function.comp] at hek ⊢
      have := hp e' he'
      rw [if_neg (by rw [hek]; rintro (h | h); exacts [n2 h.symm, n3 h.symm]), if_pos hek] at this
      obtain ⟨w, v', h1, h2, -⟩ := selections_back e'.2 this
      rw [if_neg (by rw [hek]; exact fun h => n3 h.symm),
        if_neg (by rw [hek]; exact fun h => n2 h.symm), stored_eq h1, h2, got_eq h2])
  rw [List.map_map] at u3
  have hread := readJson.eq_1 (p.map fun e => (e.1, stored e.2))
  rw [u1, ok_bind, u2, ok_bind, u3, ok_bind] at hread
  refine ⟨_, _, hs, hread, ?_⟩
  · rw [List.forall₂_map_right_iff, List.forall₂_same]
    intro e he
    refine ⟨rfl, ?_⟩
    have := hp e he
    simp only [Function.comp]
    unfold Back
    by_cases h1 : e.1 = key "extra_options"
    · rw [if_pos (Or.inl h1)] at this ⊢
      obtain ⟨w, v', a, b, c⟩ := intDict_back e.2 this
      rw [if_neg (by rw [h1]; exact n2), if_neg (by rw [h1]; exact n1), if_pos h1, stored_eq a,
        got_eq b]
      exact c
    · by_cases h2 : e.1 = key "more_options"
      · rw [if_pos (Or.inr h2)] at this ⊢
        obtain ⟨w, v', a, b, c⟩ := intDict_back e.2 this
        rw [if_neg (by rw [h2]; exact n3), if_pos h2, if_neg h1, stored_eq a, got_eq b]
        exact c
      · have h12 : ¬ (e.1 = key "extra_options" ∨ e.1 = key "more_options") := by
          rintro (h | h); exacts [h1 h, h2 h]
        rw [if_neg h12] at this ⊢
        by_cases h3 : e.1 = key "selections"
        · rw [if_pos h3] at this ⊢
          obtain ⟨w, v', a, b, c⟩ := selections_back e.2 this
          rw [if_pos h3, if_neg h2, if_neg h1, stored_eq a, got_eq b]
          exact c
        · rw [if_neg h3] at this ⊢
          rw [if_neg h3, if_neg h2, if_neg h1]
          exact stored_eq (dumped_jsonify e.2 this)

/-- Parameters of every kind. -/
def jsonParams : List (Key × Tree) :=
  [(key "title", .str "a".toList),
   (key "extra_options", .dict [(.int 2, .int 5), (.int 10, .npInt 1)]),
   (key "times", .array (.list [.flt (.fin false 1), .flt (.fin true 2)])),
   (key "selections", .dict [(key "integers", .dict [(.int 1, .int 3)]),
     (key "floats", .tuple [.none, .npFloat64 (.fin false 1)])]),
   (key "rocks", .dict [(key "ROCK1", .dict [(key "density", .flt (.fin false 2600))])])]

example : jsonOk jsonParams = true := by decide +kernel

/-- C33 is violated by the code: missing extra options are written, but the file
cannot be read back. -/
theorem C33_violated : writeJson (.dict [(key "extra_options", .none)]) =
      .ok (.dict [(key "extra_options", .none)]) ∧
    readJson (.dict [(key "extra_options", .none)]) = .error .attributeError := ⟨rfl, rfl⟩

/-- C33 is violated by the code: selections without integers are written, but the
file cannot be read back. -/
theorem C33_selections_violated :
    writeJson (.dict [(key "selections", .dict [(key "floats", .list [])])]) =
      .ok (.dict [(key "selections", .dict [(key "floats", .list [])])]) ∧
    readJson (.dict [(key "selections", .dict [(key "floats", .list [])])]) =
      .error .keyError := ⟨rfl, rfl⟩

/-- C33 is violated by the code: numbers of type `numpy.float32` are refused. -/
theorem C33_float32_violated (k : Key) (x : Flt) :
    writeJson (.dict [(k, .npFloat32 x)]) = .error .typeError := rfl

/-- Integer keys of any other dictionary come back as texts. -/
theorem C33_other_integer_keys (s : Str) (i : ℤ) (b : Bool) (h : .str s ≠ key "selections")
    (h' : .str s ≠ key "extra_options") (h'' : .str s ≠ key "more_options") :
    (writeJson (.dict [(.str s, .dict [(.int i, .bool b)])]) >>= readJson) =
      .ok (.dict [(.str s, .dict [(.str (intStr i), .bool b)])]) := by
  have e : writeJson (.dict [(.str s, .dict [(.int i, .bool b)])]) =
      .ok (.dict [(.str s, .dict [(.str (intStr i), .bool b)])]) := rfl
  rw [e, ok_bind, readJson]
  have l : ∀ k : Key, k ≠ .str s → ∀ f, updateKey [(.str s, .dict [(.str (intStr i), .bool b)])] k f =
      .ok [(.str s, .dict [(.str (intStr i), .bool b)])] := by
    intro k hk f
    have : (k == Key.str s) = false := by simpa using hk
    simp [updateKey, List.lookup, this]
  rw [l _ h'.symm, ok_bind, l _ h''.symm, ok_bind, l _ h.symm, ok_bind]

example : (Key.str "rocks".toList) ≠ key "selections" := by decide

end Verif.Props
