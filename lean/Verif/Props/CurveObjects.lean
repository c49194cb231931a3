import Verif.Lemmas.CurveObjects
import Verif.Props.Curves

/-!
# C78: the objects for relative permeability and capillary pressure
-/

namespace Verif.Props
open Verif.Py Verif.Model Verif.Curves Verif.Spec Verif.Lemmas Set

/-! ## Creation -/

/-- C78. An object is created just if the function with the arguments is; it has the
arguments as parameters, in order, and evaluates the function. -/
theorem C78_relative (k : RelKind) (args : List ℝ) (r : Except PyErr RelPerm) (h : RelMade k args r) :
    (∀ e, r = .error e → k.new args = .error e) ∧
    ∀ f, r = .ok f → ∃ o, k.new args = .ok o ∧ o.cls = k.cls ∧ o.parameters = .ok args ∧ k.at o = f := by
  have key : ∀ (f : RelPerm), args.length = relCount k → k.eval args = f →
      (k.defaults.drop args.length = [] ∧ k.check args = .ok ()) →
      ∃ o, k.new args = .ok o ∧ o.cls = k.cls ∧ o.parameters = .ok args ∧ k.at o = f := by
    rintro f hl he ⟨hd, hc⟩
    obtain ⟨o, h1, h2, h3⟩ := cls_new (v := args) (rel_names k) (hl.trans (rel_setter k).symm)
    refine ⟨o, ?_, h2, h3, ?_⟩
    · unfold RelKind.new
      simp only [hd, List.append_nil]
      rw [hc]
      exact h1
    · unfold RelKind.at
      rw [h3]
      exact he
  have bad : ∀ e, k.defaults.drop args.length = [] → k.check args = .error e → k.new args = .error e := by
    intro e hd hc
    unfold RelKind.new
    simp only [hd, List.append_nil]
    rw [hc]
    rfl
  have hnil : k.defaults.drop args.length = [] := by
    cases h <;> simp [RelKind.defaults]
  cases h with
  | linear a b c d =>
    unfold krLinear
    by_cases h1 : a ≥ c
    · rw [if_pos h1]
      exact ⟨fun e he => bad e hnil (by cases he; exact if_pos h1), fun f hf => nomatch hf⟩
    · rw [if_neg h1]
      by_cases h2 : b ≥ d
      · rw [if_pos h2]
        exact ⟨fun e he => bad e hnil (by cases he; exact (if_neg h1).trans (if_pos h2)), fun f hf => nomatch hf⟩
      · rw [if_neg h2]
        exact ⟨(fun e he => nomatch he), fun f hf => key f rfl (by cases hf; rfl)
          ⟨hnil, (if_neg h1).trans (if_neg h2)⟩⟩
  | pickens a =>
    exact ⟨(fun e he => nomatch he), fun f hf => key f rfl (by cases hf; rfl) ⟨hnil, rfl⟩⟩
  | corey a b =>
    unfold krCorey
    by_cases h1 : a + b ≥ 1
    · rw [if_pos h1]
      exact ⟨fun e he => bad e hnil (by cases he; exact if_pos h1), fun f hf => nomatch hf⟩
    · rw [if_neg h1]
      exact ⟨(fun e he => nomatch he), fun f hf => key f rfl (by cases hf; rfl) ⟨hnil, if_neg h1⟩⟩
  | grant a b =>
    unfold krGrant
    by_cases h1 : a + b ≥ 1
    · rw [if_pos h1]
      exact ⟨fun e he => bad e hnil (by cases he; exact if_pos h1), fun f hf => nomatch hf⟩
    · rw [if_neg h1]
      exact ⟨(fun e he => nomatch he), fun f hf => key f rfl (by cases hf; rfl) ⟨hnil, if_neg h1⟩⟩
  | fattKlikoff a =>
    unfold krFattKlikoff
    by_cases h1 : a ≥ 1
    · rw [if_pos h1]
      exact ⟨fun e he => bad e hnil (by cases he; exact if_pos h1), fun f hf => nomatch hf⟩
    · rw [if_neg h1]
      exact ⟨(fun e he => nomatch he), fun f hf => key f rfl (by cases hf; rfl) ⟨hnil, if_neg h1⟩⟩
  | vanGenuchtenMualem a b c d =>
    exact ⟨(fun e he => nomatch he), fun f hf => key f rfl (by cases hf; rfl) ⟨hnil, rfl⟩⟩
  | verma a b c d e =>
    exact ⟨(fun e he => nomatch he), fun f hf => key f rfl (by cases hf; rfl) ⟨hnil, rfl⟩⟩

example : ∃ f, RelMade .corey [0.2, 0.05] (.ok f) := by
  refine ⟨krCoreyAt 0.2 0.05, ?_⟩
  have h : krCorey 0.2 0.05 = .ok (krCoreyAt 0.2 0.05) := if_neg (by norm_num)
  exact h ▸ RelMade.corey _ _

/-- C78, the same for capillary pressure. -/
theorem C78_capillary (k : CapKind) (args : List ℝ) (r : Except PyErr CapPres) (h : CapMade k args r) :
    (∀ e, r = .error e → k.new args = .error e) ∧
    ∀ f, r = .ok f → ∃ o, k.new args = .ok o ∧ o.cls = k.cls ∧ o.parameters = .ok args ∧ k.at o = f := by
  have key : ∀ (f : CapPres), args.length = capCount k → k.eval args = f → k.check args = .ok () →
      ∃ o, k.new args = .ok o ∧ o.cls = k.cls ∧ o.parameters = .ok args ∧ k.at o = f := by
    intro f hl he hc
    obtain ⟨o, h1, h2, h3⟩ := cls_new (v := args) (cap_names k) (hl.trans (cap_setter k).symm)
    refine ⟨o, ?_, h2, h3, ?_⟩
    · unfold CapKind.new
      rw [hc]
      exact h1
    · unfold CapKind.at
      rw [h3]
      exact he
  have bad : ∀ e, k.check args = .error e → k.new args = .error e := by
    intro e hc
    unfold CapKind.new
    rw [hc]
    rfl
  cases h with
  | linear a b c =>
    unfold pcLinear
    by_cases h1 : c ≤ b
    · rw [if_pos h1]
      exact ⟨fun e he => bad e (by cases he; exact if_pos h1), fun f hf => nomatch hf⟩
    · rw [if_neg h1]
      exact ⟨(fun e he => nomatch he), fun f hf => key f rfl (by cases hf; rfl) (if_neg h1)⟩
  | pickens a b c d =>
    unfold pcPickens
    by_cases h1 : ¬ (0 < b ∧ b < 1)
    · rw [if_pos h1]
      exact ⟨fun e he => bad e (by cases he; exact if_pos h1), fun f hf => nomatch hf⟩
    rw [if_neg h1]
    by_cases h2 : c < 1
    · rw [if_pos h2]
      exact ⟨fun e he => bad e (by cases he; exact (if_neg h1).trans (if_pos h2)), fun f hf => nomatch hf⟩
    rw [if_neg h2]
    by_cases h3 : d = 0
    · rw [if_pos h3]
      exact ⟨fun e he => bad e (by cases he; exact (if_neg h1).trans ((if_neg h2).trans (if_pos h3))),
        fun f hf => nomatch hf⟩
    rw [if_neg h3]
    exact ⟨(fun e he => nomatch he), fun f hf => key f rfl (by cases hf; rfl)
      ((if_neg h1).trans ((if_neg h2).trans (if_neg h3)))⟩
  | trust a b c d e =>
    unfold pcTrust
    by_cases h1 : b < 0
    · rw [if_pos h1]
      exact ⟨fun e he => bad e (by cases he; exact if_pos h1), fun f hf => nomatch hf⟩
    rw [if_neg h1]
    by_cases h2 : c = 0
    · rw [if_pos h2]
      exact ⟨fun e he => bad e (by cases he; exact (if_neg h1).trans (if_pos h2)), fun f hf => nomatch hf⟩
    rw [if_neg h2]
    exact ⟨(fun e he => nomatch he), fun f hf => key f rfl (by cases hf; rfl) ((if_neg h1).trans (if_neg h2))⟩
  | milly a =>
    unfold pcMilly
    by_cases h1 : a < 0
    · rw [if_pos h1]
      exact ⟨fun e he => bad e (by cases he; exact if_pos h1), fun f hf => nomatch hf⟩
    · rw [if_neg h1]
      exact ⟨(fun e he => nomatch he), fun f hf => key f rfl (by cases hf; rfl) (if_neg h1)⟩
  | vanGenuchten a b c d e =>
    unfold pcVanGenuchten
    by_cases h1 : d < 0
    · rw [if_pos h1]
      exact ⟨fun e he => bad e (by cases he; exact if_pos h1), fun f hf => nomatch hf⟩
    · rw [if_neg h1]
      exact ⟨(fun e he => nomatch he), fun f hf => key f rfl (by cases hf; rfl) (if_neg h1)⟩

example : ∃ f, CapMade .linear [1e6, 0.2, 0.9] (.ok f) := by
  refine ⟨pcLinearAt 1e6 0.2 0.9, ?_⟩
  have h : pcLinear 1e6 0.2 0.9 = .ok (pcLinearAt 1e6 0.2 0.9) := if_neg (by norm_num)
  exact h ▸ CapMade.linear _ _ _

/-- C78. Another number of arguments is refused; only `Verma` has defaults, those of the
experiments for which the function was made. -/
theorem C78_count : (∀ (k : RelKind) (args : List ℝ), args.length ≠ relCount k → k ≠ .verma →
      k.new args = .error .typeError) ∧
    (∀ (k : CapKind) (args : List ℝ), args.length ≠ capCount k → k.new args = .error .typeError) ∧
    (∀ args : List ℝ, 5 < args.length → RelKind.verma.new args = .error .typeError) ∧
    ∀ args : List ℝ, args.length ≤ 5 → ∃ o, RelKind.verma.new args = .ok o ∧
      o.parameters = .ok (args ++ [0.2, 0.895, 1.259, -1.7615, 0.5089].drop args.length) := by
  refine ⟨?_, ?_, ?_, ?_⟩
  · intro k args hl hk
    have hd : k.defaults = [] := by cases k <;> first | rfl | exact absurd rfl hk
    unfold RelKind.new
    simp only [hd, List.drop_nil, List.append_nil]
    have : k.check args = .error .typeError := by
      cases k <;> first
        | exact absurd rfl hk
        | (unfold RelKind.check; split <;> first | rfl | (rename_i h; cases h) | skip) <;> simp_all [relCount]
    rw [this]
    rfl
  · intro k args hl
    unfold CapKind.new
    have : k.check args = .error .typeError := by
      cases k <;> (unfold CapKind.check; split <;> first | rfl | (rename_i h; cases h) | skip) <;>
        simp_all [capCount]
    rw [this]
    rfl
  · intro args hl
    unfold RelKind.new
    have hd : RelKind.verma.defaults.drop args.length = [] := by
      rw [List.drop_eq_nil_iff]
      exact hl.le
    simp only [hd, List.append_nil]
    have : RelKind.verma.check args = .error .typeError := by
      match args, hl with
      | _ :: _ :: _ :: _ :: _ :: _ :: _, _ => rfl
    rw [this]
    rfl
  · intro args hl
    have hlen : (args ++ RelKind.verma.defaults.drop args.length).length = 5 := by
      rw [List.length_append, List.length_drop]
      show args.length + (5 - args.length) = 5
      omega
    obtain ⟨o, h1, -, h3⟩ := cls_new (rel_names .verma) (v := args ++ RelKind.verma.defaults.drop args.length) hlen
    refine ⟨o, ?_, h3⟩
    unfold RelKind.new
    have : RelKind.verma.check (args ++ RelKind.verma.defaults.drop args.length) = .ok () := by
      generalize args ++ RelKind.verma.defaults.drop args.length = l at hlen
      match l, hlen with
      | [_, _, _, _, _], _ => rfl
    simp only
    rw [this]
    exact h1

example : ([] : List ℝ).length ≤ 5 ∧ ([0.1] : List ℝ).length ≠ relCount .corey := ⟨by simp, by simp [relCount]⟩

/-! ## Parameters -/

/-- C78. Assigning as many values as there are parameters makes them the parameters, and the
object evaluates with them; another number of values is refused, and the object stays as it
is. -/
theorem C78_assign : (∀ (k : RelKind) (o : Obj ℝ) (v : List ℝ), o.cls = k.cls →
      (v.length ≠ relCount k → o.assign v = (.error .valueError, o)) ∧
      (v.length = relCount k → ∃ o', o.assign v = (.ok (), o') ∧ o'.cls = k.cls ∧ o'.parameters = .ok v ∧
        k.at o' = k.eval v)) ∧
    ∀ (k : CapKind) (o : Obj ℝ) (v : List ℝ), o.cls = k.cls →
      (v.length ≠ capCount k → o.assign v = (.error .valueError, o)) ∧
      (v.length = capCount k → ∃ o', o.assign v = (.ok (), o') ∧ o'.cls = k.cls ∧ o'.parameters = .ok v ∧
        k.at o' = k.eval v) := by
  constructor
  · intro k o v hc
    constructor
    · intro hl
      unfold Obj.assign
      rw [if_pos]
      rw [hc, rel_setter]
      exact hl
    · intro hl
      obtain ⟨o', h1, h2, h3⟩ := assign_get (o := o) (v := v) (hc ▸ rel_names k) (by rw [hc, rel_setter]; exact hl)
      refine ⟨o', h1, h2.trans hc, h3, ?_⟩
      unfold RelKind.at
      rw [h3]
      rfl
  · intro k o v hc
    constructor
    · intro hl
      unfold Obj.assign
      rw [if_pos]
      rw [hc, cap_setter]
      exact hl
    · intro hl
      obtain ⟨o', h1, h2, h3⟩ := assign_get (o := o) (v := v) (hc ▸ cap_names k) (by rw [hc, cap_setter]; exact hl)
      refine ⟨o', h1, h2.trans hc, h3, ?_⟩
      unfold CapKind.at
      rw [h3]
      rfl

example : ∃ o : Obj ℝ, o.cls = RelKind.corey.cls ∧ ([0.2, 0.05] : List ℝ).length = relCount .corey :=
  ⟨⟨_, []⟩, rfl, rfl⟩

/-- C78. Assigned values that the constructor would accept give the object the constructor
would make: the same parameters and the same function. -/
theorem C78_reassigned (k : RelKind) (o : Obj ℝ) (v : List ℝ) (f : RelPerm) (hc : o.cls = k.cls)
    (h : RelMade k v (.ok f)) :
    ∃ o' n, o.assign v = (.ok (), o') ∧ k.new v = .ok n ∧ o'.parameters = n.parameters ∧ k.at o' = f ∧ k.at n = f := by
  obtain ⟨n, h1, h2, h3, h4⟩ := (C78_relative k v _ h).2 f rfl
  have hl : v.length = relCount k := by
    clear * - h
    generalize Except.ok f = r at h
    cases h <;> rfl
  obtain ⟨o', g1, g2, g3, g4⟩ := (C78_assign.1 k o v hc).2 hl
  refine ⟨o', n, g1, h1, g3.trans h3.symm, ?_, h4⟩
  rw [g4, ← h4]
  unfold RelKind.at
  rw [h3]
  rfl

example : ∃ f, RelMade .verma [0.2, 0.895, 1.259, -1.7615, 0.5089] (.ok f) := ⟨_, RelMade.verma _ _ _ _ _⟩

/-- C78 is violated for values that the constructor refuses: they can be assigned, and then
the function fails. -/
theorem C78_assign_violated : ∃ (o o' : Obj ℝ) (v : List ℝ), CapKind.trust.new [1, 0.1, 2, 0, 1e6] = .ok o ∧
    CapKind.trust.new v = .error .valueError ∧ o.assign v = (.ok (), o') ∧
    call (CapKind.trust.at o') 0.5 = .error .zeroDivisionError := by
  have hm : pcTrust 1 0.1 2 0 1e6 = .ok (pcTrustAt 1 0.1 2 0 1e6) := by
    unfold pcTrust
    rw [if_neg (by norm_num), if_neg (by norm_num)]
  obtain ⟨o, h1, h2, -⟩ := (C78_capillary .trust [1, 0.1, 2, 0, 1e6] _ (CapMade.trust _ _ _ _ _)).2 _ hm
  obtain ⟨o', g1, -, -, g4⟩ := (C78_assign.2 .trust o [1, 0.1, 0, 0, 1e6] h2).2 rfl
  refine ⟨o, o', [1, 0.1, 0, 0, 1e6], h1, ?_, g1, ?_⟩
  · apply (C78_capillary .trust _ _ (CapMade.trust _ _ _ _ _)).1
    unfold pcTrust
    rw [if_neg (by norm_num), if_pos rfl]
  · rw [g4, call_ok (by constructor <;> norm_num)]
    show pcTrustAt 1 0.1 0 0 1e6 0.5 = _
    unfold pcTrustAt
    rw [if_pos (by norm_num)]
    unfold div
    rw [if_neg (by norm_num), if_pos rfl]
    rfl

/-! ## Number and text -/

/-- C78. Objects have the numbers the functions have in TOUGH, except for Fatt and Klikoff's
function. -/
theorem C78_id_partial : (∀ k, k ≠ RelKind.fattKlikoff → k.cls.id = toughIrp k) ∧ ∀ k : CapKind, k.cls.id = toughIcp k := by
  constructor
  · intro k hk
    cases k <;> first | rfl | exact absurd rfl hk
  · intro k
    cases k <;> rfl

example : RelKind.verma ≠ RelKind.fattKlikoff := by decide

/-- C78 is violated for Fatt and Klikoff's function: it has the number 7, that of the function
of van Genuchten and Mualem, instead of 6. -/
theorem C78_id_violated : RelKind.fattKlikoff.cls.id ≠ toughIrp .fattKlikoff ∧
    RelKind.fattKlikoff.cls.id = RelKind.vanGenuchtenMualem.cls.id := ⟨by decide, rfl⟩

/-- C78. The text of an object: the name and the number of the function in the first line, and
a line for each parameter. -/
theorem C78_text {α : Type} (text : α → Str) (o : Obj α) (v : List α) (hp : o.parameters = .ok v)
    (ht : ∀ x ∈ v, '\n' ∉ text x) :
    (∀ k : RelKind, o.cls = k.cls → ∃ s, relRepr text o = .ok s ∧ splitOn '\n' s =
      (k.cls.name ++ " relative permeability model (IRP = ".toList ++ natStr k.cls.id ++ "):".toList) ::
        v.zipIdx.map fun e => parameterLine "RP" (e.2 + 1) (text e.1)) ∧
    ∀ k : CapKind, o.cls = k.cls → ∃ s, capRepr text o = .ok s ∧ splitOn '\n' s =
      (k.cls.name ++ " capillarity model (ICP = ".toList ++ natStr k.cls.id ++ "):".toList) ::
        v.zipIdx.map fun e => parameterLine "CP" (e.2 + 1) (text e.1) := by
  constructor
  · intro k hk
    have hn : '\n' ∉ o.cls.name := by
      rw [hk]
      cases k <;> decide +kernel
    obtain ⟨s, h1, h2⟩ := repr_lines (what := "relative permeability") (number := "IRP") (letters := "RP") hp hn
      (by decide +kernel) (by decide +kernel) (by decide +kernel) ht
    rw [hk] at h2
    exact ⟨s, h1, h2⟩
  · intro k hk
    have hn : '\n' ∉ o.cls.name := by
      rw [hk]
      cases k <;> decide +kernel
    obtain ⟨s, h1, h2⟩ := repr_lines (what := "capillarity") (number := "ICP") (letters := "CP") hp hn
      (by decide +kernel) (by decide +kernel) (by decide +kernel) ht
    rw [hk] at h2
    exact ⟨s, h1, h2⟩

example : ∃ o : Obj ℕ, o.parameters = .ok [1, 2] ∧ o.cls = RelKind.corey.cls ∧ ∀ x ∈ [1, 2], '\n' ∉ natStr x :=
  ⟨⟨_, [("_slr".toList, 1), ("_sgr".toList, 2)]⟩, rfl, rfl, fun x _ => natStr_notMem x (by decide)⟩

/-- C78. Objects with the same text have the same class and the same texts of parameters. -/
theorem C78_text_unique {α : Type} (text : α → Str) (o o' : Obj α) (v v' : List α) (hp : o.parameters = .ok v)
    (hp' : o'.parameters = .ok v') (ht : ∀ x ∈ v, '\n' ∉ text x) (ht' : ∀ x ∈ v', '\n' ∉ text x) :
    (∀ k k' : RelKind, o.cls = k.cls → o'.cls = k'.cls → relRepr text o = relRepr text o' →
      k = k' ∧ v.map text = v'.map text) ∧
    ∀ k k' : CapKind, o.cls = k.cls → o'.cls = k'.cls → capRepr text o = capRepr text o' →
      k = k' ∧ v.map text = v'.map text := by
  have lines : ∀ letters, (v.zipIdx.map fun e => parameterLine letters (e.2 + 1) (text e.1)) =
      (v'.zipIdx.map fun e => parameterLine letters (e.2 + 1) (text e.1)) → v.map text = v'.map text := by
    intro letters h
    apply List.ext_getElem?
    intro i
    have hi := congrArg (·[i]?) h
    simp only [List.getElem?_map, List.getElem?_zipIdx] at hi ⊢
    cases hx : v[i]? <;> cases hy : v'[i]? <;> rw [hx, hy] at hi <;> simp [parameterLine] at hi ⊢
    exact hi
  constructor
  · intro k k' hk hk' he
    obtain ⟨s, h1, h2⟩ := (C78_text text o v hp ht).1 k hk
    obtain ⟨s', h1', h2'⟩ := (C78_text text o' v' hp' ht').1 k' hk'
    rw [h1, h1'] at he
    cases he
    rw [h2] at h2'
    obtain ⟨ha, hb⟩ := List.cons.inj h2'
    refine ⟨?_, lines _ hb⟩
    revert ha
    clear * -
    cases k <;> cases k' <;> decide +kernel
  · intro k k' hk hk' he
    obtain ⟨s, h1, h2⟩ := (C78_text text o v hp ht).2 k hk
    obtain ⟨s', h1', h2'⟩ := (C78_text text o' v' hp' ht').2 k' hk'
    rw [h1, h1'] at he
    cases he
    rw [h2] at h2'
    obtain ⟨ha, hb⟩ := List.cons.inj h2'
    refine ⟨?_, lines _ hb⟩
    revert ha
    clear * -
    cases k <;> cases k' <;> decide +kernel

example : ∃ o o' : Obj ℕ, o.parameters = .ok [7] ∧ o.cls = CapKind.milly.cls ∧ o'.parameters = .ok [1, 2, 3] ∧
    o'.cls = CapKind.linear.cls :=
  ⟨⟨_, [("_slr".toList, 7)]⟩, ⟨_, [("_smin".toList, 2), ("_smax".toList, 3), ("_pmax".toList, 1)]⟩, rfl, rfl, rfl, rfl⟩

/-! ## Arrays and plots -/

/-- C78. For an array of saturations the relative permeability has two rows, that of the
liquid and that of the gas, with the values for the single saturations. -/
theorem C78_rows (k : RelKind) (o : Obj ℝ) (sl : List ℝ) (kl kg : ℝ → Num) (h0 : sl ≠ [])
    (h : ∀ s ∈ sl, call (k.at o) s = .ok (kl s, kg s)) : k.rows o sl = .ok [sl.map kl, sl.map kg] := by
  have hr : ∀ s ∈ sl, s ∈ Icc (0 : ℝ) 1 := by
    intro s hs
    by_contra hn
    have := h s hs
    rw [call_error hn] at this
    cases this
  unfold RelKind.rows
  rw [C49_array _ _ hr, mapM_ok (g := fun s => (kl s, kg s)) h]
  simp [h0, List.map_map, Function.comp_def, ok_bind]

example : ∃ (o : Obj ℝ) (kl kg : ℝ → Num), [(0 : ℝ), 1 / 2, 1] ≠ [] ∧
    ∀ s ∈ [(0 : ℝ), 1 / 2, 1], call (RelKind.pickens.at o) s = .ok (kl s, kg s) := by
  obtain ⟨f, h1, ⟨kl, kg, h2, -⟩, -⟩ := C49_pickens 2 (by norm_num)
  obtain ⟨o, -, -, -, h4⟩ := (C78_relative .pickens [2] _ (RelMade.pickens 2)).2 f h1
  refine ⟨o, fun s => .re (kl s), fun s => .re (kg s), by simp, fun s hs => ?_⟩
  rw [h4]
  refine h2 s ?_
  simp only [List.mem_cons, List.not_mem_nil, or_false] at hs
  rcases hs with rfl | rfl | rfl <;> norm_num

/-- C78. A plot shows the values at `n` saturations that are evenly spaced from 0 to 1, for
relative permeability those of the liquid and of the gas, with the keywords given or else the
default ones. -/
theorem C78_plot (a : PlotArgs) (n : ℕ) (ax : Bool) (kws : List (Str × Str)) (hn : 1 < n) (h1 : a.n = some (n : ℤ))
    (h2 : a.ax = some ax) (h3 : a.figsize = .seq 2) (h4 : a.kws = some kws) (hk : (kws.map (·.1)).Nodup) :
    ∃ sl kw, (sl.length = n ∧ ∀ (i : ℕ), i < n → sl[i]? = some ((i : ℝ) / ((n : ℝ) - 1))) ∧
      ((∀ e ∈ kws, dictGet kw e.1 = .ok e.2) ∧
        ("linestyle".toList ∉ kws.map (·.1) → dictGet kw "linestyle".toList = .ok "-".toList) ∧
        ("linewidth".toList ∉ kws.map (·.1) → dictGet kw "linewidth".toList = .ok "2".toList)) ∧
      (∀ (k : RelKind) (o : Obj ℝ) (kl kg : ℝ → Num), "label".toList ∉ kws.map (·.1) →
        (∀ s ∈ sl, call (k.at o) s = .ok (kl s, kg s)) →
        k.plot o a = .ok [⟨some "Liquid".toList, sl, sl.map kl, kw⟩, ⟨some "Gas".toList, sl, sl.map kg, kw⟩]) ∧
      ∀ (k : CapKind) (o : Obj ℝ) (p : ℝ → ℝ), (∀ s ∈ sl, call (k.at o) s = .ok (.re (p s))) →
        k.plot o a = .ok [⟨none, sl, sl.map fun s => .re |p s|, kw⟩] := by
  have hc : ∀ e, plotChecks e a = .ok (n, plotKeywords kws) := by
    intro e
    unfold plotChecks
    rw [h1, h2, h3, h4]
    have : (n : ℤ) > 1 := by exact_mod_cast hn
    simp only [this, if_true, ok_bind, ne_eq, not_true_eq_false, if_false, Int.toNat_natCast]
  refine ⟨unitSteps n, plotKeywords kws, ⟨?_, ?_⟩, ⟨(dictGet_updated hk).1, ?_, ?_⟩, ?_, ?_⟩
  · simp [unitSteps]
  · intro i hi
    have : ((n - 1 : ℕ) : ℝ) = (n : ℝ) - 1 := by
      rw [Nat.cast_sub hn.le]
      simp
    simp [unitSteps, hi, this]
  · intro h
    exact ((dictGet_updated hk).2 _ h).trans rfl
  · intro h
    exact ((dictGet_updated hk).2 _ h).trans rfl
  · intro k o kl kg hl h
    unfold RelKind.plot
    rw [hc, ok_bind]
    simp only
    rw [C78_rows k o _ kl kg _ h, ok_bind]
    · simp only
      rw [if_neg]
      intro hm
      obtain ⟨e, he, hx⟩ := List.mem_map.1 hm
      have hkeys : ∀ e ∈ plotKeywords kws, e.1 ∈ kws.map (·.1) ∨ e.1 = "linestyle".toList ∨ e.1 = "linewidth".toList := by
        intro e he
        rcases updateDict_key he with h | h
        · exact .inl h
        · refine .inr ?_
          simp only [List.mem_cons, List.not_mem_nil, or_false] at h
          rcases h with rfl | rfl
          · exact .inl rfl
          · exact .inr rfl
      rcases hkeys e he with h | h | h
      · exact hl (hx ▸ h)
      · rw [hx] at h
        exact absurd h (by decide +kernel)
      · rw [hx] at h
        exact absurd h (by decide +kernel)
    · intro h
      have : (unitSteps n).length = n := by simp [unitSteps]
      rw [h] at this
      simp at this
      omega
  · intro k o p h
    unfold CapKind.plot
    rw [hc, ok_bind]
    simp only
    rw [C49_array _ _ unitSteps_mem, mapM_ok (g := fun s => Num.re (p s)) h, ok_bind, List.map_map]
    rfl

example : 1 < 100 ∧ (⟨some 100, some false, .seq 2, some [("color".toList, "k".toList)]⟩ : PlotArgs).n =
    some ((100 : ℕ) : ℤ) ∧ ([("color".toList, "k".toList)].map (·.1) : List Str).Nodup := ⟨by norm_num, rfl, by decide⟩

/-- C78. Less than two points, sizes that have not two entries, and arguments of a wrong type
are refused. -/
theorem C78_plot_refused (a : PlotArgs) (h : (∀ n, a.n = some n → n ≤ 1) ∨ a.ax = none ∨ a.figsize = .other ∨
      (∃ l, l ≠ 2 ∧ (a.figsize = .seq l ∨ a.figsize = .array l)) ∨ a.kws = none) :
    (∀ (k : RelKind) o, ∃ e, k.plot o a = .error e) ∧ ∀ (k : CapKind) o, ∃ e, k.plot o a = .error e := by
  have hc : ∀ w, ∃ e, plotChecks w a = .error e := by
    intro w
    obtain ⟨an, aax, af, ak⟩ := a
    simp only at h
    rcases an with _ | n
    · exact ⟨_, rfl⟩
    by_cases hn : n > 1
    · unfold plotChecks
      simp only [hn, if_true, ok_bind]
      rcases aax with _ | b
      · exact ⟨_, rfl⟩
      have hsize : ∀ (l : ℕ), l ≠ 2 → ∀ x : Except PyErr (ℕ × List (Str × Str)),
          (if l ≠ 2 then (.error .valueError : Except PyErr (ℕ × List (Str × Str))) else x) = .error .valueError :=
        fun l hl x => if_pos hl
      have hok : ∀ x : Except PyErr (ℕ × List (Str × Str)),
          (if (2 : ℕ) ≠ 2 then (.error .valueError : Except PyErr (ℕ × List (Str × Str))) else x) = x :=
        fun x => if_neg (by simp)
      rcases h with h | h | h | ⟨l, hl, h | h⟩ | h
      · exact absurd (h n rfl) (by omega)
      · cases h
      · subst h
        exact ⟨_, rfl⟩
      · subst h
        exact ⟨_, hsize l hl _⟩
      · subst h
        exact ⟨_, hsize l hl _⟩
      · subst h
        rcases af with _ | l | l | _
        · exact ⟨_, rfl⟩
        · by_cases hl : l = 2
          · subst hl
            exact ⟨.typeError, hok _⟩
          · exact ⟨_, hsize l hl _⟩
        · by_cases hl : l = 2
          · subst hl
            exact ⟨.typeError, hok _⟩
          · exact ⟨_, hsize l hl _⟩
        · exact ⟨_, rfl⟩
    · refine ⟨w, ?_⟩
      unfold plotChecks
      simp only [hn, if_false]
      rfl
  constructor
  · intro k o
    obtain ⟨e, he⟩ := hc .typeError
    refine ⟨e, ?_⟩
    unfold RelKind.plot
    rw [he]
    rfl
  · intro k o
    obtain ⟨e, he⟩ := hc .valueError
    refine ⟨e, ?_⟩
    unfold CapKind.plot
    rw [he]
    rfl

example : ∀ n, (⟨some 1, some false, .seq 2, some []⟩ : PlotArgs).n = some n → n ≤ 1 := by
  rintro n h
  cases h
  exact le_rfl

/-- C78 is violated for a size of `None`, which is documented: it is refused. -/
theorem C78_size_violated (k : RelKind) (o : Obj ℝ) (c : CapKind) :
    k.plot o ⟨some 100, some false, .none, some []⟩ = .error .typeError ∧
    c.plot o ⟨some 100, some false, .none, some []⟩ = .error .typeError := ⟨rfl, rfl⟩

/-- C78 is violated for a size given as an array, which is allowed: without axes it is
refused. -/
theorem C78_array_violated (k : RelKind) (o : Obj ℝ) (c : CapKind) :
    k.plot o ⟨some 100, some false, .array 2, some []⟩ = .error .valueError ∧
    c.plot o ⟨some 100, some false, .array 2, some []⟩ = .error .valueError := ⟨rfl, rfl⟩

/-- C78 is violated for the keyword `label` with relative permeability: it is refused. -/
theorem C78_label_violated (a : PlotArgs) (n : ℕ) (kws : List (Str × Str)) (hn : 1 < n) (h1 : a.n = some (n : ℤ))
    (h2 : a.ax = some false) (h3 : a.figsize = .seq 2) (h4 : a.kws = some kws) (hk : (kws.map (·.1)).Nodup)
    (hl : "label".toList ∈ kws.map (·.1)) (k : RelKind) (o : Obj ℝ) : ∃ e, k.plot o a = .error e := by
  cases hr : k.plot o a with
  | error e => exact ⟨e, rfl⟩
  | ok r =>
    exfalso
    unfold RelKind.plot at hr
    have hc : plotChecks .typeError a = .ok (n, plotKeywords kws) := by
      unfold plotChecks
      rw [h1, h2, h3, h4]
      have : (n : ℤ) > 1 := by exact_mod_cast hn
      simp only [this, if_true, ok_bind, ne_eq, not_true_eq_false, if_false, Int.toNat_natCast]
    rw [hc, ok_bind] at hr
    obtain ⟨rows, -, hr⟩ := bind_eq_ok.1 hr
    split at hr
    · rw [if_pos] at hr
      · cases hr
      · obtain ⟨e, he, hx⟩ := List.mem_map.1 hl
        exact hx ▸ dictGet_key ((dictGet_updated hk).1 e he)
    · cases hr

example : "label".toList ∈ ([("label".toList, "k".toList)] : List (Str × Str)).map (·.1) := by decide

end Verif.Props
