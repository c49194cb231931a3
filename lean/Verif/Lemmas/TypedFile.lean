import Verif.Lemmas.TypedRead

/-!
# What is loaded has the right types
-/

namespace Verif.Props
open Verif.Py Verif.Model Verif.Spec

/-- The types of what is read. The creep of the FLAC options is an integer, where
the writer asks for a boolean. -/
structure ReadTyped (r : FileRead) : Prop where
  rocks : ∀ x ∈ r.rocks, ∀ e ∈ x.1, RockRead e.2
  dflt : ∀ d ∈ r.dflt, (∀ m ∈ d.relPerm, AsInt m.id) ∧ ∀ m ∈ d.cap, AsInt m.id
  flac : ∀ f ∈ r.flac, FlacRead f
  solver : ∀ s ∈ r.solver, SolverTyped s.again
  options : ∀ o ∈ r.options, OptionsTyped o.1 ∧ ∀ e ∈ o.2, AsInt e.2
  moreOptions : ∀ d ∈ r.moreOptions, ∀ e ∈ d, AsInt e.2
  times : ∀ t ∈ r.times, AsNums t
  generators : ∀ g ∈ r.generators, ∀ e ∈ g, GenOutTyped e.2
  elements : ∀ x ∈ r.elements, ∀ e ∈ x.1, ElemTyped e.2
  connections : ∀ x ∈ r.connections, ∀ e ∈ x.1, ConnTyped e.2
  initialConditions : ∀ x ∈ r.initialConditions, ∀ e ∈ x.1, AsNum e.2.porosity

theorem some_all {α : Type} {P : α → Prop} {x : α} (h : P x) : ∀ y ∈ some x, P y := by
  intro y hy
  cases hy
  exact h

theorem empty_typed (t : Option Title) : ReadTyped { FileRead.empty with title := t } := by
  constructor <;> (intro x hx; cases hx)

theorem updateRows_typed {β υ : Type} {P : β → Prop} {Q : υ → Prop} {f : β → υ → β}
    (hf : ∀ b u, P b → Q u → P (f b u)) (us : List (Val × υ)) (hu : ∀ e ∈ us, Q e.2)
    (d : List (Val × β)) (hd : ∀ e ∈ d, P e.2) :
    Gives (fun d => ∀ e ∈ d, P e.2) (updateRows f d us) := by
  induction us generalizing d with
  | nil => exact gives_ok hd
  | cons u us ih =>
    obtain ⟨k, u⟩ := u
    simp only [List.forall_mem_cons] at hu
    exact gives_bind (mem_dictGet hd) fun b hb =>
      ih hu.2 _ (mem_dictSet hd (hf _ _ hb hu.1))

theorem gives_getKey {α : Type} {P : α → Prop} {x : Option α} (h : ∀ y ∈ x, P y) :
    Gives P (getKey x) := by
  cases x with
  | none => exact gives_error
  | some a => exact gives_ok (h a rfl)

theorem gives_store {α : Type} {P : α → Prop} {m : Except PyErr (α × List Str)}
    {f : α → FileRead} (h : Gives (fun x => P x.1) m) (hf : ∀ x, P x → ReadTyped (f x)) :
    Gives (fun x => ReadTyped x.1) (store m f) :=
  gives_bind h fun x hx => gives_ok (hf x.1 hx)

theorem gives_store' {α : Type} {m : Except PyErr (α × List Str)}
    {f : α → FileRead} (hf : ∀ x, ReadTyped (f x)) :
    Gives (fun x => ReadTyped x.1) (store m f) :=
  gives_bind (gives_any _) fun x _ => gives_ok (hf x.1)

theorem or_typed {a b : Option Mod} (ha : ∀ m ∈ a, AsInt m.id) (hb : ∀ m ∈ b, AsInt m.id) :
    ∀ m ∈ a.or b, AsInt m.id := by
  cases a with
  | none => exact hb
  | some x => exact ha

theorem dispatch_typed (given : Option ℕ) (s : FileRead) (line : Str) (ls : List Str)
    (h : ReadTyped s) : Gives (fun x => ReadTyped x.1) (dispatch given s line ls) := by
  have hdf : (∀ m ∈ (s.dflt.getD ⟨none, none, none⟩).relPerm, AsInt m.id) ∧
      ∀ m ∈ (s.dflt.getD ⟨none, none, none⟩).cap, AsInt m.id := by
    cases hd : s.dflt with
    | none => exact ⟨by simp, by simp⟩
    | some d => exact h.dflt d hd
  unfold dispatch
  dsimp only
  refine gives_if (fun _ => gives_store (rocks_typed _) fun x hx =>
    { h with rocks := some_all hx }) fun _ => ?_
  refine gives_if (fun _ => ?_) fun _ => ?_
  · unfold caseRpcap
    refine gives_bind (rpcap_typed _) fun x hx => gives_ok { h with dflt := some_all ?_ }
    exact ⟨or_typed hx.1 hdf.1, or_typed hx.2 hdf.2⟩
  refine gives_if (fun _ => ?_) fun _ => ?_
  · unfold caseFlac
    refine gives_bind (gives_getKey h.rocks) fun x hx => gives_bind (flac_typed _ _) fun y hy =>
      gives_bind (updateRows_typed (P := RockRead)
        (Q := fun m : Mod × Mod => AsInt m.1.id ∧ AsInt m.2.id) ?_ _ hy.2 _ hx) fun z hz =>
      gives_ok { h with flac := some_all hy.1, rocks := some_all hz }
    rintro r m ⟨h1, -⟩ ⟨q1, q2⟩
    exact ⟨h1, some_all q1, some_all q2⟩
  refine gives_if (fun _ => gives_store' fun x => { h with }) fun _ => ?_
  refine gives_if (fun _ => gives_store (solvr_typed _) fun x hx =>
    { h with solver := some_all hx }) fun _ => ?_
  refine gives_if (fun _ => gives_ok { h with }) fun _ => ?_
  refine gives_if (fun _ => ?_) fun _ => ?_
  · unfold caseParam
    exact gives_bind (param_typed _) fun x hx => gives_ok
      { h with options := some_all hx, dflt := some_all hdf }
  refine gives_if (fun _ => gives_store' fun x => { h with }) fun _ => ?_
  refine gives_if (fun _ => ?_) fun _ => ?_
  · unfold caseIndom
    refine gives_bind (gives_any _) fun x _ => gives_bind
      (P := fun o => ∀ x ∈ o, ∀ e ∈ x.1, RockRead e.2) ?_ fun y hy =>
      gives_ok { h with rocks := hy }
    unfold indomUpdate
    cases x.1 with
    | nil => exact gives_ok h.rocks
    | cons a l =>
      refine gives_bind (gives_getKey h.rocks) fun z hz => gives_bind
        (updateRows_typed (P := RockRead) (Q := fun _ => True) ?_ _ (by simp) _ hz) fun w hw =>
        gives_ok (some_all hw)
      rintro r m h1 -
      exact h1
  refine gives_if (fun _ => gives_store (momop_typed _) fun x hx =>
    { h with moreOptions := some_all hx }) fun _ => ?_
  refine gives_if (fun _ => gives_store (times_typed _) fun x hx =>
    { h with times := some_all hx }) fun _ => ?_
  refine gives_if (fun _ => gives_store' fun x => { h with }) fun _ => ?_
  refine gives_if (fun _ => gives_store' fun x => { h with }) fun _ => ?_
  refine gives_if (fun _ => gives_store' fun x => { h with }) fun _ => ?_
  refine gives_if (fun _ => gives_store (gener_typed _ _) fun x hx =>
    { h with generators := some_all hx }) fun _ => ?_
  refine gives_if (fun _ => gives_store' fun x => { h with }) fun _ => ?_
  refine gives_if (fun _ => gives_store' fun x => { h with }) fun _ => ?_
  refine gives_if (fun _ => gives_store (P := fun x : Table Elem => ∀ e ∈ x.1, ElemTyped e.2)
    (eleme_typed _ _) fun x hx => { h with elements := some_all hx }) fun _ => ?_
  refine gives_if (fun _ => ?_) fun _ => ?_
  · unfold caseCoord
    exact gives_bind (gives_any _) fun x _ => gives_bind (gives_getKey h.elements) fun y hy =>
      gives_bind (centers_typed _ _ hy) fun z hz => gives_ok { h with elements := some_all hz }
  refine gives_if (fun _ => gives_store (P := fun x : Table Conn => ∀ e ∈ x.1, ConnTyped e.2)
    (conne_typed _ _) fun x hx => { h with connections := some_all hx }) fun _ => ?_
  refine gives_if (fun _ => gives_store
    (P := fun x : Table Incon => ∀ e ∈ x.1, AsNum e.2.porosity)
    (incon_typed _ _) fun x hx => { h with initialConditions := some_all hx }) fun _ => ?_
  refine gives_if (fun _ => gives_ok { h with }) fun _ => gives_ok h

theorem readFile_typed (given : Option ℕ) (ls : List Str) : Gives ReadTyped (readFile given ls) := by
  unfold readFile
  refine gives_if (fun _ => ?_) fun _ => gives_error
  unfold readBuffer
  refine gives_bind (gives_any _) fun t _ => gives_bind
    (gives_while (P := ReadTyped) ?_ _ _ (empty_typed t)) fun x hx => gives_ok hx
  intro s ls hs
  cases ls with
  | nil => exact gives_ok hs
  | cons line ls =>
    refine gives_if (fun _ => gives_ok hs) fun _ =>
      gives_bind (dispatch_typed _ _ _ _ hs) fun x hx => gives_ok hx

theorem keyed_or (v : Val) : (keyed v).getD .none = v := by
  unfold keyed
  split
  · rename_i h
    rw [h]
    rfl
  · rfl

theorem merge_raw (d : DefaultRead) (r : Rock) : mergeRock d.raw r.raw = r := by
  have hp : ((r.raw.permeability).or none).getD (.one .none) = r.permeability := by
    unfold Rock.raw
    dsimp only
    split
    · rename_i h
      rw [h]
      rfl
    · rfl
  unfold mergeRock
  simp only [DefaultRead.raw]
  rw [hp]
  simp only [Rock.raw, Option.or_none, keyed_or]

theorem params_typed {r : FileRead} (h : ReadTyped r) : TypedBut r.params := by
  obtain ⟨d, hd, hdt⟩ : ∃ d : DefaultRead, r.params.dflt = d.raw ∧
      (∀ m ∈ d.relPerm, AsInt m.id) ∧ ∀ m ∈ d.cap, AsInt m.id := by
    cases hr : r.dflt with
    | none => exact ⟨⟨none, none, none⟩, by simp [FileRead.params, hr], by simp, by simp⟩
    | some d => exact ⟨d, by simp [FileRead.params, hr], h.dflt d hr⟩
  refine ⟨?_, ?_, ?_, ?_, ?_, ?_, ?_, h.times, ?_, ?_, ?_⟩
  · rw [hd]
    refine ⟨?_, trivial, hdt.1, hdt.2⟩
    simp only [mergeRock, DefaultRead.raw, List.forall_mem_cons, List.not_mem_nil, false_imp_iff,
      implies_true, and_true]
    exact ⟨trivial, trivial, trivial, trivial, trivial, trivial, trivial, trivial, trivial,
      trivial, trivial⟩
  · rw [hd]
    simp only [FileRead.params]
    cases hr : r.rocks with
    | none => simp
    | some x =>
      intro e he
      simp only [Option.map_some, Option.getD_some, List.mem_map] at he
      obtain ⟨e, he, rfl⟩ := he
      rw [merge_raw]
      exact (h.rocks x hr e he).1
  · intro s hs
    obtain ⟨x, hx, rfl⟩ := Option.map_eq_some_iff.1 hs
    exact h.solver x hx
  · simp only [FileRead.params]
    cases ho : r.options with
    | none => exact (show OptionsTyped Options.empty by decide)
    | some o => exact (h.options o ho).1
  · simp only [FileRead.params]
    cases ho : r.options with
    | none => simp
    | some o => exact fun e he _ _ => (h.options o ho).2 e he
  · simp only [FileRead.params]
    cases ho : r.moreOptions with
    | none => simp
    | some o => exact fun e he _ _ => h.moreOptions o ho e he
  · simp only [FileRead.params]
    cases ho : r.generators with
    | none => simp
    | some o =>
      intro e he
      obtain ⟨x, hx, rfl⟩ := List.mem_map.1 he
      exact gen_typed (h.generators o ho x hx)
  · simp only [FileRead.params]
    cases ho : r.elements with
    | none => simp
    | some o => exact h.elements o ho
  · simp only [FileRead.params]
    cases ho : r.connections with
    | none => simp
    | some o => exact h.connections o ho
  · simp only [FileRead.params]
    cases ho : r.initialConditions with
    | none => simp
    | some o =>
      intro e he
      obtain ⟨x, hx, rfl⟩ := List.mem_map.1 he
      exact h.initialConditions o ho x hx

theorem params_typed_flac {r : FileRead} (h : ReadTyped r) (hc : ∀ f ∈ r.flac, f.creep = .none) :
    Typed r.params := by
  refine ⟨params_typed h, fun f hf => ⟨⟨by rw [hc f hf]; trivial, (h.flac f hf).2⟩, ?_, ?_⟩⟩
  · simp only [FileRead.params]
    cases r.dflt <;> exact ⟨by simp [mergeRock, DefaultRead.raw], by simp [mergeRock, DefaultRead.raw]⟩
  · intro e he
    obtain ⟨d, hd⟩ : ∃ d : DefaultRead, r.params.dflt = d.raw := by
      cases hr : r.dflt with
      | none => exact ⟨⟨none, none, none⟩, by simp [FileRead.params, hr]⟩
      | some d => exact ⟨d, by simp [FileRead.params, hr]⟩
    rw [hd]
    simp only [FileRead.params] at he
    cases hr : r.rocks with
    | none => simp [hr] at he
    | some x =>
      simp only [hr, Option.map_some, Option.getD_some, List.mem_map] at he
      obtain ⟨e, he, rfl⟩ := he
      rw [merge_raw]
      exact (h.rocks x hr e he).2

end Verif.Props
