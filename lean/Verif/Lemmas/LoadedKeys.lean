import Verif.Lemmas.TypedFile
import Verif.Lemmas.Opts

/-!
# The keys of the dictionaries that are loaded
-/

namespace Verif.Props
open Verif.Py Verif.Model Verif.Spec

/-- Distinct labels, each a text or missing. -/
def Keyed {β : Type} (d : List (Val × β)) : Prop :=
  (d.map (·.1)).Nodup ∧ ∀ k ∈ d.map (·.1), AsText k

theorem keyed_nil {β : Type} : Keyed ([] : List (Val × β)) := ⟨List.nodup_nil, by simp⟩

theorem nodup_dictSet {κ β : Type} [DecidableEq κ] {d : List (κ × β)} (h : (d.map (·.1)).Nodup) (k : κ) (v : β) :
    ((dictSet d k v).map (·.1)).Nodup := by
  by_cases hk : k ∈ d.map (·.1)
  · rw [dictSet_keys d k v hk]
    exact h
  · rw [dictSet_of_notMem d k v hk, List.map_append]
    refine List.Nodup.append h (List.nodup_singleton k) ?_
    intro a ha hb
    rw [List.map_cons, List.map_nil, List.mem_singleton] at hb
    have hb : a = k := hb
    exact hk (hb ▸ ha)

theorem key_of_dictSet {κ β : Type} [DecidableEq κ] {d : List (κ × β)} {k : κ} {v : β} {e : κ × β}
    (h : e ∈ dictSet d k v) : e.1 = k ∨ e ∈ d := by
  by_cases hk : k ∈ d.map (·.1)
  · have : e.1 ∈ (dictSet d k v).map (·.1) := List.mem_map_of_mem h
    induction d with
    | nil => simp at hk
    | cons a d ih =>
      unfold dictSet at h
      split at h
      · rcases List.mem_cons.1 h with rfl | h
        · exact .inl rfl
        · exact .inr (List.mem_cons_of_mem _ h)
      · rename_i hne
        rcases List.mem_cons.1 h with rfl | h
        · exact .inr (by simp)
        · have hk' : k ∈ d.map (·.1) := by
            rcases List.mem_cons.1 hk with h' | h'
            · exact absurd h'.symm hne
            · exact h'
          rcases ih h hk' (List.mem_map_of_mem h) with h' | h'
          · exact .inl h'
          · exact .inr (List.mem_cons_of_mem _ h')
  · rw [dictSet_of_notMem d k v hk] at h
    rcases List.mem_append.1 h with h | h
    · exact .inr h
    · rw [List.mem_singleton] at h
      rw [h]
      exact .inl rfl

theorem keyed_set {β : Type} {d : List (Val × β)} (h : Keyed d) {k : Val} (hk : AsText k) (v : β) :
    Keyed (dictSet d k v) := by
  refine ⟨nodup_dictSet h.1 k v, fun j hj => ?_⟩
  obtain ⟨e, he, rfl⟩ := List.mem_map.1 hj
  rcases key_of_dictSet he with h' | h'
  · rw [h']
    exact hk
  · exact h.2 _ (List.mem_map_of_mem h')

theorem mem_of_dictGet {κ β : Type} [DecidableEq κ] {d : List (κ × β)} {k : κ} :
    Gives (fun _ => k ∈ d.map (·.1)) (dictGet d k) := by
  intro b hb
  by_contra hk
  have h0 : d.lookup k = none := by
    refine List.lookup_eq_none_iff.2 fun e he => ?_
    have hne : k ≠ e.1 := fun h => hk (h ▸ List.mem_map_of_mem he)
    simpa using hne
  unfold dictGet at hb
  rw [h0] at hb
  cases hb

theorem keyed_again {β : Type} {d : List (Val × β)} (h : Keyed d) {k : Val} (hk : k ∈ d.map (·.1)) (v : β) :
    Keyed (dictSet d k v) := keyed_set h (h.2 k hk) v

theorem keyed_map {β γ : Type} {d : List (Val × β)} (h : Keyed d) (f : β → γ) :
    Keyed (d.map fun e => (e.1, f e.2)) := by
  have e : (d.map fun e => (e.1, f e.2)).map (·.1) = d.map (·.1) := by simp
  unfold Keyed
  rw [e]
  exact h

theorem updateRows_keyed {β υ : Type} (f : β → υ → β) (us : List (Val × υ)) (d : List (Val × β)) (hd : Keyed d) :
    Gives Keyed (updateRows f d us) := by
  induction us generalizing d with
  | nil => exact gives_ok hd
  | cons u us ih =>
    obtain ⟨k, u⟩ := u
    exact gives_bind mem_of_dictGet fun b hb => ih _ (keyed_again hd hb _)

theorem setCenters_keyed (cs : List (Val × List Val)) (d : List (Val × Elem)) (hd : Keyed d) :
    Gives Keyed (setCenters d cs) := by
  induction cs generalizing d with
  | nil => exact gives_ok hd
  | cons u us ih =>
    obtain ⟨k, u⟩ := u
    unfold setCenters
    exact gives_bind mem_of_dictGet fun b hb => ih _ (keyed_again hd hb _)

theorem rocks_keyed (ls : List Str) : Gives (fun x => Keyed x.1.1) (readRocks ls) := by
  unfold readRocks
  refine gives_while (P := fun s : RocksState => Keyed s.1) ?_ _ _ keyed_nil
  intro s ls hs
  unfold rockStep
  refine gives_bind (gives_any _) fun x _ => ?_
  obtain ⟨line, ls⟩ := x
  dsimp only
  split
  · exact gives_ok hs
  refine gives_bind (record_cols _ _) fun d hd => ?_
  have hk : AsText (entry d 0) := cols_text hd 0 rfl
  refine gives_if (fun _ => ?_) fun _ => ?_
  · refine gives_bind (gives_any _) fun y _ => gives_bind (gives_any _) fun d' _ =>
      gives_bind (gives_any _) fun z _ => ?_
    refine gives_if (fun _ => ?_) fun _ => ?_
    · exact gives_bind (gives_any _) fun y _ => gives_bind (gives_any _) fun z _ => gives_ok (keyed_set hs hk _)
    · exact gives_bind (gives_any _) fun z _ => gives_ok (keyed_set hs hk _)
  · refine gives_bind (gives_any _) fun z _ => ?_
    refine gives_if (fun _ => ?_) fun _ => ?_
    · exact gives_bind (gives_any _) fun y _ => gives_bind (gives_any _) fun z _ => gives_ok (keyed_set hs hk _)
    · exact gives_bind (gives_any _) fun z _ => gives_ok (keyed_set hs hk _)

theorem gener_keyed (given : Option ℕ) (ls : List Str) : Gives (fun x => Keyed x.1) (readGener given ls) := by
  unfold readGener
  refine gives_bind (gives_any _) fun x _ => gives_bind
    (gives_while (P := fun s : List (Val × GenAcc) => Keyed s) ?_ _ _ keyed_nil)
    fun y hy => gives_ok (keyed_map hy _)
  intro s ls hs
  unfold generStep
  refine gives_bind (gives_any _) fun z _ => ?_
  dsimp only
  split
  · exact gives_ok hs
  refine gives_bind (format_kinds gener_kinds _) fun f hf => gives_bind (record_cols _ _) fun d hd =>
    gives_bind (gives_any _) fun _ _ => gives_bind (P := Keyed) ?_ fun s' hs' => gives_ok hs'
  have hk : AsText (entry d 0) := cols_text hd 0 (by rw [hf]; rfl)
  unfold addGen
  split
  · exact gives_bind (gives_any _) fun _ _ => gives_ok (keyed_set hs hk _)
  · exact gives_ok (keyed_set hs hk _)

theorem eleme_keyed (given : Option ℕ) (ls : List Str) : Gives (fun x => Keyed x.1.1) (readEleme given ls) := by
  unfold readEleme
  refine gives_bind (gives_any _) fun x _ =>
    gives_while (P := fun s : Table Elem => Keyed s.1) ?_ _ _ keyed_nil
  intro s ls hs
  unfold elemeStep
  refine gives_bind (gives_any _) fun z _ => ?_
  dsimp only
  split
  · exact gives_ok hs
  exact gives_bind (format_kinds eleme_kinds _) fun f hf => gives_bind (record_cols _ _)
    fun d hd => gives_bind (gives_any _) fun e _ =>
      gives_ok (keyed_set hs (cols_text hd 0 (by rw [hf]; rfl)) _)

theorem conne_keyed (given : Option ℕ) (ls : List Str) : Gives (fun x => Keyed x.1.1) (readConne given ls) := by
  unfold readConne
  refine gives_bind (gives_any _) fun x _ =>
    gives_while (P := fun s : Table Conn => Keyed s.1) ?_ _ _ keyed_nil
  intro s ls hs
  unfold conneStep
  refine gives_bind (gives_any _) fun z _ => ?_
  dsimp only
  split
  · exact gives_ok hs
  exact gives_bind (format_kinds conne_kinds _) fun f hf => gives_bind (record_cols _ _)
    fun d hd => gives_ok (keyed_set hs (cols_text hd 0 (by rw [hf]; rfl)) _)

theorem incon_keyed (given : Option ℕ) (ls : List Str) : Gives (fun x => Keyed x.1.1) (readIncon given ls) := by
  unfold readIncon
  refine gives_bind (gives_any _) fun x _ => gives_bind
    (gives_while (P := fun s : InconState => Keyed s.1.1) ?_ _ _ keyed_nil) fun y hy => gives_ok hy
  intro s ls hs
  unfold inconStep
  refine gives_bind (gives_any _) fun z _ => ?_
  dsimp only
  split
  · exact gives_ok hs
  exact gives_bind (format_kinds incon_kinds _) fun f hf => gives_bind (record_cols _ _)
    fun d hd => gives_bind (gives_any _) fun _ _ => gives_bind (gives_any _) fun _ _ =>
    gives_bind (gives_any _) fun _ _ => gives_ok (keyed_set hs (cols_text hd 0 (by rw [hf]; rfl)) _)

/-! ## Numbered options -/

theorem zipIdx_keys {α β : Type} (l : List α) (f : α × ℕ → β) :
    ((l.zipIdx.map fun p => ((p.2 : ℤ) + 1, f p)).map (·.1)).Nodup := by
  have e : (l.zipIdx.map fun p => ((p.2 : ℤ) + 1, f p)).map (·.1) =
      (l.zipIdx.map (·.2)).map fun i : ℕ => (i : ℤ) + 1 := by
    rw [List.map_map, List.map_map]
    rfl
  rw [e]
  refine List.Nodup.map (fun a b h => by simpa using h) ?_
  rw [List.zipIdx_map_snd]
  exact List.nodup_range' ..

theorem digits_nodup (v : Val) : Gives (fun d => (d.map (·.1)).Nodup) (readDigits v) := by
  unfold readDigits
  split
  · rename_i s
    refine gives_ok ?_
    refine List.Nodup.sublist ?_ (zipIdx_keys s fun p => Val.int (digitVal p.1))
    exact (List.filter_sublist.map _).map _
  · exact gives_error

theorem param_nodup (ls : List Str) : Gives (fun x => (x.1.extra.map (·.1)).Nodup) (readParam ls) := by
  unfold readParam
  exact gives_bind (gives_any _) fun _ _ => gives_bind (gives_any _) fun _ _ =>
    gives_bind (digits_nodup _) fun x hx => gives_bind (gives_any _) fun _ _ =>
    gives_bind (gives_any _) fun _ _ => gives_bind (gives_any _) fun _ _ =>
    gives_bind (gives_any _) fun _ _ => gives_bind (gives_any _) fun _ _ =>
    gives_bind (gives_any _) fun _ _ => gives_bind (gives_any _) fun _ _ =>
      gives_ok (hx.sublist (List.filter_sublist.map _))

theorem momop_nodup (ls : List Str) : Gives (fun x => (x.1.map (·.1)).Nodup) (readMomop ls) := by
  unfold readMomop
  exact gives_bind (gives_any _) fun _ _ => gives_bind (gives_any _) fun _ _ =>
    gives_bind (digits_nodup _) fun x hx => gives_ok hx

theorem multi_read (ls : List Str) :
    Gives (fun x => IntRead x.1.nComponent ∧ IntRead x.1.nPhase) (readMulti ls) := by
  unfold readMulti
  exact gives_bind (gives_any _) fun _ _ => gives_bind (record_cols _ _) fun d hd =>
    gives_ok ⟨cols_entry hd 0 (k := .d) rfl, cols_entry hd 2 (k := .d) rfl⟩

theorem selec_nodup (ls : List Str) : Gives (fun x => (x.1.integers.map (·.1)).Nodup) (readSelec ls) := by
  unfold readSelec
  refine gives_bind (gives_any _) fun _ _ => gives_bind (gives_any _) fun d _ => ?_
  dsimp only
  refine gives_bind (gives_any _) fun x _ => ?_
  have h : ((pruneDict (d.zipIdx.map fun p => ((p.2 : ℤ) + 1, p.1))).map (·.1)).Nodup := by
    refine List.Nodup.sublist ?_ (zipIdx_keys d fun p => p.1)
    unfold pruneDict
    exact List.filter_sublist.map _
  refine gives_if (fun _ => gives_error) fun _ => gives_if (fun _ => ?_) fun _ =>
    gives_if (fun _ => gives_ok h) fun _ => gives_ok h
  split
  · exact gives_ok h
  · exact gives_error

theorem outpuVars_nodup (n : ℕ) (s : List (Str × List (List Val))) (ls : List Str) (hs : (s.map (·.1)).Nodup) :
    Gives (fun x => (x.1.map (·.1)).Nodup) (outpuVars n s ls) := by
  induction n generalizing s ls with
  | zero => exact gives_ok hs
  | succ n ih =>
    unfold outpuVars
    refine gives_bind (P := fun x => (x.1.map (·.1)).Nodup) ?_ fun x hx => ih _ _ hx
    unfold outpuVar
    refine gives_bind (gives_any _) fun _ _ => gives_bind (gives_any _) fun d _ => ?_
    split
    · exact gives_ok (nodup_dictSet hs _ _)
    · exact gives_error

theorem outpu_nodup (ls : List Str) :
    Gives (fun x => ∀ v ∈ x.1.vars, (v.map (·.1)).Nodup) (readOutpu ls) := by
  unfold readOutpu
  refine gives_bind (gives_any _) fun x _ => ?_
  refine gives_if (fun _ => ?_) fun _ => gives_ok (by simp)
  refine gives_bind (outpuVars_nodup _ _ _ List.nodup_nil) fun y hy => gives_ok (some_all ?_)
  simpa [Function.comp_def] using hy

/-! ## The file -/

/-- The keys of what is read. -/
structure ReadKeyed (r : FileRead) : Prop where
  rocks : ∀ x ∈ r.rocks, Keyed x.1
  options : ∀ o ∈ r.options, (o.2.map (·.1)).Nodup
  moreOptions : ∀ d ∈ r.moreOptions, (d.map (·.1)).Nodup
  selections : ∀ s ∈ r.selections, (s.integers.map (·.1)).Nodup
  generators : ∀ g ∈ r.generators, Keyed g
  output : ∀ o ∈ r.output, ∀ v ∈ o.vars, (v.map (·.1)).Nodup
  elements : ∀ x ∈ r.elements, Keyed x.1
  connections : ∀ x ∈ r.connections, Keyed x.1
  initialConditions : ∀ x ∈ r.initialConditions, Keyed x.1
  multi : ∀ m ∈ r.multi, IntRead m.nComponent ∧ IntRead m.nPhase

theorem gives_stored {Q : FileRead → Prop} {α : Type} {P : α → Prop} {m : Except PyErr (α × List Str)}
    {f : α → FileRead} (h : Gives (fun x => P x.1) m) (hf : ∀ x, P x → Q (f x)) :
    Gives (fun x => Q x.1) (store m f) :=
  gives_bind h fun x hx => gives_ok (hf x.1 hx)

theorem gives_stored' {Q : FileRead → Prop} {α : Type} {m : Except PyErr (α × List Str)}
    {f : α → FileRead} (hf : ∀ x, Q (f x)) : Gives (fun x => Q x.1) (store m f) :=
  gives_bind (gives_any _) fun x _ => gives_ok (hf x.1)

theorem dispatch_keyed (given : Option ℕ) (s : FileRead) (line : Str) (ls : List Str)
    (h : ReadKeyed s) : Gives (fun x => ReadKeyed x.1) (dispatch given s line ls) := by
  unfold dispatch
  dsimp only
  refine gives_if (fun _ => gives_stored (P := fun x : RocksState => Keyed x.1) (rocks_keyed _) fun x hx =>
    { h with rocks := some_all hx }) fun _ => ?_
  refine gives_if (fun _ => ?_) fun _ => ?_
  · unfold caseRpcap
    exact gives_bind (gives_any _) fun x _ => gives_ok { h with }
  refine gives_if (fun _ => ?_) fun _ => ?_
  · unfold caseFlac
    exact gives_bind (gives_getKey h.rocks) fun x hx => gives_bind (gives_any _) fun y _ =>
      gives_bind (updateRows_keyed _ _ _ hx) fun z hz => gives_ok { h with rocks := some_all hz }
  refine gives_if (fun _ => gives_stored (P := fun x : MultiRead => IntRead x.nComponent ∧ IntRead x.nPhase)
    (multi_read _) fun x hx => { h with multi := some_all hx }) fun _ => ?_
  refine gives_if (fun _ => gives_stored' fun x => { h with }) fun _ => ?_
  refine gives_if (fun _ => gives_ok { h with }) fun _ => ?_
  refine gives_if (fun _ => ?_) fun _ => ?_
  · unfold caseParam
    exact gives_bind (param_nodup _) fun x hx => gives_ok { h with options := some_all hx }
  refine gives_if (fun _ => gives_stored (P := fun x : SelecRead => (x.integers.map (·.1)).Nodup)
    (selec_nodup _) fun x hx => { h with selections := some_all hx }) fun _ => ?_
  refine gives_if (fun _ => ?_) fun _ => ?_
  · unfold caseIndom
    refine gives_bind (gives_any _) fun x _ => gives_bind
      (P := fun o : Option (List (Val × Rock) × List Val) => ∀ x ∈ o, Keyed x.1) ?_ fun y hy =>
      gives_ok { h with rocks := hy }
    unfold indomUpdate
    cases x.1 with
    | nil => exact gives_ok h.rocks
    | cons a l =>
      exact gives_bind (gives_getKey h.rocks) fun z hz => gives_bind
        (updateRows_keyed _ _ _ hz) fun w hw => gives_ok (some_all hw)
  refine gives_if (fun _ => gives_stored (momop_nodup _) fun x hx =>
    { h with moreOptions := some_all hx }) fun _ => ?_
  refine gives_if (fun _ => gives_stored' fun x => { h with }) fun _ => ?_
  refine gives_if (fun _ => gives_stored' fun x => { h with }) fun _ => ?_
  refine gives_if (fun _ => gives_stored' fun x => { h with }) fun _ => ?_
  refine gives_if (fun _ => gives_stored' fun x => { h with }) fun _ => ?_
  refine gives_if (fun _ => gives_stored (gener_keyed _ _) fun x hx =>
    { h with generators := some_all hx }) fun _ => ?_
  refine gives_if (fun _ => gives_stored' fun x => { h with }) fun _ => ?_
  refine gives_if (fun _ => gives_stored (P := fun x : OutpuRead => ∀ v ∈ x.vars, (v.map (·.1)).Nodup)
    (outpu_nodup _) fun x hx => { h with output := some_all hx }) fun _ => ?_
  refine gives_if (fun _ => gives_stored (P := fun x : Table Elem => Keyed x.1)
    (eleme_keyed _ _) fun x hx => { h with elements := some_all hx }) fun _ => ?_
  refine gives_if (fun _ => ?_) fun _ => ?_
  · unfold caseCoord
    exact gives_bind (gives_any _) fun x _ => gives_bind (gives_getKey h.elements) fun y hy =>
      gives_bind (setCenters_keyed _ _ hy) fun z hz => gives_ok { h with elements := some_all hz }
  refine gives_if (fun _ => gives_stored (P := fun x : Table Conn => Keyed x.1)
    (conne_keyed _ _) fun x hx => { h with connections := some_all hx }) fun _ => ?_
  refine gives_if (fun _ => gives_stored (P := fun x : Table Incon => Keyed x.1)
    (incon_keyed _ _) fun x hx => { h with initialConditions := some_all hx }) fun _ => ?_
  exact gives_if (fun _ => gives_ok { h with }) fun _ => gives_ok h

theorem readFile_keyed (given : Option ℕ) (ls : List Str) : Gives ReadKeyed (readFile given ls) := by
  unfold readFile
  refine gives_if (fun _ => ?_) fun _ => gives_error
  unfold readBuffer
  refine gives_bind (gives_any _) fun t _ => gives_bind
    (gives_while (P := ReadKeyed) ?_ _ _ ?_) fun x hx => gives_ok hx
  · intro s ls hs
    cases ls with
    | nil => exact gives_ok hs
    | cons line ls =>
      exact gives_if (fun _ => gives_ok hs) fun _ =>
        gives_bind (dispatch_keyed _ _ _ _ hs) fun x hx => gives_ok hx
  · constructor <;> (intro x hx; cases hx)

end Verif.Props
