import Verif.Lemmas.Typed

/-!
# What is read has the right types
-/

namespace Verif.Props
open Verif.Py Verif.Model Verif.Spec

/-- A result, if there is one, has a property. -/
def Gives {α : Type} (P : α → Prop) (m : Except PyErr α) : Prop := ∀ x, m = .ok x → P x

theorem gives_ok {α : Type} {P : α → Prop} {x : α} (h : P x) : Gives P (.ok x : Except PyErr α) := by
  intro y hy
  cases hy
  exact h

theorem gives_error {α : Type} {P : α → Prop} {e : PyErr} :
    Gives P (.error e : Except PyErr α) := by
  intro y hy
  cases hy

theorem gives_bind {α β : Type} {P : α → Prop} {Q : β → Prop} {m : Except PyErr α}
    {f : α → Except PyErr β} (h : Gives P m) (hf : ∀ x, P x → Gives Q (f x)) :
    Gives Q (m >>= f) := by
  cases m with
  | error e => exact gives_error
  | ok x => exact hf x (h x rfl)

theorem gives_any {α : Type} (m : Except PyErr α) : Gives (fun _ => True) m := fun _ _ => trivial

theorem gives_self {α : Type} (m : Except PyErr α) : Gives (fun x => m = .ok x) m := fun _ h => h

theorem Gives.mono {α : Type} {P Q : α → Prop} {m : Except PyErr α} (h : Gives P m)
    (hpq : ∀ x, P x → Q x) : Gives Q m := fun x hx => hpq x (h x hx)

/-! ## Loops -/

/-- The state of a turn has a property. -/
def TurnIs {σ : Type} (P : σ → Prop) : Turn σ × List Str → Prop
  | (.stop s, _) => P s
  | (.more s, _) => P s

theorem gives_loop {σ : Type} {P : σ → Prop}
    {step : σ → List Str → Except PyErr (Turn σ × List Str)}
    (h : ∀ s ls, P s → Gives (TurnIs P) (step s ls)) (n : ℕ) (s : σ) (ls : List Str) (hs : P s) :
    Gives (fun x => P x.1) (loop step n s ls) := by
  induction n generalizing s ls with
  | zero => exact gives_error
  | succ n ih =>
    rw [loop]
    have := h s ls hs
    cases hr : step s ls with
    | error e => exact gives_error
    | ok x =>
      obtain ⟨t, ls'⟩ := x
      have ht := this _ hr
      cases t with
      | stop s' => exact gives_ok ht
      | more s' => exact ih s' ls' ht

theorem gives_while {σ : Type} {P : σ → Prop}
    {step : σ → List Str → Except PyErr (Turn σ × List Str)}
    (h : ∀ s ls, P s → Gives (TurnIs P) (step s ls)) (s : σ) (ls : List Str) (hs : P s) :
    Gives (fun x => P x.1) (whileTrue step s ls) := gives_loop h _ s ls hs

theorem gives_times {α : Type} {P : α → Prop} {body : List Str → Except PyErr (α × List Str)}
    (h : ∀ ls, Gives (fun x => P x.1) (body ls)) (n : ℕ) (ls : List Str) :
    Gives (fun x => ∀ y ∈ x.1, P y) (times body n ls) := by
  induction n generalizing ls with
  | zero => exact gives_ok (by simp)
  | succ n ih =>
    rw [times]
    refine gives_bind (h ls) fun x hx => gives_bind (ih _) fun y hy => gives_ok ?_
    simpa using ⟨hx, hy⟩

theorem mem_dictSet {κ β : Type} [DecidableEq κ] {d : List (κ × β)} {k : κ} {v : β} {P : β → Prop}
    (hd : ∀ e ∈ d, P e.2) (hv : P v) : ∀ e ∈ dictSet d k v, P e.2 := by
  induction d with
  | nil => simpa [dictSet] using hv
  | cons x d ih =>
    obtain ⟨k', v'⟩ := x
    rw [dictSet]
    split
    · simp only [List.forall_mem_cons] at hd ⊢
      exact ⟨hv, hd.2⟩
    · simp only [List.forall_mem_cons] at hd ⊢
      exact ⟨hd.1, ih hd.2⟩

theorem mem_dictGet {κ β : Type} [DecidableEq κ] {d : List (κ × β)} {k : κ} {P : β → Prop}
    (hd : ∀ e ∈ d, P e.2) : Gives P (dictGet d k) := by
  unfold dictGet
  cases h : d.lookup k with
  | none => exact gives_error
  | some v =>
    refine gives_ok ?_
    have : (k, v) ∈ d := by
      clear hd
      induction d with
      | nil => cases h
      | cons x d ih =>
        rw [List.lookup_cons] at h
        split at h
        · rename_i hk
          cases h
          have := eq_of_beq hk
          subst this
          simp
        · exact List.mem_cons_of_mem _ (ih h)
    exact hd _ this

/-! ## Records -/

/-- Missing or an integer, and not a boolean. -/
def IntRead : Val → Prop
  | .none | .int _ => True
  | _ => False

/-- The type of a column. -/
def ColIs : Kind → Val → Prop
  | .s, v | .S, v => AsText v
  | .d, v => IntRead v
  | .f, v | .e, v => AsNum v

theorem gives_if {α : Type} {P : α → Prop} {c : Prop} [Decidable c] {m n : Except PyErr α}
    (hm : c → Gives P m) (hn : ¬ c → Gives P n) : Gives P (if c then m else n) := by
  by_cases h : c
  · rw [if_pos h]; exact hm h
  · rw [if_neg h]; exact hn h

theorem field_col (t : Tok) (txt : Str) : Gives (ColIs t.kind) (readField t txt) := by
  unfold readField
  refine gives_if (fun _ => gives_ok ?_) fun _ => ?_
  · cases t.kind <;> trivial
  · cases hk : t.kind <;> dsimp only
    · exact gives_ok (P := ColIs .s) trivial
    · exact gives_ok (P := ColIs .S) trivial
    · cases pyInt _ with
      | none => exact gives_error
      | some i => exact gives_ok (P := ColIs .d) trivial
    · exact gives_bind (gives_any _) fun _ _ => gives_ok (P := ColIs .f) trivial
    · exact gives_bind (gives_any _) fun _ _ => gives_ok (P := ColIs .e) trivial

theorem from_cols (line : Str) (i : ℕ) (ts : List Tok) :
    Gives (List.Forall₂ (fun t v => ColIs t.kind v) ts) (readFrom line i ts) := by
  induction ts generalizing i with
  | nil => exact gives_ok .nil
  | cons t ts ih =>
    exact gives_bind (field_col t _) fun v hv => gives_bind (ih _) fun vs hvs =>
      gives_ok (.cons hv hvs)

/-- A record has the types of its columns. -/
def Cols (ts : List Tok) (d : List Val) : Prop := List.Forall₂ (fun t v => ColIs t.kind v) ts d

theorem record_cols (ts : List Tok) (line : Str) : Gives (Cols ts) (readRecord ts line) :=
  from_cols line 0 ts

theorem cols_entry {ts : List Tok} {d : List Val} (h : Cols ts d) (i : ℕ) {k : Kind}
    (hk : (ts.map (·.kind))[i]? = some k) : ColIs k (entry d i) := by
  induction h generalizing i with
  | nil => simp at hk
  | @cons t v ts vs ht h ih =>
    cases i with
    | zero =>
      simp only [List.map_cons, List.getElem?_cons_zero, Option.some.injEq] at hk
      subst hk
      exact ht
    | succ i => exact ih i (by simpa using hk)

theorem cols_int {ts : List Tok} {d : List Val} (h : Cols ts d) (i : ℕ)
    (hk : (ts.map (·.kind))[i]? = some .d) : AsInt (entry d i) := by
  have := cols_entry h i hk
  revert this
  cases entry d i <;> simp [ColIs, IntRead, AsInt]

theorem cols_num {ts : List Tok} {d : List Val} (h : Cols ts d) (i : ℕ)
    (hk : (ts.map (·.kind))[i]? = some .e) : AsNum (entry d i) := cols_entry h i hk

theorem cols_inum {ts : List Tok} {d : List Val} (h : Cols ts d) (i : ℕ)
    (hk : (ts.map (·.kind))[i]? = some .d) : AsNum (entry d i) := by
  have := cols_entry h i hk
  revert this
  cases entry d i <;> simp [ColIs, IntRead, AsNum]

theorem cols_text {ts : List Tok} {d : List Val} (h : Cols ts d) (i : ℕ)
    (hk : (ts.map (·.kind))[i]? = some .s) : AsText (entry d i) := cols_entry h i hk

theorem cols_all {ts : List Tok} {d : List Val} (h : Cols ts d) (ht : ∀ t ∈ ts, t.kind = .e) :
    ∀ v ∈ d, AsNum v := by
  induction h with
  | nil => simp
  | @cons t v ts vs h1 h2 ih =>
    simp only [List.forall_mem_cons] at ht ⊢
    rw [ht.1] at h1
    exact ⟨h1, ih ht.2⟩

theorem mem_pruneNones {l : List Val} {v : Val} (h : v ∈ pruneNones l) : v ∈ l := by
  induction l with
  | nil => cases h
  | cons x l ih =>
    rw [pruneNones] at h
    split at h
    · rcases List.mem_cons.1 h with rfl | h
      · simp
      · exact List.mem_cons_of_mem _ (ih h)
    · exact List.mem_cons_of_mem _ (ih h)

/-- The table of columns of a format that depends on the length of the labels. -/
theorem format_kinds {table : ℕ → Option (List Tok)} {ks : List Kind}
    (h : ∀ n f, table n = some f → f.map (·.kind) = ks) (n : ℕ) :
    Gives (fun f => f.map (·.kind) = ks) (formatFor table n) := by
  unfold formatFor
  cases ht : table n with
  | none => exact gives_error
  | some f => exact gives_ok (h n f ht)

theorem gener_kinds (n : ℕ) (f : List Tok) (h : Fmt.gener n = some f) :
    f.map (·.kind) = [.s, .s, .d, .d, .d, .d, .s, .s, .d, .e, .e, .e] := by
  unfold Fmt.gener at h
  split at h <;> first | (cases h; rfl) | cases h

theorem eleme_kinds (n : ℕ) (f : List Tok) (h : Fmt.eleme n = some f) :
    f.map (·.kind) = [.s, .d, .d, .s, .e, .e, .e, .e, .e, .e] := by
  unfold Fmt.eleme at h
  split at h <;> first | (cases h; rfl) | cases h

theorem conne_kinds (n : ℕ) (f : List Tok) (h : Fmt.conne n = some f) :
    f.map (·.kind) = [.s, .d, .d, .d, .d, .e, .e, .e, .e, .e] := by
  unfold Fmt.conne at h
  split at h <;> first | (cases h; rfl) | cases h

theorem incon_kinds (n : ℕ) (f : List Tok) (h : Fmt.incon n = some f) :
    f.map (·.kind) = [.s, .d, .d, .e, .e, .e, .e, .e, .e] := by
  unfold Fmt.incon at h
  split at h <;> first | (cases h; rfl) | cases h

/-! ## Blocks -/

theorem mod_typed (ls : List Str) :
    Gives (fun x => ∀ m ∈ x.1, AsInt m.id) (readMod ls) := by
  unfold readMod
  refine gives_bind (gives_any _) fun x _ => gives_bind (record_cols _ _) fun d hd => gives_ok ?_
  intro m hm
  dsimp only at hm
  split at hm
  · cases hm
    exact cols_int hd 0 rfl
  · cases hm

theorem rpcap_typed (ls : List Str) :
    Gives (fun x => (∀ m ∈ x.1.1, AsInt m.id) ∧ ∀ m ∈ x.1.2, AsInt m.id) (readRpcap ls) := by
  unfold readRpcap
  exact gives_bind (mod_typed _) fun x hx => gives_bind (mod_typed _) fun y hy => gives_ok ⟨hx, hy⟩

theorem readPerm_typed {a b c : Val} (ha : AsNum a) : AsNums (readPerm a b c) := by
  unfold readPerm
  split
  · exact ha
  · trivial

/-- A rock as it is read. -/
def RockRead (r : Rock) : Prop := RockTyped r ∧ FlacModelsTyped r

theorem rocks_typed (ls : List Str) :
    Gives (fun x => ∀ e ∈ x.1.1, RockRead e.2) (readRocks ls) := by
  unfold readRocks
  refine (gives_while (P := fun s : RocksState => ∀ e ∈ s.1, RockRead e.2) ?_ _ _ (by simp)).mono
    fun x hx => hx
  intro s ls hs
  unfold rockStep
  refine gives_bind (gives_any _) fun x _ => ?_
  obtain ⟨line, ls⟩ := x
  dsimp only
  split
  · exact gives_ok hs
  refine gives_bind (record_cols _ _) fun d hd => ?_
  have h0 : RockRead { Rock.empty with
      density := entry d 2
      porosity := entry d 3
      permeability := readPerm (entry d 4) (entry d 5) (entry d 6)
      conductivity := entry d 7
      specificHeat := entry d 8 } := by
    refine ⟨⟨?_, readPerm_typed (cols_num hd 4 rfl), by simp [Rock.empty], by simp [Rock.empty]⟩,
      by simp [Rock.empty], by simp [Rock.empty]⟩
    simp only [List.forall_mem_cons, List.not_mem_nil, false_imp_iff, implies_true, and_true]
    exact ⟨cols_num hd 2 rfl, cols_num hd 3 rfl, cols_num hd 7 rfl, cols_num hd 8 rfl,
      trivial, trivial, trivial, trivial, trivial, trivial, trivial⟩
  have last : ∀ (big : Bool) (x : Rock × List Str), RockRead x.1 →
      Gives (TurnIs fun s : RocksState => ∀ e ∈ s.1, RockRead e.2)
        (if big = true then do
          let y ← readRpcap x.2
          let z ← (.ok ({ x.1 with relPerm := y.1.1, cap := y.1.2 }, y.2) :
            Except PyErr (Rock × List Str))
          .ok (.more (dictSet s.1 (entry d 0) z.1, s.2 ++ [entry d 0]), z.2)
        else do
          let z ← (.ok (x.1, x.2) : Except PyErr (Rock × List Str))
          .ok (.more (dictSet s.1 (entry d 0) z.1, s.2 ++ [entry d 0]), z.2)) := by
    intro big x hx
    refine gives_if (fun _ => ?_) fun _ => ?_
    · exact gives_bind (rpcap_typed _) fun y hy => gives_bind (gives_self _) fun z hz => by
        cases hz
        exact gives_ok (mem_dictSet hs ⟨⟨hx.1.1, hx.1.2.1, hy.1, hy.2⟩, hx.2⟩)
    · exact gives_bind (gives_self _) fun z hz => by
        cases hz
        exact gives_ok (mem_dictSet hs hx)
  refine gives_if (fun _ => ?_) fun _ => ?_
  · refine gives_bind (gives_any _) fun y _ => gives_bind (record_cols _ _) fun d' hd' =>
      gives_bind (gives_self _) fun z hz => ?_
    cases hz
    refine last _ _ ⟨⟨?_, h0.1.2⟩, h0.2⟩
    simp only [List.forall_mem_cons, List.not_mem_nil, false_imp_iff, implies_true, and_true]
    exact ⟨cols_num hd 2 rfl, cols_num hd 3 rfl, cols_num hd 7 rfl, cols_num hd 8 rfl,
      cols_num hd' 0 rfl, cols_num hd' 1 rfl, cols_num hd' 2 rfl, cols_num hd' 3 rfl,
      cols_num hd' 4 rfl, cols_num hd' 5 rfl, cols_num hd' 6 rfl⟩
  · refine gives_bind (gives_self _) fun z hz => ?_
    cases hz
    exact last _ _ h0

/-- The FLAC options as they are read. -/
def FlacRead (f : Flac) : Prop := IntRead f.creep ∧ AsInt f.porosityModel ∧ AsInt f.version

theorem flacRocks_typed (ks : List Val) (acc : List (Val × (Mod × Mod))) (ls : List Str)
    (ha : ∀ e ∈ acc, AsInt e.2.1.id ∧ AsInt e.2.2.id) :
    Gives (fun x => ∀ e ∈ x.1, AsInt e.2.1.id ∧ AsInt e.2.2.id) (readFlacRocks ks acc ls) := by
  induction ks generalizing acc ls with
  | nil => exact gives_ok ha
  | cons k ks ih =>
    unfold readFlacRocks
    refine gives_bind (gives_any _) fun x _ => gives_bind (record_cols _ _) fun d hd =>
      gives_bind (gives_any _) fun y _ => gives_bind (record_cols _ _) fun d' hd' => ih _ _ ?_
    exact mem_dictSet (P := fun m : Mod × Mod => AsInt m.1.id ∧ AsInt m.2.id) ha
      ⟨cols_int hd 0 rfl, cols_int hd' 0 rfl⟩

theorem flac_typed (order : List Val) (ls : List Str) :
    Gives (fun x => FlacRead x.1.1 ∧ ∀ e ∈ x.1.2, AsInt e.2.1.id ∧ AsInt e.2.2.id)
      (readFlac order ls) := by
  unfold readFlac
  refine gives_bind (gives_any _) fun x _ => gives_bind (record_cols _ _) fun d hd =>
    gives_bind (flacRocks_typed _ _ _ (by simp)) fun y hy => gives_ok ⟨?_, hy⟩
  exact ⟨cols_entry hd 0 (k := .d) rfl, cols_int hd 1 rfl, cols_int hd 2 rfl⟩

theorem solvr_typed (ls : List Str) :
    Gives (fun x => SolverTyped (SolverOf.again x.1)) (readSolvr ls) := by
  unfold readSolvr
  refine gives_bind (gives_any _) fun x _ => gives_bind (record_cols _ _) fun d hd => gives_ok ?_
  refine ⟨?_, ?_, ?_, ?_, ?_⟩ <;> (rintro v hv; cases hv)
  · exact cols_int hd 0 rfl
  · exact cols_text hd 2 rfl
  · exact cols_text hd 4 rfl
  · exact cols_num hd 5 rfl
  · exact cols_num hd 6 rfl

theorem digits_typed (v : Val) : Gives (fun d => ∀ e ∈ d, AsInt e.2) (readDigits v) := by
  unfold readDigits
  split
  · refine gives_ok fun e he => ?_
    obtain ⟨x, -, rfl⟩ := List.mem_map.1 he
    trivial
  · exact gives_error

theorem steps_typed (n : ℤ) (ls : List Str) :
    Gives (fun x => AsNums x.1) (readSteps n ls) := by
  unfold readSteps
  split
  · exact gives_ok trivial
  refine gives_bind (gives_times (P := fun l => ∀ v ∈ l, AsNum v) (fun ls => ?_) _ _) fun x hx => ?_
  · exact gives_bind (gives_any _) fun x _ => gives_bind (record_cols _ _) fun d hd =>
      gives_ok fun v hv => cols_all hd (by decide) v (mem_pruneNones hv)
  · obtain ⟨rows, ls⟩ := x
    dsimp only at hx ⊢
    split
    · rename_i v hv
      have : v ∈ rows.flatten := by rw [hv]; simp
      obtain ⟨l, hl, hvl⟩ := List.mem_flatten.1 this
      exact gives_ok (hx l hl v hvl)
    · exact gives_ok trivial

theorem param_typed (ls : List Str) :
    Gives (fun x => OptionsTyped x.1.options ∧ ∀ e ∈ x.1.extra, AsInt e.2) (readParam ls) := by
  unfold readParam
  refine gives_bind (gives_any _) fun x _ => gives_bind (record_cols _ _) fun d1 h1 =>
    gives_bind (digits_typed _) fun m hm => gives_bind (gives_any _) fun y _ =>
    gives_bind (record_cols _ _) fun d2 h2 => gives_bind (gives_any _) fun n _ =>
    gives_bind (steps_typed _ _) fun z hz => gives_bind (gives_any _) fun w _ =>
    gives_bind (record_cols _ _) fun d4 h4 => gives_bind (gives_any _) fun u _ =>
    gives_ok ⟨⟨?_, ?_, hz⟩, ?_⟩
  · simp only [List.forall_mem_cons, List.not_mem_nil, false_imp_iff, implies_true, and_true]
    exact ⟨cols_int h1 0 rfl, cols_int h1 2 rfl, cols_int h1 3 rfl, cols_int h1 4 rfl,
      cols_int h1 1 rfl⟩
  · simp only [List.forall_mem_cons, List.not_mem_nil, false_imp_iff, implies_true, and_true]
    exact ⟨cols_num h1 7 rfl, cols_num h1 8 rfl, cols_num h2 0 rfl, cols_num h2 1 rfl,
      cols_num h2 3 rfl, cols_num h2 6 rfl, cols_num h2 5 rfl, cols_num h2 7 rfl,
      cols_num h4 0 rfl, cols_num h4 1 rfl, cols_num h4 3 rfl, cols_num h4 4 rfl,
      cols_num h4 5 rfl⟩
  · exact fun e he => hm e (List.mem_filter.1 he).1

theorem momop_typed (ls : List Str) :
    Gives (fun x => ∀ e ∈ x.1, AsInt e.2) (readMomop ls) := by
  unfold readMomop
  exact gives_bind (gives_any _) fun x _ => gives_bind (gives_any _) fun d _ =>
    gives_bind (digits_typed _) fun m hm => gives_ok hm

theorem table_typed (fmt : List Tok) (hf : ∀ t ∈ fmt, t.kind = .e) (n : ℤ) (acc : List Val)
    (ls : List Str) (ha : ∀ v ∈ acc, AsNum v) :
    Gives (fun x => ∀ v ∈ x.1, AsNum v) (readTable fmt n acc ls) := by
  induction ls generalizing acc with
  | nil =>
    unfold readTable
    split
    · exact gives_error
    · exact gives_ok ha
  | cons l ls ih =>
    unfold readTable
    split
    · cases hr : readRecord fmt l with
      | error e => exact gives_error
      | ok d =>
        refine ih _ ?_
        simp only [List.forall_mem_append]
        exact ⟨ha, fun v hv => cols_all (record_cols _ _ _ hr) hf v (mem_pruneNones hv)⟩
    · exact gives_ok ha

theorem times_typed (ls : List Str) : Gives (fun x => AsNums x.1) (readTimes ls) := by
  unfold readTimes
  refine gives_bind (gives_any _) fun x _ => gives_bind (gives_any _) fun d _ => ?_
  split
  · refine gives_bind (table_typed Fmt.times2 (by decide) _ _ _ (by simp)) fun y hy => ?_
    dsimp only
    split
    · split
      · rename_i v l hl
        exact gives_ok (hy v (by rw [hl]; simp))
      · exact gives_error
    · exact gives_ok trivial
  · exact gives_error

/-! ## Generators -/

/-- What is collected for a label. -/
def AccTyped (g : GenAcc) : Prop :=
  (∀ v ∈ g.name ++ g.type, AsText v) ∧
    (∀ v ∈ g.nseq ++ g.nadd ++ g.nads ++ g.thickness, AsNum v) ∧
    (∀ v ∈ g.times ++ g.rates, AsNums v) ∧ ∀ l ∈ g.enthalpy, ∀ v ∈ l, AsNums v

theorem tables_typed {f : List Tok} {d : List Val} (hd : Cols f d)
    (hf : f.map (·.kind) = [.s, .s, .d, .d, .d, .d, .s, .s, .d, .e, .e, .e]) (ls : List Str) :
    Gives (fun x => AsNums x.1.1 ∧ AsNums x.1.2.1 ∧ ∀ h ∈ x.1.2.2, AsNums h)
      (readTables d ls) := by
  unfold readTables
  split
  · refine gives_bind (gives_any _) fun x _ => gives_bind (gives_any _) fun y _ => ?_
    dsimp only
    split
    · exact gives_bind (gives_any _) fun z _ => gives_ok ⟨trivial, trivial, by
        rintro h ⟨⟩; trivial⟩
    · exact gives_ok ⟨trivial, trivial, by simp⟩
  · refine gives_ok ⟨trivial, cols_num hd 9 (by rw [hf]; rfl), ?_⟩
    rintro h ⟨⟩
    exact cols_num hd 10 (by rw [hf]; rfl)

theorem mergeGen_typed {g t : GenAcc} (hg : AccTyped g) (ht : AccTyped t) :
    Gives AccTyped (mergeGen g t) := by
  unfold mergeGen
  obtain ⟨g1, g2, g3, g4⟩ := hg
  obtain ⟨t1, t2, t3, t4⟩ := ht
  refine gives_bind (P := fun h => ∀ l ∈ h, ∀ v ∈ l, AsNums v) ?_ fun h hh =>
    gives_ok ⟨?_, ?_, ?_, hh⟩
  · cases hge : g.enthalpy with
    | none => exact gives_ok (by simp)
    | some a =>
      cases hte : t.enthalpy with
      | none => exact gives_error
      | some b =>
        refine gives_ok ?_
        rintro l ⟨⟩
        simp only [List.forall_mem_append]
        exact ⟨g4 a hge, t4 b hte⟩
  · simp only [List.forall_mem_append] at g1 t1 ⊢
    exact ⟨⟨g1.1, t1.1⟩, g1.2, t1.2⟩
  · simp only [List.forall_mem_append] at g2 t2 ⊢
    tauto
  · simp only [List.forall_mem_append] at g3 t3 ⊢
    tauto

theorem addGen_typed {s : List (Val × GenAcc)} {k : Val} {t : GenAcc} (hs : ∀ e ∈ s, AccTyped e.2)
    (ht : AccTyped t) : Gives (fun s' => ∀ e ∈ s', AccTyped e.2) (addGen s k t) := by
  unfold addGen
  have hg := mem_dictGet (k := k) hs
  unfold dictGet at hg
  cases hl : s.lookup k with
  | none => exact gives_ok (mem_dictSet hs ht)
  | some g =>
    rw [hl] at hg
    exact gives_bind (mergeGen_typed (hg g rfl) ht) fun g' hg' => gives_ok (mem_dictSet hs hg')

/-- A value that was read for a generator with one source. -/
def OneIs {α : Type} (P : α → Prop) : Out α → Prop
  | .one v => P v
  | .list _ => True

/-- A generator as it is read. -/
def GenOutTyped (g : GenOut) : Prop :=
  OneIs AsText g.name ∧ OneIs AsText g.type ∧ OneIs AsNum g.nseq ∧ OneIs AsNum g.nadd ∧
    OneIs AsNum g.nads ∧ OneIs AsNum g.thickness ∧ OneIs AsNums g.times ∧ OneIs AsNums g.rates ∧
    OneIs AsNums g.enthalpy

theorem tidy_typed {α : Type} [DecidableEq α] {P : α → Prop} {none : α} {l : List α}
    (hn : P none) (h : ∀ v ∈ l, P v) : OneIs P (tidy none l) := by
  unfold tidy
  split
  · exact h _ (by simp)
  · split
    · exact hn
    · trivial

theorem tidyGen_typed {g : GenAcc} (h : AccTyped g) : GenOutTyped (tidyGen g) := by
  obtain ⟨h1, h2, h3, h4⟩ := h
  simp only [List.forall_mem_append] at h1 h2 h3
  refine ⟨tidy_typed trivial h1.1, tidy_typed trivial h1.2, tidy_typed trivial h2.1.1.1,
    tidy_typed trivial h2.1.1.2, tidy_typed trivial h2.1.2, tidy_typed trivial h2.2,
    tidy_typed trivial h3.1, tidy_typed trivial h3.2, ?_⟩
  unfold tidyGen tidyEnthalpy
  cases he : g.enthalpy with
  | none => exact trivial
  | some l => exact tidy_typed trivial (h4 l he)

theorem gener_typed (given : Option ℕ) (ls : List Str) :
    Gives (fun x => ∀ e ∈ x.1, GenOutTyped e.2) (readGener given ls) := by
  unfold readGener
  refine gives_bind (gives_any _) fun x _ => gives_bind
    (gives_while (P := fun s : List (Val × GenAcc) => ∀ e ∈ s, AccTyped e.2) ?_ _ _ (by simp))
    fun y hy => gives_ok fun e he => ?_
  · intro s ls hs
    unfold generStep
    refine gives_bind (gives_any _) fun z _ => ?_
    dsimp only
    split
    · exact gives_ok hs
    refine gives_bind (format_kinds gener_kinds _) fun f hf => gives_bind (record_cols _ _)
      fun d hd => gives_bind (tables_typed hd hf _) fun t ht => gives_bind (addGen_typed hs ?_)
      fun s' hs' => gives_ok hs'
    obtain ⟨⟨t1, t2, t3⟩, ls'⟩ := t
    obtain ⟨a1, a2, a3⟩ := ht
    refine ⟨?_, ?_, ?_, ?_⟩
    · simp only [List.forall_mem_append, List.forall_mem_cons, List.not_mem_nil, false_imp_iff,
        implies_true, and_true]
      exact ⟨cols_text hd 1 (by rw [hf]; rfl), cols_text hd 7 (by rw [hf]; rfl)⟩
    · simp only [List.forall_mem_append, List.forall_mem_cons, List.not_mem_nil, false_imp_iff,
        implies_true, and_true]
      exact ⟨⟨⟨cols_inum hd 2 (by rw [hf]; rfl), cols_inum hd 3 (by rw [hf]; rfl)⟩,
        cols_inum hd 4 (by rw [hf]; rfl)⟩, cols_num hd 11 (by rw [hf]; rfl)⟩
    · simp only [List.forall_mem_append, List.forall_mem_cons, List.not_mem_nil, false_imp_iff,
        implies_true, and_true]
      exact ⟨a1, a2⟩
    · intro l hl v hv
      obtain ⟨h, hh, rfl⟩ := Option.map_eq_some_iff.1 hl
      simp only [List.mem_singleton] at hv
      subst hv
      exact a3 _ hh
  · obtain ⟨g, hg, rfl⟩ := List.mem_map.1 he
    exact tidyGen_typed (hy g hg)

theorem gen_typed {g : GenOut} (h : GenOutTyped g) : GenTyped g.gen := by
  obtain ⟨h1, h2, h3, h4, h5, h6, h7, h8, h9⟩ := h
  have key : ∀ {α : Type} {P : α → Prop} {none : α} {o : Out α}, P none → OneIs P o →
      P (o.val none) := by
    intro α P none o hn ho
    cases o with
    | one v => exact ho
    | list l => exact hn
  unfold GenOut.gen
  split
  · trivial
  · refine ⟨key (P := AsText) trivial h1, trivial, ?_, ?_⟩
    · simp only [List.forall_mem_cons, List.not_mem_nil, false_imp_iff, implies_true, and_true]
      exact ⟨key (P := AsNum) trivial h3, key (P := AsNum) trivial h4, key (P := AsNum) trivial h5,
        key (P := AsNum) trivial h6⟩
    · simp only [List.forall_mem_cons, List.not_mem_nil, false_imp_iff, implies_true, and_true]
      exact ⟨key (P := AsNums) trivial h7, key (P := AsNums) trivial h8,
        key (P := AsNums) trivial h9⟩
  · trivial

/-! ## Meshes -/

theorem eleme_typed (given : Option ℕ) (ls : List Str) :
    Gives (fun x => ∀ e ∈ x.1.1, ElemTyped e.2) (readEleme given ls) := by
  unfold readEleme
  refine gives_bind (gives_any _) fun x _ =>
    gives_while (P := fun s : Table Elem => ∀ e ∈ s.1, ElemTyped e.2) ?_ _ _ (by simp)
  intro s ls hs
  unfold elemeStep
  refine gives_bind (gives_any _) fun z _ => ?_
  dsimp only
  split
  · exact gives_ok hs
  refine gives_bind (format_kinds eleme_kinds _) fun f hf => gives_bind (record_cols _ _)
    fun d hd => gives_bind (P := ElemTyped) ?_ fun e he => gives_ok (mem_dictSet hs he)
  unfold elemOf
  refine gives_bind (P := fun m => AsText m ∨ AsInt m) ?_ fun m hm => gives_ok
    ⟨cols_int hd 1 (by rw [hf]; rfl), cols_int hd 2 (by rw [hf]; rfl), hm, ?_⟩
  · unfold readMaterial
    split
    · dsimp only
      split
      · split
        · exact gives_ok (.inr trivial)
        · exact gives_error
      · exact gives_ok (.inl trivial)
    · exact gives_error
  · simp only [List.forall_mem_cons, List.not_mem_nil, false_imp_iff, implies_true, and_true]
    exact ⟨cols_num hd 4 (by rw [hf]; rfl), cols_num hd 5 (by rw [hf]; rfl),
      cols_num hd 6 (by rw [hf]; rfl)⟩

theorem centers_typed (cs : List (Val × List Val)) (elems : List (Val × Elem))
    (h : ∀ e ∈ elems, ElemTyped e.2) :
    Gives (fun es => ∀ e ∈ es, ElemTyped e.2) (setCenters elems cs) := by
  induction cs generalizing elems with
  | nil => exact gives_ok h
  | cons c cs ih =>
    obtain ⟨k, c⟩ := c
    unfold setCenters
    exact gives_bind (mem_dictGet h) fun e he => ih _ (mem_dictSet h he)

theorem conne_typed (given : Option ℕ) (ls : List Str) :
    Gives (fun x => ∀ e ∈ x.1.1, ConnTyped e.2) (readConne given ls) := by
  unfold readConne
  refine gives_bind (gives_any _) fun x _ =>
    gives_while (P := fun s : Table Conn => ∀ e ∈ s.1, ConnTyped e.2) ?_ _ _ (by simp)
  intro s ls hs
  unfold conneStep
  refine gives_bind (gives_any _) fun z _ => ?_
  dsimp only
  split
  · exact gives_ok hs
  refine gives_bind (format_kinds conne_kinds _) fun f hf => gives_bind (record_cols _ _)
    fun d hd => gives_ok (mem_dictSet hs
      ⟨cols_int hd 1 (by rw [hf]; rfl), cols_int hd 4 (by rw [hf]; rfl), ?_⟩)
  simp only [connOf, List.forall_mem_cons, List.not_mem_nil, false_imp_iff, implies_true, and_true]
  exact ⟨cols_num hd 7 (by rw [hf]; rfl), cols_num hd 8 (by rw [hf]; rfl),
    cols_num hd 9 (by rw [hf]; rfl)⟩

theorem incon_typed (given : Option ℕ) (ls : List Str) :
    Gives (fun x => ∀ e ∈ x.1.1, AsNum e.2.porosity) (readIncon given ls) := by
  unfold readIncon
  refine gives_bind (gives_any _) fun x _ => gives_bind
    (gives_while (P := fun s : InconState => ∀ e ∈ s.1.1, AsNum e.2.porosity) ?_ _ _ (by simp))
    fun y hy => gives_ok hy
  intro s ls hs
  unfold inconStep
  refine gives_bind (gives_any _) fun z _ => ?_
  dsimp only
  split
  · exact gives_ok hs
  refine gives_bind (format_kinds incon_kinds _) fun f hf => gives_bind (record_cols _ _)
    fun d hd => gives_bind (gives_any _) fun _ _ => gives_bind (gives_any _) fun _ _ =>
    gives_bind (gives_any _) fun _ _ => gives_ok ?_
  exact mem_dictSet (P := fun c : Incon => AsNum c.porosity) hs (cols_num hd 3 (by rw [hf]; rfl))

end Verif.Props
