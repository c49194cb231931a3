import Verif.Model.File
import Verif.Lemmas.IO

/-! Helper lemmas: readers consume lines, so their loops end. -/

namespace Verif.Model
open Verif.Py

/-- A computation that does not diverge. -/
def NoDiv {α : Type} (r : Except PyErr α) : Prop := r ≠ .error .diverges

/-- A reader does not diverge and, starting from `n` lines, takes at least `k`. -/
def Safe {α : Type} (k n : ℕ) (r : Except PyErr (α × List Str)) : Prop :=
  match r with
  | .ok x => x.2.length + k ≤ n
  | .error e => e ≠ .diverges

/-- A turn of a loop does not diverge and takes a line if the loop goes on. -/
def SafeTurn {σ : Type} (n : ℕ) (r : Except PyErr (Turn σ × List Str)) : Prop :=
  match r with
  | .ok (.more _, ls) => ls.length + 1 ≤ n
  | .ok (.stop _, ls) => ls.length ≤ n
  | .error e => e ≠ .diverges

theorem noDiv_ok {α : Type} (a : α) : NoDiv (.ok a) := by simp [NoDiv]
theorem noDiv_error {α : Type} {e : PyErr} (h : e ≠ .diverges) :
    NoDiv (.error e : Except PyErr α) := by simpa [NoDiv] using h

theorem noDiv_bind {α β : Type} {a : Except PyErr α} {f : α → Except PyErr β} (ha : NoDiv a)
    (hf : ∀ x, NoDiv (f x)) : NoDiv (a >>= f) := by
  cases a with
  | error e => simpa [NoDiv, error_bind] using ha
  | ok x => exact hf x

theorem Safe.noDiv {α : Type} {k n : ℕ} {r : Except PyErr (α × List Str)} (h : Safe k n r) :
    NoDiv r := by
  cases r with
  | error e => simpa [Safe, NoDiv] using h
  | ok x => simp [NoDiv]

theorem Safe.mono {α : Type} {k n k' n' : ℕ} {r : Except PyErr (α × List Str)} (h : Safe k n r)
    (hk : k' + n ≤ k + n') : Safe k' n' r := by
  cases r with
  | error e => exact h
  | ok x =>
    have : x.2.length + k ≤ n := h
    show x.2.length + k' ≤ n'
    omega

theorem safe_next (ls : List Str) : Safe 1 ls.length (next ls) := by
  cases ls with
  | nil => exact fun h => by cases h
  | cons a l => exact le_refl _

/-- Continue after something that reads no line. -/
theorem safe_bind {α β : Type} {k n : ℕ} {a : Except PyErr α}
    {f : α → Except PyErr (β × List Str)} (ha : NoDiv a) (hf : ∀ x, Safe k n (f x)) :
    Safe k n (a >>= f) := by
  cases a with
  | error e => simpa [Safe, NoDiv] using ha
  | ok x => exact hf x

/-- Continue after a reader. -/
theorem safe_then {α β : Type} {k k' n : ℕ} {a : Except PyErr (α × List Str)}
    {f : α × List Str → Except PyErr (β × List Str)} (ha : Safe k' n a)
    (hf : ∀ x ls, ls.length + k' ≤ n → Safe k n (f (x, ls))) : Safe k n (a >>= f) := by
  cases a with
  | error e => exact ha
  | ok x => exact hf x.1 x.2 ha

theorem safeTurn_bind {α σ : Type} {n : ℕ} {a : Except PyErr α}
    {f : α → Except PyErr (Turn σ × List Str)} (ha : NoDiv a) (hf : ∀ x, SafeTurn n (f x)) :
    SafeTurn n (a >>= f) := by
  cases a with
  | error e => simpa [SafeTurn, NoDiv] using ha
  | ok x => exact hf x

theorem safeTurn_then {α σ : Type} {k n : ℕ} {a : Except PyErr (α × List Str)}
    {f : α × List Str → Except PyErr (Turn σ × List Str)} (ha : Safe k n a)
    (hf : ∀ x ls, ls.length + k ≤ n → SafeTurn n (f (x, ls))) : SafeTurn n (a >>= f) := by
  cases a with
  | error e => exact ha
  | ok x => exact hf x.1 x.2 ha

theorem safe_ok {α : Type} {k n : ℕ} {x : α} {ls : List Str} (h : ls.length + k ≤ n) :
    Safe k n (.ok (x, ls)) := h
theorem safe_error {α : Type} {k n : ℕ} {e : PyErr} (h : e ≠ .diverges) :
    Safe k n (.error e : Except PyErr (α × List Str)) := h

theorem safe_loop {σ : Type} {step : σ → List Str → Except PyErr (Turn σ × List Str)}
    (h : ∀ s ls, SafeTurn ls.length (step s ls)) (n : ℕ) (s : σ) (ls : List Str)
    (hn : ls.length < n) : Safe 0 ls.length (loop step n s ls) := by
  induction n generalizing s ls with
  | zero => omega
  | succ n ih =>
    have hs := h s ls
    rw [loop]
    cases hr : step s ls with
    | error e => rw [hr] at hs; exact hs
    | ok x =>
      obtain ⟨t, ls'⟩ := x
      rw [hr] at hs
      cases t with
      | stop s' => exact hs
      | more s' =>
        have hs' : ls'.length + 1 ≤ ls.length := hs
        exact (ih s' ls' (by omega)).mono (by omega)

theorem safe_whileTrue {σ : Type} {step : σ → List Str → Except PyErr (Turn σ × List Str)}
    (h : ∀ s ls, SafeTurn ls.length (step s ls)) (s : σ) (ls : List Str) :
    Safe 0 ls.length (whileTrue step s ls) :=
  safe_loop h _ s ls (Nat.lt_succ_self _)

theorem safe_times {α : Type} {body : List Str → Except PyErr (α × List Str)}
    (h : ∀ ls, Safe 0 ls.length (body ls)) (n : ℕ) (ls : List Str) :
    Safe 0 ls.length (times body n ls) := by
  induction n generalizing ls with
  | zero => exact le_refl _
  | succ n ih =>
    rw [times]
    refine safe_then (h ls) fun x ls' hl => ?_
    refine safe_then (k' := ls.length - ls'.length) ((ih ls').mono (by omega)) fun y ls'' hl' => ?_
    exact safe_ok (by omega)

theorem noDiv_str2float (s : Str) : NoDiv (str2float s) := by
  unfold str2float NoDiv
  split
  · simp
  · split <;> simp

theorem noDiv_readField (t : Tok) (s : Str) : NoDiv (readField t s) := by
  unfold readField
  dsimp only
  repeat' split
  all_goals first
    | exact noDiv_ok _
    | exact noDiv_error (by simp)
    | exact noDiv_bind (noDiv_str2float _) fun _ => noDiv_ok _

theorem noDiv_readFrom (line : Str) (ts : List Tok) (i : ℕ) : NoDiv (readFrom line i ts) := by
  induction ts generalizing i with
  | nil => exact noDiv_ok _
  | cons t ts ih =>
    exact noDiv_bind (noDiv_readField _ _) fun _ => noDiv_bind (ih _) fun _ => noDiv_ok _

theorem noDiv_readRecord (ts : List Tok) (line : Str) : NoDiv (readRecord ts line) :=
  noDiv_readFrom line ts 0

theorem noDiv_formatFor (table : ℕ → Option (List Tok)) (n : ℕ) : NoDiv (formatFor table n) := by
  unfold formatFor
  split
  · exact noDiv_ok _
  · exact noDiv_error (by simp)

theorem noDiv_dictGet {κ β : Type} [DecidableEq κ] (d : List (κ × β)) (k : κ) :
    NoDiv (dictGet d k) := by
  unfold dictGet
  split
  · exact noDiv_ok _
  · exact noDiv_error (by simp)

theorem safe_readMod (ls : List Str) : Safe 1 ls.length (readMod ls) :=
  safe_then (safe_next ls) fun _ _ h => safe_bind (noDiv_readRecord _ _) fun _ => safe_ok (k := 1) h

theorem safe_readRpcap (ls : List Str) : Safe 1 ls.length (readRpcap ls) := by
  refine safe_then (safe_readMod ls) fun a ls' h => ?_
  refine safe_then (k' := 2) ((safe_readMod ls').mono (by omega)) fun b ls'' h' => ?_
  exact safe_ok (by omega)

theorem safeTurn_ite {σ : Type} {n : ℕ} {b : Prop} [Decidable b]
    {x y : Except PyErr (Turn σ × List Str)} (hx : SafeTurn n x) (hy : SafeTurn n y) :
    SafeTurn n (if b then x else y) := by
  split
  · exact hx
  · exact hy

theorem safe_rockStep (s : RocksState) (ls : List Str) : SafeTurn ls.length (rockStep s ls) := by
  refine safeTurn_then (safe_next ls) fun line ls1 h1 => ?_
  dsimp only
  split
  · show ls1.length ≤ ls.length; omega
  · refine safeTurn_bind (noDiv_readRecord _ _) fun d => ?_
    split
    · refine safeTurn_then (k := 1) ((safe_next ls1).mono (by omega)) fun l ls2 h2 => ?_
      refine safeTurn_bind (noDiv_readRecord _ _) fun d' => ?_
      simp only [ok_bind]
      refine safeTurn_ite ?_ ?_
      · refine safeTurn_then (k := 1) ((safe_readRpcap ls2).mono (n' := ls.length) (by omega))
          fun a ls3 h3 => ?_
        exact h3
      · exact h2
    · simp only [ok_bind]
      refine safeTurn_ite ?_ ?_
      · refine safeTurn_then (k := 1) ((safe_readRpcap ls1).mono (n' := ls.length) (by omega))
          fun a ls3 h3 => ?_
        exact h3
      · exact h1

theorem safe_readRocks (ls : List Str) : Safe 0 ls.length (readRocks ls) :=
  safe_whileTrue safe_rockStep _ ls

theorem safe_readFlacRocks (ks : List Val) (acc : List (Val × (Mod × Mod))) (ls : List Str) :
    Safe 0 ls.length (readFlacRocks ks acc ls) := by
  induction ks generalizing acc ls with
  | nil => exact le_refl _
  | cons k ks ih =>
    refine safe_then (safe_next ls) fun line ls1 h1 => ?_
    refine safe_bind (noDiv_readRecord _ _) fun d => ?_
    refine safe_then (k' := 1) ((safe_next ls1).mono (by omega)) fun line ls2 h2 => ?_
    refine safe_bind (noDiv_readRecord _ _) fun d => ?_
    exact (ih _ ls2).mono (by omega)

theorem safe_readFlac (order : List Val) (ls : List Str) : Safe 0 ls.length (readFlac order ls) := by
  refine safe_then (safe_next ls) fun line ls1 h1 => ?_
  refine safe_bind (noDiv_readRecord _ _) fun d => ?_
  refine safe_then (k' := 0) ((safe_readFlacRocks order [] ls1).mono (by omega)) fun x ls2 h2 => ?_
  exact safe_ok h2

theorem safe_readMulti (ls : List Str) : Safe 0 ls.length (readMulti ls) :=
  safe_then (safe_next ls) fun _ ls1 (h : ls1.length + 1 ≤ _) =>
    safe_bind (noDiv_readRecord _ _) fun _ => safe_ok (by omega)

theorem safe_readSolvr (ls : List Str) : Safe 0 ls.length (readSolvr ls) :=
  safe_then (safe_next ls) fun _ ls1 (h : ls1.length + 1 ≤ _) =>
    safe_bind (noDiv_readRecord _ _) fun _ => safe_ok (by omega)

theorem noDiv_readDigits (v : Val) : NoDiv (readDigits v) := by
  unfold readDigits
  split
  · exact noDiv_ok _
  · exact noDiv_error (by simp)

theorem safe_readMomop (ls : List Str) : Safe 0 ls.length (readMomop ls) :=
  safe_then (safe_next ls) fun _ ls1 (h : ls1.length + 1 ≤ _) =>
    safe_bind (noDiv_readRecord _ _) fun _ => safe_bind (noDiv_readDigits _) fun _ => safe_ok (by omega)

theorem noDiv_intOf (v : Val) : NoDiv (intOf v) := by
  unfold intOf
  split <;> first | exact noDiv_ok _ | exact noDiv_error (by simp)

theorem safe_readSteps (n : ℤ) (ls : List Str) : Safe 0 ls.length (readSteps n ls) := by
  unfold readSteps
  split
  · exact le_refl _
  · refine safe_then (safe_times (fun ls => ?_) _ ls) fun rows ls' h => ?_
    · exact safe_then (safe_next ls) fun _ ls1 (h : ls1.length + 1 ≤ _) =>
    safe_bind (noDiv_readRecord _ _) fun _ => safe_ok (by omega)
    · dsimp only
      split <;> exact safe_ok h

theorem safe_readInit (ls : List Str) : Safe 0 ls.length (readInit ls) := by
  refine safe_then (safe_next ls) fun line ls1 h1 => safe_bind (noDiv_readRecord _ _) fun d => ?_
  refine safe_then (k' := 1) ((safe_next ls1).mono (by omega)) fun line ls2 h2 => ?_
  dsimp only
  have := noDiv_readRecord Fmt.param5 line
  cases hr : readRecord Fmt.param5 line with
  | ok d' => exact safe_ok (by omega)
  | error e =>
    rw [hr] at this
    cases e <;> first | exact safe_ok (by omega) | exact safe_error (by simpa [NoDiv] using this)

theorem safe_readParam (ls : List Str) : Safe 0 ls.length (readParam ls) := by
  refine safe_then (safe_next ls) fun line ls1 h1 => safe_bind (noDiv_readRecord _ _) fun d1 => ?_
  refine safe_bind (noDiv_readDigits _) fun x => ?_
  refine safe_then (k' := 1) ((safe_next ls1).mono (by omega)) fun line ls2 h2 => ?_
  refine safe_bind (noDiv_readRecord _ _) fun d2 => ?_
  refine safe_bind (noDiv_intOf _) fun n => ?_
  refine safe_then (k' := 1) ((safe_readSteps n ls2).mono (by omega)) fun st ls3 h3 => ?_
  refine safe_then (k' := 1) ((safe_next ls3).mono (by omega)) fun line ls4 h4 => ?_
  refine safe_bind (noDiv_readRecord _ _) fun d4 => ?_
  refine safe_then (k' := 1) ((safe_readInit ls4).mono (by omega)) fun d5 ls5 h5 => ?_
  exact safe_ok (by omega)

theorem safe_readSelec (ls : List Str) : Safe 0 ls.length (readSelec ls) := by
  refine safe_then (safe_next ls) fun line ls1 h1 => safe_bind (noDiv_readRecord _ _) fun d => ?_
  refine safe_then (k' := 0) ((safe_times (fun ls => ?_) _ ls1).mono (by omega)) fun rows ls2 h2 => ?_
  · exact safe_then (safe_next ls) fun _ ls1 (h : ls1.length + 1 ≤ _) =>
    safe_bind (noDiv_readRecord _ _) fun _ => safe_ok (by omega)
  · dsimp only
    repeat' split
    all_goals first
      | exact safe_ok h2
      | exact safe_error (by simp)

theorem safe_readThird (fmt : List Tok) (stop : Str → Bool) (two : Bool) (ls : List Str) :
    match readThird fmt stop two ls with
    | .ok x => x.2.2.length ≤ ls.length
    | .error e => e ≠ .diverges := by
  unfold readThird
  cases two with
  | false => simp
  | true =>
    cases ls with
    | nil => simp
    | cons line ls' =>
      simp only [if_true, next_cons, ok_bind]
      have := noDiv_readRecord fmt line
      cases stop line with
      | true => simp
      | false =>
        simp only [Bool.false_eq_true, if_false]
        cases hr : readRecord fmt line with
        | ok d' => simp
        | error e =>
          rw [hr] at this
          cases e <;> first | exact absurd rfl this | simp

theorem safeTurn_third {σ : Type} {n : ℕ} {fmt : List Tok} {stop : Str → Bool} {two : Bool}
    {ls : List Str} {f : List Val × Bool × List Str → Except PyErr (Turn σ × List Str)}
    (hf : ∀ d two' ls', ls'.length ≤ ls.length → SafeTurn n (f (d, two', ls'))) :
    SafeTurn n (readThird fmt stop two ls >>= f) := by
  have := safe_readThird fmt stop two ls
  cases hr : readThird fmt stop two ls with
  | error e => rw [hr] at this; exact this
  | ok x => rw [hr] at this; exact hf x.1 x.2.1 x.2.2 this

theorem safe_indomStep (s : IndomState) (ls : List Str) : SafeTurn ls.length (indomStep s ls) := by
  refine safeTurn_then (safe_next ls) fun line ls1 h1 => ?_
  dsimp only
  split
  · show ls1.length ≤ ls.length; omega
  · refine safeTurn_bind (noDiv_readRecord _ _) fun d => ?_
    refine safeTurn_then (k := 1) ((safe_next ls1).mono (by omega)) fun line ls2 h2 => ?_
    refine safeTurn_bind (noDiv_readRecord _ _) fun d => ?_
    refine safeTurn_third fun d' two ls3 (h3 : ls3.length ≤ ls2.length) => ?_
    show ls3.length + 1 ≤ ls.length
    omega

theorem safe_readIndom (ls : List Str) : Safe 0 ls.length (readIndom ls) :=
  safe_then (safe_whileTrue safe_indomStep _ ls) fun _ _ h => safe_ok h

theorem safe_readTable (fmt : List Tok) (n : ℤ) (acc : List Val) (ls : List Str) :
    Safe 0 ls.length (readTable fmt n acc ls) := by
  induction ls generalizing acc with
  | nil =>
    rw [readTable]
    split
    · exact safe_error (by simp)
    · exact le_refl _
  | cons l ls ih =>
    rw [readTable]
    split
    · have := noDiv_readRecord fmt l
      cases hr : readRecord fmt l with
      | error e => rw [hr] at this; exact safe_error (by simpa [NoDiv] using this)
      | ok d => exact (ih _).mono (by simp)
    · exact le_refl _

theorem safe_readTimes (ls : List Str) : Safe 0 ls.length (readTimes ls) := by
  refine safe_then (safe_next ls) fun line ls1 h1 => safe_bind (noDiv_readRecord _ _) fun d => ?_
  split
  · refine safe_then (k' := 0) ((safe_readTable _ _ _ ls1).mono (by omega)) fun t ls2 h2 => ?_
    dsimp only
    split
    · split
      · exact safe_ok h2
      · exact safe_error (by simp)
    · exact safe_ok h2
  · exact safe_error (by simp)

theorem safe_readOft (ls : List Str) : Safe 0 ls.length (readOft ls) := by
  refine safe_whileTrue (fun s ls => ?_) _ ls
  refine safeTurn_then (safe_next ls) fun line ls1 h1 => ?_
  dsimp only
  split
  · show ls1.length ≤ ls.length; omega
  · exact h1

theorem safe_readDiffu (ls : List Str) : Safe 0 ls.length (readDiffu ls) := by
  refine safe_whileTrue (fun s ls => ?_) _ ls
  refine safeTurn_then (safe_next ls) fun line ls1 h1 => ?_
  dsimp only
  split
  · show ls1.length ≤ ls.length; omega
  · have := noDiv_readRecord Fmt.diffu line
    cases hr : readRecord Fmt.diffu line with
    | ok d' => exact h1
    | error e =>
      rw [hr] at this
      cases e <;> first | exact absurd rfl this | exact le_refl _ | exact fun h => by cases h

theorem safe_outpuVars (n : ℕ) (s : List (Str × List (List Val))) (ls : List Str) :
    Safe 0 ls.length (outpuVars n s ls) := by
  induction n generalizing s ls with
  | zero => exact le_refl _
  | succ n ih =>
    refine safe_then (k' := 0) ?_ fun x ls1 h1 => (ih x ls1).mono (by omega)
    refine safe_then (safe_next ls) fun line ls1 h1 => safe_bind (noDiv_readRecord _ _) fun d => ?_
    split
    · exact safe_ok (by omega)
    · exact safe_error (by simp)

theorem safe_readFormat (ls : List Str) :
    match readFormat ls with
    | .ok x => x.2.2.length ≤ ls.length
    | .error e => e ≠ .diverges := by
  unfold readFormat
  cases ls with
  | nil => simp
  | cons l ls =>
    simp only [next_cons, ok_bind]
    by_cases h : strip l ≠ [] ∧ strIsDigit (strip l) = false
    · rw [if_pos h]
      cases ls with
      | nil => simp
      | cons l ls => simp [ok_bind]; omega
    · rw [if_neg h]
      simp

theorem safe_readOutpu (ls : List Str) : Safe 0 ls.length (readOutpu ls) := by
  have := safe_readFormat ls
  unfold readOutpu
  cases hr : readFormat ls with
  | error e => rw [hr] at this; exact this
  | ok x =>
    obtain ⟨f, line, ls1⟩ := x
    rw [hr] at this
    have h1 : ls1.length ≤ ls.length := this
    simp only [ok_bind]
    split
    · refine safe_then (k' := 0) ((safe_outpuVars _ _ ls1).mono (by omega)) fun s ls2 h2 => ?_
      exact safe_ok h2
    · exact safe_ok (by omega)

theorem safe_readTables (d : List Val) (ls : List Str) : Safe 0 ls.length (readTables d ls) := by
  unfold readTables
  split
  · refine safe_then (safe_readTable _ _ _ ls) fun t ls1 h1 => ?_
    refine safe_then (k' := 0) ((safe_readTable _ _ _ ls1).mono (by omega)) fun r ls2 h2 => ?_
    dsimp only
    split
    · refine safe_then (k' := 0) ((safe_readTable _ _ _ ls2).mono (by omega)) fun r ls3 h3 => ?_
      exact safe_ok h3
    · exact safe_ok h2
  · exact le_refl _

theorem noDiv_addGen (s : List (Val × GenAcc)) (k : Val) (t : GenAcc) : NoDiv (addGen s k t) := by
  unfold addGen
  split
  · refine noDiv_bind ?_ fun _ => noDiv_ok _
    refine noDiv_bind ?_ fun _ => noDiv_ok _
    unfold mergeEnthalpy
    split <;> first | exact noDiv_ok _ | exact noDiv_error (by simp)
  · exact noDiv_ok _

theorem safe_generStep {fmt : Except PyErr (List Tok)} (hf : NoDiv fmt) (s : List (Val × GenAcc))
    (ls : List Str) : SafeTurn ls.length (generStep fmt s ls) := by
  refine safeTurn_then (safe_next ls) fun line ls1 h1 => ?_
  dsimp only
  split
  · show ls1.length ≤ ls.length; omega
  · refine safeTurn_bind hf fun f => safeTurn_bind (noDiv_readRecord _ _) fun d => ?_
    refine safeTurn_then (k := 1) ((safe_readTables d ls1).mono (by omega)) fun x ls2 h2 => ?_
    exact safeTurn_bind (noDiv_addGen _ _ _) fun s => h2

theorem safe_readGener (given : Option ℕ) (ls : List Str) :
    Safe 0 ls.length (readGener given ls) := by
  refine safe_bind (safe_next ls).noDiv fun x => ?_
  exact safe_then (safe_whileTrue (safe_generStep (noDiv_formatFor _ _)) _ ls) fun _ _ h => safe_ok h

theorem noDiv_elemOf (d : List Val) : NoDiv (elemOf d) := by
  refine noDiv_bind ?_ fun _ => noDiv_ok _
  unfold readMaterial
  split
  · dsimp only
    split
    · split
      · exact noDiv_ok _
      · exact noDiv_error (by simp)
    · exact noDiv_ok _
  · exact noDiv_error (by simp)

theorem safe_readEleme (given : Option ℕ) (ls : List Str) :
    Safe 0 ls.length (readEleme given ls) := by
  refine safe_bind (safe_next ls).noDiv fun x => safe_whileTrue (fun s ls => ?_) _ ls
  refine safeTurn_then (safe_next ls) fun line ls1 h1 => ?_
  dsimp only
  split
  · show ls1.length ≤ ls.length; omega
  · refine safeTurn_bind (noDiv_formatFor _ _) fun f => ?_
    exact safeTurn_bind (noDiv_readRecord _ _) fun d => safeTurn_bind (noDiv_elemOf _) fun e => h1

theorem safe_readCoord (ls : List Str) : Safe 0 ls.length (readCoord ls) := by
  refine safe_whileTrue (fun s ls => ?_) _ ls
  refine safeTurn_then (safe_next ls) fun line ls1 h1 => ?_
  dsimp only
  split
  · show ls1.length ≤ ls.length; omega
  · exact safeTurn_bind (noDiv_readRecord _ _) fun d => h1

theorem safe_readConne (given : Option ℕ) (ls : List Str) :
    Safe 0 ls.length (readConne given ls) := by
  refine safe_bind (safe_next ls).noDiv fun x => safe_whileTrue (fun s ls => ?_) _ ls
  refine safeTurn_then (safe_next ls) fun line ls1 h1 => ?_
  dsimp only
  split
  · show ls1.length ≤ ls.length; omega
  · refine safeTurn_bind (noDiv_formatFor _ _) fun f => ?_
    exact safeTurn_bind (noDiv_readRecord _ _) fun d => h1

theorem safe_readIncon (given : Option ℕ) (ls : List Str) :
    Safe 0 ls.length (readIncon given ls) := by
  refine safe_bind (safe_next ls).noDiv fun x => ?_
  refine safe_then (safe_whileTrue (fun s ls => ?_) _ ls) fun _ _ h => safe_ok h
  refine safeTurn_then (safe_next ls) fun line ls1 h1 => ?_
  dsimp only
  split
  · show ls1.length ≤ ls.length; omega
  · refine safeTurn_bind (noDiv_formatFor _ _) fun f => ?_
    refine safeTurn_bind (noDiv_readRecord _ _) fun d => ?_
    refine safeTurn_then (k := 1) ((safe_next ls1).mono (by omega)) fun line ls2 h2 => ?_
    refine safeTurn_bind (noDiv_readRecord _ _) fun d => ?_
    refine safeTurn_third fun d' two ls3 (h3 : ls3.length ≤ ls2.length) => ?_
    show ls3.length + 1 ≤ ls.length
    omega

theorem noDiv_updateRows {β υ : Type} (f : β → υ → β) (us : List (Val × υ)) (d : List (Val × β)) :
    NoDiv (updateRows f d us) := by
  induction us generalizing d with
  | nil => exact noDiv_ok _
  | cons u us ih =>
    rw [updateRows]
    exact noDiv_bind (noDiv_dictGet _ _) fun b => ih _

theorem noDiv_setCenters (us : List (Val × List Val)) (d : List (Val × Elem)) :
    NoDiv (setCenters d us) := by
  induction us generalizing d with
  | nil => exact noDiv_ok _
  | cons u us ih =>
    rw [setCenters]
    exact noDiv_bind (noDiv_dictGet _ _) fun b => ih _

theorem noDiv_getKey {α : Type} (x : Option α) : NoDiv (getKey x) := by
  cases x with
  | none => exact noDiv_error (by simp)
  | some a => exact noDiv_ok _

theorem safe_store {α : Type} {n : ℕ} {r : Except PyErr (α × List Str)} {f : α → FileRead}
    (h : Safe 0 n r) : Safe 0 n (store r f) :=
  safe_then h fun _ _ h => safe_ok h

theorem safe_caseRpcap (s : FileRead) (ls : List Str) : Safe 0 ls.length (caseRpcap s ls) :=
  safe_then (safe_readRpcap ls) fun _ _ h => safe_ok (by omega)

theorem safe_caseFlac (s : FileRead) (ls : List Str) : Safe 0 ls.length (caseFlac s ls) := by
  refine safe_bind (noDiv_getKey _) fun x => ?_
  refine safe_then (safe_readFlac _ ls) fun y ls1 h1 => ?_
  exact safe_bind (noDiv_updateRows _ _ _) fun _ => safe_ok h1

theorem safe_caseParam (s : FileRead) (ls : List Str) : Safe 0 ls.length (caseParam s ls) :=
  safe_then (safe_readParam ls) fun _ _ h => safe_ok h

theorem safe_caseIndom (s : FileRead) (ls : List Str) : Safe 0 ls.length (caseIndom s ls) := by
  refine safe_then (safe_readIndom ls) fun y ls1 h1 => ?_
  refine safe_bind ?_ fun _ => safe_ok h1
  unfold indomUpdate
  split
  · exact noDiv_ok _
  · refine noDiv_bind (noDiv_getKey _) fun x => ?_
    exact noDiv_bind (noDiv_updateRows _ _ _) fun _ => noDiv_ok _

theorem safe_caseCoord (s : FileRead) (ls : List Str) : Safe 0 ls.length (caseCoord s ls) := by
  refine safe_then (safe_readCoord ls) fun y ls1 h1 => ?_
  refine safe_bind (noDiv_getKey _) fun x => ?_
  exact safe_bind (noDiv_setCenters _ _) fun _ => safe_ok h1

theorem safe_ite {α : Type} {k n : ℕ} {b : Prop} [Decidable b]
    {x y : Except PyErr (α × List Str)} (hx : Safe k n x) (hy : Safe k n y) :
    Safe k n (if b then x else y) := by
  split
  · exact hx
  · exact hy

theorem safe_dispatch (given : Option ℕ) (s : FileRead) (line : Str) (ls : List Str) :
    Safe 0 ls.length (dispatch given s line ls) := by
  unfold dispatch
  dsimp only
  repeat' refine safe_ite ?_ ?_
  all_goals first
    | exact safe_ok (le_refl _)
    | exact safe_caseRpcap s ls
    | exact safe_caseFlac s ls
    | exact safe_caseParam s ls
    | exact safe_caseIndom s ls
    | exact safe_caseCoord s ls
    | exact safe_store (safe_readRocks ls)
    | exact safe_store (safe_readMulti ls)
    | exact safe_store (safe_readSolvr ls)
    | exact safe_store (safe_readSelec ls)
    | exact safe_store (safe_readMomop ls)
    | exact safe_store (safe_readTimes ls)
    | exact safe_store (safe_readOft ls)
    | exact safe_store (safe_readGener given ls)
    | exact safe_store (safe_readDiffu ls)
    | exact safe_store (safe_readOutpu ls)
    | exact safe_store (safe_readEleme given ls)
    | exact safe_store (safe_readConne given ls)
    | exact safe_store (safe_readIncon given ls)

theorem safe_fileStep (given : Option ℕ) (s : FileRead) (ls : List Str) :
    SafeTurn ls.length (fileStep given s ls) := by
  cases ls with
  | nil => exact le_refl _
  | cons line ls =>
    rw [fileStep]
    split
    · show ls.length ≤ ls.length + 1; omega
    · exact safeTurn_then (k := 1) ((safe_dispatch given s line ls).mono (by simp; omega))
        fun x ls' h => h

/-- The blocks of a file are always read in finitely many turns. -/
theorem noDiv_blocks (given : Option ℕ) (s : FileRead) (ls : List Str) :
    NoDiv (whileTrue (fileStep given) s ls) :=
  (safe_whileTrue (safe_fileStep given) s ls).noDiv

end Verif.Model
