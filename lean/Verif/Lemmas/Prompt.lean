import Verif.Lemmas.File
import Verif.Lemmas.Layout

/-! Helper lemmas: what a reader returns does not depend on lines it has not reached. -/

namespace Verif.Model
open Verif.Py Verif.Spec

/-- The same outcome with more lines left. -/
def extend {α : Type} (b : List Str) (r : Except PyErr (α × List Str)) : Except PyErr (α × List Str) :=
  match r with
  | .ok x => .ok (x.1, x.2 ++ b)
  | .error e => .error e

/-- The first outcome is the end of the file, or the second is the same with more lines left. -/
def Pr {α : Type} (b : List Str) (r r' : Except PyErr (α × List Str)) : Prop :=
  r = .error .stopIteration ∨ r' = extend b r

variable {α β σ : Type} {b : List Str}

theorem pr_ok (x : α) (ls : List Str) : Pr b (.ok (x, ls)) (.ok (x, ls ++ b)) := .inr rfl

theorem pr_error (e : PyErr) : Pr b (.error e : Except PyErr (α × List Str)) (.error e) := .inr rfl

theorem pr_bind {r r' : Except PyErr (α × List Str)} {f f' : α × List Str → Except PyErr (β × List Str)} (h : Pr b r r')
    (hf : ∀ x ls, Pr b (f (x, ls)) (f' (x, ls ++ b))) : Pr b (r >>= f) (r' >>= f') := by
  rcases h with rfl | rfl
  · exact .inl rfl
  · cases r with
    | error e => exact .inr rfl
    | ok x => exact hf x.1 x.2

theorem pr_then {a : Except PyErr α} {f f' : α → Except PyErr (β × List Str)} (hf : ∀ x, Pr b (f x) (f' x)) :
    Pr b (a >>= f) (a >>= f') := by
  cases a with
  | error e => exact .inr rfl
  | ok x => exact hf x

theorem pr_next (ls : List Str) : Pr b (next ls) (next (ls ++ b)) := by
  cases ls with
  | nil => exact .inl rfl
  | cons l ls => exact .inr rfl

theorem pr_ite {p : Prop} [Decidable p] {x y x' y' : Except PyErr (α × List Str)} (hx : Pr b x x') (hy : Pr b y y') :
    Pr b (if p then x else y) (if p then x' else y') := by
  split
  · exact hx
  · exact hy

theorem pr_loop {step : σ → List Str → Except PyErr (Turn σ × List Str)} (h : ∀ s ls, Pr b (step s ls) (step s (ls ++ b)))
    (n : ℕ) (s : σ) (ls : List Str) : Pr b (loop step n s ls) (loop step n s (ls ++ b)) := by
  induction n generalizing s ls with
  | zero => exact pr_error _
  | succ n ih =>
    rw [loop, loop]
    rcases h s ls with h1 | h1
    · rw [h1]
      exact .inl rfl
    · rw [h1]
      cases step s ls with
      | error e => exact pr_error _
      | ok x =>
        obtain ⟨t, ls'⟩ := x
        cases t with
        | stop s' => exact pr_ok _ _
        | more s' => exact ih s' ls'

theorem loop_more_fuel {step : σ → List Str → Except PyErr (Turn σ × List Str)} {n : ℕ} {s : σ} {ls : List Str}
    (h : NoDiv (loop step n s ls)) (k : ℕ) : loop step (n + k) s ls = loop step n s ls := by
  induction n generalizing s ls with
  | zero => exact absurd rfl h
  | succ n ih =>
    rw [show n + 1 + k = (n + k) + 1 by omega, loop, loop]
    rw [loop] at h
    cases hs : step s ls with
    | error e => rfl
    | ok x =>
      obtain ⟨t, ls'⟩ := x
      rw [hs] at h
      cases t with
      | stop s' => rfl
      | more s' => exact ih h

theorem pr_while {step : σ → List Str → Except PyErr (Turn σ × List Str)} {s : σ} {ls : List Str}
    (h : ∀ s ls, Pr b (step s ls) (step s (ls ++ b))) (hn : NoDiv (whileTrue step s ls)) :
    Pr b (whileTrue step s ls) (whileTrue step s (ls ++ b)) := by
  unfold whileTrue at hn ⊢
  rw [← loop_more_fuel hn b.length, show (ls ++ b).length + 1 = ls.length + 1 + b.length by simp; omega]
  exact pr_loop h _ s ls

theorem noDiv_of_bind {a : Except PyErr α} {f : α → Except PyErr β} (h : NoDiv (a >>= f)) : NoDiv a := by
  rintro rfl
  exact h rfl

theorem pr_times {body : List Str → Except PyErr (α × List Str)} (h : ∀ ls, Pr b (body ls) (body (ls ++ b))) (n : ℕ) (ls : List Str) :
    Pr b (times body n ls) (times body n (ls ++ b)) := by
  induction n generalizing ls with
  | zero => exact pr_ok _ _
  | succ n ih => exact pr_bind (h ls) fun x ls' => pr_bind (ih ls') fun y ls'' => pr_ok _ _

theorem pr_readTable (fmt : List Tok) (n : ℤ) (acc : List Val) (ls : List Str) :
    Pr b (readTable fmt n acc ls) (readTable fmt n acc (ls ++ b)) := by
  induction ls generalizing acc with
  | nil =>
    rw [readTable.eq_def]
    dsimp only
    split
    · exact .inl rfl
    · rename_i h
      right
      cases b with
      | nil => rw [List.nil_append, readTable, if_neg h]; rfl
      | cons l b => rw [List.nil_append, readTable, if_neg h]; rfl
  | cons l ls ih =>
    rw [List.cons_append, readTable, readTable]
    split
    · cases readRecord fmt l with
      | error e => exact pr_error _
      | ok d => exact ih _
    · exact pr_ok _ (l :: ls)

theorem pr_readThird (fmt : List Tok) (stop : Str → Bool) (two : Bool) (ls : List Str) {f f' : List Val × Bool × List Str → Except PyErr (β × List Str)}
    (hf : ∀ d t ls, Pr b (f (d, t, ls)) (f' (d, t, ls ++ b))) :
    Pr b (readThird fmt stop two ls >>= f) (readThird fmt stop two (ls ++ b) >>= f') := by
  unfold readThird
  cases two with
  | false => exact hf _ _ _
  | true =>
    simp only [if_true]
    cases ls with
    | nil => exact .inl rfl
    | cons l ls =>
      simp only [List.cons_append, next, ok_bind]
      split
      · exact hf _ _ (l :: ls)
      · cases readRecord fmt l with
        | ok d => exact hf _ _ _
        | error e =>
          cases e
          case valueError => exact hf _ _ (l :: ls)
          all_goals exact pr_error _

/-! ### the blocks -/

theorem pr_readMod (ls : List Str) : Pr b (readMod ls) (readMod (ls ++ b)) :=
  pr_bind (pr_next ls) fun _ _ => pr_then fun _ => pr_ok _ _

theorem pr_readRpcap (ls : List Str) : Pr b (readRpcap ls) (readRpcap (ls ++ b)) :=
  pr_bind (pr_readMod ls) fun _ _ => pr_bind (pr_readMod _) fun _ _ => pr_ok _ _

theorem pr_readRocks (ls : List Str) : Pr b (readRocks ls) (readRocks (ls ++ b)) := by
  refine pr_while (fun s ls => ?_) (safe_readRocks ls).noDiv
  unfold rockStep
  refine pr_bind (pr_next ls) fun line ls => ?_
  dsimp only
  refine pr_ite (pr_ok _ _) ?_
  refine pr_then fun d => ?_
  refine pr_ite (pr_bind (pr_next _) fun _ _ => pr_then fun _ => ?_) ?_
  all_goals exact pr_ite (pr_bind (pr_readRpcap _) fun _ _ => pr_ok _ _) (pr_ok _ _)

theorem pr_readFlacRocks (ks : List Val) (acc : List (Val × (Mod × Mod))) (ls : List Str) :
    Pr b (readFlacRocks ks acc ls) (readFlacRocks ks acc (ls ++ b)) := by
  induction ks generalizing acc ls with
  | nil => exact pr_ok _ _
  | cons k ks ih =>
    exact pr_bind (pr_next ls) fun _ _ => pr_then fun _ => pr_bind (pr_next _) fun _ _ => pr_then fun _ => ih _ _

theorem pr_readFlac (order : List Val) (ls : List Str) : Pr b (readFlac order ls) (readFlac order (ls ++ b)) :=
  pr_bind (pr_next ls) fun _ _ => pr_then fun _ => pr_bind (pr_readFlacRocks _ _ _) fun _ _ => pr_ok _ _

theorem pr_readMulti (ls : List Str) : Pr b (readMulti ls) (readMulti (ls ++ b)) :=
  pr_bind (pr_next ls) fun _ _ => pr_then fun _ => pr_ok _ _

theorem pr_readSolvr (ls : List Str) : Pr b (readSolvr ls) (readSolvr (ls ++ b)) :=
  pr_bind (pr_next ls) fun _ _ => pr_then fun _ => pr_ok _ _

theorem pr_readSteps (n : ℤ) (ls : List Str) : Pr b (readSteps n ls) (readSteps n (ls ++ b)) := by
  unfold readSteps
  refine pr_ite (pr_ok _ _) ?_
  refine pr_bind (pr_times (fun ls => pr_bind (pr_next ls) fun _ _ => pr_then fun _ => pr_ok _ _) _ ls) fun rows ls => ?_
  dsimp only
  split <;> exact pr_ok _ _

theorem pr_readInit (ls : List Str) : Pr b (readInit ls) (readInit (ls ++ b)) := by
  refine pr_bind (pr_next ls) fun line ls => pr_then fun d => ?_
  cases ls with
  | nil => exact .inl rfl
  | cons l ls =>
    show Pr b (match readRecord Fmt.param5 l with | .ok d' => .ok (d ++ d', ls) | .error .valueError => .ok (d, l :: ls) | .error e => .error e)
      (match readRecord Fmt.param5 l with | .ok d' => .ok (d ++ d', ls ++ b) | .error .valueError => .ok (d, l :: (ls ++ b)) | .error e => .error e)
    cases readRecord Fmt.param5 l with
    | ok d => exact pr_ok _ _
    | error e =>
      cases e
      case valueError => exact pr_ok _ (l :: ls)
      all_goals exact pr_error _

theorem pr_readParam (ls : List Str) : Pr b (readParam ls) (readParam (ls ++ b)) :=
  pr_bind (pr_next ls) fun _ _ => pr_then fun _ => pr_then fun _ => pr_bind (pr_next _) fun _ _ => pr_then fun _ =>
    pr_then fun _ => pr_bind (pr_readSteps _ _) fun _ _ => pr_bind (pr_next _) fun _ _ => pr_then fun _ =>
    pr_bind (pr_readInit _) fun _ _ => pr_ok _ _

theorem pr_readSelec (ls : List Str) : Pr b (readSelec ls) (readSelec (ls ++ b)) := by
  refine pr_bind (pr_next ls) fun line ls => pr_then fun d => ?_
  refine pr_bind (pr_times (fun ls => pr_bind (pr_next ls) fun _ _ => pr_then fun _ => pr_ok _ _) _ ls) fun rows ls => ?_
  dsimp only
  refine pr_ite (pr_error _) (pr_ite ?_ (pr_ite (pr_ok _ _) (pr_ok _ _)))
  split
  · exact pr_ok _ _
  · exact pr_error _

theorem pr_readIndom (ls : List Str) : Pr b (readIndom ls) (readIndom (ls ++ b)) := by
  refine pr_bind (pr_while (fun s ls => ?_) (noDiv_of_bind (safe_readIndom ls).noDiv)) fun _ _ => pr_ok _ _
  refine pr_bind (pr_next ls) fun line ls => pr_ite (pr_ok _ _) (pr_then fun d => pr_bind (pr_next ls) fun line ls =>
    pr_then fun d => pr_readThird _ _ _ _ fun _ _ _ => pr_ok _ _)

theorem pr_readMomop (ls : List Str) : Pr b (readMomop ls) (readMomop (ls ++ b)) :=
  pr_bind (pr_next ls) fun _ _ => pr_then fun _ => pr_then fun _ => pr_ok _ _

theorem pr_readTimes (ls : List Str) : Pr b (readTimes ls) (readTimes (ls ++ b)) := by
  refine pr_bind (pr_next ls) fun line ls => pr_then fun d => ?_
  dsimp only
  split
  · refine pr_bind (pr_readTable _ _ _ _) fun t ls => pr_ite ?_ (pr_ok _ _)
    dsimp only
    split
    · exact pr_ok _ _
    · exact pr_error _
  · exact pr_error _

theorem pr_readOft (ls : List Str) : Pr b (readOft ls) (readOft (ls ++ b)) :=
  pr_while (fun _ ls => pr_bind (pr_next ls) fun _ _ => pr_ite (pr_ok _ _) (pr_ok _ _)) (safe_readOft ls).noDiv

theorem pr_readTables (d : List Val) (ls : List Str) : Pr b (readTables d ls) (readTables d (ls ++ b)) := by
  unfold readTables
  split
  · exact pr_bind (pr_readTable _ _ _ _) fun _ _ => pr_bind (pr_readTable _ _ _ _) fun _ _ =>
      pr_ite (pr_bind (pr_readTable _ _ _ _) fun _ _ => pr_ok _ _) (pr_ok _ _)
  · exact pr_ok _ _

theorem pr_readGener (given : Option ℕ) (ls : List Str) : Pr b (readGener given ls) (readGener given (ls ++ b)) := by
  cases ls with
  | nil => exact .inl rfl
  | cons l ls =>
    have hn := (safe_readGener given (l :: ls)).noDiv
    unfold readGener at hn ⊢
    simp only [List.cons_append, next, ok_bind] at hn ⊢
    refine pr_bind (pr_while (ls := l :: ls) (fun s ls => ?_) (noDiv_of_bind hn)) fun _ _ => pr_ok _ _
    exact pr_bind (pr_next ls) fun _ _ => pr_ite (pr_ok _ _) (pr_then fun _ => pr_then fun _ =>
      pr_bind (pr_readTables _ _) fun _ _ => pr_then fun _ => pr_ok _ _)

theorem pr_readDiffu (ls : List Str) : Pr b (readDiffu ls) (readDiffu (ls ++ b)) := by
  refine pr_while (fun s ls => ?_) (safe_readDiffu ls).noDiv
  cases ls with
  | nil => exact .inl rfl
  | cons l ls =>
    unfold diffuStep
    simp only [List.cons_append, next, ok_bind]
    refine pr_ite (pr_ok _ _) ?_
    cases readRecord Fmt.diffu l with
    | ok d => exact pr_ok _ _
    | error e =>
      cases e
      case valueError => exact pr_ok _ (l :: ls)
      all_goals exact pr_error _

theorem pr_outpuVars (n : ℕ) (s : List (Str × List (List Val))) (ls : List Str) :
    Pr b (outpuVars n s ls) (outpuVars n s (ls ++ b)) := by
  induction n generalizing s ls with
  | zero => exact pr_ok _ _
  | succ n ih =>
    refine pr_bind (pr_bind (pr_next ls) fun line ls => pr_then fun d => ?_) fun _ _ => ih _ _
    split
    · exact pr_ok _ _
    · exact pr_error _

theorem pr_readOutpu (ls : List Str) : Pr b (readOutpu ls) (readOutpu (ls ++ b)) := by
  have hd : ∀ (f : Option Str) (line : Str) (ls : List Str),
      Pr b (if strIsDigit line = true then (outpuVars (digVal line) [] ls >>= fun x =>
          Except.ok ((⟨f, some (x.1.map fun e => (e.1, argsOf e.2))⟩ : OutpuRead), x.2)) else .ok (⟨f, none⟩, ls))
        (if strIsDigit line = true then (outpuVars (digVal line) [] (ls ++ b) >>= fun x =>
          Except.ok ((⟨f, some (x.1.map fun e => (e.1, argsOf e.2))⟩ : OutpuRead), x.2)) else .ok (⟨f, none⟩, ls ++ b)) :=
    fun f line ls => pr_ite (pr_bind (pr_outpuVars _ _ _) fun _ _ => pr_ok _ _) (pr_ok _ _)
  cases ls with
  | nil => exact .inl rfl
  | cons l ls =>
    unfold readOutpu readFormat
    simp only [List.cons_append, next, ok_bind]
    by_cases h : strip l ≠ [] ∧ strIsDigit (strip l) = false
    · simp only [if_pos h]
      cases ls with
      | nil => exact .inl rfl
      | cons l' ls => exact hd _ _ ls
    · simp only [if_neg h]
      exact hd _ _ ls

theorem pr_readEleme (given : Option ℕ) (ls : List Str) : Pr b (readEleme given ls) (readEleme given (ls ++ b)) := by
  cases ls with
  | nil => exact .inl rfl
  | cons l ls =>
    have hn := (safe_readEleme given (l :: ls)).noDiv
    refine pr_while (ls := l :: ls) (fun s ls => ?_) hn
    exact pr_bind (pr_next ls) fun _ _ => pr_ite (pr_ok _ _) (pr_then fun _ => pr_then fun _ => pr_then fun _ => pr_ok _ _)

theorem pr_readCoord (ls : List Str) : Pr b (readCoord ls) (readCoord (ls ++ b)) :=
  pr_while (fun _ ls => pr_bind (pr_next ls) fun _ _ => pr_ite (pr_ok _ _) (pr_then fun _ => pr_ok _ _)) (safe_readCoord ls).noDiv

theorem pr_readConne (given : Option ℕ) (ls : List Str) : Pr b (readConne given ls) (readConne given (ls ++ b)) := by
  cases ls with
  | nil => exact .inl rfl
  | cons l ls =>
    have hn := (safe_readConne given (l :: ls)).noDiv
    refine pr_while (ls := l :: ls) (fun s ls => ?_) hn
    exact pr_bind (pr_next ls) fun _ _ => pr_ite (pr_ok _ _) (pr_then fun _ => pr_then fun _ => pr_ok _ _)

theorem pr_readIncon (given : Option ℕ) (ls : List Str) : Pr b (readIncon given ls) (readIncon given (ls ++ b)) := by
  cases ls with
  | nil => exact .inl rfl
  | cons l ls =>
    have hn := (safe_readIncon given (l :: ls)).noDiv
    unfold readIncon at hn ⊢
    simp only [List.cons_append, next, ok_bind] at hn ⊢
    refine pr_bind (pr_while (ls := l :: ls) (fun s ls => ?_) (noDiv_of_bind hn)) fun _ _ => pr_ok _ _
    exact pr_bind (pr_next ls) fun _ _ => pr_ite (pr_ok _ _) (pr_then fun _ => pr_then fun _ =>
      pr_bind (pr_next _) fun _ _ => pr_then fun _ => pr_readThird _ _ _ _ fun _ _ _ => pr_ok _ _)

theorem pr_store {r r' : Except PyErr (α × List Str)} (h : Pr b r r') (f : α → FileRead) : Pr b (store r f) (store r' f) :=
  pr_bind h fun _ _ => pr_ok _ _

theorem pr_dispatch (given : Option ℕ) (s : FileRead) (line : Str) (ls : List Str) :
    Pr b (dispatch given s line ls) (dispatch given s line (ls ++ b)) := by
  unfold dispatch
  dsimp only
  repeat' refine pr_ite ?_ ?_
  all_goals first
    | exact pr_ok _ _
    | exact pr_bind (pr_readRpcap ls) fun _ _ => pr_ok _ _
    | exact pr_then fun _ => pr_bind (pr_readFlac _ ls) fun _ _ => pr_then fun _ => pr_ok _ _
    | exact pr_bind (pr_readParam ls) fun _ _ => pr_ok _ _
    | exact pr_bind (pr_readIndom ls) fun _ _ => pr_then fun _ => pr_ok _ _
    | exact pr_bind (pr_readCoord ls) fun _ _ => pr_then fun _ => pr_then fun _ => pr_ok _ _
    | exact pr_store (pr_readRocks ls) _
    | exact pr_store (pr_readMulti ls) _
    | exact pr_store (pr_readSolvr ls) _
    | exact pr_store (pr_readSelec ls) _
    | exact pr_store (pr_readMomop ls) _
    | exact pr_store (pr_readTimes ls) _
    | exact pr_store (pr_readOft ls) _
    | exact pr_store (pr_readGener given ls) _
    | exact pr_store (pr_readDiffu ls) _
    | exact pr_store (pr_readOutpu ls) _
    | exact pr_store (pr_readEleme given ls) _
    | exact pr_store (pr_readConne given ls) _
    | exact pr_store (pr_readIncon given ls) _

end Verif.Model
