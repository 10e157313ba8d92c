import Verif.Seq.Base
/-!
# File operations and programs over them

The record parsers of `parsers.py` talk to the input file only through a handful of methods
(`read_stringrec`, `read_headerrec`, `read_floatrec`, `read_floats`, `skip_restofrecord`,
`at_headerrec`).  `Op` lists these calls, `Prog` is a program that makes such calls, `Reader` is
an implementation of the calls on some file state.  Writing the parsers as `Prog` makes them
independent of the kind of file, as in the Python code (duck typing).
-/

namespace Verif.Seq

/-- what the caller does with the result of `read_stringrec()`:
`raw`: uses it as is (parsers.py:628), `strip`: `.strip()` (parsers.py:725),
`name`: `.strip()` and, for bytes, `.decode()` (parsers.py:716-721) -/
inductive LineMode where
  | raw | strip | name
  deriving DecidableEq, Repr

/-- the calls of file methods made by the parsers -/
inductive Op where
  | line (m : LineMode)                              -- read_stringrec()
  | header                                           -- read_headerrec()
  | floatrec (skip : Nat)                            -- read_floatrec(skipfirst)
  | floats (n : Int) (skip : Nat)                    -- read_floats(n, skipfirst)
  | skip (name : String) (rec : List PyF)            -- skip_restofrecord(rec_name, rec)
  | atHeader                                         -- at_headerrec()

/-- result type of a call; byte strings are given as text through `latin1` -/
@[reducible] def Op.Res : Op → Type
  | .line _ => Str
  | .header => String × List PyF
  | .floatrec _ => List PyF
  | .floats _ _ => List PyF
  | .skip _ _ => String × List PyF
  | .atHeader => Bool

/-- an implementation of the file methods on states `σ` -/
structure Reader (σ : Type) where
  step : (o : Op) → σ → Except Err (o.Res × σ)

/-- programs calling file methods -/
inductive Prog (α : Type) : Type where
  | ret (a : α)
  | fail (e : Err)
  | op (o : Op) (k : o.Res → Prog α)

namespace Prog

/-- sequencing -/
def bind {α β : Type} : Prog α → (α → Prog β) → Prog β
  | ret a, f => f a
  | fail e, _ => fail e
  | op o k, f => op o (fun r => bind (k r) f)

instance : Monad Prog where
  pure := ret
  bind := bind

/-- raise the exception of a computation that does not touch the file -/
def lift {α : Type} : Except Err α → Prog α
  | .ok a => ret a
  | .error e => fail e

/-- a single call -/
def call (o : Op) : Prog o.Res := op o ret

/-- run a program on a file -/
def run {σ α : Type} (R : Reader σ) : Prog α → σ → Except Err (α × σ)
  | ret a, s => .ok (a, s)
  | fail e, _ => .error e
  | op o k, s =>
    match R.step o s with
    | .error e => .error e
    | .ok (r, s') => run R (k r) s'

/-- `[f() for _ in range(n)]` -/
def times {α : Type} (p : Prog α) : Nat → Prog (List α)
  | 0 => ret []
  | n + 1 => bind p fun a => bind (times p n) fun as => ret (a :: as)

end Prog

/-! ### the calls with readable names -/

/-- `in_file.read_stringrec()` -/
def line (m : LineMode) : Prog Str := Prog.call (.line m)
/-- `in_file.read_headerrec()` -/
def header : Prog (String × List PyF) := Prog.call .header
/-- `in_file.read_floatrec(skipfirst)` -/
def floatrec (skip : Nat) : Prog (List PyF) := Prog.call (.floatrec skip)
/-- `in_file.read_floats(n, skipfirst)` -/
def floats (n : Int) (skip : Nat := 0) : Prog (List PyF) := Prog.call (.floats n skip)
/-- `in_file.skip_restofrecord(rec_name, rec)` -/
def skipRest (name : String) (rec : List PyF) : Prog (String × List PyF) :=
  Prog.call (.skip name rec)
/-- `in_file.at_headerrec()` -/
def atHeader : Prog Bool := Prog.call .atHeader

/-! ### simulation between two implementations -/

/-- `R` simulates `S` along `rel`: whatever succeeds on `S` succeeds on `R` with the same
result, and the states stay related. -/
def Simulates {σ τ : Type} (R : Reader σ) (S : Reader τ) (rel : σ → τ → Prop) : Prop :=
  ∀ o s t r t', rel s t → S.step o t = .ok (r, t') → ∃ s', R.step o s = .ok (r, s') ∧ rel s' t'

namespace Prog
variable {σ τ α β : Type}

theorem bind_eq (p : Prog α) (f : α → Prog β) : (p >>= f) = p.bind f := rfl
theorem pure_eq (a : α) : (Pure.pure a : Prog α) = ret a := rfl

theorem bind_ret (p : Prog α) : p.bind ret = p := by
  induction p with
  | ret a => rfl
  | fail e => rfl
  | op o k ih => simp only [bind]; congr 1; funext r; exact ih r

theorem bind_assoc {γ : Type} (p : Prog α) (f : α → Prog β) (g : β → Prog γ) :
    (p.bind f).bind g = p.bind (fun a => (f a).bind g) := by
  induction p with
  | ret a => rfl
  | fail e => rfl
  | op o k ih => simp only [bind]; congr 1; funext r; exact ih r

theorem run_bind (R : Reader σ) (p : Prog α) (f : α → Prog β) (s : σ) :
    run R (p.bind f) s =
      match run R p s with
      | .error e => .error e
      | .ok (a, s') => run R (f a) s' := by
  induction p generalizing s with
  | ret a => rfl
  | fail e => rfl
  | op o k ih =>
    simp only [bind, run]
    cases R.step o s with
    | error e => rfl
    | ok p => exact ih p.1 p.2

theorem run_bind_ok {R : Reader σ} {p : Prog α} {f : α → Prog β} {s s' : σ} {a : α}
    (h : run R p s = .ok (a, s')) : run R (p.bind f) s = run R (f a) s' := by
  rw [run_bind, h]

theorem run_bind_error {R : Reader σ} {p : Prog α} {f : α → Prog β} {s : σ} {e : Err}
    (h : run R p s = .error e) : run R (p.bind f) s = .error e := by
  rw [run_bind, h]

theorem run_call (R : Reader σ) (o : Op) (s : σ) : run R (call o) s = R.step o s := by
  simp only [call, run]
  cases R.step o s with
  | error e => rfl
  | ok p => rfl

@[simp] theorem run_ret (R : Reader σ) (a : α) (s : σ) : run R (ret a) s = .ok (a, s) := rfl
@[simp] theorem run_fail (R : Reader σ) (e : Err) (s : σ) :
    run R (fail e : Prog α) s = .error e := rfl

theorem run_lift (R : Reader σ) (x : Except Err α) (s : σ) :
    run R (lift x) s = match x with
      | .ok a => .ok (a, s)
      | .error e => .error e := by
  cases x <;> rfl

theorem run_lift_ok {R : Reader σ} {x : Except Err α} {s : σ} {a : α} (h : x = .ok a) :
    run R (lift x) s = .ok (a, s) := by subst h; rfl

/-- **Simulation theorem**: a program that succeeds on the simulated reader succeeds on the
simulating one with the same result. -/
theorem run_sim {R : Reader σ} {S : Reader τ} {rel : σ → τ → Prop} (h : Simulates R S rel)
    (p : Prog α) {s : σ} {t t' : τ} {a : α} (hr : rel s t) (ht : run S p t = .ok (a, t')) :
    ∃ s', run R p s = .ok (a, s') ∧ rel s' t' := by
  induction p generalizing s t with
  | ret b =>
    simp only [run, Except.ok.injEq, Prod.mk.injEq] at ht
    obtain ⟨rfl, rfl⟩ := ht
    exact ⟨s, rfl, hr⟩
  | fail e => cases ht
  | op o k ih =>
    simp only [run] at ht
    cases hs : S.step o t with
    | error e => rw [hs] at ht; cases ht
    | ok p =>
      obtain ⟨r, t1⟩ := p
      rw [hs] at ht
      obtain ⟨s1, h1, hr1⟩ := h o s t r t1 hr hs
      obtain ⟨s', h2, hr2⟩ := ih r hr1 ht
      exact ⟨s', by simp only [run, h1]; exact h2, hr2⟩

end Prog

end Verif.Seq
