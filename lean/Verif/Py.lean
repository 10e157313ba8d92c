import Mathlib.Data.List.Forall2
/-!
# Python values and exceptions

The small amount of Python that the models of the freesif modules share: exceptions as
values, floats as exact numbers plus `nan`/`inf`, `int(x)`, slicing of sequences.
-/

namespace Verif

/-- Python exceptions that the modelled code can raise (class names of the exceptions in
`/repo/freesif` or of the standard library / numpy / PyTables).  `outOfFuel` is not a Python
exception: it is the answer of a model loop whose fuel is used up; the theorems of
`Verif.Parse.Terminates` show that it does not occur for fuel larger than the file. -/
inductive Err where
  | structError          -- struct.error
  | unicodeError         -- UnicodeDecodeError
  | valueError           -- ValueError
  | overflowError        -- OverflowError
  | indexError           -- IndexError
  | keyError             -- KeyError
  | typeError            -- TypeError
  | nameError            -- NameError
  | attributeError       -- AttributeError
  | unboundLocal         -- UnboundLocalError
  | notImplemented       -- NotImplementedError
  | stopIteration        -- StopIteration
  | runtimeError         -- RuntimeError
  | assertionError       -- AssertionError
  | zeroDivision         -- ZeroDivisionError
  | nodeError            -- tables.NodeError / NoSuchNodeError
  | hdf5Error            -- tables.HDF5ExtError
  | noSuchRecord         -- freesif.exceptions.NoSuchRecordError
  | conditionError       -- freesif.exceptions.ConditionError
  | hierarchyError       -- freesif.exceptions.HierarchyError
  | resultError          -- freesif.exceptions.ResultError
  | closedFile           -- freesif.exceptions.ClosedFileError
  | vtkError             -- freesif.exceptions.VtkError
  | fileNotFound         -- FileNotFoundError
  | outOfFuel
  deriving DecidableEq, Repr

/-- A Python float: an exact number, not-a-number or an infinity (`true` = negative).
Every float32/float64 value is one of these (negative zero is identified with zero). -/
inductive PyF where
  | rat (q : Rat)
  | nan
  | inf (neg : Bool)
  deriving DecidableEq, Repr

namespace PyF

/-- `x < 0.` -/
def ltZero : PyF → Bool
  | rat q => decide (q < 0)
  | nan => false
  | inf neg => neg

/-- `x > 0.` -/
def gtZero : PyF → Bool
  | rat q => decide (0 < q)
  | nan => false
  | inf neg => !neg

/-- `x == k` for an integer literal `k` -/
def eqInt (x : PyF) (k : Int) : Bool :=
  match x with
  | rat q => decide (q = (k : Rat))
  | _ => false

/-- truth value of a float (`if x:`): everything but zero, `nan` is true -/
def truthy : PyF → Bool
  | rat q => decide (q ≠ 0)
  | nan => true
  | inf _ => true

/-- `int(x)`: truncation towards zero; `ValueError` for nan, `OverflowError` for infinities -/
def toInt : PyF → Except Err Int
  | rat q => .ok (q.num.tdiv q.den)
  | nan => .error .valueError
  | inf _ => .error .overflowError

/-- `x + y` (exact; only used for the sum of three small flags in `WSURFACE_reader`) -/
def add : PyF → PyF → PyF
  | rat a, rat b => rat (a + b)
  | nan, _ => nan
  | _, nan => nan
  | inf a, inf b => if a = b then inf a else nan
  | inf a, _ => inf a
  | _, inf b => inf b

/-- the float literal of an integer -/
def ofInt (k : Int) : PyF := rat (k : Rat)

end PyF

/-- `seq[i]` for a nonnegative literal index -/
def pyIdx {α : Type} (l : List α) (i : Nat) : Except Err α :=
  match l[i]? with
  | some x => .ok x
  | none => .error .indexError

/-- number of iterations of `range(n)` for a Python integer `n` -/
def rangeLen (n : Int) : Nat := n.toNat

/-- Python's floor division `a // b` for a positive divisor -/
def floorDiv (a : Int) (b : Int) : Int := a.fdiv b

/-- `l[:n]` for a Python integer `n` (negative: counted from the end) -/
def pyTake {α : Type} (l : List α) (n : Int) : List α :=
  if 0 ≤ n then l.take n.toNat else l.take (l.length + n).toNat

/-- `l[n:]` for a Python integer `n` (negative: counted from the end) -/
def pyDrop {α : Type} (l : List α) (n : Int) : List α :=
  if 0 ≤ n then l.drop n.toNat else l.drop (l.length + n).toNat

/-- `l[i:j]` for nonnegative literal bounds -/
def pySlice {α : Type} (l : List α) (i j : Nat) : List α := (l.drop i).take (j - i)

section ExceptLemmas
variable {ε α β : Type}

@[simp] theorem bind_ok (a : α) (f : α → Except ε β) :
    (Except.ok a >>= f) = f a := rfl

@[simp] theorem bind_error (e : ε) (f : α → Except ε β) :
    ((Except.error e : Except ε α) >>= f) = Except.error e := rfl

@[simp] theorem pure_eq_ok (a : α) : (pure a : Except ε α) = Except.ok a := rfl

@[simp] theorem map_ok (g : α → β) (a : α) :
    (g <$> (Except.ok a : Except ε α)) = Except.ok (g a) := rfl

@[simp] theorem map_error (g : α → β) (e : ε) :
    (g <$> (Except.error e : Except ε α)) = Except.error e := rfl

theorem bind_eq_ok {x : Except ε α} {f : α → Except ε β} {b : β} :
    (x >>= f) = Except.ok b ↔ ∃ a, x = Except.ok a ∧ f a = Except.ok b := by
  cases x <;> simp

theorem bind_eq_error {x : Except ε α} {f : α → Except ε β} {e : ε} :
    (x >>= f) = Except.error e ↔
      x = Except.error e ∨ ∃ a, x = Except.ok a ∧ f a = Except.error e := by
  cases x <;> simp

end ExceptLemmas

theorem pyIdx_ok {α : Type} {l : List α} {i : Nat} {x : α} :
    pyIdx l i = .ok x ↔ l[i]? = some x := by
  unfold pyIdx; cases h : l[i]? <;> simp

/-- `mapM` succeeds exactly if every element succeeds -/
theorem mapM_ok_iff {α β : Type} {f : α → Except Err β} {l : List α} {out : List β} :
    l.mapM f = .ok out ↔ List.Forall₂ (fun a b => f a = .ok b) l out := by
  induction l generalizing out with
  | nil =>
    rw [List.mapM_nil]
    constructor
    · intro h; injection h with h; subst h; exact .nil
    · intro h; cases h; rfl
  | cons a l ih =>
    rw [List.mapM_cons]
    constructor
    · intro h
      obtain ⟨b, hb, h⟩ := bind_eq_ok.mp h
      obtain ⟨bs, hbs, h⟩ := bind_eq_ok.mp h
      injection h with h; subst h
      exact .cons hb (ih.mp hbs)
    · intro h
      cases h with
      | cons h1 h2 => rw [h1, bind_ok, ih.mpr h2]; rfl

deriving instance DecidableEq for Except

/-- sanity checks of the number conversions (tests, not theorems) -/
example : PyF.toInt (.rat (-7/2)) = .ok (-3) := by decide +kernel
example : PyF.toInt (.rat (7/2)) = .ok 3 := by decide +kernel
example : pyTake [1, 2, 3] (-1) = [1, 2] ∧ pyDrop [1, 2, 3] (-1) = [3] := by decide
example : pyTake [1, 2, 3] (-5) = [] ∧ pyDrop [1, 2, 3] (-5) = [1, 2, 3] := by decide
example : (PyF.ofInt (-5)).eqInt (-5) = true ∧ (PyF.ofInt (-5)).ltZero = true := by decide +kernel

end Verif
