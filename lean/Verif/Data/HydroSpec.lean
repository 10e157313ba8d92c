import Verif.Data.Hydro
/-!
# What a hydrodynamic results file says

Stated on the rows of the tables only.  A file with directions `D` and angular frequencies `F`
has one reference record per pair, ordered by direction, then frequency, and its result
records in the same order (the assumptions in the comment of hydrodata.py:42-49).
-/

namespace Verif.Data

/-- `r` lists the distinct values of `l`, each once, in the order in which they first appear
in `l` -/
structure DistinctInOrder {α : Type} [DecidableEq α] (l r : List α) : Prop where
  same : ∀ x, x ∈ r ↔ x ∈ l
  order : r.Pairwise fun a b => l.idxOf a < l.idxOf b

variable {K V : Type}

/-- the internal condition number of body `b` is that of its first WBODCON record -/
def BodyCondition (conds : List BodConRow) (b c : Int) : Prop :=
  ∃ pre row post, conds = pre ++ row :: post ∧ row.ibody = b ∧ row.ibcond = c ∧
    ∀ r ∈ pre, r.ibody ≠ b

/-- the result records that concern body `b`: those of its condition number, in file order;
`b = 0` (or `None`) asks for all records -/
inductive RecordsOf {β : Type} (t : HydroTabs K V) (cond : β → Int) (rows : List β) :
    Int → List β → Prop
  | all : RecordsOf t cond rows 0 rows
  | body {conds b c recs} : t.wbodcon = some conds → b ≠ 0 → BodyCondition conds b c →
      recs = rows.filter (fun r => cond r = c) → RecordsOf t cond rows b recs

/-- the reference records of the file: for every direction all frequencies -/
structure OnGrid (t : HydroTabs K V) (D F : List K) : Prop where
  dirs_nodup : D.Nodup
  freqs_nodup : F.Nodup
  dirs_ne : D ≠ []
  freqs_ne : F ≠ []
  refs : t.wdresref = some (D.flatMap (fun d => F.map fun _ => d), D.flatMap (fun _ => F), [])

/-- the records hold, for every direction and frequency in turn, the values `row d f`
(`n` components) -/
def HoldsRaos {W : Type} (D F : List K) (recs : List (BodyRow W)) (n : Nat)
    (row : K → K → List W) : Prop :=
  (∀ d ∈ D, ∀ f ∈ F, (row d f).length = n) ∧
    recs.map (fun r => r.data) = D.flatMap fun d => F.map fun f => row d f

/-- the array has the `n` components of `row D[i] F[j]` at `[c, i, j]` -/
def IndexedRaos {W : Type} (D F : List K) (a : Nd W) (n : Nat) (row : K → K → List W) : Prop :=
  a.shape = [n, D.length, F.length] ∧
    ∀ c i j d f x, D[i]? = some d → F[j]? = some f → (row d f)[c]? = some x → a.get [c, i, j] = x

/-- a matrix record for the pair of conditions and the type -/
def IsMatrixFor (ci cj mtyp : Int) (r : MatrixRow K) : Prop :=
  r.ibconi = ci ∧ r.ibconj = cj ∧ r.imtyp = mtyp

/-- the array is the matrix -/
def IsMatrix (a : Nd K) (m : List (List K)) : Prop :=
  a.shape = [6, 6] ∧ ∀ i j r x, m[i]? = some r → r[j]? = some x → a.get [i, j] = x

end Verif.Data
