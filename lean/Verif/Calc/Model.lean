import Mathlib.Analysis.Real.Sqrt
import Mathlib.LinearAlgebra.Matrix.Determinant.Basic
import Verif.Py

/-!
# Model of `freesif/calc/*.py`

numpy arrays of stresses with shape `(..., n)` are modelled point by point: a function of
the last axis (a list of reals), mapped over the list of points.  Arithmetic is exact (reals).
-/

namespace Verif.Calc
open Verif

/-- `principal2d`, calc/principal.py:22-29, for one point (the last axis of `arr`).
`arr[...,2]` raises IndexError when the last axis has fewer than three entries. -/
noncomputable def principal2dPt : List ℝ → Except Err (ℝ × ℝ)
  | sxx :: syy :: txy :: _ =>
    let part1 := (sxx + syy) / 2
    let part2 := 0.5 * Real.sqrt ((sxx - syy) ^ 2 + 4 * txy ^ 2)
    let p1 := part1 + part2
    let p2 := part1 - part2
    .ok (p1, p2)
  | _ => .error .indexError

/-- `principal2d`, calc/principal.py:13-29: all points of the array -/
noncomputable def principal2d (arr : List (List ℝ)) : Except Err (List (ℝ × ℝ)) :=
  arr.mapM principal2dPt

/-- `vonmises2d`, calc/vonmises.py:11-22, for one point -/
noncomputable def vonmises2dPt : List ℝ → Except Err ℝ
  | sxx :: syy :: txy :: _ =>
    .ok (Real.sqrt (sxx ^ 2 + syy ^ 2 - sxx * syy + 3 * txy ^ 2))
  | _ => .error .indexError

/-- `vonmises2d`, calc/vonmises.py:11-22 -/
noncomputable def vonmises2d (arr : List (List ℝ)) : Except Err (List ℝ) :=
  arr.mapM vonmises2dPt

/-- `vonmises_thickshell`, calc/vonmises.py:25-26 -/
def vonmisesThickshell (_arr : List (List ℝ)) : Except Err (List ℝ) := .error .notImplemented

/-- the 3x3 stress tensor built in calc/principal.py:41-51 (`szz` is zero) -/
def stressTensor (sxx syy txy txz tyz : ℝ) : Matrix (Fin 3) (Fin 3) ℝ :=
  !![sxx, txy, txz; txy, syy, tyz; txz, tyz, 0]

/-- `np.argmin(np.abs(p))` for three values: index of the first smallest magnitude,
calc/principal.py:57 -/
noncomputable def argminAbs3 (a b c : ℝ) : Nat :=
  if |a| ≤ |b| ∧ |a| ≤ |c| then 0 else if |b| ≤ |c| then 1 else 2

/-- `np.delete(p, i)` for three values, calc/principal.py:60 -/
def delete3 (a b c : ℝ) : Nat → ℝ × ℝ
  | 0 => (b, c)
  | 1 => (a, c)
  | _ => (a, b)

/-- `principal_thickshell`, calc/principal.py:32-66, for one point.  `np.linalg.eig` is the
parameter `eig` (the solver is not modelled; it returns the three eigenvalues in some order). -/
noncomputable def principalThickPt
    (eig : Matrix (Fin 3) (Fin 3) ℝ → ℝ × ℝ × ℝ) : List ℝ → Except Err (ℝ × ℝ)
  | sxx :: syy :: txy :: txz :: tyz :: _ =>
    let (a, b, c) := eig (stressTensor sxx syy txy txz tyz)
    let (q1, q2) := delete3 a b c (argminAbs3 a b c)
    .ok (max q1 q2, min q1 q2)
  | _ => .error .indexError

/-- `principal_thickshell`, calc/principal.py:32-66 -/
noncomputable def principalThick (eig : Matrix (Fin 3) (Fin 3) ℝ → ℝ × ℝ × ℝ)
    (arr : List (List ℝ)) : Except Err (List (ℝ × ℝ)) :=
  arr.mapM (principalThickPt eig)

/-- `a.max()` of a flat array, ValueError when empty -/
noncomputable def amax : List ℝ → Except Err ℝ
  | [] => .error .valueError
  | x :: xs => .ok (xs.foldl max x)

/-- `a.min()` of a flat array, ValueError when empty -/
noncomputable def amin : List ℝ → Except Err ℝ
  | [] => .error .valueError
  | x :: xs => .ok (xs.foldl min x)

/-- `absmax(a)`, calc/general.py:11-16, for a flat array (`axis=None`) -/
noncomputable def absmax (a : List ℝ) : Except Err ℝ := do
  let mx ← amax a
  let mn ← amin a
  .ok (if -mn > mx then mn else mx)

/-- `absmax(a, axis=-1)`, calc/general.py:11-16, for a 2d array given by its rows -/
noncomputable def absmaxRows (a : List (List ℝ)) : Except Err (List ℝ) := a.mapM absmax

/-- `np.where(arr == v)[0]`: positions of `v` in ascending order, starting to count at `i` -/
def whereEq (v : Int) : Nat → List Int → List Nat
  | _, [] => []
  | i, x :: xs => if x = v then i :: whereEq v (i + 1) xs else whereEq v (i + 1) xs

/-- `arr.argmin()`: index of the first smallest entry, ValueError when empty -/
def argmin : List Int → Except Err Nat
  | [] => .error .valueError
  | [_] => .ok 0
  | x :: y :: ys => do
    let j ← argmin (y :: ys)
    match (y :: ys)[j]? with
    | some m => if x ≤ m then .ok 0 else .ok (j + 1)
    | none => .error .indexError

/-- body of the loop of `find_elemres_indices`, calc/general.py:29-33, for one pair.
`elind, = np.where(...)[0]` raises ValueError unless there is exactly one match. -/
def findOne (offset elemnumb nodenumb : List Int) (elno nodeno : Int) : Except Err Nat := do
  let nodeind := whereEq nodeno 0 nodenumb
  let elind ← match whereEq elno 0 elemnumb with
    | [e] => Except.ok e
    | _ => .error .valueError
  let off ← pyIdx offset elind
  let tmp : List Int := nodeind.map (fun (j : Nat) => off - (j : Int))
  let k ← argmin (tmp.filter (fun d => decide (0 < d)))
  pyIdx nodeind k

/-- `find_elemres_indices`, calc/general.py:19-34 -/
def findElemresIndices (pairs : List (Int × Int)) (offset elemnumb nodenumb : List Int) :
    Except Err (List Nat) :=
  pairs.mapM fun p => findOne offset elemnumb nodenumb p.1 p.2

end Verif.Calc
