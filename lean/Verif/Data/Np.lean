import Verif.Py
import Mathlib.Data.List.Sort
import Mathlib.Order.Basic
/-!
# The part of numpy used by the data classes

One-dimensional arrays are lists.  Index arithmetic follows the numpy documentation: negative
indices count from the end, indices out of range raise `IndexError`, `np.concatenate` of no
arrays raises `ValueError`.  The element type of an array (int32, float32) is not modelled.
-/

namespace Verif.Data
open Verif

/-- `a[i]` for an integer `i` (negative: counted from the end) -/
def npAt {α : Type} (l : List α) (i : Int) : Except Err α :=
  if 0 ≤ i then pyIdx l i.toNat
  else if 0 ≤ l.length + i then pyIdx l (l.length + i).toNat
  else .error .indexError

/-- `a[indices]` and `a.take(indices)` for an integer array of indices -/
def npTake {α : Type} (l : List α) (is : List Int) : Except Err (List α) := is.mapM (npAt l)

/-- a bound of a slice: negative bounds count from the end -/
def sliceBound (len : Nat) (i : Int) : Nat := if 0 ≤ i then i.toNat else (len + i).toNat

/-- `a[start:stop]` -/
def npSlice {α : Type} (l : List α) (start stop : Int) : List α :=
  (l.take (sliceBound l.length stop)).drop (sliceBound l.length start)

/-- `np.concatenate(list of arrays)`: at least one array is needed -/
def npConcat {α : Type} (ls : List (List α)) : Except Err (List α) :=
  if ls = [] then .error .valueError else .ok ls.flatten

/-- insert into a sorted list without repetitions -/
def insertU {α : Type} [LinearOrder α] (x : α) : List α → List α
  | [] => [x]
  | y :: ys => if x < y then x :: y :: ys else if x = y then y :: ys else y :: insertU x ys

/-- `np.unique(a)`: the distinct values in increasing order -/
def npUnique {α : Type} [LinearOrder α] : List α → List α
  | [] => []
  | x :: xs => insertU x (npUnique xs)

/-- `np.arange(n)` -/
def npArange (n : Nat) : List Int := (List.range n).map fun i : Nat => (i : Int)

/-- `d[key]` in the dict `dict(zip(keys, range(len(keys))))`: the position of the last entry
equal to `key`, `KeyError` if there is none -/
def dictIndex {α : Type} [DecidableEq α] (keys : List α) (key : α) : Except Err Nat :=
  match (keys.zipIdx.filter fun p => p.1 = key).getLast? with
  | some p => .ok p.2
  | none => .error .keyError

/-- `d[key] = value` in a dict given as its items in order: an existing entry is overwritten in
place, a new one comes last -/
def dictSet {α β : Type} [DecidableEq α] (key : α) (value : β) : List (α × β) → List (α × β)
  | [] => [(key, value)]
  | p :: d => if p.1 = key then (key, value) :: d else p :: dictSet key value d

/-- `dict(pairs)`, as its items in order -/
def pyDict {α β : Type} [DecidableEq α] (pairs : List (α × β)) : List (α × β) :=
  pairs.foldl (fun d p => dictSet p.1 p.2 d) []

end Verif.Data
