import Verif.Data.Np
/-!
# Arrays with several axes

A numpy array is its shape and its entries as a function of the multi-index; only indices
within the shape are meaningful.  `reshape` is in C order (last axis fastest); `rollaxis` and
`moveaxis` follow the numpy sources, which build a list of axes and call `transpose`.
-/

namespace Verif.Data
open Verif

/-- an array: shape and entries -/
structure Nd (α : Type) where
  shape : List Nat
  get : List Nat → α

/-- the multi-index lies within the shape -/
def Nd.Within : List Nat → List Nat → Prop
  | [], [] => True
  | n :: ns, i :: is => i < n ∧ Nd.Within ns is
  | _, _ => False

/-- the position of a multi-index in C order -/
def ravel : List Nat → List Nat → Nat
  | n :: ns, i :: is => i * ns.prod + ravel ns is
  | _, _ => 0

/-- `flat.shape = shape`: the number of entries must not change -/
def ndReshape {α : Type} [Zero α] (flat : List α) (shape : List Nat) : Except Err (Nd α) :=
  if flat.length = shape.prod then .ok { shape := shape, get := fun idx => flat.getD (ravel shape idx) 0 }
  else .error .valueError

/-- `np.transpose(a, axes)`: axis `k` of the result is axis `axes[k]` of `a` -/
def ndTranspose {α : Type} (a : Nd α) (axes : List Nat) : Nd α :=
  { shape := axes.map fun k => a.shape.getD k 0
    get := fun idx => a.get ((List.range axes.length).map fun k => idx.getD (axes.idxOf k) 0) }

/-- `np.rollaxis(a, axis, start)` -/
def ndRollaxis {α : Type} (a : Nd α) (axis : Nat) (start : Nat := 0) : Nd α :=
  let start := if axis < start then start - 1 else start
  if axis = start then a
  else ndTranspose a (((List.range a.shape.length).erase axis).insertIdx start axis)

/-- `np.moveaxis(a, source, destination)`: the remaining axes in order, then the moved ones
inserted at their destinations, smallest destination first -/
def ndMoveaxis {α : Type} (a : Nd α) (source destination : List Nat) : Nd α :=
  let rest := (List.range a.shape.length).filter fun k => !source.contains k
  let moves := (destination.zip source).insertionSort fun p q => p.1 ≤ q.1
  ndTranspose a (moves.foldl (fun order m => order.insertIdx m.1 m.2) rest)

/-- an operation on every entry -/
def ndMap {α β : Type} (f : α → β) (a : Nd α) : Nd β := { shape := a.shape, get := fun idx => f (a.get idx) }

/-- `a[np.sort(np.unique(a, return_index=True)[1])]`: the distinct values taken at their first
positions, positions sorted (hydrodata.py:58-65).  `np.unique` gives the position of the first
occurrence of every distinct value. -/
def npUniqueInOrder {α : Type} [LinearOrder α] (l : List α) : Except Err (List α) :=
  let idx := (npUnique l).map fun v => l.idxOf v
  npTake l ((idx.insertionSort fun a b => a ≤ b).map fun i : Nat => (i : Int))

end Verif.Data
