import Verif.Vtu.Model
import Mathlib.Logic.Function.Basic

/-!
# Model of `freesif/utils/writers.py`: the caller's arrays

`Verif.Vtu.Model` has methods that take the contents of arrays.  Here the caller holds arrays (by
number) and hands the same array to any number of calls of any number of writers; `new_piece` and
`add_data_cellpoints` change an array of the caller in place.  The arrays of offsets and types are
not changed by any method, and the caller is taken not to change them either (a writer keeps
references to them, writers.py:113-114).
-/

namespace Verif.Vtu
open Verif

/-- what the caller holds: arrays, integer arrays (offsets, types) and writers -/
structure Heap where
  arrs : Nat → Arr
  ints : Nat → IArr
  writers : Nat → St

/-- a call of a method of writer `w`, with the arrays given by number; `create` is
`VtuWriter(filename)`; `assign` is the caller making (or copying) an array -/
inductive RCall
  | create (w : Nat)
  | newPiece (w points con offsets types : Nat)
  | startPointdata (w : Nat)
  | startCelldata (w : Nat)
  | addData (w arr : Nat) (name : Str) (compnames : List Str)
  | addDataCellpoints (w arr : Nat) (name : Str) (compnames : List Str)
  | close (w : Nat)
  | assign (arr : Nat) (v : Arr)
deriving DecidableEq

/-- the connectivity array when `_reorder_connectivity_vtk` has returned or raised,
writers.py:51-55, 105-109: it is not reached if closing the piece before raises -/
def conAfter (s : St) (con : Arr) (offsets types : IArr) : Arr :=
  match (closeData ;; closePiece) s with
  | (_, some _) => con
  | (_, none) => { con with rows := (reorderData conTable con.rows 0 offsets.vals types.vals).1 }

/-- the array of element results when `_reorder_cellpointdata_vtk` has returned or raised,
writers.py:57-60, 149-150 -/
def resAfter (s : St) (arr : Arr) : Arr :=
  match s.cur with
  | none => arr
  | some (offs, typs) => { arr with rows := (reorderData resTable arr.rows 0 offs typs).1 }

/-- the writer's part of a call -/
def Heap.on (h : Heap) (w : Nat) (r : St × Option Err) : Heap × Option Err :=
  ({ h with writers := Function.update h.writers w r.1 }, r.2)

/-- writers.py:86-159: a call with the caller's arrays.  The points are written after the
reordering, so that they are reordered too if they are the same array (110-123). -/
def RCall.run : RCall → Heap → Heap × Option Err
  | .create w, h => h.on w init
  | .newPiece w p c o t, h =>
    let h' := { h with
      arrs := Function.update h.arrs c
        (conAfter (h.writers w) (h.arrs c) (h.ints o) (h.ints t)) }
    h'.on w (Vtu.newPiece (h'.arrs p) (h.arrs c) (h.ints o) (h.ints t) (h.writers w))
  | .startPointdata w, h => h.on w (Vtu.startPointdata (h.writers w))
  | .startCelldata w, h => h.on w (Vtu.startCelldata (h.writers w))
  | .addData w a n cs, h => h.on w (Vtu.addData (h.arrs a) n cs (h.writers w))
  | .addDataCellpoints w a n cs, h =>
    let h' := { h with arrs := Function.update h.arrs a (resAfter (h.writers w) (h.arrs a)) }
    h'.on w (Vtu.addDataCellpoints (h.arrs a) n cs (h.writers w))
  | .close w, h => h.on w (Vtu.close (h.writers w))
  | .assign a v, h => ({ h with arrs := Function.update h.arrs a v }, none)

/-- several calls; exceptions are caught by the caller, who goes on with the next call -/
def runs : Heap → List RCall → List (RCall × Option Err) × Heap
  | h, [] => ([], h)
  | h, c :: cs =>
    let r := c.run h
    let rest := runs r.1 cs
    ((c, r.2) :: rest.1, rest.2)

end Verif.Vtu
