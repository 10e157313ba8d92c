import Verif.Vtu.Model
import Verif.Data.Elem
/-!
# Arrays handed from the data objects to the VTU writer

`/repo/examples/struc_example.py` lines 20-35 and the example in `/repo/freesif/utils/writers.py`
lines 69-80: the arrays returned by `get_nodes`, `get_elements`, `get_noderesults` and
`get_elementresults` are arguments of `new_piece`, `add_data` and `add_data_cellpoints`.

The models of the getters give values, the model of the writer takes bytes.  The definitions below
are the numpy arrays in between: a data type (name, item size, bytes of a number) and the rows.
-/

namespace Verif.Export
open Verif Verif.Vtu Verif.Data

/-- a numpy data type: name, item size, bytes of a number in memory -/
structure Enc (K : Type) where
  dtype : String
  itemsize : Nat
  bytes : K → List Byte

/-- a numpy integer type -/
structure IntType where
  dtype : String
  itemsize : Nat

variable {K : Type}

/-- the array returned by `get_nodes` (strucdata.py:483), of shape (nodes, 3) -/
def pointsArr (e : Enc K) (coords : List (XYZ K)) : Arr :=
  ⟨e.dtype, e.itemsize, [3], coords.map fun p => e.bytes p.x ++ e.bytes p.y ++ e.bytes p.z⟩

/-- an array of integers (none of them negative) returned by `get_elements` (strucdata.py:688) -/
def intArr (t : IntType) (l : List Int) : IArr := ⟨t.dtype, t.itemsize, l.map Int.toNat⟩

/-- an array of shape (rows, `n`) -/
def rowsArr (e : Enc K) (n : Nat) (rows : List (List K)) : Arr :=
  ⟨e.dtype, e.itemsize, [n], rows.map fun r => r.flatMap e.bytes⟩

/-- `res[:, :n]` (struc_example.py:33) -/
def columns (n : Nat) (rows : List (List K)) : List (List K) := rows.map (List.take n)

/-- the array returned by `get_elementresults` (strucdata.py:810): shape and values (C order) -/
def ndArr (e : Enc K) (a : NArr K) : Arr :=
  match a.shape with
  | [] => ⟨e.dtype, e.itemsize, [], []⟩
  | n :: tail =>
    ⟨e.dtype, e.itemsize, tail, (pieces tail.prod n a.data).map fun r => r.flatMap e.bytes⟩

/-- `new_piece(nodes, elems)` with the results of `get_nodes` and `get_elements`
(struc_example.py:31) -/
def pieceCall (e : Enc K) (tc tf tt : IntType) (coords : List (XYZ K))
    (elems : List Int × List Int × List Int) : Call :=
  .newPiece (pointsArr e coords) (intArr tc elems.1).toArr (intArr tf elems.2.1)
    (intArr tt elems.2.2)

/-- the calls of the examples up to `close()`: a piece, then point data -/
def exportCalls (piece : Call) (data : List Call) : List Call := piece :: .startPointdata :: data

end Verif.Export
