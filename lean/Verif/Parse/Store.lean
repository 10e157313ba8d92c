import Verif.Seq.Ops
/-!
# Tables, variable length arrays and the buffers in front of them

Model of the classes `recdata` and `vldata` of `/repo/freesif/sequentialparser/parsers.py`
(lines 171-219) and of the part of numpy / PyTables they rely on: storing a Python value in a
typed column, appending rows to a table, appending items to an extendable array.

Modelled: element kind and shape of columns and arrays, truncation of floats stored in integer
columns, rounding of floats to `float32`, truncation of strings, the errors for values of a wrong shape.  Simplified: the range of
`int32`, and casting of `nan`/`inf` to integers (an error here; PyTables stores an unspecified
integer in arrays).
-/

namespace Verif.Parse
open Verif Verif.Seq

/-- element type of a column or array (`Int32Col`/`Int32Atom`, `Float32Col`/`Float32Atom`,
`ComplexCol(itemsize=8)`, `StringCol(n)`) -/
inductive Kind where
  | int
  | flt
  | cpx
  | str (n : Nat)
  deriving DecidableEq, Repr

/-- shape of a cell or array item: `()`, `(n,)`, `(n, m)` -/
inductive Shape where
  | sc
  | vec (n : Nat)
  | mat (n m : Nat)
  deriving DecidableEq, Repr

/-- a table column -/
structure Col where
  name : String
  kind : Kind
  shape : Shape := .sc
  deriving DecidableEq, Repr

/-- a Python scalar given to numpy -/
inductive Sc where
  | num (x : PyF)
  | int (i : Int)
  | cpx (re im : PyF)
  | txt (t : Str)
  deriving DecidableEq, Repr

/-- a Python value given to numpy: a scalar, a tuple of scalars, a tuple of tuples -/
inductive Val where
  | sc (s : Sc)
  | vec (l : List Sc)
  | mat (l : List (List Sc))
  deriving DecidableEq, Repr

/-- a stored scalar -/
inductive SCell where
  | int (i : Int)
  | flt (x : PyF)
  | cpx (re im : PyF)
  | txt (t : Str)
  deriving DecidableEq, Repr

/-- a stored cell or array item -/
inductive Cell where
  | sc (c : SCell)
  | vec (l : List SCell)
  | mat (l : List (List SCell))
  deriving DecidableEq, Repr

/-- numpy conversion of a scalar to the element type -/
def storeSc : Kind → Sc → Except Err SCell
  | .int, .num x => x.toInt.map .int
  | .int, .int i => .ok (.int i)
  | .flt, .num x => .ok (.flt x.single)
  | .flt, .int i => .ok (.flt (PyF.ofInt i).single)
  | .cpx, .num x => .ok (.cpx x.single (.ofInt 0))
  | .cpx, .int i => .ok (.cpx (PyF.ofInt i).single (.ofInt 0))
  | .cpx, .cpx a b => .ok (.cpx a.single b.single)
  | .str n, .txt t => .ok (.txt (t.take n))
  | .int, .cpx _ _ => .error .typeError
  | .flt, .cpx _ _ => .error .typeError
  | .int, .txt _ => .error .valueError
  | .flt, .txt _ => .error .valueError
  | .cpx, .txt _ => .error .typeError
  | .str _, .num _ => .error .typeError
  | .str _, .int _ => .error .typeError
  | .str _, .cpx _ _ => .error .typeError

/-- numpy conversion of a value to a cell of the given kind and shape (a one-element tuple is
broadcast over a one-dimensional cell) -/
def storeVal (k : Kind) : Shape → Val → Except Err Cell
  | .sc, .sc s => (storeSc k s).map .sc
  | .vec n, .vec l =>
    if l.length = n then (l.mapM (storeSc k)).map .vec
    else match l with
      | [s] => (storeSc k s).map fun c => .vec (List.replicate n c)
      | _ => .error .valueError
  | .mat n m, .mat l =>
    if l.length = n ∧ ∀ r ∈ l, r.length = m then (l.mapM fun r : List Sc => r.mapM (storeSc k)).map .mat
    else .error .valueError
  | _, _ => .error .valueError

/-- the fields of a row, one after the other (parsers.py:181) -/
def storeCells : List Col → List Val → Except Err (List Cell)
  | c :: cs, v :: vs => do
    let x ← storeVal c.kind c.shape v
    let xs ← storeCells cs vs
    .ok (x :: xs)
  | _, _ => .ok []

/-- `self.recs[self.counter] = rec` (parsers.py:181): assignment of a tuple to an element of a
structured array; the numbers of fields must agree (numpy compares them first) -/
def storeRow (cols : List Col) (row : List Val) : Except Err (List Cell) :=
  if row.length = cols.length then storeCells cols row else .error .valueError

/-- an `EArray` -/
structure Arr where
  name : String
  kind : Kind
  shape : Shape := .sc
  items : List Cell := []
  deriving DecidableEq, Repr

/-- the table of a record type together with its arrays -/
structure Tab where
  cols : List Col
  rows : List (List Cell) := []
  arrs : List Arr := []
  deriving DecidableEq, Repr

/-- `self.arr.append(np.array(self.data))` (parsers.py:218): no broadcasting, the items must have
the shape of the array -/
def appendItems (a : Arr) (data : List Val) : Except Err Arr := do
  let cs ← data.mapM fun v =>
    match a.shape, v with
    | .vec n, .vec l => if l.length = n then storeVal a.kind a.shape v else .error .valueError
    | _, _ => storeVal a.kind a.shape v
  .ok { a with items := a.items ++ cs }

/-- attributes of a `vldata` object (parsers.py:199-204) -/
structure Vl where
  data : List Val := []
  startindex : Nat
  start : Nat := 0
  stop : Nat := 0
  deriving DecidableEq, Repr

/-- parsers.py:199-204 `vldata.__init__` -/
def Vl.init (a : Arr) : Vl := { startindex := a.items.length }

/-- parsers.py:206-214 `vldata.add` (`None` is treated like an empty sequence) -/
def Vl.add (v : Vl) (seq : List Val) : Vl :=
  if seq = [] then { v with start := 0, stop := 0 }
  else { data := v.data ++ seq, startindex := v.startindex + seq.length,
         start := v.startindex, stop := v.startindex + seq.length }

/-- several calls of `vldata.add` -/
def Vl.adds (v : Vl) (seqs : List (List Val)) : Vl := seqs.foldl Vl.add v

/-- parsers.py:216-219 `vldata.write` -/
def Vl.write (v : Vl) (a : Arr) : Except Err (Vl × Arr) :=
  if v.data = [] then .ok (v, a)
  else do
    let a' ← appendItems a v.data
    .ok ({ v with data := [] }, a')

/-- `for vl in self.vldata: vl.write()` -/
def writeVls : List Vl → List Arr → Except Err (List Vl × List Arr)
  | v :: vs, a :: as => do
    let (v', a') ← v.write a
    let (vs', as') ← writeVls vs as
    .ok (v' :: vs', a' :: as')
  | vs, as => .ok (vs, as)

/-- a reader's view of its table: the table with its arrays, the row buffer `recs[:counter]` and
the `vldata` objects -/
structure Work where
  tab : Tab
  recs : List (List Cell) := []
  vls : List Vl
  deriving DecidableEq, Repr

/-- parsers.py:172-176 `recdata.__init__` with one `vldata` per array -/
def Work.open (t : Tab) : Work := { tab := t, vls := t.arrs.map Vl.init }

/-- parsers.py:190-195 `recdata.write`, and the flush of a full buffer in lines 183-188 -/
def Work.write (w : Work) : Except Err Work := do
  let (vls, arrs) ← writeVls w.vls w.tab.arrs
  .ok { tab := { w.tab with rows := w.tab.rows ++ w.recs, arrs := arrs }, recs := [], vls := vls }

/-- what a reader hands to its buffers for one record: the tuple given to `recdata.add` and for
each array the sequences given to `vldata.add` -/
structure Emit where
  row : List Val
  adds : List (List (List Val)) := []
  deriving DecidableEq, Repr

/-- `rec += (vl.start, vl.stop)` for each `vldata` (parsers.py:179-180) -/
def bounds : List Vl → List Val
  | [] => []
  | v :: vs => .sc (.int v.start) :: .sc (.int v.stop) :: bounds vs

/-- calls of `vldata.add` -/
def addVls : List Vl → List (List (List Val)) → List Vl
  | v :: vs, a :: as => v.adds a :: addVls vs as
  | vs, _ => vs

/-- the `vldata.add` calls of one record followed by `recdata.add` (parsers.py:178-188); `B` is
`tmp_arr_size` -/
def Work.add (B : Nat) (e : Emit) (w : Work) : Except Err Work := do
  let vls := addVls w.vls e.adds
  let cells ← storeRow w.tab.cols (e.row ++ bounds vls)
  let w' : Work := { w with recs := w.recs ++ [cells], vls := vls }
  if w'.recs.length = B then w'.write else .ok w'

/-- integer content of a named cell (`row['name']`) -/
def fieldInt : List Col → List Cell → String → Except Err Int
  | c :: cs, x :: xs, n =>
    if c.name = n then
      match x with
      | .sc (.int i) => .ok i
      | _ => .error .typeError
    else fieldInt cs xs n
  | _, _, _ => .error .keyError

end Verif.Parse
