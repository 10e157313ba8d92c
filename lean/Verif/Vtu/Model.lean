import Verif.Py

/-!
# Model of `freesif/utils/writers.py`

The output file is the list of characters written (`str.encode` is not modelled: characters
instead of UTF-8 bytes).  A method is a function `St → St × Option Err`: the state after the
call, and the exception if one was raised (effects made before the exception stay).
-/

namespace Verif.Vtu
open Verif

abbrev Str := List Char
abbrev Byte := UInt8

/-! ## base64 and struct.pack (standard library) -/

/-- character number `n` of the base64 alphabet -/
def b64char (n : Nat) : Char :=
  if n < 26 then Char.ofNat (65 + n)
  else if n < 52 then Char.ofNat (97 + (n - 26))
  else if n < 62 then Char.ofNat (48 + (n - 52))
  else if n = 62 then '+' else '/'

/-- `base64.b64encode`, used at writers.py:195 -/
def b64encode : List Byte → Str
  | [] => []
  | [a] =>
    let n := a.toNat * 65536
    [b64char (n / 262144), b64char (n / 4096 % 64), '=', '=']
  | [a, b] =>
    let n := a.toNat * 65536 + b.toNat * 256
    [b64char (n / 262144), b64char (n / 4096 % 64), b64char (n / 64 % 64), '=']
  | a :: b :: c :: rest =>
    let n := a.toNat * 65536 + b.toNat * 256 + c.toNat
    b64char (n / 262144) :: b64char (n / 4096 % 64) :: b64char (n / 64 % 64)
      :: b64char (n % 64) :: b64encode rest

/-- the `k` low bytes of `n`, least significant first -/
def leBytes : Nat → Nat → List Byte
  | 0, _ => []
  | k + 1, n => UInt8.ofNat (n % 256) :: leBytes k (n / 256)

/-- `struct.pack('<Q', n)`, writers.py:193; struct.error when `n` needs more than 8 bytes -/
def packQ (n : Nat) : Except Err (List Byte) :=
  if n < 2 ^ 64 then .ok (leBytes 8 n) else .error .structError

/-! ## arrays -/

/-- A numpy array of dimension at least 1: dtype name and item size, `shape[1:]`, and for every
index of the first axis the raw bytes (C order) of that entry. -/
structure Arr where
  dtype : String
  itemsize : Nat
  tail : List Nat
  rows : List (List Byte)
deriving DecidableEq, Repr

/-- one dimensional array of nonnegative integers (offsets, types) -/
structure IArr where
  dtype : String
  itemsize : Nat
  vals : List Nat
deriving DecidableEq, Repr

def IArr.toArr (a : IArr) : Arr :=
  ⟨a.dtype, a.itemsize, [], a.vals.map (leBytes a.itemsize)⟩

/-- `arr.size` -/
def Arr.size (a : Arr) : Nat := a.rows.length * a.tail.prod

/-- `arr.ravel().tostring()` -/
def Arr.raw (a : Arr) : List Byte := a.rows.flatten

/-! ## tables, writers.py:14-41 -/

/-- `sesam2vtk_connectivity`, writers.py:14-15 -/
def conTable : Nat → Option (List Nat)
  | 23 => some [0, 2, 1]
  | 28 => some [0, 2, 4, 6, 1, 3, 5, 7]
  | _ => none

/-- `sesam2vtk_elemresults`, writers.py:18 -/
def resTable : Nat → Option (List Nat)
  | 26 => some [0, 2, 4, 1, 3, 5]
  | _ => none

/-- `sesam2vtk_elementtypeid`, writers.py:21-26 -/
def vtkTypeId : Nat → Option Nat
  | 15 => some 3
  | 23 => some 21
  | 24 => some 9
  | 25 => some 5
  | 26 => some 22
  | 28 => some 23
  | _ => none

def lookupTypeId (t : Nat) : Except Err Nat :=
  match vtkTypeId t with
  | some v => .ok v
  | none => .error .keyError

/-- `typeidmapper(types)`, writers.py:29, 116: KeyError for an unknown type; `np.vectorize`
raises ValueError for an empty input; the result is an int64 array -/
def typeidmapper (types : IArr) : Except Err IArr :=
  match types.vals with
  | [] => .error .valueError
  | vs => do
    let out ← vs.mapM lookupTypeId
    .ok ⟨"int64", 8, out⟩

/-- `numpy2vtk_datatype`, writers.py:32-41 -/
def vtkDatatype : String → Option String
  | "int8" => some "Int8"
  | "uint8" => some "UInt8"
  | "int16" => some "Int16"
  | "uint16" => some "UInt16"
  | "int32" => some "Int32"
  | "uint32" => some "UInt32"
  | "int64" => some "Int64"
  | "uint64" => some "UInt64"
  | "float32" => some "Float32"
  | "float64" => some "Float64"
  | _ => none

/-! ## reordering, writers.py:43-60 -/

/-- `data[start:stop] = data[start:stop][indarr]`, writers.py:48.  An index beyond the slice is
an IndexError; a result of another length than the slice is a ValueError.
(Offsets are nonnegative here; negative offsets are not modelled.) -/
def permuteSlice {α : Type} (data : List α) (start stop : Nat) (ind : List Nat) :
    Except Err (List α) := do
  let sl := (data.drop start).take (stop - start)
  let new ← ind.mapM (pyIdx sl)
  if new.length = sl.length then
    .ok (data.take start ++ new ++ data.drop (start + sl.length))
  else .error .valueError

/-- `_reorder_data`, writers.py:43-49, starting at `start`; also returns the data as it is when an
exception is raised half way (the array is changed in place) -/
def reorderData {α : Type} (tab : Nat → Option (List Nat)) :
    (data : List α) → (start : Nat) → (offsets types : List Nat) → List α × Option Err
  | data, start, stop :: os, t :: ts =>
    match tab t with
    | some ind =>
      match permuteSlice data start stop ind with
      | .ok data' => reorderData tab data' stop os ts
      | .error e => (data, some e)
    | none => reorderData tab data stop os ts
  | data, _, _, _ => (data, none)

/-! ## the writer -/

/-- attributes of a `VtuWriter` object; `elements` has the innermost open tag first -/
structure St where
  out : Str
  fileOpen : Bool
  pieceOpen : Bool
  pdOpen : Bool
  cdOpen : Bool
  elements : List Str
  cur : Option (List Nat × List Nat)
deriving DecidableEq, Repr

abbrev Op := St → St × Option Err

def Op.seq (f g : Op) : Op := fun s =>
  match f s with
  | (s', none) => g s'
  | (s', some e) => (s', some e)

infixr:60 " ;; " => Op.seq

def skip : Op := fun s => (s, none)
def fail (e : Err) : Op := fun s => (s, some e)
def modify (f : St → St) : Op := fun s => (f s, none)

/-- `self._file.write`: ValueError once the file is closed -/
def emit (t : Str) : Op := fun s =>
  if s.fileOpen then ({ s with out := s.out ++ t }, none) else (s, some .valueError)

/-- two blanks per open element -/
def indent : Nat → Str
  | 0 => []
  | n + 1 => ' ' :: ' ' :: indent n

/-- `str(n)` for an integer -/
def natStr (n : Nat) : Str := Nat.toDigits 10 n

/-- the attributes joined with blanks, writers.py:229-231 -/
def attrStr : List (Str × Str) → Str
  | [] => []
  | (k, v) :: rest => ' ' :: k ++ '=' :: '"' :: v ++ '"' :: attrStr rest

/-- `_open_element`, writers.py:225-237 (`selfclosing` is never used) -/
def openElement (tag : Str) (attrs : List (Str × Str)) : Op := fun s =>
  let t := indent s.elements.length ++ '<' :: tag ++ attrStr attrs ++ ">\n".toList
  emit t { s with elements := tag :: s.elements }

/-- `_close_element`, writers.py:239-244 -/
def closeElement (tag : Str) : Op := fun s =>
  match s.elements with
  | [] => (s, some .indexError)
  | t :: ts =>
    let s' := { s with elements := ts }
    if tag = t then emit (indent ts.length ++ "</".toList ++ tag ++ ">\n".toList) s'
    else (s', some .vtkError)

/-- `ComponentName<i>` attributes, writers.py:172-176 -/
def compAttrs : Nat → List Str → List (Str × Str)
  | _, [] => []
  | i, c :: cs => ("ComponentName".toList ++ natStr i, c) :: compAttrs (i + 1) cs

/-- `_write_array`, writers.py:161-200 -/
def writeArray (arr : Arr) (name : Str) (compnames : List Str) : Op := fun s =>
  let ncomps : Except Err Nat := match arr.tail with
    | [] => .ok 1
    | [n] => .ok n
    | _ => .error .vtkError
  match ncomps with
  | .error e => (s, some e)
  | .ok nc =>
    match vtkDatatype arr.dtype with
    | none => (s, some .keyError)
    | some vt =>
      (openElement "DataArray".toList
          ([("type".toList, vt.toList), ("Name".toList, name),
            ("NumberOfComponents".toList, natStr nc), ("format".toList, "binary".toList)]
            ++ compAttrs 0 compnames) ;;
        (fun s => emit (indent s.elements.length) s) ;;
        (fun s => match packQ (arr.size * arr.itemsize) with
          | .error e => (s, some e)
          | .ok h => emit (b64encode (h ++ arr.raw)) s) ;;
        emit ['\n'] ;;
        closeElement "DataArray".toList) s

/-- `_close_piece`, writers.py:202-205 -/
def closePiece : Op := fun s =>
  if s.pieceOpen then
    (closeElement "Piece".toList ;; modify fun s => { s with pieceOpen := false }) s
  else (s, none)

/-- `_close_data`, writers.py:217-223 -/
def closeData : Op := fun s =>
  if s.pdOpen then
    (closeElement "PointData".toList ;; modify fun s => { s with pdOpen := false }) s
  else if s.cdOpen then
    (closeElement "CellData".toList ;; modify fun s => { s with cdOpen := false }) s
  else (s, none)

/-- `start_pointdata`, writers.py:133-134 with `_open_data` 207-215 -/
def startPointdata : Op := fun s =>
  if s.pieceOpen then
    (closeData ;; openElement "PointData".toList [] ;;
      modify fun s => { s with pdOpen := true }) s
  else (s, some .vtkError)

/-- `start_celldata`, writers.py:136-137 with `_open_data` 207-215 -/
def startCelldata : Op := fun s =>
  if s.pieceOpen then
    (closeData ;; openElement "CellData".toList [] ;;
      modify fun s => { s with cdOpen := true }) s
  else (s, some .vtkError)

/-- `add_data`, writers.py:139-144 -/
def addData (arr : Arr) (name : Str) (compnames : List Str) : Op := fun s =>
  if !s.pdOpen && !s.cdOpen then (s, some .vtkError) else writeArray arr name compnames s

/-- `add_data_cellpoints`, writers.py:146-151; before the first `new_piece` the attributes are
`None` and `zip` raises TypeError.  (The caller's array is reordered in place: see
`reorderData`; here only the writer's own state is shown.) -/
def addDataCellpoints (arr : Arr) (name : Str) (compnames : List Str) : Op := fun s =>
  match s.cur with
  | none => (s, some .typeError)
  | some (offs, typs) =>
    match reorderData resTable arr.rows 0 offs typs with
    | (_, some e) => (s, some e)
    | (rows, none) => addData { arr with rows := rows } name compnames s

/-- `new_piece`, writers.py:102-131 -/
def newPiece (points con : Arr) (offsets types : IArr) : Op :=
  closeData ;; closePiece ;; modify (fun s => { s with pieceOpen := true }) ;;
  fun s =>
    match reorderData conTable con.rows 0 offsets.vals types.vals with
    | (_, some e) => (s, some e)
    | (rows, none) =>
      let con := { con with rows := rows }
      let s := { s with cur := some (offsets.vals, types.vals) }
      match typeidmapper types with
      | .error e => (s, some e)
      | .ok vtypes =>
        (openElement "Piece".toList
            [("NumberOfPoints".toList, natStr points.rows.length),
             ("NumberOfCells".toList, natStr offsets.vals.length)] ;;
          openElement "Points".toList [] ;;
          writeArray points "points".toList [] ;;
          closeElement "Points".toList ;;
          openElement "Cells".toList [] ;;
          writeArray con "connectivity".toList [] ;;
          writeArray offsets.toArr "offsets".toList [] ;;
          writeArray vtypes.toArr "types".toList [] ;;
          closeElement "Cells".toList) s

/-- `close`, writers.py:154-159 -/
def close : Op :=
  closeData ;; closePiece ;; closeElement "UnstructuredGrid".toList ;;
  closeElement "VTKFile".toList ;; modify fun s => { s with fileOpen := false }

def emptySt : St := ⟨[], true, false, false, false, [], none⟩

/-- `VtuWriter.__init__`, writers.py:86-99 -/
def init : St × Option Err :=
  (openElement "VTKFile".toList
      [("type".toList, "UnstructuredGrid".toList), ("version".toList, "1.0".toList),
       ("byte_order".toList, "LittleEndian".toList), ("header_type".toList, "UInt64".toList)] ;;
    openElement "UnstructuredGrid".toList []) emptySt

/-- the public methods -/
inductive Call
  | newPiece (points con : Arr) (offsets types : IArr)
  | startPointdata
  | startCelldata
  | addData (arr : Arr) (name : Str) (compnames : List Str)
  | addDataCellpoints (arr : Arr) (name : Str) (compnames : List Str)
  | close
deriving DecidableEq, Repr

def Call.run : Call → Op
  | .newPiece p c o t => Vtu.newPiece p c o t
  | .startPointdata => Vtu.startPointdata
  | .startCelldata => Vtu.startCelldata
  | .addData a n c => Vtu.addData a n c
  | .addDataCellpoints a n c => Vtu.addDataCellpoints a n c
  | .close => Vtu.close

end Verif.Vtu
