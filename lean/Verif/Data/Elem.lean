import Verif.Data.Struc
import Mathlib.Algebra.Module.Prod
import Mathlib.Algebra.Field.Defs
import Mathlib.Algebra.BigOperators.Group.List.Basic
/-!
# Element results

Model of `/repo/freesif/data/strucdata.py` lines 264-409 and 707-810.

Numbers are elements of a field `K`, the square root of 3 is a parameter `s3`.  Results are real
(values in `K`) or complex (values in `K × K`: real and imaginary part); the processing of both is
the same, for values in any module `V` over `K`.
-/

namespace Verif.Data
open Verif

variable {K V : Type}

section process
variable [Field K] [AddCommGroup V] [Module K V]

/-- entry of an array of known size -/
def at1 (d : List V) (j : Nat) : V := d.getD j 0

/-- entry of a matrix of known size -/
def at2 (x : List (List K)) (i j : Nat) : K := (x.getD i []).getD j 0

/-- `sum(f(p) for p in range(n))` -/
def sumTo (n : Nat) (f : Nat → V) : V := ((List.range n).map f).sum

/-- strucdata.py:272-280 -/
def xquad (s3 : K) : List (List K) :=
  [[(1+s3)*(1+s3), (1-s3)*(1+s3), (1+s3)*(1-s3), (1-s3)*(1-s3)],
   [(1+s3),        (1+s3),        (1-s3),        (1-s3)       ],
   [(1-s3)*(1+s3), (1+s3)*(1+s3), (1-s3)*(1-s3), (1+s3)*(1-s3)],
   [(1-s3),        (1+s3),        (1-s3),        (1+s3)       ],
   [(1-s3)*(1-s3), (1+s3)*(1-s3), (1-s3)*(1+s3), (1+s3)*(1+s3)],
   [(1-s3),        (1-s3),        (1+s3),        (1+s3)       ],
   [(1+s3)*(1-s3), (1-s3)*(1-s3), (1+s3)*(1+s3), (1-s3)*(1+s3)],
   [(1+s3),        (1-s3),        (1+s3),        (1-s3)       ]].map (·.map (· * (1/4)))

/-- strucdata.py:283-288 -/
def xtri : List (List K) :=
  [[5/3, -1/3, -1/3],
   [2/3, 2/3, -1/3],
   [-1/3, 5/3, -1/3],
   [-1/3, 2/3, 2/3],
   [-1/3, -1/3, 5/3],
   [2/3, -1/3, 2/3]]

/-- strucdata.py:291-293 -/
def xbm3 (s3 : K) : List (List K) :=
  [[1 + s3, 1 - s3], [1, 1], [1 - s3, 1 + s3]].map (·.map (· * (1/2)))

/-- strucdata.py:297 -/
def idxtri : List Nat := [0, 4, 1, 5, 3, 7]

/-- strucdata.py:298 -/
def idxquad : List Nat := [0, 5, 1, 6, 4, 9, 3, 8]

/-- strucdata.py:303-309 -/
def xDecompThin : List (List K) :=
  [[1/2, 0, 0, 1/2, 0, 0],
   [0, 1/2, 0, 0, 1/2, 0],
   [0, 0, 1/2, 0, 0, 1/2],
   [-1/2, 0, 0, 1/2, 0, 0],
   [0, -1/2, 0, 0, 1/2, 0],
   [0, 0, -1/2, 0, 0, 1/2]]

/-- strucdata.py:312-320 -/
def xDecompThick : List (List K) :=
  [[1/2, 0, 0, 0, 0, 1/2, 0, 0, 0, 0],
   [0, 1/2, 0, 0, 0, 0, 1/2, 0, 0, 0],
   [0, 0, 1/2, 0, 0, 0, 0, 1/2, 0, 0],
   [-1/2, 0, 0, 0, 0, 1/2, 0, 0, 0, 0],
   [0, -1/2, 0, 0, 0, 0, 1/2, 0, 0, 0],
   [0, 0, -1/2, 0, 0, 0, 0, 1/2, 0, 0],
   [0, 0, 0, 3/2, 0, 0, 0, 0, 0, 0],
   [0, 0, 0, 0, 3/2, 0, 0, 0, 0, 0]]

/-- The processed results of one element: an array whose first axis is the position in the
element; `dims`: the sizes of the other axes; a row has the values along the other axes. -/
structure Block (V : Type) where
  dims : List Nat
  rows : List (List V)
  deriving DecidableEq, Repr

/-- strucdata.py:342-346 `_process_eltyp15` -/
def process15 (d : List V) : Except Err (Option (Block V)) :=
  if d.length = 18 then
    .ok (some ⟨[6], [0, 2].map fun i => (List.range 6).map fun k => at1 d (6 * i + k)⟩)
  else .error .valueError

/-- strucdata.py:348-353 `_process_eltyp23` -/
def process23 (s3 : K) (pos : String) (d : List V) : Except Err (Option (Block V)) :=
  if d.length = 12 then
    if pos = "nodes" then
      .ok (some ⟨[6], (List.range 3).map fun i => (List.range 6).map fun k =>
        sumTo 2 fun p => at2 (xbm3 s3) i p • at1 d (6 * p + k)⟩)
    else .ok (some ⟨[6], (List.range 2).map fun p => (List.range 6).map fun k => at1 d (6 * p + k)⟩)
  else .error .valueError

/-- strucdata.py:407-408 `_decompose_stresses_thin`, of the rows (both surfaces one after the
other) -/
def decomposeThin (K : Type) [Field K] [Module K V] (rows : List (List V)) : List (List V) :=
  rows.map fun r => (List.range 6).map fun k =>
    sumTo 6 fun q => at2 (xDecompThin (K := K)) k q • at1 r q

/-- strucdata.py:355-367: first order shells; `npts`: number of result points on the record,
`idx`: the points at the nodes -/
def processThin (K : Type) [Field K] [Module K V] (npts : Nat) (idx : List Nat) (restype : String)
    (d : List V) : Except Err (Option (Block V)) :=
  if d.length = 3 * npts then
    let rows := (List.range (idx.length / 2)).map fun i =>
      (List.range 2).flatMap fun s => (List.range 3).map fun c => at1 d (3 * idx.getD (2 * i + s) 0 + c)
    if restype = "decomposedstress" then .ok (some ⟨[6], decomposeThin K rows⟩)
    else .ok (some ⟨[2, 3], rows⟩)
  else .error .valueError

/-- strucdata.py:397-402 `_extrapolate_to_surface`, of the first three components
(strucdata.py:375, 390); arguments side, point, component -/
def toSurface (s3 : K) (d : Nat → Nat → Nat → V) : Nat → Nat → Nat → V := fun s p c =>
  let a := s3 / 3
  if c < 3 then
    if s = 0 then d 0 p c + ((-1 + a) / (2 * a)) • (d 1 p c - d 0 p c)
    else d 0 p c + ((1 + a) / (2 * a)) • (d 1 p c - d 0 p c)
  else d s p c

/-- strucdata.py:404-405 `_decompose_stresses_thick`: point, component -/
def decomposeThick (K : Type) [Field K] [Module K V] (d : Nat → Nat → Nat → V) : Nat → Nat → V :=
  fun p k => sumTo 10 fun q => at2 (xDecompThick (K := K)) k q • d (q / 5) p (q % 5)

/-- strucdata.py:369-396: second order shells with `n` result points on each side; `x`: the
extrapolation to the nodes.  For another position the method returns `None`. -/
def processThick (s3 : K) (n : Nat) (x : List (List K)) (restype pos : String) (d : List V) :
    Except Err (Option (Block V)) :=
  if d.length = 2 * n * 5 then
    let d3 : Nat → Nat → Nat → V := fun s p c => at1 d ((s * n + p) * 5 + c)
    if pos = "respts" then
      .ok (some ⟨[2, 5], (List.range n).map fun p =>
        (List.range 2).flatMap fun s => (List.range 5).map fun c => d3 s p c⟩)
    else if pos = "nodes" then
      let e := toSurface s3 d3
      if restype = "decomposedstress" then
        let g := decomposeThick K e
        .ok (some ⟨[8], (List.range x.length).map fun i => (List.range 8).map fun k =>
          sumTo n fun p => at2 x i p • g p k⟩)
      else
        let f : Nat → Nat → Nat → V := fun s p c =>
          if restype = "generalstress" then (if c < 3 then e s p c else 0) else e s p c
        .ok (some ⟨[2, 5], (List.range x.length).map fun i =>
          (List.range 2).flatMap fun s => (List.range 5).map fun c =>
            sumTo n fun p => at2 x i p • f s p c⟩)
    else .ok none
  else .error .valueError

/-- strucdata.py:329-340 `_process_element_results`: the function of the element type, `KeyError`
for other types -/
def processElem (s3 : K) (eltyp : Int) (restype pos : String) (d : List V) :
    Except Err (Option (Block V)) :=
  if eltyp = 15 then process15 d
  else if eltyp = 23 then process23 s3 pos d
  else if eltyp = 24 then processThin K 10 idxquad restype d
  else if eltyp = 25 then processThin K 8 idxtri restype d
  else if eltyp = 26 then processThick s3 3 xtri restype pos d
  else if eltyp = 28 then processThick s3 4 (xquad s3) restype pos d
  else .error .keyError

/-- an array: sizes of the axes, entries -/
structure NArr (V : Type) where
  shape : List Nat
  data : List V
  deriving DecidableEq, Repr

/-- `np.concatenate` of the processed results: at least one, all of them arrays with the same
sizes of the axes after the first -/
def concatBlocks (bs : List (Option (Block V))) : Except Err (NArr V) :=
  match bs with
  | some b :: rest =>
    if rest.all fun o => match o with
      | some b' => b'.dims = b.dims
      | none => false
    then
      let rows := bs.flatMap fun o => match o with
        | some b => b.rows
        | none => []
      .ok ⟨rows.length :: b.dims, rows.flatten⟩
    else .error .valueError
  | _ => .error .valueError

/-- strucdata.py:799-806: an axis of result cases if there are several -/
def splitCases (restype : String) (nres : Nat) (a : NArr V) : Except Err (NArr V) :=
  if nres > 1 then
    let inner := if restype = "generalstress" then (a.shape[2]?).map fun n => [2, n]
      else (a.shape[1]?).map fun n => [n]
    match inner with
    | some inner =>
      if a.data.length % (nres * inner.prod) = 0 then
        .ok ⟨nres :: a.data.length / (nres * inner.prod) :: inner, a.data⟩
      else .error .valueError
    | none => .error .indexError
  else .ok a

/-- strucdata.py:784-806: the results of the wanted rows; `conv` reads real or complex values -/
def collect (s3 : K) (restype pos : String) {K' : Type} (conv : List K' → Except Err (List V))
    (res : List K') (rows : List ElemRes) (nres : Nat) : Except Err (NArr V) := do
  let blocks ← rows.mapM fun r => do
    let d ← conv (npSlice res r.start r.stop)
    processElem s3 r.ir restype pos d
  let a ← concatBlocks blocks
  splitCases restype nres a

end process

/-- `d.dtype = np.complex64`: pairs of numbers -/
def asPairs : List K → Except Err (List (K × K))
  | [] => .ok []
  | x :: y :: l => (asPairs l).map ((x, y) :: ·)
  | [_] => .error .valueError

/-- element results: real or complex -/
inductive ElemArray (K : Type) where
  | real (a : NArr K)
  | complex (a : NArr (K × K))
  deriving DecidableEq, Repr

/-- strucdata.py:765-776: table and kind of elements of a result type -/
def elemResTable (d : Struc K) (restype : String) :
    Except Err (List ElemRes × List K × String) :=
  if restype = "beamforce" then (need d.isOpen d.rvforces).map fun t => (t.1, t.2, "beam")
  else if restype = "generalstress" ∨ restype = "decomposedstress" then
    (need d.isOpen d.rvstress).map fun t => (t.1, t.2, "shell")
  else .error .valueError

/-- strucdata.py:707-810 `get_elementresults` -/
def getElementResults [Field K] (s3 : K) (d : Struc K) (restype pos : String) (run : Int)
    (rescases : CasesArg) (sets : SetsArg) : Except Err (ElemArray K) := do
  let (rows, res, kind) ← elemResTable d restype
  let resrefs ← resRefs d run rescases
  let flag ← complexFlag (resrefs.map ResRef.icompl)
  let elemnumbs ← getElementNumbers d sets (some kind) "internal"
  let ires := npUnique (resrefs.map ResRef.ires)
  let wanted := rows.filter fun r => r.ires ∈ ires && r.iielno ∈ elemnumbs
  if flag ≠ 0 then
    (collect s3 restype pos asPairs res wanted ires.length).map .complex
  else (collect s3 restype pos Except.ok res wanted ires.length).map .real

end Verif.Data
