import Verif.Data.Np
import Verif.Seq.Base
import Mathlib.Data.Matrix.Mul
import Mathlib.Data.Fin.VecNotation
/-!
# Structural data: selections, nodes, elements

Model of `/repo/freesif/data/strucdata.py` (lines 14-256, 324-340, 411-705, 906-928, 950-972) and of
the record access in `/repo/freesif/data/sifdata.py`.

A data object is modelled by the tables of its group, each table by the list of its rows with the
columns the code uses (`Verif.Data.Load` reads them by name from the converted file); `none` means
that the group has no such table.  Coordinates, matrices and results have values in an arbitrary
type `K`: arithmetic is exact.  PyTables conditions are Boolean conditions on rows.
-/

namespace Verif.Data
open Verif
open Verif.Seq (Str)

/-- row of GNODE -/
structure NodeRow where
  nodex : Int
  nodeno : Int
  deriving DecidableEq, Repr

/-- coordinates -/
structure XYZ (K : Type) where
  x : K
  y : K
  z : K
  deriving DecidableEq, Repr

/-- row of GELMNT1 with the limits of its part of the array `gelmnt1_nodin` -/
structure ElemRow where
  elnox : Int
  elno : Int
  eltyp : Int
  start : Int
  stop : Int
  deriving DecidableEq, Repr

/-- row of TDSETNAM or TDLOAD -/
structure NameRow where
  idno : Int
  name : Str
  deriving DecidableEq, Repr

/-- row of GSETMEMB with the limits of its part of the array `gsetmemb_irmemb` -/
structure MembRow where
  isref : Int
  istype : Int
  start : Int
  stop : Int
  deriving DecidableEq, Repr

/-- row of RDRESREF -/
structure ResRef where
  ires : Int
  irno : Int
  ieres : Int
  icompl : Int
  deriving DecidableEq, Repr

/-- row of RVNODDIS, RVNODVEL, RVNODACC with the limits of its part of the array of results -/
structure NodeRes where
  ires : Int
  iinod : Int
  start : Int
  stop : Int
  deriving DecidableEq, Repr

/-- row of RVFORCES, RVSTRESS with the limits of its part of the array of results -/
structure ElemRes where
  ires : Int
  iielno : Int
  ir : Int
  start : Int
  stop : Int
  deriving DecidableEq, Repr

/-- row of HIERARCH -/
structure HierRow where
  ihref : Int
  iselty : Int
  indsel : Int
  islevl : Int
  itref : Int
  ihpref : Int
  deriving DecidableEq, Repr

/-- 4x4 matrix -/
abbrev Mat4 (K : Type) := Matrix (Fin 4) (Fin 4) K

/-- row of HSUPTRAN or RSUPTRAN -/
structure TranRow (K : Type) where
  itref : Int
  t : Mat4 K

/-- a top level data object: the tables that `get_transformation` uses -/
structure Top (K : Type) where
  isOpen : Bool := true
  hierarch : Option (List HierRow) := none
  hsuptran : Option (List (TranRow K)) := none

/-- a structural data object of the first level -/
structure Struc (K : Type) where
  isOpen : Bool := true
  /-- `_toplevel`; the constructor of `FirstLevelData` leaves it `None` (strucdata.py:324-325
  hands its argument to the base class as `fileinstance`) -/
  toplevel : Option (Top K) := none
  filetype : String := "T"
  seltyp : Int := 1
  /-- `_index`, results files only -/
  index : Int := 1
  /-- `rec_names` -/
  recNames : List String := []
  gnode : Option (List NodeRow) := none
  gcoord : Option (List (XYZ K)) := none
  gelmnt1 : Option (List ElemRow × List Int) := none
  /-- column `geono` of GELREF1 -/
  gelref1 : Option (List Int) := none
  tdsetnam : Option (List NameRow) := none
  gsetmemb : Option (List MembRow × List Int) := none
  rdresref : Option (List ResRef) := none
  rvnoddis : Option (List NodeRes × List K) := none
  rvnodvel : Option (List NodeRes × List K) := none
  rvnodacc : Option (List NodeRes × List K) := none
  rvforces : Option (List ElemRes × List K) := none
  rvstress : Option (List ElemRes × List K) := none
  /-- GBEAMG: column `geono` and the rest of the row -/
  gbeamg : Option (List (Int × List K)) := none
  /-- GELTH: columns `geono` and `th` -/
  gelth : Option (List (Int × K)) := none
  rsuptran : Option (List (TranRow K)) := none
  tdload : Option (List NameRow) := none

variable {K : Type}

/-- sifdata.py:66-91 `_get_record`: the object must be open and have the table -/
def need {β : Type} (isOpen : Bool) (t : Option β) : Except Err β :=
  if isOpen then
    match t with
    | some x => .ok x
    | none => .error .noSuchRecord
  else .error .closedFile

/-- helpers.py:12-18 `getrow`: the first row fulfilling the condition -/
def getrow {β : Type} (rows : List β) (cond : β → Bool) : Except Err β :=
  match rows.find? cond with
  | some r => .ok r
  | none => .error .conditionError

/-- the argument `sets`: `None`, a name (`str`), a sequence of names (`str`), a byte string, a
sequence of names (`str`) followed by a byte string (and by anything).  The byte strings are those
of numpy, which `get_setnames` returns. -/
inductive SetsArg where
  | none
  | one (name : Str)
  | many (names : List Str)
  | bytes (name : Str)
  | mixed (names : List Str) (name : Str)
  deriving DecidableEq, Repr

/-- truth value of `sets` -/
def SetsArg.truthy : SetsArg → Bool
  | .none => false
  | .one n => n ≠ []
  | .many l => l ≠ []
  | .bytes n => n ≠ []
  | .mixed _ _ => true

/-- strucdata.py:41: a name stands for a sequence of one name; a byte string is no `str`, it is a
sequence of numbers.  These are the names up to the first that is no `str`. -/
def SetsArg.names : SetsArg → List Str
  | .none => []
  | .one n => [n]
  | .many l => l
  | .bytes _ => []
  | .mixed l _ => l

/-- something that is no `str` follows these names -/
def SetsArg.more : SetsArg → Bool
  | .none => false
  | .one _ => false
  | .many _ => false
  | .bytes n => n ≠ []
  | .mixed _ _ => true

/-- truth value of `kind` (`None` or a string) -/
def kindTruthy : Option String → Bool
  | none => false
  | some k => k ≠ ""

/-- strucdata.py:43-48: the members of one set -/
def membersOf (tdsetnam : List NameRow) (gsetmemb : List MembRow) (irmemb : List Int)
    (istype : Int) (setname : Str) : Except Err (List (List Int)) := do
  let r ← getrow tdsetnam fun r => r.name = setname
  .ok ((gsetmemb.filter fun m => m.isref = r.idno && m.istype = istype).map fun m =>
    npSlice irmemb m.start m.stop)

/-- strucdata.py:30-49 `_get_setmember_indices`.  The condition of line 44 is the text
`name==b'...'` for a `str`, `name==bnp.bytes_(b'...')` for a byte string and `name==b65` for a
number: `bnp` and `b65` are no names of columns or variables (`more`: there is such a name). -/
def setMemberIndices (d : Struc K) (names : List Str) (more : Bool) (istype : Int) :
    Except Err (List Int) := do
  let tdsetnam ← need d.isOpen d.tdsetnam
  let (gsetmemb, irmemb) ← need d.isOpen d.gsetmemb
  let parts ← names.mapM (membersOf tdsetnam gsetmemb irmemb istype)
  if more then .error .nameError
  else do
    let members ← npConcat parts.flatten
    .ok ((npUnique members).map (· - 1))

/-- strucdata.py:77 -/
def isBeam (eltyp : Int) : Bool := eltyp = 15 || eltyp = 23

/-- strucdata.py:79-80 -/
def isShell (eltyp : Int) : Bool := eltyp = 24 || eltyp = 25 || eltyp = 26 || eltyp = 28

/-- strucdata.py:76-82 -/
def ofKind (kind : String) (arr : List ElemRow) : Except Err (List Int) :=
  if kind = "beam" then .ok ((arr.filter fun r => isBeam r.eltyp).map fun r => r.elno - 1)
  else if kind = "shell" then .ok ((arr.filter fun r => isShell r.eltyp).map fun r => r.elno - 1)
  else .error .valueError

/-- strucdata.py:51-82 `_get_elementkind_indices` -/
def elementKindIndices (d : Struc K) (kind : String) (elemindices : Option (List Int)) :
    Except Err (List Int) := do
  let (gelmnt1, _) ← need d.isOpen d.gelmnt1
  match elemindices with
  | some is => do
    let arr ← npTake gelmnt1 is
    ofKind kind arr
  | none => ofKind kind gelmnt1

/-- strucdata.py:84-98 `_get_elementindices` -/
def elementIndices (d : Struc K) (sets : SetsArg) (kind : Option String) :
    Except Err (List Int) :=
  if sets.truthy then do
    let is ← setMemberIndices d sets.names sets.more 2
    if kindTruthy kind then elementKindIndices d (kind.getD "") (some is) else .ok is
  else if kindTruthy kind then elementKindIndices d (kind.getD "") none
  else do
    let (gelmnt1, _) ← need d.isOpen d.gelmnt1
    .ok (gelmnt1.map fun r => r.elno - 1)

/-- sifdata.py:103-107: the running sums of the lengths of the slices -/
def runningEnds (offset : Int) : List (Int × Int) → List Int
  | [] => []
  | (start, stop) :: l => (offset + (stop - start)) :: runningEnds (offset + (stop - start)) l

/-- sifdata.py:93-108 `_get_varlendata` for the table GELMNT1 and its array -/
def varLenData (rows : List ElemRow) (arr : List Int) (indices : List Int) :
    Except Err (List Int × List Int) := do
  let starts ← npTake (rows.map ElemRow.start) indices
  let stops ← npTake (rows.map ElemRow.stop) indices
  let bounds := starts.zip stops
  let data ← npConcat (bounds.map fun b => npSlice arr b.1 b.2)
  .ok (data, runningEnds 0 bounds)

/-- strucdata.py:100-112 `_get_connectivity` -/
def connectivity (d : Struc K) (elemindices : List Int) : Except Err (List Int × List Int) := do
  let (gelmnt1, nodin) ← need d.isOpen d.gelmnt1
  let (con, offset) ← varLenData gelmnt1 nodin elemindices
  .ok (con.map (· - 1), offset)

/-- strucdata.py:114-122 `_update_connectivity`; `np.vectorize` refuses an array of size 0 -/
def updateConnectivity (con : List Int) : Except Err (List Int) := do
  if con = [] then .error .valueError
  else do
    let is ← con.mapM (dictIndex (npUnique con))
    .ok (is.map fun i : Nat => (i : Int))

/-- strucdata.py:134-152 `_get_nodeindices` -/
def nodeIndices (d : Struc K) (sets : SetsArg) (kind : Option String) (disconnected : Bool) :
    Except Err (List Int) := do
  let gcoord ← need d.isOpen d.gcoord
  let (_, nodin) ← need d.isOpen d.gelmnt1
  if sets.truthy || kindTruthy kind then do
    let is ← elementIndices d sets kind
    let (con, _) ← connectivity d is
    if disconnected then .ok con else .ok (npUnique con)
  else if disconnected then .ok (nodin.map (· - 1))
  else .ok (npArange gcoord.length)

/-- strucdata.py:619-688 `get_elements`: connectivity, offsets, types -/
def getElements (d : Struc K) (sets : SetsArg) (kind : Option String) (disconnected : Bool) :
    Except Err (List Int × List Int × List Int) := do
  let (gelmnt1, nodin) ← need d.isOpen d.gelmnt1
  if sets.truthy || kindTruthy kind then do
    let is ← elementIndices d sets kind
    let (con, offset) ← connectivity d is
    let eltyp ← npTake (gelmnt1.map ElemRow.eltyp) is
    let con' ← if disconnected then Except.ok (npArange con.length) else updateConnectivity con
    .ok (con', offset, eltyp)
  else
    .ok (if disconnected then npArange nodin.length else nodin.map (· - 1),
      gelmnt1.map ElemRow.stop, gelmnt1.map ElemRow.eltyp)

/-- strucdata.py:690-705 `get_elementnumbers` -/
def getElementNumbers (d : Struc K) (sets : SetsArg) (kind : Option String)
    (numbertype : String) : Except Err (List Int) := do
  let (gelmnt1, _) ← need d.isOpen d.gelmnt1
  let col ←
    if numbertype = "external" then Except.ok (gelmnt1.map ElemRow.elnox)
    else if numbertype = "internal" then Except.ok (gelmnt1.map ElemRow.elno)
    else Except.error .valueError
  if sets.truthy || kindTruthy kind then do
    let is ← elementIndices d sets kind
    npTake col is
  else .ok col

/-- strucdata.py:485-500 `get_nodenumbers` -/
def getNodeNumbers (d : Struc K) (sets : SetsArg) (kind : Option String) (disconnected : Bool)
    (numbertype : String) : Except Err (List Int) := do
  let gnode ← need d.isOpen d.gnode
  let col ←
    if numbertype = "external" then Except.ok (gnode.map NodeRow.nodex)
    else if numbertype = "internal" then Except.ok (gnode.map NodeRow.nodeno)
    else Except.error .valueError
  if sets.truthy || kindTruthy kind || disconnected then do
    let is ← nodeIndices d sets kind disconnected
    npTake col is
  else .ok col

/-- strucdata.py:183-189 `get_setnames` (`none`: Python `None`); the names are byte strings -/
def getSetNames (d : Struc K) : Except Err (Option (List Str)) :=
  match need d.isOpen d.tdsetnam with
  | .ok t => .ok (some (t.map NameRow.name))
  | .error .noSuchRecord => .ok none
  | .error e => .error e

/-! ## transformations -/

/-- the argument `level` of `get_transformation` -/
inductive Level where
  | top
  | num (n : Int)
  deriving DecidableEq, Repr

/-- strucdata.py:246-256: the loop of `get_transformation` -/
def climb [Semiring K] (hierarch : List HierRow) (hsuptran : List (TranRow K)) (level : Int) :
    Nat → HierRow → Mat4 K → Except Err (Mat4 K)
  | 0, _, _ => .error .outOfFuel
  | fuel + 1, rp, t =>
    if rp.islevl < level then do
      let t2 ← getrow hsuptran fun r => r.itref = rp.itref
      if rp.ihpref ≠ 0 then do
        let rp' ← getrow hierarch fun r => r.ihref = rp.ihpref
        if rp'.islevl > level then .error .hierarchyError
        else climb hierarch hsuptran level fuel rp' (t * t2.t)
      else climb hierarch hsuptran level fuel rp (t * t2.t)
    else .ok t

/-- strucdata.py:239-256: the transformation from a superelement to a level above -/
def pathMatrix [Semiring K] (hierarch : List HierRow) (hsuptran : List (TranRow K)) (fuel : Nat)
    (seltyp index level : Int) : Except Err (Mat4 K) := do
  let r ← getrow hierarch fun r => r.iselty = seltyp && r.indsel = index
  let t ← getrow hsuptran fun x => x.itref = r.itref
  let rp ← getrow hierarch fun x => x.ihref = r.ihpref
  if rp.islevl > level then .error .hierarchyError
  else climb hierarch hsuptran level fuel rp t.t

/-- strucdata.py:221-256 `get_transformation` -/
def getTransformation [Semiring K] (d : Top K) (fuel : Nat) (seltyp index : Int) (level : Level) :
    Except Err (Mat4 K) := do
  let hierarch ← need d.isOpen d.hierarch
  let hsuptran ← need d.isOpen d.hsuptran
  let first ← npAt hierarch 0
  match level with
  | .top => pathMatrix hierarch hsuptran fuel seltyp index first.islevl
  | .num n =>
    if n = 1 then .ok 1
    else if n > first.islevl then .error .hierarchyError
    else if n < 1 then .error .hierarchyError
    else pathMatrix hierarch hsuptran fuel seltyp index n

/-- the argument `trans` of `get_nodes`: `None`, an array of shape (4, 4), an array of another
shape, an integer, a string -/
inductive TransArg (K : Type) where
  | none
  | mat (t : Mat4 K)
  | array (shape : List Nat)
  | level (n : Int)
  | text (s : String)

/-- strucdata.py:457-479: the matrix meant by `trans`.  The message for a wrong shape is
formatted with two entries of the shape. -/
def resolveTrans [Semiring K] (d : Struc K) (fuel : Nat) (trans : TransArg K) (index : Int) :
    Except Err (Option (Mat4 K)) :=
  let ix := if d.filetype = "R" then d.index else index
  match trans with
  | .none => .ok Option.none
  | .mat t => .ok (some t)
  | .array shape => if shape.length < 2 then .error .indexError else .error .valueError
  | .level n =>
    match d.toplevel with
    | some top => (getTransformation top fuel d.seltyp ix (.num n)).map some
    | Option.none => .error .hierarchyError
  | .text s =>
    match d.toplevel with
    | some top =>
      if s = "top" then (getTransformation top fuel d.seltyp ix .top).map some
      else .error .valueError
    | Option.none =>
      if "RSUPTRAN" ∈ d.recNames ∧ s = "top" then do
        let rows ← need d.isOpen d.rsuptran
        let r ← npAt rows 0
        .ok (some r.t)
      else .error .hierarchyError

/-- strucdata.py:450-453, 480: the row `(x, y, z, 1)` times the matrix; the first three entries -/
def applyMatrix [Semiring K] (t : Mat4 K) (p : XYZ K) : XYZ K :=
  let v : Fin 4 → K := ![p.x, p.y, p.z, 1]
  { x := Matrix.vecMul v t 0, y := Matrix.vecMul v t 1, z := Matrix.vecMul v t 2 }

/-- strucdata.py:411-483 `get_nodes` -/
def getNodes [Semiring K] (d : Struc K) (fuel : Nat) (sets : SetsArg) (kind : Option String)
    (disconnected : Bool) (trans : TransArg K) (index : Int) : Except Err (List (XYZ K)) := do
  let gcoord ← need d.isOpen d.gcoord
  let is ← nodeIndices d sets kind disconnected
  let coords ← npTake gcoord is
  match ← resolveTrans d fuel trans index with
  | Option.none => .ok coords
  | some t => .ok (coords.map (applyMatrix t))

/-! ## results -/

/-- the argument `rescases`: `None`, an `int`, a container of numbers (list, tuple, array, set,
range), anything that `in` does not accept -/
inductive CasesArg where
  | all
  | one (n : Int)
  | many (l : List Int)
  | other
  deriving DecidableEq, Repr

/-- strucdata.py:154-174 `_get_resrefs`.  For another value of `rescases` the test
`row['ieres'] in rescases` raises, if it is reached. -/
def resRefs (d : Struc K) (run : Int) (rescases : CasesArg) : Except Err (List ResRef) := do
  let rdresref ← need d.isOpen d.rdresref
  match rescases with
  | .all => .ok (rdresref.filter fun r => r.irno = run)
  | .one n => .ok (rdresref.filter fun r => r.irno = run && r.ieres = n)
  | .many l => .ok (rdresref.filter fun r => r.irno = run && r.ieres ∈ l)
  | .other =>
    if rdresref.any fun r => r.irno = run then .error .typeError else .ok []

/-- strucdata.py:176-181 `_check_complex_and_get_flag`; of no result cases there is no first -/
def complexFlag (flags : List Int) : Except Err Int :=
  match flags with
  | [] => .error .indexError
  | f :: _ => if flags.all (· = f) then .ok f else .error .resultError

/-- a result value: real, or complex with real and imaginary part -/
inductive Num (K : Type) where
  | re (x : K)
  | cx (x y : K)
  deriving DecidableEq, Repr

/-- `data.dtype = np.complex64` (strucdata.py:560): pairs of numbers -/
def asComplex : List K → Except Err (List (Num K))
  | [] => .ok []
  | x :: y :: l => (asComplex l).map (.cx x y :: ·)
  | [_] => .error .valueError

/-- the numbers as real or complex values (strucdata.py:559-560) -/
def asNums (complexflag : Int) (l : List K) : Except Err (List (Num K)) :=
  if complexflag ≠ 0 then asComplex l else .ok (l.map .re)

/-- consecutive pieces of `n` elements -/
def pieces {β : Type} (n : Nat) : Nat → List β → List (List β)
  | 0, _ => []
  | k + 1, l => l.take n :: pieces n k (l.drop n)

/-- node results: an array of shape (nodes, 6) or (result cases, nodes, 6) -/
inductive NodeArray (β : Type) where
  | single (rows : List (List β))
  | cases (rows : List (List (List β)))
  deriving DecidableEq, Repr

/-- strucdata.py:563-568: reshape to (-1, 6) or (nres, -1, 6) -/
def reshapeNodes {β : Type} (nres : Nat) (data : List β) : Except Err (NodeArray β) :=
  if nres > 1 then
    if data.length % (nres * 6) = 0 then
      let npts := data.length / (nres * 6)
      .ok (.cases ((pieces (npts * 6) nres data).map (pieces 6 npts)))
    else .error .valueError
  else if data.length % 6 = 0 then .ok (.single (pieces 6 (data.length / 6) data))
  else .error .valueError

/-- strucdata.py:574-575: `data.take(indices, axis)` along the axis of nodes -/
def takeNodes {β : Type} (is : List Int) : NodeArray β → Except Err (NodeArray β)
  | .single rows => (npTake rows is).map .single
  | .cases rows => (rows.mapM fun r => npTake r is).map .cases

/-- strucdata.py:531-542: the table of a result type -/
def nodeResTable (d : Struc K) (restype : String) : Except Err (List NodeRes × List K) :=
  if restype = "displacement" then need d.isOpen d.rvnoddis
  else if restype = "velocity" then need d.isOpen d.rvnodvel
  else if restype = "acceleration" then need d.isOpen d.rvnodacc
  else .error .valueError

/-- strucdata.py:502-577 `get_noderesults` -/
def getNodeResults (d : Struc K) (restype : String) (run : Int) (rescases : CasesArg)
    (sets : SetsArg) (kind : Option String) (disconnected : Bool) :
    Except Err (NodeArray (Num K)) := do
  let (rows, res) ← nodeResTable d restype
  let resrefs ← resRefs d run rescases
  let flag ← complexFlag (resrefs.map ResRef.icompl)
  let nodenumbs ← getNodeNumbers d sets kind false "internal"
  let ires := npUnique (resrefs.map ResRef.ires)
  let data ← npConcat ((rows.filter fun r => r.ires ∈ ires && r.iinod ∈ nodenumbs).map fun r =>
    npSlice res r.start r.stop)
  let nums ← asNums flag data
  let arr ← reshapeNodes ires.length nums
  if disconnected then do
    let is ← nodeIndices d sets kind disconnected
    let is' ← updateConnectivity is
    takeNodes is' arr
  else .ok arr

/-! ## properties of elements -/

/-- strucdata.py:906-916 `get_section_properties` -/
def getSectionProperties (d : Struc K) (sets : SetsArg) : Except Err (List (Int × List K)) := do
  let geono ← need d.isOpen d.gelref1
  let gbeamg ← need d.isOpen d.gbeamg
  let is ← elementIndices d sets (some "beam")
  let geonos ← npTake geono is
  geonos.mapM fun g => do
    let i ← dictIndex (gbeamg.map Prod.fst) g
    pyIdx gbeamg i

/-- strucdata.py:918-928 `get_shell_thicknesses` -/
def getShellThicknesses (d : Struc K) (sets : SetsArg) : Except Err (List K) := do
  let geono ← need d.isOpen d.gelref1
  let gelth ← need d.isOpen d.gelth
  let is ← elementIndices d sets (some "shell")
  let geonos ← npTake geono is
  geonos.mapM fun g => do
    let i ← dictIndex (gelth.map Prod.fst) g
    pyIdx (gelth.map Prod.snd) i

/-- strucdata.py:950-972 `get_resultcase_names`: number and name of each load case, the items of the
dict in order -/
def getResultcaseNames (d : Struc K) (rescases : Option (List Int)) :
    Except Err (List (Int × Str)) := do
  let loadtable ← need d.isOpen d.tdload
  match rescases with
  | none => .ok (pyDict (loadtable.map fun r => (r.idno, r.name)))
  | some l => .ok (pyDict ((loadtable.filter fun r => r.idno ∈ l).map fun r => (r.idno, r.name)))

end Verif.Data
