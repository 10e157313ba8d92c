import Verif.Data.Nd
import Verif.Data.Struc
import Mathlib.Algebra.Field.Basic
import Mathlib.Algebra.Module.Defs
/-!
# Model of `/repo/freesif/data/hydrodata.py`

The tables of a hydrodynamic results file as typed rows with the columns the class reads; the
complex RAO values are elements of a module `V` over the number field `K` (`K × K` for complex
numbers), the mean drift forces and matrices are in `K`.  Arithmetic is exact; `pi` is a
parameter.  `bodyid` is an integer (0 and `None` are the falsy values and behave alike).  The
stored attributes of an object are the fields of `HydroObj`; closing is `isOpen := false`.
-/

namespace Verif.Data
open Verif

/-- parsers.py:1986-1990, columns of WBODCON read here -/
structure BodConRow where
  ibcond : Int
  ibody : Int
  deriving DecidableEq, Repr

/-- a result row of one body condition: W1MOTION/W1EXFORC `data` (parsers.py:2164-2197),
W1SFORCE `data` (2203-2209), W2MDRIFT `smfor` (2263-2267), W2HDRIFT `shfor` (2238-2242) -/
structure BodyRow (V : Type) where
  ibcond : Int
  data : List V
  deriving DecidableEq, Repr

/-- parsers.py:2316-2322, columns of WFLUIDKN read here -/
structure FluidRow (V : Type) where
  p : V
  v : List V
  deriving DecidableEq, Repr

/-- parsers.py:2137-2144, columns of W1MATRIX read here -/
structure MatrixRow (K : Type) where
  ibconi : Int
  ibconj : Int
  imtyp : Int
  hmat : List (List K)
  deriving DecidableEq, Repr

/-- parsers.py:2462-2471, columns of W1PANPRE read here -/
structure PanelRow (V : Type) where
  ibcond : Int
  isymm1 : Int
  p : V
  ipan : Int
  deriving DecidableEq, Repr

/-- parsers.py:2358-2366, columns of WSECTION -/
structure SectionRow (K : Type) where
  ibody : Int
  isect : Int
  isecty : Int
  secusr : Int
  p1 : List K
  p2 : List K
  p3 : List K
  deriving DecidableEq, Repr

/-- the value of a column of WBODY: an integer or real numbers (one, or 4 rows of 4) -/
inductive PropVal (K : Type) where
  | int (i : Int)
  | real (xs : List (List K))
  deriving DecidableEq, Repr

/-- parsers.py:2097-2114, WBODY: the columns other than `nfield` and `ibcond` under their names,
`t` being the last of them -/
structure BodyPropRow (K : Type) where
  nfield : Int
  ibcond : Int
  props : List (String × PropVal K)
  deriving DecidableEq, Repr

/-- parsers.py:2292-2295, WFKPOINT -/
structure PointRow (K : Type) where
  ifkpnt : Int
  fkpnt : List K
  deriving DecidableEq, Repr

/-- parsers.py:2066-2071, columns of WGLOBDEF read here -/
structure GlobRow (K : Type) where
  g : K
  ro : K
  depth : K
  deriving DecidableEq, Repr

/-- the tables and arrays of a hydrodynamic group; `wdresref` holds the second columns of the
arrays of directions, frequencies and times (hydrodata.py:56-67) -/
structure HydroTabs (K V : Type) where
  wdresref : Option (List K × List K × List K) := none
  wglobdef : Option (List (GlobRow K)) := none
  wbodcon : Option (List BodConRow) := none
  wbody : Option (List (BodyPropRow K)) := none
  wsection : Option (List (SectionRow K)) := none
  wfkpoint : Option (List (PointRow K)) := none
  w1motion : Option (List (BodyRow V)) := none
  w1exforc : Option (List (BodyRow V)) := none
  w1sforce : Option (List (BodyRow V)) := none
  wfluidkn : Option (List (FluidRow V)) := none
  w1matrix : Option (List (MatrixRow K)) := none
  w2mdrift : Option (List (BodyRow K)) := none
  w2hdrift : Option (List (BodyRow K)) := none
  w1panpre : Option (List (PanelRow V)) := none

/-- 'frequency' or 'time' -/
inductive Domain where
  | frequency
  | time
  deriving DecidableEq, Repr

/-- a HydroData object: its tables and the attributes set by `__init__` -/
structure HydroObj (K V : Type) where
  isOpen : Bool
  tabs : HydroTabs K V
  angfreqs : List K
  periods : List K
  directions : List K
  timesteps : List K
  nfreqs : Nat
  ndirs : Nat
  nsections : Nat
  npoints : Nat
  g : K
  ro : K
  depth : K
  domaintype : Domain

section
variable {K V : Type} [Field K] [LinearOrder K]

/-- hydrodata.py:73-81: the number of rows of a table, 0 if there is none -/
def countRows {β : Type} (t : Option (List β)) : Nat :=
  match t with
  | some rows => rows.length
  | none => 0

/-- hydrodata.py:51-89 `__init__` -/
def hydroInit (pi : K) (t : HydroTabs K V) : Except Err (HydroObj K V) := do
  let wd ← need true t.wdresref
  let angfreqs ← npUniqueInOrder wd.2.1
  let periods := angfreqs.map fun w => 2 * pi / w
  let directions ← npUniqueInOrder wd.1
  let timesteps := npUnique wd.2.2
  let nsections := countRows t.wsection
  let npoints := countRows t.wfkpoint
  let wglobdef ← need true t.wglobdef
  let row ← pyIdx wglobdef 0
  .ok { isOpen := true, tabs := t, angfreqs := angfreqs, periods := periods
        directions := directions, timesteps := timesteps, nfreqs := angfreqs.length
        ndirs := directions.length, nsections := nsections, npoints := npoints
        g := row.g, ro := row.ro, depth := row.depth
        domaintype := if angfreqs.length ≠ 0 then .frequency else .time }

/-- hydrodata.py:91-95 `_get_ibcond` -/
def getIbcond (h : HydroObj K V) (bodyid : Int) : Except Err Int := do
  let wbodcon ← need h.isOpen h.tabs.wbodcon
  let r ← getrow wbodcon fun r => r.ibody = bodyid
  .ok r.ibcond

/-- hydrodata.py:97-113 `_get_results`: the rows of the body's condition, all rows if no body
is given; `cond` reads the column `ibcond` -/
def getResults {β : Type} (h : HydroObj K V) (table : Option (List β)) (cond : β → Int)
    (bodyid : Int) : Except Err (List β) := do
  let res ← need h.isOpen table
  if bodyid ≠ 0 then do
    let ibcond ← getIbcond h bodyid
    .ok (res.filter fun r => cond r = ibcond)
  else .ok res

/-- hydrodata.py:115-119 `_assert_domaintype`, with `_check_isopen` (sifdata.py:61-64) -/
def assertDomain (h : HydroObj K V) (d : Domain) : Except Err Unit :=
  if h.isOpen then (if h.domaintype = d then .ok () else .error .resultError)
  else .error .closedFile

/-- hydrodata.py:121-125 -/
def getAngularFreqs (h : HydroObj K V) : Except Err (List K) := do
  assertDomain h .frequency
  .ok h.angfreqs

/-- hydrodata.py:127-131 -/
def getPeriods (h : HydroObj K V) : Except Err (List K) := do
  assertDomain h .frequency
  .ok h.periods

/-- hydrodata.py:133-143 -/
def getDirections (pi : K) (h : HydroObj K V) (unit : String) : Except Err (List K) :=
  if h.isOpen then
    if unit = "degrees" then .ok (h.directions.map fun d => d * 180 / pi)
    else if unit = "radians" then .ok h.directions
    else .error .valueError
  else .error .closedFile

/-- hydrodata.py:145-149 -/
def getTimesteps (h : HydroObj K V) : Except Err (List K) := do
  assertDomain h .time
  .ok h.timesteps

/-- a row of `get_sections`: fields secusr, isecty, p1, p2, p3 -/
structure SectionDef (K : Type) where
  secusr : Int
  isecty : Int
  p1 : List K
  p2 : List K
  p3 : List K
  deriving DecidableEq, Repr

/-- hydrodata.py:151-162 -/
def getSections (h : HydroObj K V) : Except Err (List (SectionDef K)) := do
  let wsection ← need h.isOpen h.tabs.wsection
  .ok (wsection.map fun r =>
    { secusr := r.secusr, isecty := r.isecty, p1 := r.p1, p2 := r.p2, p3 := r.p3 })

/-- hydrodata.py:164-176 -/
def getPoints (h : HydroObj K V) : Except Err (List (List K)) := do
  let wfkpoint ← need h.isOpen h.tabs.wfkpoint
  .ok (wfkpoint.map fun r => r.fkpnt)

/-- hydrodata.py:178-187: the dict of all columns without `nfield` and `ibcond` -/
def getBodyProperties (h : HydroObj K V) (bodyid : Int) :
    Except Err (List (String × PropVal K)) := do
  let wbody ← need h.isOpen h.tabs.wbody
  let ibcond ← getIbcond h bodyid
  let row ← getrow wbody fun r => r.ibcond = ibcond
  let bodyprops := ("nfield", .int row.nfield) :: ("ibcond", .int row.ibcond) :: row.props
  .ok ((bodyprops.filter fun e => e.1 ≠ "nfield").filter fun e => e.1 ≠ "ibcond")

/-- the common shape of hydrodata.py:208-213, 231-236, 382-385 and 403-406: the rows of the
body, reshaped to (directions, frequencies, `ncomp`), components rolled to the front -/
def getRaos {W : Type} [Zero W] (h : HydroObj K V) (table : Option (List (BodyRow W)))
    (ncomp : Nat) (bodyid : Int) : Except Err (Nd W) := do
  assertDomain h .frequency
  let rows ← getResults h table (fun r => r.ibcond) bodyid
  let data ← ndReshape (rows.map fun r => r.data).flatten [h.ndirs, h.nfreqs, ncomp]
  .ok (ndRollaxis data 2)

/-- hydrodata.py:189-213 -/
def getMotionRaos [Zero V] (h : HydroObj K V) (bodyid : Int) : Except Err (Nd V) :=
  getRaos h h.tabs.w1motion 6 bodyid

/-- hydrodata.py:215-236 -/
def getExcitationForceRaos [Zero V] (h : HydroObj K V) (bodyid : Int) : Except Err (Nd V) :=
  getRaos h h.tabs.w1exforc 6 bodyid

/-- hydrodata.py:366-385 -/
def getMeandrift (h : HydroObj K V) (bodyid : Int) : Except Err (Nd K) :=
  getRaos h h.tabs.w2mdrift 6 bodyid

/-- hydrodata.py:387-406 -/
def getHorizMeandrift (h : HydroObj K V) (bodyid : Int) : Except Err (Nd K) :=
  getRaos h h.tabs.w2hdrift 3 bodyid

/-- hydrodata.py:238-259 -/
def getSectionForceRaos [Zero V] (h : HydroObj K V) (bodyid : Int) : Except Err (Nd V) := do
  assertDomain h .frequency
  let rows ← getResults h h.tabs.w1sforce (fun r => r.ibcond) bodyid
  let data ← ndReshape (rows.map fun r => r.data).flatten [h.nsections, h.ndirs, h.nfreqs, 6]
  .ok (ndRollaxis data 3 1)

/-- hydrodata.py:261-293; `p / ro / g` is multiplication by the inverses (equal for `ro` and
`g` different from 0) -/
def getFluidKinematicsRaos [AddCommGroup V] [Module K V] (h : HydroObj K V) (kind : String) :
    Except Err (Nd V) := do
  assertDomain h .frequency
  let rows ← getResults h h.tabs.wfluidkn (fun _ => 0) 0
  if kind = "elevation" ∨ kind = "pressure" then do
    let p ← ndReshape (rows.map fun r : FluidRow V => r.p) [h.ndirs, h.nfreqs, h.npoints]
    let p := ndRollaxis p 2
    if kind = "elevation" then .ok (ndMap (fun x => h.g⁻¹ • (h.ro⁻¹ • x)) p) else .ok p
  else if kind = "velocity" then do
    let v ← ndReshape (rows.map fun r : FluidRow V => r.v).flatten [h.ndirs, h.nfreqs, h.npoints, 3]
    .ok (ndRollaxis (ndRollaxis v 3) 3)
  else .error .valueError

/-- the column `hmat` of selected rows: an array (rows, 6, 6) -/
def hmatColumn (rows : List (MatrixRow K)) : Nd K :=
  { shape := [rows.length, 6, 6]
    get := fun idx =>
      match idx with
      | [k, a, b] => ((((rows.map fun r => r.hmat).getD k []).getD a []).getD b 0)
      | _ => 0 }

/-- one matrix as an array -/
def hmatArray (m : List (List K)) : Nd K :=
  { shape := [6, 6]
    get := fun idx =>
      match idx with
      | [a, b] => (m.getD a []).getD b 0
      | _ => 0 }

/-- hydrodata.py:295-334 -/
def getMatrix (h : HydroObj K V) (mtyp bodyid bodyid2 : Int) : Except Err (Nd K) := do
  let w1matrix ← need h.isOpen h.tabs.w1matrix
  let ibconi ← getIbcond h bodyid
  let ibconj ← getIbcond h bodyid2
  let cond : MatrixRow K → Bool := fun r => r.ibconi = ibconi ∧ r.ibconj = ibconj ∧ r.imtyp = mtyp
  if mtyp = 11 ∨ mtyp = 22 ∨ mtyp = 31 ∨ mtyp = 32 then do
    let r ← getrow w1matrix cond
    .ok (hmatArray r.hmat)
  else if mtyp = 12 ∨ mtyp = 21 then .ok (ndRollaxis (hmatColumn (w1matrix.filter cond)) 0 3)
  else .error .valueError

/-- hydrodata.py:336-339 -/
def getBodymass (h : HydroObj K V) (bodyid bodyid2 : Int) : Except Err (Nd K) :=
  getMatrix h 11 bodyid bodyid2

/-- hydrodata.py:341-344 -/
def getAddedmass (h : HydroObj K V) (bodyid bodyid2 : Int) : Except Err (Nd K) :=
  getMatrix h 12 bodyid bodyid2

/-- hydrodata.py:346-349 -/
def getPotentialdamping (h : HydroObj K V) (bodyid bodyid2 : Int) : Except Err (Nd K) :=
  getMatrix h 21 bodyid bodyid2

/-- hydrodata.py:351-354 -/
def getViscousdamping (h : HydroObj K V) (bodyid bodyid2 : Int) : Except Err (Nd K) :=
  getMatrix h 22 bodyid bodyid2

/-- hydrodata.py:356-359 -/
def getHydrostaticRestoring (h : HydroObj K V) (bodyid bodyid2 : Int) : Except Err (Nd K) :=
  getMatrix h 31 bodyid bodyid2

/-- hydrodata.py:361-364 -/
def getMooringRestoring (h : HydroObj K V) (bodyid bodyid2 : Int) : Except Err (Nd K) :=
  getMatrix h 32 bodyid bodyid2

/-- hydrodata.py:408-418: the number of distinct values of a column, 0 if a record is missing -/
def countDistinct (h : HydroObj K V) (col : PanelRow V → Int) (bodyid : Int) : Except Err Nat :=
  match getResults h h.tabs.w1panpre (fun r => r.ibcond) bodyid with
  | .ok rows => .ok (npUnique (rows.map col)).length
  | .error .noSuchRecord => .ok 0
  | .error e => .error e

/-- hydrodata.py:420-453; `None` if there are no panels -/
def getPressurePanelIds (h : HydroObj K V) (bodyid : Int) :
    Except Err (Option (List (Int × Int))) := do
  assertDomain h .frequency
  let npanels ← countDistinct h (fun r => r.ipan) bodyid
  let _ ← countDistinct h (fun r => r.isymm1) bodyid
  if npanels ≠ 0 then do
    let rows ← getResults h h.tabs.w1panpre (fun r => r.ibcond) bodyid
    let panels := rows.map fun r => r.ipan
    let symms := rows.map fun r => r.isymm1
    let ids := (npUnique symms).flatMap fun symm => (npUnique panels).map fun panel => (panel, symm)
    if (panels.zip symms).all fun ps => ids.contains ps then .ok (some ids)
    else .error .assertionError
  else .ok none

/-- hydrodata.py:455-480 -/
def getPanelPressures [Zero V] (h : HydroObj K V) (bodyid : Int) :
    Except Err (Option (Nd V)) := do
  assertDomain h .frequency
  let npanels ← countDistinct h (fun r => r.ipan) bodyid
  let nsymm ← countDistinct h (fun r => r.isymm1) bodyid
  if npanels ≠ 0 then do
    let rows ← getResults h h.tabs.w1panpre (fun r => r.ibcond) bodyid
    let pressures ← ndReshape (rows.map fun r => r.p) [h.ndirs, h.nfreqs, nsymm, npanels]
    .ok (some (ndMoveaxis pressures [2, 3] [1, 0]))
  else .ok none

end
end Verif.Data
