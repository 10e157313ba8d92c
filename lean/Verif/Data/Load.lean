import Verif.Data.Hydro
import Verif.Parse.Parser
import Mathlib.LinearAlgebra.Matrix.Notation
/-!
# From the converted file to data objects

Model of the constructors and of the record access in `/repo/freesif/data/sifdata.py` (lines 16-35
and 66-91), `/repo/freesif/data/strucdata.py` (lines 18-28, 324-327) and
`/repo/freesif/data/hydrodata.py` (lines 51-70) as far as they read tables, arrays and attributes
of a group.  The code reads a table when a method needs it; here all tables are read at once, which
gives the same rows because a group does not change after conversion.  `num` and `cplx` say what
the stored floats and complex numbers are in the number types of the data objects.

A table that the group does not have is `none` (`_get_record` raises NoSuchRecordError, see
`Verif.Data.need`).  Cells of another type than the column descriptions of parsers.py give do not
occur in converted files; reading one is an error here.
-/

namespace Verif.Data.Load
open Verif Verif.Data Verif.Parse
open Verif.Seq (Str)

/-- `row[name]` -/
def cell : List Col → List Cell → String → Except Err Cell
  | c :: cs, x :: xs, n => if c.name = n then .ok x else cell cs xs n
  | _, _, _ => .error .keyError

/-- cell of an integer column -/
def asInt : Cell → Except Err Int
  | .sc (.int i) => .ok i
  | _ => .error .typeError

/-- cell of a text column -/
def asText : Cell → Except Err Str
  | .sc (.txt t) => .ok t
  | _ => .error .typeError

section
variable {K V : Type} (num : PyF → K) (cplx : PyF → PyF → V)

/-- stored real number -/
def realSc : SCell → Except Err K
  | .flt x => .ok (num x)
  | _ => .error .typeError

/-- stored complex number -/
def cplxSc : SCell → Except Err V
  | .cpx x y => .ok (cplx x y)
  | _ => .error .typeError

/-- cell of a float column -/
def asReal : Cell → Except Err K
  | .sc c => realSc num c
  | _ => .error .typeError

/-- cell of a complex column -/
def asCplx : Cell → Except Err V
  | .sc c => cplxSc cplx c
  | _ => .error .typeError

/-- cell of a float column of shape `(n,)` -/
def asReals : Cell → Except Err (List K)
  | .vec l => l.mapM (realSc num)
  | _ => .error .typeError

/-- cell of a complex column of shape `(n,)` -/
def asCplxs : Cell → Except Err (List V)
  | .vec l => l.mapM (cplxSc cplx)
  | _ => .error .typeError

/-- cell of a float column of shape `(n, m)` -/
def asMat : Cell → Except Err (List (List K))
  | .mat l => l.mapM fun r : List SCell => r.mapM (realSc num)
  | _ => .error .typeError

/-- a cell of shape `(4, 4)` -/
def asMat4 (x : Cell) : Except Err (Mat4 K) := do
  match ← asMat num x with
  | [[a, b, c, d], [e, f, g, h], [i, j, k, l], [m, n, o, p]] =>
    .ok !![a, b, c, d; e, f, g, h; i, j, k, l; m, n, o, p]
  | _ => .error .typeError

/-- a row of a table: its cells by column name -/
abbrev Row := String → Except Err Cell

/-- integer cell of a row -/
def int (r : Row) (n : String) : Except Err Int := do asInt (← r n)
/-- float cell of a row -/
def real (r : Row) (n : String) : Except Err K := do asReal num (← r n)
/-- cell of a row with a number of floats -/
def reals (r : Row) (n : String) : Except Err (List K) := do asReals num (← r n)

/-- sifdata.py:66-82: the rows of the table of a record type in the group `p` -/
def table {β : Type} (h : H5) (p : Path) (name : String) (f : Row → Except Err β) :
    Except Err (Option (List β)) :=
  match h.tabs (p, name) with
  | none => .ok none
  | some t => do
    let rows ← t.rows.mapM fun r => f (cell t.cols r)
    .ok (some rows)

/-- sifdata.py:84-91: the array `<record type>_<arr>` -/
def array {β : Type} (t : Tab) (arr : String) (f : Cell → Except Err β) : Except Err (List β) :=
  match t.arrs.find? fun a => a.name = arr with
  | none => .error .nodeError
  | some a => a.items.mapM f

/-- the rows of a table together with one of its arrays -/
def tableArr {β γ : Type} (h : H5) (p : Path) (name arr : String) (f : Row → Except Err β)
    (g : Cell → Except Err γ) : Except Err (Option (List β × List γ)) :=
  match h.tabs (p, name) with
  | none => .ok none
  | some t => do
    let rows ← t.rows.mapM fun r => f (cell t.cols r)
    let items ← array t arr g
    .ok (some (rows, items))

/-! ### rows of structural data -/

/-- the columns of GNODE that strucdata.py:487-500 reads -/
def nodeRow (r : Row) : Except Err NodeRow := do .ok ⟨← int r "nodex", ← int r "nodeno"⟩

/-- strucdata.py:450-453 -/
def coordRow (r : Row) : Except Err (XYZ K) := do
  .ok ⟨← real num r "xcoord", ← real num r "ycoord", ← real num r "zcoord"⟩

/-- the columns of GELMNT1 that strucdata.py:60-130 and 640-705 read -/
def elemRow (r : Row) : Except Err ElemRow := do
  .ok ⟨← int r "elnox", ← int r "elno", ← int r "eltyp", ← int r "nodin_start", ← int r "nodin_stop"⟩

/-- the columns of TDSETNAM and TDLOAD that strucdata.py:45, 187, 964-965 read -/
def nameRow (r : Row) : Except Err NameRow := do
  let id ← int r "idno"
  let t ← asText (← r "name")
  .ok ⟨id, t⟩

/-- the columns of GSETMEMB that strucdata.py:46-48 reads -/
def membRow (r : Row) : Except Err MembRow := do
  .ok ⟨← int r "isref", ← int r "istype", ← int r "irmemb_start", ← int r "irmemb_stop"⟩

/-- the columns of RDRESREF that strucdata.py:155-181 and 545-550 read -/
def refRow (r : Row) : Except Err ResRef := do
  .ok ⟨← int r "ires", ← int r "irno", ← int r "ieres", ← int r "icompl"⟩

/-- the columns of RVNODDIS, RVNODVEL, RVNODACC that strucdata.py:552-560 reads -/
def nodeResRow (arr : String) (r : Row) : Except Err NodeRes := do
  .ok ⟨← int r "ires", ← int r "iinod", ← int r (arr ++ "_start"), ← int r (arr ++ "_stop")⟩

/-- the columns of RVFORCES, RVSTRESS that strucdata.py:782-790 reads -/
def elemResRow (arr : String) (r : Row) : Except Err ElemRes := do
  .ok ⟨← int r "ires", ← int r "iielno", ← int r "ir", ← int r (arr ++ "_start"),
    ← int r (arr ++ "_stop")⟩

/-- strucdata.py:226, 241-251: the columns of HIERARCH read there -/
def hierRow (r : Row) : Except Err HierRow := do
  .ok ⟨← int r "ihref", ← int r "iselty", ← int r "indsel", ← int r "islevl", ← int r "itref",
    ← int r "ihpref"⟩

/-- strucdata.py:241, 247, 475: the columns of HSUPTRAN and RSUPTRAN read there -/
def tranRow (r : Row) : Except Err (TranRow K) := do
  let i ← int r "itref"
  let t ← asMat4 num (← r "t")
  .ok ⟨i, t⟩

/-- the float columns of GBEAMG (parsers.py:965-982) -/
def beamCols : List String :=
  ["void", "area", "ix", "iy", "iz", "iyz", "wxmin", "wymin", "wzmin", "shary", "sharz", "shceny",
   "shcenz", "sy", "sz"]

/-- strucdata.py:911-916: a row of GBEAMG -/
def beamRow (r : Row) : Except Err (Int × List K) := do
  .ok (← int r "geono", ← beamCols.mapM (real num r))

/-- strucdata.py:922-927: the columns of GELTH read there -/
def thickRow (r : Row) : Except Err (Int × K) := do .ok (← int r "geono", ← real num r "th")

/-- an attribute that must be there (`_f_getattr` raises AttributeError otherwise) -/
def attr {β : Type} (a : Option β) : Except Err β :=
  match a with
  | some x => .ok x
  | none => .error .attributeError

/-- sifdata.py:16-35, strucdata.py:324-327: a data object of the first level made from the group
`p`, with its tables.  (An attribute SELTYP or INDEX that is `None` is read as 0.) -/
def loadStruc (h : H5) (p : Path) : Except Err (Struc K) := do
  let a ← attr (h.groups p)
  let recs ← attr a.records
  let seltyp ← attr a.seltyp
  let _ ← attr a.level
  let filetype ← attr a.filetype
  let _ ← attr a.datatype
  let index ← if filetype = "R" then attr a.index else .ok none
  let gnode ← table h p "GNODE" nodeRow
  let gcoord ← table h p "GCOORD" (coordRow num)
  let gelmnt1 ← tableArr h p "GELMNT1" "nodin" elemRow asInt
  let gelref1 ← table h p "GELREF1" (int · "geono")
  let tdsetnam ← table h p "TDSETNAM" nameRow
  let gsetmemb ← tableArr h p "GSETMEMB" "irmemb" membRow asInt
  let rdresref ← table h p "RDRESREF" refRow
  let rvnoddis ← tableArr h p "RVNODDIS" "dis" (nodeResRow "dis") (asReal num)
  let rvnodvel ← tableArr h p "RVNODVEL" "vel" (nodeResRow "vel") (asReal num)
  let rvnodacc ← tableArr h p "RVNODACC" "acc" (nodeResRow "acc") (asReal num)
  let rvforces ← tableArr h p "RVFORCES" "force" (elemResRow "force") (asReal num)
  let rvstress ← tableArr h p "RVSTRESS" "stress" (elemResRow "stress") (asReal num)
  let gbeamg ← table h p "GBEAMG" (beamRow num)
  let gelth ← table h p "GELTH" (thickRow num)
  let rsuptran ← table h p "RSUPTRAN" (tranRow num)
  let tdload ← table h p "TDLOAD" nameRow
  .ok { isOpen := true, toplevel := none, filetype := filetype, seltyp := seltyp.getD 0,
        index := index.getD 0, recNames := recs, gnode := gnode, gcoord := gcoord,
        gelmnt1 := gelmnt1, gelref1 := gelref1, tdsetnam := tdsetnam, gsetmemb := gsetmemb,
        rdresref := rdresref, rvnoddis := rvnoddis, rvnodvel := rvnodvel, rvnodacc := rvnodacc,
        rvforces := rvforces, rvstress := rvstress, gbeamg := gbeamg, gelth := gelth,
        rsuptran := rsuptran, tdload := tdload }

/-- sifdata.py:16-35: a top level data object made from the group `p`, with its tables -/
def loadTop (h : H5) (p : Path) : Except Err (Top K) := do
  let a ← attr (h.groups p)
  let _ ← attr a.records
  let _ ← attr a.seltyp
  let _ ← attr a.level
  let _ ← attr a.filetype
  let _ ← attr a.datatype
  let hierarch ← table h p "HIERARCH" hierRow
  let hsuptran ← table h p "HSUPTRAN" (tranRow num)
  .ok { isOpen := true, hierarch := hierarch, hsuptran := hsuptran }

/-! ### rows of hydrodynamic data -/

/-- hydrodata.py:58-67: the second column of the array of pairs -/
def second (x : Cell) : Except Err K := do
  match ← asReals num x with
  | [_, b] => .ok b
  | _ => .error .indexError

/-- hydrodata.py:56-67: the arrays of WDRESREF -/
def loadRefs (h : H5) (p : Path) : Except Err (Option (List K × List K × List K)) :=
  match h.tabs (p, "WDRESREF") with
  | none => .ok none
  | some t => do
    let dirs ← array t "dir" (second num)
    let freqs ← array t "freq" (second num)
    let times ← array t "time" (second num)
    .ok (some (dirs, freqs, times))

/-- hydrodata.py:84-87 -/
def globRow (r : Row) : Except Err (GlobRow K) := do
  .ok ⟨← real num r "g", ← real num r "ro", ← real num r "depth"⟩

/-- hydrodata.py:94-95 -/
def bodconRow (r : Row) : Except Err BodConRow := do .ok ⟨← int r "ibcond", ← int r "ibody"⟩

/-- the float columns of WBODY (parsers.py:2099-2113) -/
def bodyCols : List String :=
  ["clenb", "bmass", "wsarea", "wparea", "vol", "xcg", "ycg", "zcg", "xcb", "ycb", "zcb", "xrb",
   "yrb", "zrb"]

/-- hydrodata.py:178-187: a row of WBODY -/
def bodyPropRow (r : Row) : Except Err (BodyPropRow K) := do
  let nfield ← int r "nfield"
  let ibcond ← int r "ibcond"
  let props ← bodyCols.mapM fun n => do
    let x ← real num r n
    .ok (n, PropVal.real [[x]])
  let t ← asMat num (← r "t")
  .ok ⟨nfield, ibcond, props ++ [("t", .real t)]⟩

/-- hydrodata.py:151-162 -/
def sectionRow (r : Row) : Except Err (SectionRow K) := do
  .ok ⟨← int r "ibody", ← int r "isect", ← int r "isecty", ← int r "secusr", ← reals num r "p1",
    ← reals num r "p2", ← reals num r "p3"⟩

/-- hydrodata.py:164-176 -/
def pointRow (r : Row) : Except Err (PointRow K) := do
  .ok ⟨← int r "ifkpnt", ← reals num r "fkpnt"⟩

/-- hydrodata.py:97-113, 208, 231, 254: complex results of a body -/
def cplxBodyRow (r : Row) : Except Err (BodyRow V) := do
  let i ← int r "ibcond"
  let x ← asCplxs cplx (← r "data")
  .ok ⟨i, x⟩

/-- hydrodata.py:382, 403: drift forces of a body -/
def driftRow (col : String) (r : Row) : Except Err (BodyRow K) := do
  .ok ⟨← int r "ibcond", ← reals num r col⟩

/-- hydrodata.py:281-290 -/
def fluidRow (r : Row) : Except Err (FluidRow V) := do
  let p ← asCplx cplx (← r "p")
  let v ← asCplxs cplx (← r "v")
  .ok ⟨p, v⟩

/-- hydrodata.py:318-333 -/
def matrixRow (r : Row) : Except Err (MatrixRow K) := do
  let i ← int r "ibconi"
  let j ← int r "ibconj"
  let ty ← int r "imtyp"
  let m ← asMat num (← r "hmat")
  .ok ⟨i, j, ty, m⟩

/-- hydrodata.py:408-480 -/
def panelRow (r : Row) : Except Err (PanelRow V) := do
  let i ← int r "ibcond"
  let s ← int r "isymm1"
  let p ← asCplx cplx (← r "p")
  let n ← int r "ipan"
  .ok ⟨i, s, p, n⟩

/-- the tables of a hydrodynamic group -/
def loadHydro (h : H5) (p : Path) : Except Err (HydroTabs K V) := do
  let a ← attr (h.groups p)
  let _ ← attr a.records
  let _ ← attr a.seltyp
  let _ ← attr a.level
  let _ ← attr a.filetype
  let _ ← attr a.datatype
  let wdresref ← loadRefs num h p
  let wglobdef ← table h p "WGLOBDEF" (globRow num)
  let wbodcon ← table h p "WBODCON" bodconRow
  let wbody ← table h p "WBODY" (bodyPropRow num)
  let wsection ← table h p "WSECTION" (sectionRow num)
  let wfkpoint ← table h p "WFKPOINT" (pointRow num)
  let w1motion ← table h p "W1MOTION" (cplxBodyRow cplx)
  let w1exforc ← table h p "W1EXFORC" (cplxBodyRow cplx)
  let w1sforce ← table h p "W1SFORCE" (cplxBodyRow cplx)
  let wfluidkn ← table h p "WFLUIDKN" (fluidRow cplx)
  let w1matrix ← table h p "W1MATRIX" (matrixRow num)
  let w2mdrift ← table h p "W2MDRIFT" (driftRow num "smfor")
  let w2hdrift ← table h p "W2HDRIFT" (driftRow num "shfor")
  let w1panpre ← table h p "W1PANPRE" (panelRow cplx)
  .ok { wdresref := wdresref, wglobdef := wglobdef, wbodcon := wbodcon, wbody := wbody,
        wsection := wsection, wfkpoint := wfkpoint, w1motion := w1motion, w1exforc := w1exforc,
        w1sforce := w1sforce, wfluidkn := wfluidkn, w1matrix := w1matrix, w2mdrift := w2mdrift,
        w2hdrift := w2hdrift, w1panpre := w1panpre }

end
end Verif.Data.Load
