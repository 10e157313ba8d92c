import Verif.Parse.Parser
import Verif.Seq.Logical
import Mathlib.Data.Rat.Floor
/-!
# What a file means (specification of the conversion)

The tables that should come out of a logical file, stated without reference to the readers of
`Verif.Parse.Readers`: for each record layout of the SESAM interface format the row and the
array items of the record (`Means`), how rows and items form a table (`Acc`), which records of a
file are read, void, or passed over (`Accepts`).

Only data types (`Val`, `Cell`, `Kind`, `Col`, ...) are shared with the model.
-/

namespace Verif.Parse
open Verif Verif.Seq

/-! ### numbers -/

/-- `n` is `x` without its decimals -/
def HasInt (x : PyF) (n : Int) : Prop :=
  ∃ q : Rat, x = .rat q ∧ (0 ≤ q → n = ⌊q⌋) ∧ (q < 0 → n = ⌈q⌉)

/-- the values of a sequence are given to numpy as numbers -/
def numbers (l : List PyF) : List Val := l.map fun x => .sc (.num x)

/-- a one-dimensional item -/
def vector (l : List PyF) : Val := .vec (l.map fun x => .num x)

/-- the first `n` of the values, zeros where there are not enough -/
def fit (n : Nat) (l : List PyF) : List PyF := (l ++ List.replicate n (PyF.rat 0)).take n

/-- `l` cut into `n` rows of `m` values is the matrix `v` -/
def Matrix (n m : Nat) (l : List PyF) (v : Val) : Prop :=
  ∃ rows : List (List PyF), rows.length = n ∧ (∀ r ∈ rows, r.length = m) ∧ rows.flatten = l ∧
    v = .mat (rows.map fun r => r.map fun x => .num x)

/-- `l` cut into groups of `m` values is the list of items `vs` -/
def Groups (m : Nat) (l : List PyF) (vs : List Val) : Prop :=
  ∃ gs : List (List PyF), (∀ g ∈ gs, g.length = m) ∧ gs.flatten = l ∧ vs = gs.map vector

/-- `l` read as real and imaginary parts is the list of complex numbers `zs` -/
inductive Pairs : List PyF → List Sc → Prop
  | nil : Pairs [] []
  | cons (a b : PyF) {l zs} : Pairs l zs → Pairs (a :: b :: l) (.cpx a b :: zs)

/-- text without leading and trailing blanks -/
def Trim (t u : Str) : Prop :=
  ∃ i j, t = List.replicate i ' ' ++ u ++ List.replicate j ' ' ∧ u.head? ≠ some ' ' ∧
    u.getLast? ≠ some ' '

/-! ### stored values -/

/-- storing a scalar in a column or array of a given kind -/
inductive StoredSc : Kind → Sc → SCell → Prop
  | int {x n} : HasInt x n → StoredSc .int (.num x) (.int n)
  | intInt (n : Int) : StoredSc .int (.int n) (.int n)
  | flt {x x'} : Rounds binary32 x x' → StoredSc .flt (.num x) (.flt x')
  | cpxReal {x x'} : Rounds binary32 x x' → StoredSc .cpx (.num x) (.cpx x' (.rat 0))
  | cpx {x x' y y'} : Rounds binary32 x x' → Rounds binary32 y y' →
      StoredSc .cpx (.cpx x y) (.cpx x' y')
  | txt (n : Nat) (t : Str) : StoredSc (.str n) (.txt t) (.txt (t.take n))

/-- storing a value in a cell of a given kind and shape -/
inductive Stored (k : Kind) : Shape → Val → Cell → Prop
  | sc {s c} : StoredSc k s c → Stored k .sc (.sc s) (.sc c)
  | vec {l cs} : List.Forall₂ (StoredSc k) l cs → Stored k (.vec l.length) (.vec l) (.vec cs)
  | mat {n m l cs} : l.length = n → (∀ r ∈ l, List.length r = m) →
      List.Forall₂ (List.Forall₂ (StoredSc k)) l cs → Stored k (.mat n m) (.mat l) (.mat cs)

/-- storing the fields of a row -/
def StoredRow (cols : List Col) (row : List Val) (cells : List Cell) : Prop :=
  List.Forall₂ (fun (c : Col) (p : Val × Cell) => Stored c.kind c.shape p.1 p.2) cols
    (row.zip cells) ∧ row.length = cols.length ∧ cells.length = cols.length

/-- values that cannot be stored in a cell of a given kind and shape: an integer column takes neither
"not a number" nor an infinity -/
inductive Unstorable : Kind → Shape → Val → Err → Prop
  | nan : Unstorable .int .sc (.sc (.num .nan)) .valueError
  | inf (neg : Bool) : Unstorable .int .sc (.sc (.num (.inf neg))) .overflowError

/-- rows with a field that cannot be stored, those in front of it can -/
inductive FieldRefused : List Col → List Val → Err → Prop
  | here {c cols v row e} : Unstorable c.kind c.shape v e → row.length = cols.length →
      FieldRefused (c :: cols) (v :: row) e
  | later {c cols v row e x} : Stored c.kind c.shape v x → FieldRefused cols row e →
      FieldRefused (c :: cols) (v :: row) e

/-- rows that cannot be stored: too many or too few fields, or a field that cannot be stored -/
inductive RowRefused (cols : List Col) (row : List Val) : Err → Prop
  | count : row.length ≠ cols.length → RowRefused cols row .valueError
  | field {e} : FieldRefused cols row e → RowRefused cols row e

/-- storing the items that a record has for the arrays of its table; `none`: the record does not
address the array -/
def StoredItems (arrs : List Arr) (items : List (Option (List Val)))
    (cells : List (Option (List Cell))) : Prop :=
  List.Forall₂ (fun (a : Arr) (p : Option (List Val) × Option (List Cell)) =>
    match p with
    | (some vs, some cs) => List.Forall₂ (Stored a.kind a.shape) vs cs
    | (none, none) => True
    | _ => False) arrs (items.zip cells) ∧ items.length = arrs.length ∧ cells.length = arrs.length

/-! ### the tables -/

/-- integer column -/
def colI (n : String) : Col := ⟨n, .int, .sc⟩
/-- float column -/
def colF (n : String) : Col := ⟨n, .flt, .sc⟩
/-- array of integers -/
def arrI (n : String) : Arr := ⟨n, .int, .sc, []⟩
/-- array of floats -/
def arrF (n : String) : Arr := ⟨n, .flt, .sc, []⟩
/-- array of groups of `m` floats -/
def arrV (n : String) (m : Nat) : Arr := ⟨n, .flt, .vec m, []⟩

/-- an entry of the list of tables -/
structure Layout where
  name : String
  cols : List Col
  arrs : List Arr
  deriving DecidableEq

/-- columns of text records describing a number -/
def tdLayout (n : String) : Layout :=
  ⟨n, [colI "nfield", colI "idno", colI "codnam", colI "codtxt", ⟨"name", .str 64, .sc⟩],
    [⟨"text", .str 64, .sc, []⟩]⟩
/-- text records -/
def textLayout (n : String) : Layout :=
  ⟨n, [colI "type", colI "subtype", colI "nrecs", colI "nbyte"], [⟨"recs", .str 72, .sc, []⟩]⟩
/-- definitions of result components -/
def compLayout (n : String) : Layout :=
  ⟨n, [colI "nfield", colI "ir", colI "lenrec"], [arrI "icomp"]⟩
/-- transformations -/
def tranLayout (n : String) : Layout :=
  ⟨n, [colI "nfield", colI "itref", ⟨"t", .flt, .mat 4 4⟩], []⟩
/-- combinations -/
def cmbLayout (n arr : String) : Layout :=
  ⟨n, [colI "nfield", colI "ires", colI "icompl", colI "nblc"], [arrV arr 3]⟩
/-- node results -/
def nodeResLayout (n arr : String) : Layout :=
  ⟨n, [colI "nfield", colI "ires", colI "iinod", colI "irdva", colI "itrans"], [arrF arr]⟩
/-- element results -/
def elemResLayout (n arr : String) : Layout :=
  ⟨n, [colI "nfield", colI "ires", colI "iielno", colI "ispalt", colI "ir"], [arrF arr]⟩
/-- six complex values per body and wave -/
def sixLayout (n : String) : Layout :=
  ⟨n, [colI "nfield", colI "ibcond", colI "iwres", colI "icompl", ⟨"data", .cpx, .vec 6⟩], []⟩

/-- the tables of a converted file, one per record type -/
def layouts : List Layout := [
  ⟨"HIERARCH", [colI "nfield", colI "ihref", colI "iselty", colI "indsel", colI "islevl",
    colI "itref", colI "ihpref", colI "nsub"], [arrI "ihsref"]⟩,
  textLayout "DATE", textLayout "TEXT",
  ⟨"IDENT", [colI "slevel", colI "seltyp", colI "selmod"], []⟩,
  tdLayout "TDMATER", tdLayout "TDSECT", tdLayout "TDSETNAM", tdLayout "TDSUPNAM",
  tdLayout "TSLAYER", tdLayout "TDSCONC", tdLayout "TDLOAD", tdLayout "TDRESREF",
  tdLayout "TDBODNAM", tdLayout "TDRSNAM", tdLayout "TDSCATTER",
  ⟨"GNODE", [colI "nodex", colI "nodeno", colI "ndof", colI "odof"], []⟩,
  ⟨"GCOORD", [colI "nodeno", colF "xcoord", colF "ycoord", colF "zcoord"], []⟩,
  ⟨"GELMNT1", [colI "elnox", colI "elno", colI "eltyp", colI "eltyad"], [arrI "nodin"]⟩,
  ⟨"GELMNT2", [colI "subno", colI "slevel", colI "stype", colI "addno", ⟨"t", .flt, .vec 12⟩,
    colI "nnod"], [arrI "nod"]⟩,
  ⟨"GELREF1", [colI "elno", colI "matno", colI "addno", colI "intno", colI "mintno",
    colI "strano", colI "streno", colI "strepono", colI "geono", colI "fixno", colI "eccno",
    colI "transno"], [arrI "geono", arrI "fixno", arrI "eccno", arrI "transno"]⟩,
  ⟨"GECCEN", [colI "eccno", colF "ex", colF "ey", colF "ez"], []⟩,
  ⟨"GUNIVEC", [colI "transno", colF "unix", colF "uniy", colF "uniz"], []⟩,
  ⟨"GELTH", [colI "geono", colF "th", colI "nint"], []⟩,
  ⟨"GBEAMG", [colI "geono", colF "void", colF "area", colF "ix", colF "iy", colF "iz",
    colF "iyz", colF "wxmin", colF "wymin", colF "wzmin", colF "shary", colF "sharz",
    colF "shceny", colF "shcenz", colF "sy", colF "sz"], []⟩,
  ⟨"GBARM", [colI "geono", colF "hz", colF "bt", colF "bb", colF "sfy", colF "sfz", colI "nloby",
    colI "nlobz"], []⟩,
  ⟨"GBOX", [colI "geono", colF "hz", colF "ty", colF "t_b", colF "tt", colF "by", colI "sfy",
    colI "sfz", colI "nloby", colI "nlobz"], []⟩,
  ⟨"GCHAN", [colI "geono", colF "hz", colF "ty", colF "by", colF "tz", colI "sfy", colI "sfz",
    colI "empty", colI "k", colI "nloby", colI "nlobz"], []⟩,
  ⟨"GCHANR", [colI "geono", colF "hz", colF "ty", colF "by", colF "tz", colI "sfy", colI "sfz",
    colI "empty", colI "k", colI "r", colI "nloby", colI "nlobz"], []⟩,
  ⟨"GDOBO", [colI "geono", colF "hz", colF "ty", colF "by", colF "tt", colF "t_b", colI "sfy",
    colI "sfz", colI "nloby", colI "nlobz"], []⟩,
  ⟨"GIORH", [colI "geono", colF "hz", colF "ty", colF "bt", colF "tt", colF "bb", colF "t_b",
    colI "sfy", colI "sfz", colI "nlobyt", colI "nlobyb", colI "nlobz"], []⟩,
  ⟨"GIORHR", [colI "geono", colF "hz", colF "ty", colF "bt", colF "tt", colF "bb", colF "t_b",
    colI "sfy", colI "sfz", colF "rt", colF "rb", colI "nlobyt", colI "nlobyb", colI "nlobz"],
    []⟩,
  ⟨"GLSEC", [colI "geono", colF "hz", colF "ty", colF "by", colF "tz", colI "sfy", colI "sfz",
    colF "k", colI "nloby", colI "nlobz"], []⟩,
  ⟨"GLSECR", [colI "geono", colF "hz", colF "ty", colF "by", colF "tz", colI "sfy", colI "sfz",
    colF "k", colF "r", colI "nloby", colI "nlobz"], []⟩,
  ⟨"GPIPE", [colI "geono", colF "di", colF "dy", colF "t", colI "sfy", colI "sfz", colI "ncir",
    colI "nrad"], []⟩,
  ⟨"GUSYI", [colI "geono", colF "hz", colF "ty", colF "bt", colF "b1", colF "tt", colF "bb",
    colF "b2", colF "t_b", colI "sfy", colI "sfz", colI "nlobyt", colI "nlobyb", colI "nlobz"],
    []⟩,
  ⟨"GSETMEMB", [colI "nfield", colI "isref", colI "index", colI "istype", colI "isorig"],
    [arrI "irmemb"]⟩,
  ⟨"MISOSEL", [colI "matno", colF "young", colF "poiss", colF "rho", colF "damp", colF "alpha"],
    []⟩,
  ⟨"SCONCEPT", [colI "nfield", colI "ircon", colI "scontype", colI "sconrole", colI "irparent",
    colI "npart", colI "njoin"], [arrI "irpart", arrI "irjoin"]⟩,
  ⟨"SCONMESH", [colI "nfield", colI "ircon", colI "numrep", colI "typrep", colI "nferep"],
    [arrI "irferep"]⟩,
  ⟨"BNBCD", [colI "nodeno", colI "ndof"], [arrI "fix"]⟩,
  ⟨"BLDEP", [colI "nodeno", colI "cnod", colI "ndof", colI "ndep"], [arrV "deps" 3]⟩,
  ⟨"BEUSLO", [colI "llc", colI "lotyp", colI "complx", colI "layer", colI "elno", colI "ndof",
    colI "intno", colI "side"], [arrF "rload", arrF "iload"]⟩,
  ⟨"BGRAV", [colI "llc", colF "empty1", colF "empty2", colI "opt", colF "gx", colF "gy",
    colF "gz"], []⟩,
  ⟨"BRIGAC", [colI "llc", colF "empty1", colI "complx", colF "empty2", colF "xcoord",
    colF "ycoord", colF "zcoord", colF "empty3", colF "raccl1", colF "raccl2", colF "raccl3",
    colF "raccl4", colF "raccl5", colF "raccl6", colF "iaccl1", colF "iaccl2", colF "iaccl3",
    colF "iaccl4", colF "iaccl5", colF "iaccl6"], []⟩,
  tranLayout "RSUPTRAN", tranLayout "HSUPTRAN",
  compLayout "RDFORCES", compLayout "RDNODRES", compLayout "RDSTRAIN", compLayout "RDSTRESS",
  compLayout "RDELNFOR",
  ⟨"RDPOINTS", [colI "nfield", colI "ispalt", colI "iielno", colI "icoref", colI "ieltyp",
    colI "nsp", colI "ijkdim", colI "nsptra", colI "nlay"],
    [arrV "respoint" 4, ⟨"xform", .flt, .mat 3 3, []⟩]⟩,
  ⟨"RDIELCOR", [colI "nfield", colI "icoref", colI "igrid"],
    [arrF "gamma", arrF "beta", arrF "alpha", arrV "layers" 2]⟩,
  ⟨"RDRESREF", [colI "nfield", colI "ires", colI "irno", colI "ieres", colI "icalty",
    colI "icompl", colI "numtyp"], [arrV "reftyps" 3]⟩,
  cmbLayout "RBLODCMB" "blcs", cmbLayout "RDRESCMB" "rcs",
  nodeResLayout "RVNODACC" "acc", nodeResLayout "RVNODDIS" "dis", nodeResLayout "RVNODVEL" "vel",
  elemResLayout "RVFORCES" "force", elemResLayout "RVSTRAIN" "strain",
  elemResLayout "RVSTRESS" "stress",
  ⟨"WBODCON", [colI "nfield", colI "ibcond", colI "ibody", colI "numcon"], [arrV "refcond" 3]⟩,
  ⟨"WDRESREF", [colI "nfield", colI "iwres", colI "nresrf", colI "numtyp"],
    [arrV "dir" 2, arrV "freq" 2, arrV "time" 2]⟩,
  ⟨"WGLOBDEF", [colI "nfield", colF "g", colF "ro", colI "idepth", colF "depth"], []⟩,
  ⟨"WBODY", [colI "nfield", colI "ibcond", colF "clenb", colF "bmass", colF "wsarea",
    colF "wparea", colF "vol", colF "xcg", colF "ycg", colF "zcg", colF "xcb", colF "ycb",
    colF "zcb", colF "xrb", colF "yrb", colF "zrb", ⟨"t", .flt, .mat 4 4⟩], []⟩,
  ⟨"W1MATRIX", [colI "nfield", colI "imatrx", colI "ibconi", colI "ibconj", colI "iwres",
    colI "imtyp", ⟨"hmat", .flt, .mat 6 6⟩], []⟩,
  sixLayout "W1EXFORC", sixLayout "W1MOTION", sixLayout "W2EXFDIF", sixLayout "W2EXFSUM",
  ⟨"W1SFORCE", [colI "nfield", colI "ibcond", colI "isect", colI "iwres", colI "icompl",
    ⟨"data", .cpx, .vec 6⟩], []⟩,
  ⟨"W2HDRIFT", [colI "nfield", colI "ibcond", colI "iwres", ⟨"shfor", .flt, .vec 3⟩], []⟩,
  ⟨"W2MDRIFT", [colI "nfield", colI "ibcond", colI "iwres", ⟨"smfor", .flt, .vec 6⟩], []⟩,
  ⟨"WFKPOINT", [colI "nfield", colI "ifkpnt", ⟨"fkpnt", .flt, .vec 3⟩], []⟩,
  ⟨"WFLUIDKN", [colI "nfield", colI "iwres", colI "ifkpnt", colI "icompl", ⟨"p", .cpx, .sc⟩,
    ⟨"v", .cpx, .vec 3⟩], []⟩,
  ⟨"WSECTION", [colI "nfield", colI "ibody", colI "isect", colI "isecty", colI "secusr",
    ⟨"p1", .flt, .vec 3⟩, ⟨"p2", .flt, .vec 3⟩, ⟨"p3", .flt, .vec 3⟩], []⟩,
  ⟨"WSURFACE", [colI "nfield", colI "iwres", colI "indxwr", colI "nnode", colI "icompl",
    colI "icompx", colI "icompy", colI "icompz"], [⟨"zelev", .cpx, .vec 4, []⟩]⟩,
  ⟨"WINPUT", [colI "nfield", colI "ibcond", ⟨"t", .flt, .mat 4 4⟩], []⟩,
  ⟨"W1PANPRE", [colI "nfield", colI "ibcond", colI "iwres", colI "ippan", colI "isymm1",
    colI "icompl", ⟨"p", .cpx, .sc⟩, colI "ipan", colI "isymm2"], []⟩]

/-! ### what earlier records declare -/

/-- the most recent record (first in the list) with property `P` declares `a` -/
inductive Latest {α : Type} (P : LRec → α → Prop) : List LRec → α → Prop
  | here {r past a} : P r a → Latest P (r :: past) a
  | earlier {r past a} : (∀ a', ¬ P r a') → Latest P past a → Latest P (r :: past) a

/-- no record with property `P` -/
def Never {α : Type} (P : LRec → α → Prop) (past : List LRec) : Prop :=
  ∀ r ∈ past, ∀ a, ¬ P r a

/-- number of nodes of the supported element types -/
def NodeCount (ty : Int) (n : Nat) : Prop :=
  (ty, n) ∈ [((15 : Int), 2), (16, 2), (18, 1), (23, 3), (24, 4), (25, 3), (26, 6), (28, 8)]

/-- a GELMNT1 record gives element `elno` the type `ty` -/
def DeclType (elno : Int) (r : LRec) (ty : Int) : Prop :=
  r.name = "GELMNT1" ∧ ∃ a b c d, r.head = [a, b, c, d] ∧ HasInt b elno ∧ HasInt c ty

/-- the type of element `elno`: as last declared; `e0` are the declarations of earlier files -/
def TypeOf (e0 : Int → Option Int) (past : List LRec) (elno ty : Int) : Prop :=
  Latest (DeclType elno) past ty ∨ Never (DeclType elno) past ∧ e0 elno = some ty

/-- An RDPOINTS record: head `[nfield, ispalt, iielno, icoref]`, then
`ieltyp, nsp, ijkdim, nsptra, nlay`. -/
structure PointsRec where
  ispalt : Int
  iielno : Int
  icoref : Int
  nsp : Int
  /-- `ijkdim` is `i + 100 j + 10000 k` -/
  nok : Nat
  noj : Nat
  noi : Nat
  nsptra : Int
  nlay : Int

/-- the numbers on an RDPOINTS record -/
def IsPoints (r : LRec) (p : PointsRec) : Prop :=
  r.name = "RDPOINTS" ∧ p.noi < 100 ∧ p.noj < 100 ∧ ∃ a b c d e f g h i more,
    r.head = [a, b, c, d] ∧ r.vals = e :: f :: g :: h :: i :: more ∧
    HasInt b p.ispalt ∧ HasInt c p.iielno ∧ HasInt d p.icoref ∧ HasInt f p.nsp ∧
    HasInt g (10000 * p.nok + 100 * p.noj + p.noi) ∧ HasInt h p.nsptra ∧ HasInt i p.nlay

/-- an RDPOINTS record describes the grid of a set of coordinates -/
def DeclGrid (icoref : Int) (r : LRec) (g : Int × Nat × Nat × Nat) : Prop :=
  ∃ p, IsPoints r p ∧ p.icoref = icoref ∧ g = (p.nlay, p.nok, p.noj, p.noi)

/-- an RDPOINTS record gives the number of result points of an element -/
def DeclNsp (ispalt iielno : Int) (r : LRec) (n : Int) : Prop :=
  ∃ p, IsPoints r p ∧ p.ispalt = ispalt ∧ p.iielno = iielno ∧ p.nsp = n

/-- an RDRESREF record tells whether a result case is complex -/
def DeclCplx (ires : Int) (r : LRec) (n : Int) : Prop :=
  r.name = "RDRESREF" ∧ ∃ a b c d e f g more, r.head = [a, b, c, d] ∧
    r.vals = e :: f :: g :: more ∧ HasInt b ires ∧ HasInt f n

/-- which records define the components of which element results -/
def Defines (rd rv : String) : Prop :=
  (rd, rv) ∈ [("RDFORCES", "RVFORCES"), ("RDSTRAIN", "RVSTRAIN"), ("RDSTRESS", "RVSTRESS")]

/-- an RDFORCES, RDSTRAIN or RDSTRESS record gives the number of result components -/
def DeclLen (rv : String) (ir : Int) (r : LRec) (n : Int) : Prop :=
  Defines r.name rv ∧ ∃ a b c d, r.head = [a, b, c, d] ∧ HasInt b ir ∧ HasInt c n

/-! ### what a record means -/

/-- the fields of a row (without the start/stop columns) and the items for each array;
`none`: the record does not address the array -/
structure Entry where
  row : List Val
  items : List (Option (List Val)) := []

/-- per-node references of GELREF1: one per node if flagged with -1 -/
def Refs (nn : Nat) (flag : PyF) (l : List PyF) : Prop :=
  (flag = .rat (-1) → l.length = nn) ∧ (flag ≠ .rat (-1) → l = [])

/-- the result points of an RDPOINTS record: a positive number is followed by coordinates -/
inductive Points : Nat → List PyF → List Val → Prop
  | nil : Points 0 [] []
  | point {n l vs} (p x y z : PyF) : p.gtZero = true → Points n l vs →
      Points (n + 1) (p :: x :: y :: z :: l) (vector [p, x, y, z] :: vs)
  | absent {n l vs} (p : PyF) : p.gtZero = false → Points n l vs → Points (n + 1) (p :: l) vs

/-- the references of a WDRESREF record: `m` times a type followed by `n` pairs -/
inductive RefTypes (n : Nat) : Nat → List PyF → List (Int × List Val) → Prop
  | nil : RefTypes n 0 [] []
  | cons {m l ts x ty d vs} : HasInt x ty → Groups 2 d vs → vs.length = n → RefTypes n m l ts →
      RefTypes n (m + 1) (x :: (d ++ l)) ((ty, vs) :: ts)

/-- the pairs given for reference type `k`, if any -/
inductive PairsFor (k : Int) (ts : List (Int × List Val)) : Option (List Val) → Prop
  | given {vs} : (k, vs) ∈ ts → (ts.map Prod.fst).Nodup → PairsFor k ts (some vs)
  | absent : k ∉ ts.map Prod.fst → PairsFor k ts none

/-- a field that is 0 or 1 -/
def Flag (x : PyF) (b : Bool) : Prop := x = .rat (if b then 1 else 0)

/-- components of the surface elevation of one node: those switched on are on the record -/
inductive Elev (cplx : Bool) : List Bool → List PyF → List Sc → Prop
  | nil : Elev cplx [] [] []
  | off {bs l cs} : Elev cplx bs l cs → Elev cplx (false :: bs) l (.num (.rat 0) :: cs)
  | real {bs l cs} (x : PyF) : cplx = false → Elev cplx bs l cs →
      Elev cplx (true :: bs) (x :: l) (.num x :: cs)
  | complex {bs l cs} (x y : PyF) : cplx = true → Elev cplx bs l cs →
      Elev cplx (true :: bs) (x :: y :: l) (.cpx x y :: cs)

/-- elevations of several nodes: node number followed by components -/
inductive Elevs (cplx : Bool) (bs : List Bool) : List PyF → List Val → Prop
  | nil : Elevs cplx bs [] []
  | cons {l d cs vs} (x : PyF) : Elev cplx bs d cs → Elevs cplx bs l vs →
      Elevs cplx bs (x :: (d ++ l)) (.vec (.num x :: cs) :: vs)

/-- six values: complex ones as real and imaginary parts -/
inductive Six (icompl : Int) : List PyF → Val → Prop
  | complex {l zs} : icompl ≠ 0 → Pairs l zs → zs.length = 6 → Six icompl l (.vec zs)
  | real {l} : icompl = 0 → l.length = 6 → Six icompl l (vector l)

/-- record types with a fixed number of fields: name, number of fields, number of blanks in front
of continuation records -/
def fixedTypes : List (String × Nat × Nat) :=
  [("GNODE", 4, 0), ("GCOORD", 4, 0), ("GECCEN", 4, 0), ("GUNIVEC", 4, 0), ("GELTH", 3, 0),
   ("GBEAMG", 16, 8), ("MISOSEL", 6, 8), ("BGRAV", 7, 8)]

/-- record types with optional fields at the end: name, number of fields, how many are optional -/
def optionalTypes : List (String × Nat × Nat) :=
  [("GBARM", 8, 2), ("GBOX", 10, 2), ("GCHAN", 11, 2), ("GCHANR", 12, 2), ("GDOBO", 10, 2),
   ("GIORH", 12, 3), ("GIORHR", 14, 3), ("GLSEC", 10, 2), ("GLSECR", 11, 2), ("GPIPE", 8, 2),
   ("GUSYI", 14, 2)]

/-- `Means e0 past next r e`: with the records `past` read before (most recent first) and `next`
following, the record `r` contributes the entry `e` to the table of its type.  `e0` are element
types known from earlier files. -/
inductive Means (e0 : Int → Option Int) (past : List LRec) (next : Option LRec) :
    LRec → Entry → Prop
  | fixed {name n k head sk vals pad} : (name, n, k) ∈ fixedTypes → vals.length = n - 4 →
      (vals ≠ [] → sk = k) →
      Means e0 past next ⟨name, head, [], sk, vals, pad⟩ ⟨numbers (fit n (head ++ vals)), []⟩
  | optPresent {name n m head vals pad} : (name, n, m) ∈ optionalTypes → vals.length = n - 4 →
      Means e0 past next ⟨name, head, [], 8, vals, pad⟩ ⟨numbers (fit n (head ++ vals)), []⟩
  | optAbsent {name n m head vals nx} : (name, n, m) ∈ optionalTypes → vals.length = n - 4 - m →
      next = some nx → nx.name ∈ knownNames →
      Means e0 past next ⟨name, head, [], 8, vals, []⟩ ⟨numbers (fit n (head ++ vals)), []⟩
  /-- a formatted file ends inside the record: the values that are missing are stored as zeros -/
  | fixedCut {name n k head sk vals} : (name, n, k) ∈ fixedTypes → vals.length < n - 4 →
      next = some endMark →
      Means e0 past next ⟨name, head, [], sk, vals, []⟩ ⟨numbers (fit n (head ++ vals)), []⟩
  /-- the same for a record with optional fields -/
  | optCut {name n m head vals} : (name, n, m) ∈ optionalTypes → vals.length < n - 4 →
      next = some endMark →
      Means e0 past next ⟨name, head, [], 8, vals, []⟩ ⟨numbers (fit n (head ++ vals)), []⟩
  | hierarch {head a b c d ihs pad} : HasInt d ihs.length →
      Means e0 past next ⟨"HIERARCH", head, [], 0, a :: b :: c :: d :: ihs, pad⟩
        ⟨numbers (head ++ [a, b, c, d]), [some (numbers ihs)]⟩
  | ident {a b c d sk pad i j k} : HasInt a i → HasInt b j → HasInt c k →
      Means e0 past next ⟨"IDENT", [a, b, c, d], [], sk, [], pad⟩
        ⟨[.sc (.int i), .sc (.int j), .sc (.int k)], []⟩
  | text {name a b c d sk pad n} {ts : List Str} : name ∈ ["DATE", "TEXT"] → HasInt c n →
      ts.length = n.toNat →
      Means e0 past next ⟨name, [a, b, c, d], ts.map .text, sk, [], pad⟩
        ⟨numbers [a, b, c, d], [some (ts.map fun t => .sc (.txt t))]⟩
  | td {name a b c d sk pad n m} {ns ns' ts ts' : List Str} :
      name ∈ ["TDMATER", "TDSECT", "TDSETNAM", "TDSUPNAM", "TSLAYER", "TDSCONC", "TDLOAD",
        "TDRESREF", "TDBODNAM", "TDRSNAM", "TDSCATTER"] →
      HasInt c n → HasInt d m → ns.length = (n / 100).toNat → ts.length = (m / 100).toNat →
      List.Forall₂ Trim ns ns' → List.Forall₂ Trim ts ts' →
      Means e0 past next ⟨name, [a, b, c, d], (ns ++ ts).map .text, sk, [], pad⟩
        ⟨numbers [a, b, c, d] ++ [.sc (.txt ns'.flatten)],
          [some (ts'.map fun t => .sc (.txt t))]⟩
  | gelmnt1 {a b c d elno ty nod pad} : HasInt b elno → HasInt c ty → NodeCount ty nod.length →
      Means e0 past next ⟨"GELMNT1", [a, b, c, d], [], 8, nod, pad⟩
        ⟨numbers [a, b, c, d], [some (numbers nod)]⟩
  | gelmnt2 {head t n nod pad} : t.length = 12 → HasInt n nod.length →
      Means e0 past next ⟨"GELMNT2", head, [], 8, t ++ n :: nod, pad⟩
        ⟨numbers head ++ [vector t, .sc (.int nod.length)], [some (numbers nod)]⟩
  | gelref1 {a b c d rec2 x0 x1 x2 x3 geo fix ecc trans pad elno ty nn} : HasInt a elno →
      TypeOf e0 past elno ty → NodeCount ty nn →
      Refs nn x0 geo → Refs nn x1 fix → Refs nn x2 ecc → Refs nn x3 trans →
      Means e0 past next ⟨"GELREF1", [a, b, c, d], [.recd 8 rec2, .recd 8 [x0, x1, x2, x3]], 8,
          geo ++ fix ++ ecc ++ trans, pad⟩
        ⟨numbers ([a, b, c, d] ++ rec2 ++ [x0, x1, x2, x3]),
          [some (numbers geo), some (numbers fix), some (numbers ecc), some (numbers trans)]⟩
  | gsetmemb {a b c d e mem pad} : HasInt a (mem.length + 5) →
      Means e0 past next ⟨"GSETMEMB", [a, b, c, d], [], 0, e :: mem, pad⟩
        ⟨numbers [a, b, c, d, e], [some (numbers mem)]⟩
  | sconcept7 {a b c d e p j parts joins pad} : HasInt c 7 → HasInt p parts.length →
      HasInt j joins.length →
      Means e0 past next ⟨"SCONCEPT", [a, b, c, d], [], 0, e :: p :: j :: (parts ++ joins), pad⟩
        ⟨numbers [a, b, c, d, e, p, j], [some (numbers parts), some (numbers joins)]⟩
  | sconcept2 {a b c d e pad} : HasInt c 2 →
      Means e0 past next ⟨"SCONCEPT", [a, b, c, d], [], 0, [e], pad⟩
        ⟨numbers [a, b, c, d, e, .rat 0, .rat 0], [some [], some []]⟩
  | sconmesh {a b c d e reps pad} : HasInt e reps.length →
      Means e0 past next ⟨"SCONMESH", [a, b, c, d], [], 0, e :: reps, pad⟩
        ⟨numbers [a, b, c, d, e], [some (numbers reps)]⟩
  | bnbcd {a b c d n sk vals pad} : HasInt b (n : Nat) → vals.length = n - 2 →
      (vals ≠ [] → sk = 8) →
      Means e0 past next ⟨"BNBCD", [a, b, c, d], [], sk, vals, pad⟩
        ⟨numbers [a, b], [some (numbers ((c :: d :: vals).take n))]⟩
  | bldep {a b c d n sk pad} {deps : List (PyF × PyF × PyF × List PyF)} : HasInt d n →
      deps.length = n.toNat →
      Means e0 past next ⟨"BLDEP", [a, b, c, d],
          deps.map fun p => .recd 8 (p.1 :: p.2.1 :: p.2.2.1 :: p.2.2.2), sk, [], pad⟩
        ⟨numbers [a, b, c, d], [some (deps.map fun p => vector [p.1, p.2.1, p.2.2.1])]⟩
  | beuslo {a b c d e f g h rload iload pad} : HasInt f rload.length →
      (c = .rat 0 → iload = []) → (c ≠ .rat 0 → iload.length = rload.length) →
      Means e0 past next ⟨"BEUSLO", [a, b, c, d], [.recd 8 [e, f, g, h]], 8, rload ++ iload, pad⟩
        ⟨numbers [a, b, c, d, e, f, g, h], [some (numbers rload), some (numbers iload)]⟩
  | brigac {a b c d more im pad} : more.length = 10 →
      (c = .rat 0 → im = []) → (c ≠ .rat 0 → im.length = 6) →
      Means e0 past next ⟨"BRIGAC", [a, b, c, d], [], 8, more ++ im, pad⟩
        ⟨numbers (fit 20 ([a, b, c, d] ++ more ++ im)), []⟩
  | xsuptran {name a b c d vals pad i j t} : name ∈ ["RSUPTRAN", "HSUPTRAN"] → HasInt a i →
      HasInt b j → Matrix 4 4 (c :: d :: vals) t →
      Means e0 past next ⟨name, [a, b, c, d], [], 0, vals, pad⟩
        ⟨[.sc (.int i), .sc (.int j), t], []⟩
  | compdef {name a b c d i vals pad} :
      name ∈ ["RDFORCES", "RDNODRES", "RDSTRAIN", "RDSTRESS", "RDELNFOR"] → HasInt b i →
      HasInt c (vals.length + 1) →
      Means e0 past next ⟨name, [a, b, c, d], [], 0, vals, pad⟩
        ⟨numbers [a, b, c], [some (numbers (d :: vals))]⟩
  | rdpoints {head a b c d e pts pvs pad p} {xs : List (List PyF)} {xvs : List Val} :
      IsPoints ⟨"RDPOINTS", head, [], 0, a :: b :: c :: d :: e :: (pts ++ xs.flatten), pad⟩ p →
      Points (p.nok * p.noj * p.noi) pts pvs →
      List.Forall₂ (Matrix 3 3) xs xvs → xs.length = p.nsptra.toNat →
      Means e0 past next ⟨"RDPOINTS", head, [], 0, a :: b :: c :: d :: e :: (pts ++ xs.flatten), pad⟩
        ⟨numbers (head ++ [a, b, c, d, e]), [some pvs, some xvs]⟩
  | rdielcor {a b c d i gamma beta alpha lays lvs pad g} : HasInt b i →
      (Latest (DeclGrid i) past g ∨ Never (DeclGrid i) past ∧
        (i = 15 ∧ g = (0, 1, 1, 3) ∨ i = 24 ∧ g = (0, 2, 3, 3))) →
      1 ≤ g.2.1 → gamma.length = g.2.1 - 1 → beta.length = g.2.2.1 → alpha.length = g.2.2.2 →
      Groups 2 lays lvs → lvs.length = g.1.toNat →
      Means e0 past next ⟨"RDIELCOR", [a, b, c, d], [], 0, gamma ++ beta ++ alpha ++ lays, pad⟩
        ⟨numbers [a, b, c], [some (numbers (d :: gamma)), some (numbers beta),
          some (numbers alpha), some lvs]⟩
  | rdresref {a b c d e f g i j n refs rvs pad} : HasInt b i → HasInt f j → HasInt g n →
      Groups 3 refs rvs → rvs.length = n.toNat →
      Means e0 past next ⟨"RDRESREF", [a, b, c, d], [], 0, e :: f :: g :: refs, pad⟩
        ⟨numbers [a, b, c, d, e, f, g], [some rvs]⟩
  | triples {name a b c d n vals vs pad} : name ∈ ["RBLODCMB", "RDRESCMB", "WBODCON"] →
      HasInt d n → Groups 3 vals vs → vs.length = n.toNat →
      Means e0 past next ⟨name, [a, b, c, d], [], 0, vals, pad⟩
        ⟨numbers [a, b, c, d], [some vs]⟩
  | rvnod {name a b c d e n i cplx res pad} : name ∈ ["RVNODACC", "RVNODDIS", "RVNODVEL"] →
      HasInt a n → HasInt b i → Latest (DeclCplx i) past cplx → 0 ≤ cplx →
      (res.length : Int) = (n - 5) / (cplx + 1) →
      Means e0 past next ⟨name, [a, b, c, d], [], 0, e :: res, pad⟩
        ⟨numbers [a, b, c, d, e], [some (numbers res)]⟩
  | rvelm {name a b c d e i j k l cplx nsp len res pad} :
      name ∈ ["RVFORCES", "RVSTRAIN", "RVSTRESS"] → HasInt b i → HasInt c j → HasInt d k →
      HasInt e l → Latest (DeclNsp k j) past nsp → Latest (DeclLen name l) past len →
      Latest (DeclCplx i) past cplx → (res.length : Int) = nsp * len * (cplx + 1) →
      Means e0 past next ⟨name, [a, b, c, d], [], 0, e :: res, pad⟩
        ⟨numbers [a, b, c, d, e], [some (numbers res)]⟩
  | wdresref {a b c d n m vals ts dir freq time pad} : HasInt c n → HasInt d m →
      RefTypes n.toNat m.toNat vals ts → PairsFor 1 ts dir → PairsFor 2 ts freq →
      PairsFor 3 ts time →
      Means e0 past next ⟨"WDRESREF", [a, b, c, d], [], 0, vals, pad⟩
        ⟨numbers [a, b, c, d], [dir, freq, time]⟩
  | wglobdefInf {a b c d sk pad} : HasInt d 0 →
      Means e0 past next ⟨"WGLOBDEF", [a, b, c, d], [], sk, [], pad⟩
        ⟨numbers [a, b, c, d, .rat 1], []⟩
  | wglobdef {a b c d n e pad} : HasInt d n → n ≠ 0 →
      Means e0 past next ⟨"WGLOBDEF", [a, b, c, d], [], 0, [e], pad⟩
        ⟨numbers [a, b, c, d, e], []⟩
  | wbody {head more vals pad t} : more.length = 12 → Matrix 4 4 vals t →
      Means e0 past next ⟨"WBODY", head, [], 0, more ++ vals, pad⟩
        ⟨numbers (head ++ more) ++ [t], []⟩
  | w1matrix {head a b vals pad t} : Matrix 6 6 vals t →
      Means e0 past next ⟨"W1MATRIX", head, [], 0, a :: b :: vals, pad⟩
        ⟨numbers (head ++ [a, b]) ++ [t], []⟩
  | six {name a b c d n vals pad v} : name ∈ ["W1EXFORC", "W1MOTION", "W2EXFDIF", "W2EXFSUM"] →
      HasInt d n → Six n vals v →
      Means e0 past next ⟨name, [a, b, c, d], [], 0, vals, pad⟩
        ⟨numbers [a, b, c, d] ++ [v], []⟩
  | w1sforce {a b c d e n vals pad v} : HasInt e n → Six n vals v →
      Means e0 past next ⟨"W1SFORCE", [a, b, c, d], [], 0, e :: vals, pad⟩
        ⟨numbers [a, b, c, d, e] ++ [v], []⟩
  | w2hdrift {a b c x y z pad} :
      Means e0 past next ⟨"W2HDRIFT", [a, b, c, x], [], 0, [y, z], pad⟩
        ⟨numbers [a, b, c] ++ [vector [x, y, z]], []⟩
  | w2mdrift {a b c d vals pad} : vals.length = 5 →
      Means e0 past next ⟨"W2MDRIFT", [a, b, c, d], [], 0, vals, pad⟩
        ⟨numbers [a, b, c] ++ [vector (d :: vals)], []⟩
  | wfkpoint {a b x y z pad} :
      Means e0 past next ⟨"WFKPOINT", [a, b, x, y], [], 0, [z], pad⟩
        ⟨numbers [a, b] ++ [vector [x, y, z]], []⟩
  | wfluidknC {a b c d n x y vals zs pad} : HasInt d n → n ≠ 0 → Pairs vals zs → zs.length = 3 →
      Means e0 past next ⟨"WFLUIDKN", [a, b, c, d], [], 0, x :: y :: vals, pad⟩
        ⟨numbers [a, b, c, d] ++ [.sc (.cpx x y), .vec zs], []⟩
  | wfluidknR {a b c d x u v w pad} : HasInt d 0 →
      Means e0 past next ⟨"WFLUIDKN", [a, b, c, d], [], 0, [x, u, v, w], pad⟩
        ⟨numbers [a, b, c, d, x] ++ [vector [u, v, w]], []⟩
  | wsection {a b c d e x1 y1 z1 x2 y2 z2 x3 y3 z3 pad} :
      Means e0 past next
        ⟨"WSECTION", [a, b, c, d], [], 0, [e, x1, y1, z1, x2, y2, z2, x3, y3, z3], pad⟩
        ⟨numbers [a, b, c, d, e] ++ [vector [x1, y1, z1], vector [x2, y2, z2],
          vector [x3, y3, z3]], []⟩
  | wsurface {a b c d e x y z cplx bx bY bz vals vs pad} : HasInt a (8 + vals.length) →
      Flag e cplx → Flag x bx → Flag y bY → Flag z bz → Elevs cplx [bx, bY, bz] vals vs →
      Means e0 past next ⟨"WSURFACE", [a, b, c, d], [], 0, e :: x :: y :: z :: vals, pad⟩
        ⟨numbers [a, b, c, d, e, x, y, z], [some vs]⟩
  | winput {a b c d vals pad t} : Matrix 4 4 (c :: d :: vals) t →
      Means e0 past next ⟨"WINPUT", [a, b, c, d], [], 0, vals, pad⟩
        ⟨numbers [a, b] ++ [t], []⟩
  | w1panpreC {head a b n x y u v pad} : HasInt b n → n ≠ 0 →
      Means e0 past next ⟨"W1PANPRE", head, [], 0, [a, b, x, y, u, v], pad⟩
        ⟨numbers (head ++ [a, b]) ++ [.sc (.cpx x y)] ++ numbers [u, v], []⟩
  | w1panpreR {head a b x u v pad} : HasInt b 0 →
      Means e0 past next ⟨"W1PANPRE", head, [], 0, [a, b, x, u, v], pad⟩
        ⟨numbers (head ++ [a, b]) ++ [.sc (.cpx x (.rat 0))] ++ numbers [u, v], []⟩

/-! ### tables -/

/-- contents of a table: rows, items of each array, start and stop of each array in the last row -/
structure Acc where
  rows : List (List Cell) := []
  arrs : List (List Cell)
  last : List (Nat × Nat)

/-- start and stop of the items of a record in an array that holds `len` items already -/
def interval (len : Nat) (last : Nat × Nat) : Option (List Cell) → Nat × Nat
  | none => last
  | some [] => (0, 0)
  | some cs => (len, len + cs.length)

/-- integer cells for start and stop columns -/
def limits (l : List (Nat × Nat)) : List Cell :=
  l.flatMap fun p => [.sc (.int p.1), .sc (.int p.2)]

/-- Add a record: its row gets the start and stop of its items, the items go to the arrays.
For an array not addressed by the record start and stop are repeated from the record before, they
are zero in the first record of a block. -/
def Acc.add (t : Acc) (first : Bool) (cells : List Cell) (items : List (Option (List Cell))) :
    Acc :=
  let prev := if first then t.arrs.map fun _ => (0, 0) else t.last
  let last := List.zipWith (fun (p : List Cell × (Nat × Nat)) i => interval p.1.length p.2 i)
    (t.arrs.zip prev) items
  { rows := t.rows ++ [cells ++ limits last],
    arrs := List.zipWith (fun a (i : Option (List Cell)) =>
      match i with
      | none => a
      | some cs => a ++ cs) t.arrs items,
    last := last }

/-- a record added to a table: is it the first of a block, its fields, its items -/
structure Added where
  name : String
  first : Bool
  cells : List Cell
  items : List (Option (List Cell))

/-- the contents of the table of record type `l.name` after a series of records -/
def contents (l : Layout) (outs : List Added) : Acc :=
  (outs.filter fun o => o.name = l.name).foldl (fun t o => t.add o.first o.cells o.items)
    { arrs := l.arrs.map fun _ => [], last := l.arrs.map fun _ => (0, 0) }

/-- columns for start and stop -/
def limitCols (arrs : List Arr) : List Col :=
  arrs.flatMap fun a => [colI (a.name ++ "_start"), colI (a.name ++ "_stop")]

/-- the table with given contents -/
def Acc.table (l : Layout) (t : Acc) : Tab :=
  { cols := l.cols ++ limitCols l.arrs, rows := t.rows,
    arrs := List.zipWith (fun a items => { a with items := items }) l.arrs t.arrs }

/-! ### files -/

/-- is the record type selected by `only` (`none`: no restriction)? -/
def Selected (only : Option (List String)) (name : String) : Prop :=
  match only with
  | none => True
  | some l => name ∈ l

/-- record types that have a table -/
def HasTable (name : String) : Prop := ∃ l ∈ layouts, l.name = name

/-- a void record: its first field is negative; -5 announces one more line -/
inductive Void : LRec → Prop
  | one {name x t sk pad} : x.ltZero = true → x ≠ .rat (-5) → Void ⟨name, x :: t, [], sk, [], pad⟩
  | two {name t fs sk pad} : Void ⟨name, .rat (-5) :: t, [.recd 0 fs], sk, [], pad⟩

/-- not a void record -/
def NotVoid (r : LRec) : Prop := ∃ x t, r.head = x :: t ∧ x.ltZero = false

/-- the first mesh concept of a block has one representation only -/
def FirstOK (r : LRec) : Prop :=
  r.name = "SCONMESH" → ∃ x n, r.head[2]? = some x ∧ HasInt x n ∧ n ≤ 1

/-- an IEND record that ends the file -/
def EndOfFile (r : LRec) : Prop := r.name = "IEND" ∧ ∃ x t, r.head = x :: t ∧ x = .rat 0

/-- an IEND record that does not end the file -/
def NotEndOfFile (r : LRec) : Prop :=
  r.name = "IEND" ∧ r.pre = [] ∧ r.vals = [] ∧ ∃ x t, r.head = x :: t ∧ x ≠ .rat 0 ∧
    x.ltZero = false

/-- the record size record -/
def RecordSize (r : LRec) : Prop :=
  r.name = "IRECSIZE" ∧ r.pre = [] ∧ r.vals = [] ∧ ∃ x y t n, r.head = x :: y :: t ∧ HasInt y n

/-- what is added to the table of a record's type -/
def Adds (e0 : Int → Option Int) (past : List LRec) (next : Option LRec) (first : Bool)
    (r : LRec) (o : Added) : Prop :=
  ∃ e l, Means e0 past next r e ∧ l ∈ layouts ∧ l.name = r.name ∧ o.name = r.name ∧
    o.first = first ∧ StoredRow l.cols e.row o.cells ∧ StoredItems l.arrs e.items o.items

/-- `Accepts only sk e0 cur past f outs names`: the records `f`, with `past` read before and
`cur` the type of the block in progress, add `outs` to the tables; a reader is called for the
record types `names` (one per block).  `sk` are the records that may be passed over. -/
inductive Accepts (only : Option (List String)) (sk : LRec → Bool) (e0 : Int → Option Int) :
    Option String → List LRec → List LRec → List Added → List String → Prop
  /-- end of the file; anything behind it is ignored -/
  | stop {cur past r rest} : Selected only "IEND" → EndOfFile r →
      Accepts only sk e0 cur past (r :: rest) [] ["IEND"]
  /-- a record without a name ends the reading, as the end of a formatted file does (`endMark`): there
  is no IEND record, or it is not read -/
  | eof {cur past m} : m.name = "" → cur ≠ some "" → Accepts only sk e0 cur past [m] [] []
  /-- another record of the block -/
  | more {past r rest o outs names} : r.name ≠ "IDENT" →
      Adds e0 past rest.head? false r o →
      Accepts only sk e0 (some r.name) (r :: past) rest outs names →
      Accepts only sk e0 (some r.name) past (r :: rest) (o :: outs) names
  /-- the first record of a block -/
  | first {cur past r rest o outs names} : cur ≠ some r.name → r.name ≠ "IDENT" →
      Selected only r.name → NotVoid r → FirstOK r →
      Adds e0 past rest.head? true r o →
      Accepts only sk e0 (some r.name) (r :: past) rest outs names →
      Accepts only sk e0 cur past (r :: rest) (o :: outs) (r.name :: names)
  /-- identification -/
  | ident {cur past r rest o outs names} : r.name = "IDENT" → Selected only r.name →
      NotVoid r → Adds e0 past rest.head? true r o →
      Accepts only sk e0 none (r :: past) rest outs names →
      Accepts only sk e0 cur past (r :: rest) (o :: outs) (r.name :: names)
  /-- a void record that does not continue a block -/
  | void {cur past r rest outs names} : cur ≠ some r.name → r.name ≠ "" →
      Selected only r.name → Void r →
      Accepts only sk e0 none past rest outs names →
      Accepts only sk e0 cur past (r :: rest) outs names
  /-- a record that is not selected -/
  | unselected {cur past r rest outs names} : cur ≠ some r.name → r.name ≠ "" →
      ¬ Selected only r.name → sk r = true →
      Accepts only sk e0 none past rest outs names →
      Accepts only sk e0 cur past (r :: rest) outs names
  /-- a record of a type that is not read -/
  | unread {cur past r rest outs names} : cur ≠ some r.name → r.name ≠ "" →
      r.name ≠ "IEND" → r.name ≠ "IRECSIZE" → ¬ HasTable r.name → NotVoid r →
      Selected only r.name → sk r = true →
      Accepts only sk e0 (some r.name) past rest outs names →
      Accepts only sk e0 cur past (r :: rest) outs names
  /-- another record of a type that is not read, void or not -/
  | unreadMore {past r rest outs names} : r.name ≠ "" →
      r.name ≠ "IEND" → r.name ≠ "IRECSIZE" → ¬ HasTable r.name → sk r = true →
      Accepts only sk e0 (some r.name) past rest outs names →
      Accepts only sk e0 (some r.name) past (r :: rest) outs names
  /-- record size -/
  | recsize {cur past r rest outs names} : Selected only r.name → RecordSize r → NotVoid r →
      Accepts only sk e0 none past rest outs names →
      Accepts only sk e0 cur past (r :: rest) outs (r.name :: names)
  /-- an IEND record that is not the last -/
  | notEnd {cur past r rest outs names} : Selected only r.name → NotEndOfFile r →
      Accepts only sk e0 none past rest outs names →
      Accepts only sk e0 cur past (r :: rest) outs (r.name :: names)

end Verif.Parse
