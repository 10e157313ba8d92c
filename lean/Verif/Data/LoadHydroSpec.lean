import Verif.Data.HydroSpec
import Verif.Data.LoadSpec
/-!
# What a hydrodynamic results file describes (specification)

Stated on the logical records of the file: fields `head` and `vals` of the records of each type, in
the order of the file.  `num` says what number a float stands for, `cplx` what number a real and an
imaginary part stand for.  The numbers of the file are rounded to single precision.
-/

namespace Verif.Data.Load
open Verif Verif.Data Verif.Parse Verif.Seq

variable {K V : Type}

/-- the real and imaginary parts of complex numbers, in turn -/
inductive Parts (cplx : PyF → PyF → V) : List PyF → List V → Prop
  | nil : Parts cplx [] []
  | cons {l zs} (x y : PyF) : Parts cplx l zs → Parts cplx (x :: y :: l) (cplx x.single y.single :: zs)

/-- `l` gives the numbers `zs`: as real and imaginary parts if the flag `icompl` is set, as real
numbers otherwise -/
inductive Values (cplx : PyF → PyF → V) (icompl : Int) (l : List PyF) (zs : List V) : Prop
  | complex : icompl ≠ 0 → Parts cplx l zs → Values cplx icompl l zs
  | real : icompl = 0 → l.map (fun x => cplx x.single (.rat 0)) = zs → Values cplx icompl l zs

/-- `l` gives the elements of the matrix row by row -/
def GivesMatrix (num : PyF → K) (n m : Nat) (l : List PyF) (rows : List (List K)) : Prop :=
  rows.length = n ∧ (∀ r ∈ rows, r.length = m) ∧ rows.flatten = l.map (at32 num)

/-- the second numbers of the pairs given for reference type `k`, none if the type is not given -/
inductive Seconds (num : PyF → K) (k : Int) (ts : List (Int × List Val)) : List K → Prop
  | given (ps : List (PyF × PyF)) : (k, ps.map fun p => vector [p.1, p.2]) ∈ ts →
      (ts.map Prod.fst).Nodup → Seconds num k ts (ps.map fun p => at32 num p.2)
  | absent : k ∉ ts.map Prod.fst → Seconds num k ts []

/-- a WDRESREF record: directions (type 1), angular frequencies (2), times (3) -/
def IsRefs (num : PyF → K) (r : LRec) (x : List K × List K × List K) : Prop :=
  ∃ a b c d n m ts, r.head = [a, b, c, d] ∧ HasInt c n ∧ HasInt d m ∧
    RefTypes n.toNat m.toNat r.vals ts ∧ Seconds num 1 ts x.1 ∧ Seconds num 2 ts x.2.1 ∧
    Seconds num 3 ts x.2.2

/-- a WGLOBDEF record: acceleration of gravity, density, water depth (1 for infinite depth) -/
def IsGlob (num : PyF → K) (r : LRec) (x : GlobRow K) : Prop :=
  ∃ a g ro i, r.head = [a, g, ro, i] ∧ at32 num g = x.g ∧ at32 num ro = x.ro ∧
    ((HasInt i 0 ∧ at32 num (.rat 1) = x.depth) ∨
      ∃ n d, HasInt i n ∧ n ≠ 0 ∧ r.vals = [d] ∧ at32 num d = x.depth)

/-- a WBODCON record: number of the condition, number of the body -/
def IsBodCon (r : LRec) (x : BodConRow) : Prop :=
  ∃ a b c d, r.head = [a, b, c, d] ∧ HasInt b x.ibcond ∧ HasInt c x.ibody

/-- the properties of a body, in the order in which they are on a WBODY record -/
def propNames : List String :=
  ["clenb", "bmass", "wsarea", "wparea", "vol", "xcg", "ycg", "zcg", "xcb", "ycb", "zcb", "xrb",
   "yrb", "zrb"]

/-- a WBODY record: number of the condition, properties, transformation matrix -/
def IsBody (num : PyF → K) (r : LRec) (x : BodyPropRow K) : Prop :=
  ∃ a b c d more vals t, r.head = [a, b, c, d] ∧ r.vals = more ++ vals ∧ more.length = 12 ∧
    HasInt a x.nfield ∧ HasInt b x.ibcond ∧ GivesMatrix num 4 4 vals t ∧
    x.props = List.zipWith (fun n y => (n, PropVal.real [[at32 num y]])) propNames (c :: d :: more) ++
      [("t", .real t)]

/-- a WSECTION record -/
def IsSection (num : PyF → K) (r : LRec) (x : SectionRow K) : Prop :=
  ∃ a b c d e x1 y1 z1 x2 y2 z2 x3 y3 z3, r.head = [a, b, c, d] ∧
    r.vals = [e, x1, y1, z1, x2, y2, z2, x3, y3, z3] ∧ HasInt b x.ibody ∧ HasInt c x.isect ∧
    HasInt d x.isecty ∧ HasInt e x.secusr ∧ x.p1 = [at32 num x1, at32 num y1, at32 num z1] ∧
    x.p2 = [at32 num x2, at32 num y2, at32 num z2] ∧ x.p3 = [at32 num x3, at32 num y3, at32 num z3]

/-- a WFKPOINT record -/
def IsPoint (num : PyF → K) (r : LRec) (x : PointRow K) : Prop :=
  ∃ a b c d e, r.head = [a, b, c, d] ∧ r.vals = [e] ∧ HasInt b x.ifkpnt ∧
    x.fkpnt = [at32 num c, at32 num d, at32 num e]

/-- a record of motions or exciting forces (W1MOTION, W1EXFORC): six components -/
def IsSix (cplx : PyF → PyF → V) (r : LRec) (x : BodyRow V) : Prop :=
  ∃ a b c d n, r.head = [a, b, c, d] ∧ HasInt b x.ibcond ∧ HasInt d n ∧
    Values cplx n r.vals x.data ∧ x.data.length = 6

/-- a record of section forces (W1SFORCE): six components -/
def IsSectForce (cplx : PyF → PyF → V) (r : LRec) (x : BodyRow V) : Prop :=
  ∃ a b c d e vals n, r.head = [a, b, c, d] ∧ r.vals = e :: vals ∧ HasInt b x.ibcond ∧ HasInt e n ∧
    Values cplx n vals x.data ∧ x.data.length = 6

/-- a record of fluid kinematics (WFLUIDKN): pressure, three components of the velocity -/
def IsFluid (cplx : PyF → PyF → V) (r : LRec) (x : FluidRow V) : Prop :=
  ∃ a b c d n, r.head = [a, b, c, d] ∧ HasInt d n ∧ Values cplx n r.vals (x.p :: x.v) ∧
    x.v.length = 3

/-- a matrix record (W1MATRIX): conditions of the two bodies, type, 6 by 6 elements -/
def IsMat (num : PyF → K) (r : LRec) (x : MatrixRow K) : Prop :=
  ∃ a b c d e g vals, r.head = [a, b, c, d] ∧ r.vals = e :: g :: vals ∧ HasInt c x.ibconi ∧
    HasInt d x.ibconj ∧ HasInt g x.imtyp ∧ GivesMatrix num 6 6 vals x.hmat

/-- a record of drift forces (W2MDRIFT: six components, W2HDRIFT: three) -/
def IsDrift (num : PyF → K) (n : Nat) (r : LRec) (x : BodyRow K) : Prop :=
  ∃ a b c d, r.head = [a, b, c, d] ∧ HasInt b x.ibcond ∧ x.data = (d :: r.vals).map (at32 num) ∧
    x.data.length = n

/-- a record of panel pressures (W1PANPRE) -/
def IsPanel (cplx : PyF → PyF → V) (r : LRec) (x : PanelRow V) : Prop :=
  ∃ a b c d e g vals u v n, r.head = [a, b, c, d] ∧ r.vals = e :: g :: (vals ++ [u, v]) ∧
    HasInt b x.ibcond ∧ HasInt e x.isymm1 ∧ HasInt g n ∧ Values cplx n vals [x.p] ∧ HasInt u x.ipan

/-- The data object has the records of the file. -/
structure ReadsHydro (num : PyF → K) (cplx : PyF → PyF → V) (f : List LRec) (t : HydroTabs K V) :
    Prop where
  noRefs : recordsOf "WDRESREF" f = [] → t.wdresref = none
  refs : ∀ xs, xs ≠ [] → List.Forall₂ (IsRefs num) (recordsOf "WDRESREF" f) xs →
    t.wdresref = some (xs.flatMap fun x => x.1, xs.flatMap fun x => x.2.1, xs.flatMap fun x => x.2.2)
  glob : ∀ o, Describes (IsGlob num) (recordsOf "WGLOBDEF" f) o → t.wglobdef = o
  bodcon : ∀ o, Describes IsBodCon (recordsOf "WBODCON" f) o → t.wbodcon = o
  body : ∀ o, Describes (IsBody num) (recordsOf "WBODY" f) o → t.wbody = o
  sections : ∀ o, Describes (IsSection num) (recordsOf "WSECTION" f) o → t.wsection = o
  points : ∀ o, Describes (IsPoint num) (recordsOf "WFKPOINT" f) o → t.wfkpoint = o
  motion : ∀ o, Describes (IsSix cplx) (recordsOf "W1MOTION" f) o → t.w1motion = o
  exforc : ∀ o, Describes (IsSix cplx) (recordsOf "W1EXFORC" f) o → t.w1exforc = o
  sforce : ∀ o, Describes (IsSectForce cplx) (recordsOf "W1SFORCE" f) o → t.w1sforce = o
  fluid : ∀ o, Describes (IsFluid cplx) (recordsOf "WFLUIDKN" f) o → t.wfluidkn = o
  matrix : ∀ o, Describes (IsMat num) (recordsOf "W1MATRIX" f) o → t.w1matrix = o
  mdrift : ∀ o, Describes (IsDrift num 6) (recordsOf "W2MDRIFT" f) o → t.w2mdrift = o
  hdrift : ∀ o, Describes (IsDrift num 3) (recordsOf "W2HDRIFT" f) o → t.w2hdrift = o
  panpre : ∀ o, Describes (IsPanel cplx) (recordsOf "W1PANPRE" f) o → t.w1panpre = o

/-- The file has results for every direction in `D` and every angular frequency in `W`: one reference
record for each pair, ordered by direction, then frequency; `glob` is its first WGLOBDEF record. -/
structure GridFile (num : PyF → K) (f : List LRec) (D W : List K) (glob : GlobRow K) : Prop where
  dirs_nodup : D.Nodup
  freqs_nodup : W.Nodup
  dirs_ne : D ≠ []
  freqs_ne : W ≠ []
  refs : List.Forall₂ (IsRefs num) (recordsOf "WDRESREF" f) (D.flatMap fun d => W.map fun w => ([d], [w], []))
  globs : ∃ more, List.Forall₂ (IsGlob num) (recordsOf "WGLOBDEF" f) (glob :: more)

/-- the condition number of a body is that of its first WBODCON record -/
def BodyOf (f : List LRec) (b c : Int) : Prop :=
  ∃ pre row post, List.Forall₂ IsBodCon (recordsOf "WBODCON" f) (pre ++ row :: post) ∧
    row.ibody = b ∧ row.ibcond = c ∧ ∀ r ∈ pre, r.ibody ≠ b

/-- the records that concern body `b`: those of its condition number, in file order; `b = 0` (or
`None`) asks for all records -/
inductive ForBody {β : Type} (f : List LRec) (cond : β → Int) (rows : List β) : Int → List β → Prop
  | all : ForBody f cond rows 0 rows
  | body {b c} : b ≠ 0 → BodyOf f b c → ForBody f cond rows b (rows.filter fun r => cond r = c)

/-- the records of a type describe the rows -/
def Rows {α : Type} (R : LRec → α → Prop) (f : List LRec) (name : String) (rows : List α) : Prop :=
  rows ≠ [] ∧ List.Forall₂ R (recordsOf name f) rows

end Verif.Data.Load
