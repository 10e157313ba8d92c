import Verif.Parse.FileSpec
import Verif.Parse.TraceSpec
/-!
# Files that cannot be converted (specification)

`Wrong` lists the records of readable types whose data the library refuses, `Refuses` the files on
which such a record is met after records that can be converted, `Untyped` the files on which no
superelement type is given in time.
-/

namespace Verif.Parse
open Verif Verif.Seq

/-- `FirstInt name i`: the number at place `i` of the first line of such records has to have an
integer value, and nothing else is asked of the record before -/
inductive FirstInt : String → Nat → Prop
  | text {n} : n ∈ ["DATE", "TEXT"] → FirstInt n 2
  | td {n} : n ∈ ["TDMATER", "TDSECT", "TDSETNAM", "TDSUPNAM", "TSLAYER", "TDSCONC", "TDLOAD",
        "TDRESREF", "TDBODNAM", "TDRSNAM", "TDSCATTER"] → FirstInt n 2
  | element : FirstInt "GELMNT1" 2
  | concept : FirstInt "SCONCEPT" 2
  | boundary : FirstInt "BNBCD" 1
  | dependence : FirstInt "BLDEP" 3
  | transformation {n} : n ∈ ["RSUPTRAN", "HSUPTRAN"] → FirstInt n 0
  | components {n} : n ∈ ["RDFORCES", "RDNODRES", "RDSTRAIN", "RDSTRESS", "RDELNFOR"] → FirstInt n 2
  | points : FirstInt "RDIELCOR" 1
  | triples {n} : n ∈ ["RBLODCMB", "RDRESCMB", "WBODCON"] → FirstInt n 3
  | waves : FirstInt "WDRESREF" 3
  | site : FirstInt "WGLOBDEF" 3
  | six {n} : n ∈ ["W1EXFORC", "W1MOTION", "W2EXFDIF", "W2EXFSUM"] → FirstInt n 3
  | fluid : FirstInt "WFLUIDKN" 3

/-- `SecondInt name i j`: the number at place `j` is the next one, after that at place `i` -/
inductive SecondInt : String → Nat → Nat → Prop
  | td {n} : n ∈ ["TDMATER", "TDSECT", "TDSETNAM", "TDSUPNAM", "TSLAYER", "TDSCONC", "TDLOAD",
        "TDRESREF", "TDBODNAM", "TDRSNAM", "TDSCATTER"] → SecondInt n 2 3
  | element : SecondInt "GELMNT1" 2 1
  | transformation {n} : n ∈ ["RSUPTRAN", "HSUPTRAN"] → SecondInt n 0 1
  | components {n} : n ∈ ["RDFORCES", "RDNODRES", "RDSTRAIN", "RDSTRESS", "RDELNFOR"] →
      SecondInt n 2 1

/-- `MoreInt name k i`: the same with `k` more numbers of the record, at place `i` of all -/
inductive MoreInt : String → Nat → Nat → Prop
  | set : MoreInt "GSETMEMB" 1 0
  | node {n} : n ∈ ["RVNODACC", "RVNODDIS", "RVNODVEL"] → MoreInt n 1 0
  | element {n} : n ∈ ["RVFORCES", "RVSTRAIN", "RVSTRESS"] → MoreInt n 1 1
  | points : MoreInt "RDPOINTS" 5 1
  | result : MoreInt "RDRESREF" 3 1
  | force : MoreInt "W1SFORCE" 1 4
  | surface : MoreInt "WSURFACE" 4 0

/-- `MoreInt2 name k i j`: the number at place `j` is the next one -/
inductive MoreInt2 : String → Nat → Nat → Nat → Prop
  | node {n} : n ∈ ["RVNODACC", "RVNODDIS", "RVNODVEL"] → MoreInt2 n 1 0 1
  | element {n} : n ∈ ["RVFORCES", "RVSTRAIN", "RVSTRESS"] → MoreInt2 n 1 1 2
  | points : MoreInt2 "RDPOINTS" 5 1 2
  | result : MoreInt2 "RDRESREF" 3 1 5

/-- the exception if there is no integer value at place `i`: there is no number at all, it is
"not a number", or it is infinite -/
inductive NoInt (l : List PyF) (i : Nat) : Err → Prop
  | missing : l.length ≤ i → NoInt l i .indexError
  | nan : l[i]? = some .nan → NoInt l i .valueError
  | inf (b : Bool) : l[i]? = some (.inf b) → NoInt l i .overflowError

/-- `Wrong e0 past first r e`: with the records `past` read before (most recent first), the record
`r` cannot be converted and the exception is `e`.  `first`: it is the first of its block. -/
inductive Wrong (e0 : Int → Option Int) (past : List LRec) : Bool → LRec → Err → Prop
  /-- an element of an unsupported type -/
  | elementType {first a b c d elno ty pre sk vals pad} : HasInt b elno → HasInt c ty →
      (∀ n, ¬ NodeCount ty n) →
      Wrong e0 past first ⟨"GELMNT1", [a, b, c, d], pre, sk, vals, pad⟩ .keyError
  /-- references of an element that is not declared -/
  | noElement {first a b c d rec2 rec3 elno pre sk vals pad} : HasInt a elno →
      Never (DeclType elno) past → e0 elno = none →
      Wrong e0 past first
        ⟨"GELREF1", [a, b, c, d], .recd 8 rec2 :: .recd 8 rec3 :: pre, sk, vals, pad⟩ .keyError
  /-- a concept that is neither a beam (7) nor a frame joint (2) -/
  | concept {first a b c d e t vals pad} : HasInt c t → t ≠ 7 → t ≠ 2 →
      Wrong e0 past first ⟨"SCONCEPT", [a, b, c, d], [], 0, e :: vals, pad⟩ .notImplemented
  /-- node results of a result case that is not declared -/
  | noCase {first name a b c d e n i vals pad} :
      name ∈ ["RVNODACC", "RVNODDIS", "RVNODVEL"] → HasInt a n → HasInt b i →
      Never (DeclCplx i) past →
      Wrong e0 past first ⟨name, [a, b, c, d], [], 0, e :: vals, pad⟩ .keyError
  /-- node results of a result case declared with the flag -1 -/
  | badCase {first name a b c d e n i vals pad} :
      name ∈ ["RVNODACC", "RVNODDIS", "RVNODVEL"] → HasInt a n → HasInt b i →
      Latest (DeclCplx i) past (-1) →
      Wrong e0 past first ⟨name, [a, b, c, d], [], 0, e :: vals, pad⟩ .zeroDivision
  /-- element results without one of the three declarations they need -/
  | noDeclaration {first name a b c d e i j k l vals pad} :
      name ∈ ["RVFORCES", "RVSTRAIN", "RVSTRESS"] → HasInt b i → HasInt c j → HasInt d k →
      HasInt e l →
      Never (DeclNsp k j) past ∨ Never (DeclLen name l) past ∨ Never (DeclCplx i) past →
      Wrong e0 past first ⟨name, [a, b, c, d], [], 0, e :: vals, pad⟩ .keyError
  /-- coordinates of result points without their grid, at the start of a block -/
  | noGrid {a b c d i pre sk vals pad} : HasInt b i → Never (DeclGrid i) past → i ≠ 15 → i ≠ 24 →
      Wrong e0 past true ⟨"RDIELCOR", [a, b, c, d], pre, sk, vals, pad⟩ .unboundLocal
  /-- surface elevations whose flags give no values per node -/
  | noValues {first a b c d e x y z vals pad} {ec xc yc zc : Int} : HasInt a (8 + vals.length) →
      e = .rat ec → x = .rat xc → y = .rat yc → z = .rat zc →
      1 + (xc + yc + zc) * (1 + ec) = 0 →
      Wrong e0 past first ⟨"WSURFACE", [a, b, c, d], [], 0, e :: x :: y :: z :: vals, pad⟩
        .valueError
  /-- no integer where the reader needs one first -/
  | notInt {first name head pre sk vals pad i e} : FirstInt name i → NoInt head i e →
      Wrong e0 past first ⟨name, head, pre, sk, vals, pad⟩ e
  /-- no integer where the reader needs the next one -/
  | notInt2 {first name head pre sk vals pad i j e x n} : SecondInt name i j → head[i]? = some x →
      HasInt x n → NoInt head j e → Wrong e0 past first ⟨name, head, pre, sk, vals, pad⟩ e
  /-- the same after more values have been read -/
  | notIntMore {first name head a b pad i e} : MoreInt name a.length i → NoInt (head ++ a) i e →
      Wrong e0 past first ⟨name, head, [], 0, a ++ b, pad⟩ e
  | notIntMore2 {first name head a b pad i j e x n} : MoreInt2 name a.length i j →
      (head ++ a)[i]? = some x → HasInt x n → NoInt (head ++ a) j e →
      Wrong e0 past first ⟨name, head, [], 0, a ++ b, pad⟩ e
  /-- a row of the hierarchy, behind the first one, without number of subelements -/
  | notIntSub {head a b c d vals pad e} : NoInt [a, b, c, d] 3 e →
      Wrong e0 past false ⟨"HIERARCH", head, [], 0, a :: b :: c :: d :: vals, pad⟩ e
  /-- references of an element without a number -/
  | notIntRef {first head rec2 rec3 pre sk vals pad e} : NoInt head 0 e →
      Wrong e0 past first
        ⟨"GELREF1", head, .recd 8 rec2 :: .recd 8 rec3 :: pre, sk, vals, pad⟩ e

/-- `Misfit e0 past next r e`: the record `r` has what its type prescribes, but its row cannot be
stored and the exception is `e` (identifications are left out). -/
def Misfit (e0 : Int → Option Int) (past : List LRec) (next : Option LRec) (r : LRec) (e : Err) :
    Prop :=
  r.name ≠ "IDENT" ∧ ∃ en l, Means e0 past next r en ∧ l ∈ layouts ∧ l.name = r.name ∧
    RowRefused l.cols en.row e

/-- `Passed only sk cur r cur'`: the record `r` is passed over; `cur` and `cur'` are the types of
the run of records in progress before and after. -/
inductive Passed (only : Option (List String)) (sk : LRec → Bool) :
    Option String → LRec → Option String → Prop
  /-- a void record -/
  | void {cur r} : cur ≠ some r.name → r.name ≠ "" → Selected only r.name → Void r →
      Passed only sk cur r none
  /-- a record that is not selected -/
  | unselected {cur r} : cur ≠ some r.name → r.name ≠ "" → ¬ Selected only r.name →
      sk r = true → Passed only sk cur r none
  /-- a record of a type that is not read -/
  | unread {cur r} : cur ≠ some r.name → r.name ≠ "" → r.name ≠ "IEND" → r.name ≠ "IRECSIZE" →
      ¬ HasTable r.name → NotVoid r → Selected only r.name → sk r = true →
      Passed only sk cur r (some r.name)
  /-- another record of a type that is not read, void or not -/
  | unreadMore {r} : r.name ≠ "" → r.name ≠ "IEND" → r.name ≠ "IRECSIZE" →
      ¬ HasTable r.name → sk r = true → Passed only sk (some r.name) r (some r.name)
  /-- record size -/
  | recsize {cur r} : Selected only r.name → RecordSize r → NotVoid r → Passed only sk cur r none
  /-- an IEND record that is not the last -/
  | notEnd {cur r} : Selected only r.name → NotEndOfFile r → Passed only sk cur r none

/-- records on which the library stops before it looks for a table: no number in the first line,
no integer for the record size, for the representations of a mesh concept, or for the superelement
type of the first record of a hierarchy -/
inductive Stuck : LRec → Err → Prop
  | empty {r} : r.name ≠ "" → r.head = [] → Stuck r .indexError
  | size {r e} : r.name = "IRECSIZE" → NotVoid r → NoInt r.head 1 e → Stuck r e
  | mesh {r e} : r.name = "SCONMESH" → NotVoid r → NoInt r.head 2 e → Stuck r e
  | hierarchy {head a b c d vals pad e} :
      NotVoid ⟨"HIERARCH", head, [], 0, a :: b :: c :: d :: vals, pad⟩ → NoInt head 2 e →
      Stuck ⟨"HIERARCH", head, [], 0, a :: b :: c :: d :: vals, pad⟩ e

/-- rows of a hierarchy without integer for the number of subelements, or that cannot be stored -/
inductive BadRow : LRec → Err → Prop
  | count {head a b c d vals pad e} : NoInt [a, b, c, d] 3 e →
      BadRow ⟨"HIERARCH", head, [], 0, a :: b :: c :: d :: vals, pad⟩ e
  | row {head a b c d ihs pad l e} : HasInt d ihs.length → l ∈ layouts → l.name = "HIERARCH" →
      RowRefused l.cols (numbers (head ++ [a, b, c, d])) e →
      BadRow ⟨"HIERARCH", head, [], 0, a :: b :: c :: d :: ihs, pad⟩ e

/-- a record that consists of its header, and is not a text record -/
def HeaderOnly (r : LRec) : Prop := r.pre = [] ∧ r.vals = [] ∧ r.head ≠ [] ∧ ¬ isTD r.name

/-- where a conversion stops: at `record`, with `before` the records read before it (most recent
first); `inside`: the record in front of it belongs to a block that is not complete, `opened`: the
table of `record` is made before it is read.  `record` is `endMark` where the file ends. -/
structure Stop where
  record : LRec
  before : List LRec
  inside : Bool
  opened : Bool

/-- where it stops at the first row of a hierarchy, this is one for the superelement type `s` -/
def Stop.Fits (c : Stop) (s : Int) : Prop :=
  c.record.name = "HIERARCH" → c.opened = true → c.inside = false →
    ∃ x, c.record.head[2]? = some x ∧ HasInt x s

/-- `Refuses only sk e0 cur past f outs e c`: of the records `f`, with `past` read before and `cur`
the type of the block in progress, some records `outs` can be converted, then one cannot and the
exception is `e`; `c` says which one. -/
inductive Refuses (only : Option (List String)) (sk : LRec → Bool) (e0 : Int → Option Int) :
    Option String → List LRec → List LRec → List Added → Err → Stop → Prop
  /-- a wrong record inside a block -/
  | wrongMore {past r rest e} : Wrong e0 past false r e →
      Refuses only sk e0 (some r.name) past (r :: rest) [] e ⟨r, past, true, true⟩
  /-- a wrong record at the start of a block -/
  | wrongFirst {cur past r rest e} : cur ≠ some r.name → Selected only r.name → NotVoid r →
      Wrong e0 past true r e → Refuses only sk e0 cur past (r :: rest) [] e ⟨r, past, false, true⟩
  /-- a record inside a block whose row cannot be stored -/
  | misfitMore {past r rest e} : Misfit e0 past rest.head? r e →
      Refuses only sk e0 (some r.name) past (r :: rest) [] e ⟨r, past, true, true⟩
  /-- a record at the start of a block, other than a hierarchy, whose row cannot be stored -/
  | misfitFirst {cur past r rest e} : cur ≠ some r.name → Selected only r.name → NotVoid r →
      FirstOK r → r.name ≠ "HIERARCH" → Misfit e0 past rest.head? r e →
      Refuses only sk e0 cur past (r :: rest) [] e ⟨r, past, false, true⟩
  /-- the first row of a hierarchy, if it cannot be read or stored -/
  | hier {cur past r rest e} : cur ≠ some r.name → Selected only r.name → NotVoid r →
      BadRow r e → Refuses only sk e0 cur past (r :: rest) [] e ⟨r, past, false, true⟩
  /-- a mesh concept with several representations at the start of a block -/
  | mesh {cur past r rest x n} : cur ≠ some r.name → r.name = "SCONMESH" →
      Selected only r.name → NotVoid r → r.head[2]? = some x → HasInt x n → 1 < n →
      Refuses only sk e0 cur past (r :: rest) [] .notImplemented ⟨r, past, false, false⟩
  /-- a record that is stopped at before its table, at the start of a block -/
  | stuck {cur past r rest e} : cur ≠ some r.name → Selected only r.name → Stuck r e →
      Refuses only sk e0 cur past (r :: rest) [] e ⟨r, past, false, false⟩
  /-- another record of the block -/
  | more {past r rest o outs e c} : r.name ≠ "IDENT" → Adds e0 past rest.head? false r o →
      Refuses only sk e0 (some r.name) (r :: past) rest outs e c →
      Refuses only sk e0 (some r.name) past (r :: rest) (o :: outs) e c
  /-- the first record of a block -/
  | first {cur past r rest o outs e c} : cur ≠ some r.name → r.name ≠ "IDENT" →
      Selected only r.name → NotVoid r → FirstOK r →
      Adds e0 past rest.head? true r o →
      Refuses only sk e0 (some r.name) (r :: past) rest outs e c →
      Refuses only sk e0 cur past (r :: rest) (o :: outs) e c
  /-- identification -/
  | ident {cur past r rest o outs e c} : cur ≠ some r.name → r.name = "IDENT" →
      Selected only r.name → NotVoid r → Adds e0 past rest.head? true r o →
      Refuses only sk e0 none (r :: past) rest outs e c →
      Refuses only sk e0 cur past (r :: rest) (o :: outs) e c
  /-- a record that is passed over -/
  | pass {cur cur' past r rest outs e c} : Passed only sk cur r cur' →
      Refuses only sk e0 cur' past rest outs e c →
      Refuses only sk e0 cur past (r :: rest) outs e c
  /-- the file ends behind a record of a block -/
  | ends {nm past} : HasTable nm →
      Refuses only sk e0 (some nm) past [] [] .structError ⟨endMark, past, true, false⟩
  /-- the file ends behind an identification -/
  | identEnds {cur past r o} : cur ≠ some r.name → r.name = "IDENT" →
      Selected only r.name → NotVoid r → Adds e0 past none true r o →
      Refuses only sk e0 cur past [r] [o] .structError ⟨endMark, r :: past, false, false⟩

  /-- the file ends behind a record that is passed over -/
  | passEnds {cur cur' past r} : Passed only sk cur r cur' →
      HeaderOnly r ∨ cur ≠ some r.name ∧ Selected only r.name ∧ Void r →
      Refuses only sk e0 cur past [r] [] .structError ⟨endMark, past, false, false⟩

/-- `EncodedTo D sk f e src`: `src` is a file with the records `f`, up to the exception `e`.  Where
the exception is the one of a file that ends too early, the file is unformatted, and nothing
follows on the records. -/
inductive EncodedTo (D : Dec) (sk : LRec → Bool) (f : List LRec) (e : Err) : Source → Prop
  | stops {src} : Encoded D sk f src → e ≠ .structError → EncodedTo D sk f e src
  | ends {k bs} : U.Encodes D sk [] f bs → EncodedTo D sk f e (.unformatted (k :: bs))

/-- number of records in the last block of `outs` -/
def lastBlock (outs : List Added) : Nat := (outs.reverse.takeWhile fun o => !o.first).length + 1

/-- The records written when the conversion stops: those of a block are written `B` at a time, the
others when the block is complete. -/
def Stop.written (c : Stop) (B : Nat) (outs : List Added) : List Added :=
  if c.inside then outs.take (outs.length - lastBlock outs % B) else outs

/-- `k` is what a conversion to group `p` that stops at `c` after the records `outs` leaves behind;
`h0` was the output file and `e0` the known element types before. -/
structure LeftBehind (B : Nat) (c : Stop) (outs : List Added) (e0 : Int → Option Int) (h0 : H5)
    (p : Path) (h : H5) (elem : Int → Option Int) : Prop where
  /-- the tables of the records converted, and of the one that could not be -/
  tables : ∀ l ∈ layouts, ofType l.name outs ≠ [] ∨ c.opened = true ∧ c.record.name = l.name →
    h.tabs (p, l.name) = some ((contents l (c.written B outs)).table l)
  /-- no other tables -/
  others : ∀ k : Path × String,
    k.1 ≠ p ∨ ofType k.2 outs = [] ∧ ¬ (c.opened = true ∧ c.record.name = k.2) →
    h.tabs k = h0.tabs k
  /-- the group, without attributes if it is new -/
  groups : ∀ q, q <+: p → q ≠ [] → h.groups q = some ((h0.groups q).getD {})
  /-- no other groups -/
  rest : ∀ q, ¬ q <+: p ∨ q = [] → h.groups q = h0.groups q
  /-- the element types, also of the record that could not be converted -/
  elements : ∀ n t, elem n = some t ↔ TypeOf e0 (c.record :: c.before) n t

/-- `Halts only sk cur f e`: on the file `f` the exception `e` is met before any table is
opened. -/
inductive Halts (only : Option (List String)) (sk : LRec → Bool) :
    Option String → List LRec → Err → Prop
  /-- an identification without integer for the superelement type -/
  | ident {cur r rest e} : cur ≠ some r.name → r.name = "IDENT" → Selected only r.name →
      NotVoid r → NoInt r.head 1 e → Halts only sk cur (r :: rest) e
  /-- a record that is stopped at before its table -/
  | stuck {cur r rest e} : cur ≠ some r.name → Selected only r.name → Stuck r e →
      Halts only sk cur (r :: rest) e
  /-- a record that is passed over -/
  | pass {cur cur' r rest e} : Passed only sk cur r cur' → Halts only sk cur' rest e →
      Halts only sk cur (r :: rest) e

/-- `BadIdent only sk cur f s e r`: before any other record of a table is read, the file `f` has the
identification `r` with the superelement type `s`, whose level or, if that is an integer, model
number is no integer, or the row `r` of the hierarchy for the superelement type `s`, whose number of
subelements is no integer or which cannot be stored; the exception is `e`. -/
inductive BadIdent (only : Option (List String)) (sk : LRec → Bool) :
    Option String → List LRec → Int → Err → LRec → Prop
  | level {cur r rest x s e} : cur ≠ some r.name → r.name = "IDENT" → Selected only r.name →
      NotVoid r → r.head[1]? = some x → HasInt x s → NoInt r.head 0 e →
      BadIdent only sk cur (r :: rest) s e r
  | model {cur r rest x y n s e} : cur ≠ some r.name → r.name = "IDENT" → Selected only r.name →
      NotVoid r → r.head[1]? = some x → HasInt x s → r.head[0]? = some y → HasInt y n →
      NoInt r.head 2 e → BadIdent only sk cur (r :: rest) s e r
  | hier {cur r rest x s e} : cur ≠ some r.name → Selected only r.name → NotVoid r →
      r.head[2]? = some x → HasInt x s → BadRow r e → BadIdent only sk cur (r :: rest) s e r
  /-- a record that is passed over -/
  | pass {cur cur' r0 rest s e r} : Passed only sk cur r0 cur' → BadIdent only sk cur' rest s e r →
      BadIdent only sk cur (r0 :: rest) s e r

/-- `Untyped only sk cur f`: on the file `f` (opened by the user) no superelement type is given
before it is needed. -/
inductive Untyped (only : Option (List String)) (sk : LRec → Bool) :
    Option String → List LRec → Prop
  /-- a record with a table -/
  | early {cur r rest} : cur ≠ some r.name → HasTable r.name → r.name ≠ "IDENT" →
      r.name ≠ "HIERARCH" → Selected only r.name → NotVoid r → FirstOK r →
      Untyped only sk cur (r :: rest)
  /-- an identification with type 0 -/
  | zero {cur r rest a b c d} : cur ≠ some r.name → r.name = "IDENT" → Selected only r.name →
      NotVoid r → r.head = [a, b, c, d] → HasInt b 0 → Untyped only sk cur (r :: rest)
  /-- the end of the file -/
  | stop {cur r rest} : cur ≠ some r.name → Selected only r.name → EndOfFile r →
      Untyped only sk cur (r :: rest)
  /-- a record that is passed over -/
  | pass {cur cur' r rest} : Passed only sk cur r cur' → Untyped only sk cur' rest →
      Untyped only sk cur (r :: rest)

end Verif.Parse
