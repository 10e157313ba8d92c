import Verif.Parse.FileSpec
/-!
# Records of a file and rows of its tables (specification, concluded)
-/

namespace Verif.Parse
open Verif Verif.Seq

/-- a record that was read into a table: the records read before it (most recent first), the
record behind it, and the record -/
structure Event where
  past : List LRec
  next : Option LRec
  record : LRec

/-- what a user gets for an array: `items[row[k]:row[k+1]]` -/
def Slice (row : List Cell) (k : Nat) (items part : List Cell) : Prop :=
  ∃ a b : Nat, HasField row k a ∧ HasField row (k + 1) b ∧ (items.drop a).take (b - a) = part

/-- `row` of table `t` holds the record of `ev`: its fields in the columns of the record type and,
for each array that the record has items for, start and stop columns that select these items -/
def RowOf (e0 : Int → Option Int) (l : Layout) (t : Tab) (ev : Event) (row : List Cell) : Prop :=
  ev.record.name = l.name ∧ ∃ e, Means e0 ev.past ev.next ev.record e ∧
    row.length = l.cols.length + 2 * l.arrs.length ∧
    StoredRow l.cols e.row (row.take l.cols.length) ∧
    ∀ (j : Nat) (a : Arr) (vs : List Val), l.arrs[j]? = some a → e.items[j]? = some (some vs) →
      ∃ cs arr, List.Forall₂ (Stored a.kind a.shape) vs cs ∧ t.arrs[j]? = some arr ∧
        Slice row (l.cols.length + 2 * j) arr.items cs

/-- A conversion job: a logical file `f` that the parser accepts, and the place its data go to. -/
structure Job (only : Option (List String)) (sk : LRec → Bool) (e0 : Int → Option Int)
    (f : List LRec) (outs : List Added) (names : List String) (pl : Place) (s : Int) (h0 : H5)
    (lev dt : String) (ix : Option (Option Int)) : Prop where
  accepted : Accepts only sk e0 none [] f outs names
  sel : s ≠ 0
  gives : GivesType s outs
  allows : pl.Allows s outs
  hier : pl.In h0
  free : ∀ l ∈ layouts, h0.tabs (pl.path s, l.name) = none
  classified : Classified outs pl lev dt ix

/-- the output file after a job -/
structure Converted (outs : List Added) (names : List String) (pl : Place) (s : Int) (h0 : H5)
    (lev dt : String) (ix : Option (Option Int)) (h : H5) : Prop where
  tables : TablesAfter h0 (pl.path s) outs h
  groups : ∃ recs, Once names recs ∧ GroupsAfter h0 (pl.path s)
    { records := some recs, level := some lev, datatype := some dt, seltyp := some (some s),
      filetype := some pl.letter,
      index := ix.orElse fun _ => ((h0.groups (pl.path s)).getD {}).index } h

/-- the first field of the record is negative -/
def isVoid (r : LRec) : Bool :=
  match r.head with
  | x :: _ => x.ltZero
  | [] => false

/-- The records of a file, in file order, that get a row, up to the end of the file; `block` is the
type of the record before, if it got a row.  A void record gets a row only if it follows one of its
type (an IDENT record is never followed by another one in this sense). -/
def eventsAfter (block : Option String) (past : List LRec) : List LRec → List Event
  | [] => []
  | r :: rest =>
    if r.name = "IEND" ∧ r.head.head? = some (.rat 0) then []
    else if r.name ∈ layouts.map (·.name) then
      if isVoid r = true ∧ block ≠ some r.name then eventsAfter none past rest
      else ⟨past, rest.head?, r⟩ ::
        eventsAfter (if r.name = "IDENT" then none else some r.name) (r :: past) rest
    else eventsAfter none past rest

/-- the records of a file that get a row -/
def events (past f : List LRec) : List Event := eventsAfter none past f

instance {only : Option (List String)} {name : String} : Decidable (Selected only name) :=
  match only with
  | none => .isTrue trivial
  | some l => inferInstanceAs (Decidable (name ∈ l))

/-- the same for a selection of record types: the other records are passed over, also an IEND record
(the file is then read to its end) -/
def selectedAfter (only : Option (List String)) (block : Option String) (past : List LRec) :
    List LRec → List Event
  | [] => []
  | r :: rest =>
    if ¬ Selected only r.name then selectedAfter only none past rest
    else if r.name = "IEND" ∧ r.head.head? = some (.rat 0) then []
    else if r.name ∈ layouts.map (·.name) then
      if isVoid r = true ∧ block ≠ some r.name then selectedAfter only none past rest
      else ⟨past, rest.head?, r⟩ ::
        selectedAfter only (if r.name = "IDENT" then none else some r.name) (r :: past) rest
    else selectedAfter only none past rest

/-- the records of the selected types that get a row, in file order -/
def selectedEvents (only : Option (List String)) (f : List LRec) : List Event :=
  selectedAfter only none [] f

/-- records of one type cannot be understood without those of another -/
def needs : List (String × String) :=
  [("GELREF1", "GELMNT1"), ("RDIELCOR", "RDPOINTS"), ("RVNODACC", "RDRESREF"),
   ("RVNODDIS", "RDRESREF"), ("RVNODVEL", "RDRESREF"), ("RVFORCES", "RDRESREF"),
   ("RVSTRAIN", "RDRESREF"), ("RVSTRESS", "RDRESREF"), ("RVFORCES", "RDPOINTS"),
   ("RVSTRAIN", "RDPOINTS"), ("RVSTRESS", "RDPOINTS"), ("RVFORCES", "RDFORCES"),
   ("RVSTRAIN", "RDSTRAIN"), ("RVSTRESS", "RDSTRESS")]

/-- a selection that can be converted on its own: with each type the types it needs, and the
records that name and end the file -/
def Closed (l : List String) : Prop :=
  (∀ p ∈ needs, p.1 ∈ l → p.2 ∈ l) ∧ ∀ n ∈ ["IDENT", "HIERARCH", "IEND"], n ∈ l

/-- a file on disk -/
inductive Source where
  | unformatted (bytes : Bytes)
  | formatted (text : Str)

/-- the files that hold the logical records `f` -/
inductive Encoded (D : Dec) (sk : LRec → Bool) (f : List LRec) : Source → Prop
  | unformatted {k z bs} : U.Encodes D sk z f bs → Encoded D sk f (.unformatted (k :: bs))
  | formatted {z t} : T.Encodes D sk z f t → Encoded D sk f (.formatted t)

end Verif.Parse
