import Verif.Session.Model
/-!
# Descriptions of files and data objects

Model of `__str__` and `__repr__` in `/repo/freesif/data/file.py` and `/repo/freesif/data/sifdata.py`.
The attributes that a data object printed were read when it was made; a group does not change
afterwards.
-/

namespace Verif.Session
open Verif Verif.Seq Verif.Parse Verif.Conv Verif.Data Verif.Data.Life Verif.Data.Load

/-- `str.lower()` -/
def lower (t : String) : String := String.ofList (t.toList.map Char.toLower)

/-- `repr` of a name.  Simplified: names without quotes, backslashes and control characters. -/
def reprName (t : String) : String := "'" ++ t ++ "'"

/-- sifdata.py:37-48 `str(d)` -/
def dataStr (s : State) (d : Nat) : Except Err String :=
  match s.life.datas[d]? with
  | some (.opened ..) => do
    let x ← groupOf s d
    let a ← attr (x.1.groups x.2)
    let datatype ← attr a.datatype
    let level ← attr a.level
    if datatype = "HYDRODYNAMIC" then .ok (lower datatype ++ " data")
    else .ok (lower level ++ " " ++ lower datatype ++ " data")
  | _ => .ok "<Closed SifData object>"

/-- sifdata.py:50-56 `repr(d)`; `name` is the name of the group (sifdata.py:27) -/
def dataRepr (s : State) (d : Nat) : Except Err String :=
  match s.life.datas[d]? with
  | some (.opened ..) => do
    let x ← groupOf s d
    .ok ("SifData(name=" ++ x.2.getLast?.getD "" ++ ")")
  | _ => .ok "<Closed SifData object>"

/-- insert an item by its key -/
def insertItem (x : String × Nat) : List (String × Nat) → List (String × Nat)
  | [] => [x]
  | y :: l => if y.1 < x.1 then y :: insertItem x l else x :: y :: l

/-- `sorted` on the items of a dict (no two of which have the same key) -/
def sortItems (l : List (String × Nat)) : List (String × Nat) := l.foldr insertItem []

/-- file.py:147 one line of `str(f)` -/
def itemLine (s : State) (x : String × Nat) : Except Err String := do
  let t ← dataStr s x.2
  .ok (reprName x.1 ++ ": " ++ t ++ "\n")

/-- file.py:139-148 `str(f)` -/
def fileStr (s : State) (f : Nat) : Except Err String :=
  match Life.items s.life f with
  | .ok l => do
    let lines ← (sortItems l).mapM (itemLine s)
    .ok (String.join lines)
  | .error _ => .ok "<Closed File object>"

/-- file.py:150-159 `repr(f)`: data objects cannot be compared, so that `sorted` raises `TypeError`
if there are two or more -/
def fileRepr (s : State) (f : Nat) : Except Err String :=
  match Life.items s.life f with
  | .ok [] => .ok ""
  | .ok [x] => do
    let t ← dataRepr s x.2
    .ok (t ++ "\n")
  | .ok _ => .error .typeError
  | .error _ => .ok "<Closed File object>"

end Verif.Session
