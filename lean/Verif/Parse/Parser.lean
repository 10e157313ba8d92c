import Verif.Parse.Readers
/-!
# parse_file

Model of the rest of `/repo/freesif/sequentialparser/parsers.py`: the module level state, groups and
tables of the output file, the record loops, `general_parser` and `parse_file`.

The HDF5 file is a map from group paths to attributes and from (group path, record name) to the
table of that record type with its arrays.  An exception ends the conversion; the state it leaves
behind is not modelled (the theorems about later conversions quantify over every state).
-/

namespace Verif.Parse
open Verif Verif.Seq

/-- a group path below the root group -/
abbrev Path := List String

/-- attributes of a superelement group (parsers.py:475-512); `none`: not set -/
structure Attrs where
  records : Option (List String) := none
  index : Option (Option Int) := none
  level : Option String := none
  datatype : Option String := none
  seltyp : Option (Option Int) := none
  filetype : Option String := none
  deriving DecidableEq, Repr

/-- the output file -/
structure H5 where
  groups : Path → Option Attrs := fun _ => none
  tabs : Path × String → Option Tab := fun _ => none

/-- the module level variables of parsers.py:19-62 and 90-95 except the dicts in `Env`
(`rec_size` and `record_count` do not influence the result) -/
structure G where
  currentIhref : Option Int := none
  currentIndsel : Option Int := none
  currentSeltyp : Option Int := none
  filetypeid : String := "sel"
  attoplevel : Bool := false
  groupnamePrefix : String := ""
  hasHierarch : Bool := false
  /-- path of the group holding `hierarch_table` -/
  hierarchTable : Option Path := none
  currentHrec : Option (List Cell) := none
  /-- the dict `tables`: path of the group holding the table of a record type -/
  tables : String → Option Path := fun _ => none
  recordNames : List String := []
  recSize : Int := 1024

/-- module state and output file -/
structure St where
  g : G := {}
  env : Env := {}
  h5 : H5 := {}

/-- parsers.py:137-163 `reset`; `elem_data` is not reset -/
def reset (top : Bool) (st : St) : St :=
  { st with
    g := { st.g with
      recSize := 1024, currentIhref := none, currentSeltyp := none, currentIndsel := none,
      currentHrec := none, attoplevel := false, tables := fun _ => none, recordNames := [],
      hasHierarch := if top then false else st.g.hasHierarch,
      hierarchTable := if top then none else st.g.hierarchTable,
      filetypeid := if top then "sel" else st.g.filetypeid },
    env := { elem := st.env.elem } }

/-- columns of the HIERARCH table with their `_start`/`_stop` columns -/
def hierarchCols : List Col :=
  ints ["nfield", "ihref", "iselty", "indsel", "islevl", "itref", "ihpref", "nsub",
    "ihsref_start", "ihsref_stop"]

/-- `hierarch_table[i]` (for `None`: `TypeError`) -/
def hierarchRow (st : St) (i : Int) : Except Err (List Cell) :=
  match st.g.hierarchTable with
  | none => .error .typeError
  | some p =>
    match st.h5.tabs (p, "HIERARCH") with
    | none => .error .nodeError
    | some t =>
      let j := if i < 0 then i + t.rows.length else i
      if j < 0 then .error .indexError
      else
        match t.rows[j.toNat]? with
        | some r => .ok r
        | none => .error .indexError

/-- `row['name']` of a HIERARCH row -/
def hField (row : List Cell) (name : String) : Except Err Int := fieldInt hierarchCols row name

/-- parsers.py:233-239 `set_current_ihref` -/
def setCurrentIhref (ihref : Int) (st : St) : Except Err St := do
  let st1 := { st with g := { st.g with currentIhref := some ihref } }
  if st1.g.hasHierarch then
    let row ← hierarchRow st1 (ihref - 1)
    if st1.g.filetypeid = "R" then
      let k ← hField row "indsel"
      .ok { st1 with g := { st1.g with currentHrec := some row, currentIndsel := some k } }
    else .ok { st1 with g := { st1.g with currentHrec := some row } }
  else .ok st1

/-- `str(x)` of an integer or `None` -/
def pyStr : Option Int → String
  | none => "None"
  | some i => toString i

/-- truth value of an integer or `None` -/
def isTrue : Option Int → Bool
  | none => false
  | some i => decide (i ≠ 0)

/-- parsers.py:252-277 `get_path` -/
def getPath (st : St) : Except Err Path := do
  let g := st.g
  if g.hasHierarch then
    if isTrue g.currentIndsel then
      let top ← hField (← hierarchRow st 0) "iselty"
      .ok [g.groupnamePrefix ++ g.filetypeid ++ toString top,
        g.filetypeid ++ pyStr g.currentSeltyp ++ "_" ++ pyStr g.currentIndsel]
    else if g.attoplevel then
      .ok [g.groupnamePrefix ++ g.filetypeid ++ pyStr g.currentSeltyp]
    else
      let top ← hField (← hierarchRow st 0) "iselty"
      .ok [g.groupnamePrefix ++ g.filetypeid ++ toString top,
        g.filetypeid ++ pyStr g.currentSeltyp]
  else if isTrue g.currentSeltyp then
    .ok [g.groupnamePrefix ++ g.filetypeid ++ pyStr g.currentSeltyp]
  else .error .nameError

/-- creation of a group with its parents (`createparents=True`) -/
def mkGroups (h : H5) (p : Path) : H5 :=
  { h with groups := fun q =>
      if q <+: p ∧ q ≠ [] then some ((h.groups q).getD {}) else h.groups q }

/-- store a table -/
def H5.put (h : H5) (p : Path) (name : String) (t : Tab) : H5 :=
  { h with tabs := fun k => if k = (p, name) then some t else h.tabs k }

/-- parsers.py:284-340 `get_table`.  A table without arrays is falsy while it has no rows. -/
def getTable (name : String) (st : St) : Except Err (St × Path × Tab) :=
  let create : Except Err (St × Path × Tab) := do
    let p ← getPath st
    match descriptor name with
    | none => .error .keyError
    | some cols =>
      match st.h5.tabs (p, name) with
      | some _ => .error .nodeError
      | none =>
        let t : Tab := { cols := cols ++ boundCols (atoms name), arrs := atoms name }
        .ok ({ st with
                h5 := (mkGroups st.h5 p).put p name t,
                g := { st.g with tables := upd st.g.tables name p } }, p, t)
  match st.g.tables name with
  | none => create
  | some p =>
    match st.h5.tabs (p, name) with
    | none => .error .nodeError
    | some t => if t.arrs = [] ∧ t.rows = [] then create else .ok (st, p, t)

/-- The loop common to the readers: as long as the record has the reader's name, process it and
read the next header.  (For instance parsers.py:354-367.) -/
def loop (B : Nat) (body : Body) (name : String) :
    Nat → Work → Env → String × List PyF → Prog (Work × Env × (String × List PyF))
  | 0, _, _, _ => .fail .outOfFuel
  | fuel + 1, w, env, h =>
    if h.1 = name then
      Prog.bind (body name env h.2) fun r =>
      Prog.bind (Prog.lift (w.add B r.2)) fun w' =>
      Prog.bind header fun h' =>
      loop B body name fuel w' r.1 h'
    else .ret (w, env, h)

/-- a reader consisting of `get_table`, the loop and `recs.write()` -/
def blockReader (B fuel : Nat) (check : List PyF → Except Err Unit) (body : Body) (st : St)
    (h : String × List PyF) : Prog (St × Option (String × List PyF)) :=
  Prog.bind (Prog.lift (check h.2)) fun _ =>
  Prog.bind (Prog.lift (getTable h.1 st)) fun a =>
  Prog.bind (loop B body h.1 fuel (Work.open a.2.2) { a.1.env with grid := none } h) fun r =>
  Prog.bind (Prog.lift r.1.write) fun w =>
  .ret ({ a.1 with env := r.2.1, h5 := a.1.h5.put a.2.1 h.1 w.tab }, some r.2.2)

/-- parsers.py:550-596 `hierarch_reader` -/
def hierarchReader (B fuel : Nat) (st : St) (h : String × List PyF) :
    Prog (St × Option (String × List PyF)) :=
  Prog.bind (floats 4) fun rec2 =>
  Prog.bind (intAt h.2 2) fun seltyp =>
  let st0 := { st with g := { st.g with currentSeltyp := some seltyp } }
  Prog.bind (Prog.lift (getTable h.1 st0)) fun a =>
  Prog.bind (hierarchRest h.2 rec2) fun e =>
  Prog.bind (Prog.lift ((Work.open a.2.2).add B e)) fun w1 =>
  Prog.bind header fun h1 =>
  Prog.bind (loop B hierarchBody "HIERARCH" fuel w1 a.1.env h1) fun r =>
  Prog.bind (Prog.lift r.1.write) fun w =>
  let st1 := { a.1 with
    env := r.2.1, h5 := a.1.h5.put a.2.1 h.1 w.tab,
    g := { a.1.g with hasHierarch := true, attoplevel := true, hierarchTable := some a.2.1 } }
  Prog.bind (Prog.lift (hierarchRow st1 0)) fun row =>
  .ret ({ st1 with g := { st1.g with currentHrec := some row } }, some r.2.2)

/-- parsers.py:652-667 `ident_reader` (one row through `table.row`) -/
def identReader (st : St) (h : String × List PyF) : Prog (St × Option (String × List PyF)) :=
  Prog.bind
    (if isTrue st.g.currentSeltyp then .ret st
     else Prog.bind (intAt h.2 1) fun n =>
       .ret { st with g := { st.g with currentSeltyp := some n } }) fun st0 =>
  Prog.bind (Prog.lift (getTable h.1 st0)) fun a =>
  Prog.bind (intAt h.2 0) fun slevel =>
  Prog.bind (intAt h.2 1) fun seltyp =>
  Prog.bind (intAt h.2 2) fun selmod =>
  let t := { a.2.2 with
    rows := a.2.2.rows ++ [[.sc (.int slevel), .sc (.int seltyp), .sc (.int selmod)]] }
  Prog.bind header fun h' =>
  .ret ({ a.1 with h5 := a.1.h5.put a.2.1 h.1 t }, some h')

/-- call of a reader; `none` is the answer `(None, None)` -/
def runReader (B fuel : Nat) (rd : Rd) (st : St) (h : String × List PyF) :
    Prog (St × Option (String × List PyF)) :=
  match rd with
  | .block check body => blockReader B fuel check body st h
  | .hierarch => hierarchReader B fuel st h
  | .ident => identReader st h
  | .irecsize =>   -- parsers.py:524-527
    Prog.bind (intAt h.2 1) fun n =>
    Prog.bind header fun h' =>
    .ret ({ st with g := { st.g with recSize := n } }, some h')
  | .iend =>   -- parsers.py:675-679
    Prog.bind (idx h.2 0) fun x =>
    if x.eqInt 0 then .ret (st, none)
    else Prog.bind header fun h' => .ret (st, some h')

/-- parsers.py:434-436 and 456-458: skip consecutive records of one name -/
def skipLoop (name : String) : Nat → String × List PyF → Prog (String × List PyF)
  | 0, _ => .fail .outOfFuel
  | fuel + 1, h =>
    if h.1 = name then Prog.bind (skipRest h.1 h.2) fun h' => skipLoop name fuel h'
    else .ret h

/-- parsers.py:416-443 `general_parser` -/
def generalParser (B fuel : Nat) (st : St) (h : String × List PyF) :
    Prog (St × Option (String × List PyF)) :=
  Prog.bind (idx h.2 0) fun x =>
  if x.ltZero then
    Prog.bind (if x.eqInt (-5) then Prog.bind (floatrec 0) fun _ => .ret () else .ret ()) fun _ =>
    Prog.bind header fun h' => .ret (st, some h')
  else
    match readers h.1 with
    | some rd =>
      runReader B fuel rd { st with g := { st.g with recordNames := st.g.recordNames ++ [h.1] } } h
    | none => Prog.bind (skipLoop h.1 fuel h) fun h' => .ret (st, some h')

/-- parsers.py:452 `rec_name in only` (`none`: no restriction) -/
def selected (only : Option (List String)) (name : String) : Bool :=
  match only with
  | none => true
  | some l => decide (name ∈ l)

/-- parsers.py:450-461: the loops of `parse_file`; `only` is `none` for a falsy argument -/
def parseLoop (B : Nat) (only : Option (List String)) :
    Nat → Nat → St → Option (String × List PyF) → Prog St
  | _, 0, _, _ => .fail .outOfFuel
  | _, _ + 1, st, none => .ret st
  | fuel, n + 1, st, some h =>
    if h.1 = "" then .ret st
    else
      if selected only h.1 then
        Prog.bind (generalParser B fuel st h) fun r => parseLoop B only fuel n r.1 r.2
      else
        Prog.bind (skipLoop h.1 fuel h) fun h' => parseLoop B only fuel n st (some h')

/-- parsers.py:469-472 `remove_dups_preseve_order` -/
def removeDups : List String → List String → List String
  | _, [] => []
  | seen, x :: xs =>
    if x ∈ seen then removeDups seen xs else x :: removeDups (x :: seen) xs

/-- parsers.py:476-503: `LEVEL`, `DATATYPE` and, if set, `INDEX` -/
def classify (st : St) : Except Err (String × String × Option (Option Int)) := do
  let g := st.g
  if g.filetypeid = "R" then
    if g.attoplevel then
      let lev ← hField (← hierarchRow st 0) "islevl"
      if lev = 1 then .ok ("FIRSTLEVEL", "STRUCTURAL", some g.currentIndsel)
      else .ok ("TOPLEVEL", "STRUCTURAL", none)
    else .ok ("FIRSTLEVEL", "STRUCTURAL", some g.currentIndsel)
  else if g.filetypeid = "T" ∨ g.filetypeid = "L" then
    if g.attoplevel then .ok ("TOPLEVEL", "STRUCTURAL", none)
    else if g.hasHierarch then
      match g.currentHrec with
      | none => .error .typeError
      | some row =>
        let lev ← hField row "islevl"
        if lev > 1 then .ok ("INTERLEVEL", "STRUCTURAL", none)
        else .ok ("FIRSTLEVEL", "STRUCTURAL", none)
    else .ok ("FIRSTLEVEL", "STRUCTURAL", none)
  else if g.filetypeid = "G" then .ok ("", "HYDRODYNAMIC", none)
  else .ok ("", "UNKNOWN", none)

/-- parsers.py:463-515: attributes of the group -/
def setAttributes (st : St) : Except Err St := do
  let p ← getPath st
  match st.h5.groups p with
  | none => .error .nodeError
  | some a =>
    let (level, datatype, index) ← classify st
    let a' : Attrs :=
      { records := some (removeDups [] st.g.recordNames),
        index := match index with
          | some i => some i
          | none => a.index,
        level := some level, datatype := some datatype, seltyp := some st.g.currentSeltyp,
        filetype := some st.g.filetypeid }
    .ok { st with h5 := { st.h5 with
      groups := fun q => if q = p then some a' else st.h5.groups q } }

/-- parsers.py:446-515 `parse_file` -/
def parseFile (B fuel : Nat) (only : Option (List String)) (st : St) : Prog St :=
  Prog.bind header fun h =>
  Prog.bind (parseLoop B only fuel fuel st (some h)) fun st' =>
  Prog.lift (setAttributes st')

end Verif.Parse
