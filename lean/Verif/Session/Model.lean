import Verif.Conv.Driver
import Verif.Data.Life
import Verif.Data.Load
/-!
# A session: converting, opening, reading and closing files

Joins the models of `sif2hdf5` (`Verif.Conv.Driver`), of the File and data objects
(`Verif.Data.Life`) and of their tables (`Verif.Data.Load`): `open_hdf5`, `open_sif` and the
constructor of `File` in `/repo/freesif/data/file.py`, applied to the contents of an HDF5 file.

`iter` gives the names of the groups of an HDF5 file and of their subgroups in the order of
`_f_iter_nodes('Group')`; the theorems hold for every order.
-/

namespace Verif.Session
open Verif Verif.Seq Verif.Parse Verif.Conv Verif.Data Verif.Data.Life Verif.Data.Load

/-- an HDF5 file: in memory, or on disk -/
inductive Origin where
  | memory (name : Str)
  | disk (path : Str)
  deriving DecidableEq

/-- the state of a session: the files and the `parsers` module, the objects, and for each HDF5
handle its file and the contents -/
structure State where
  conv : Conv.World := {}
  life : Life.World := {}
  store : List (Origin × H5) := []

/-- the file is open -/
def isOpen (s : State) (w : Life.World) (o : Origin) : Bool :=
  (List.range s.store.length).any fun k =>
    (s.store[k]?.map Prod.fst == some o) && (w.handles[k]? == some true)

/-- the paths of the files on disk that are open -/
def openPaths (s : State) : List Str :=
  (List.range s.store.length).filterMap fun k =>
    match (s.store[k]? : Option (Origin × H5)), s.life.handles[k]? with
    | some (.disk p, _), some true => some p
    | _, _ => none

section
variable {K V : Type} [Field K] [LinearOrder K] (iter : H5 → List (String × List String))
  (pi : K) (num : PyF → K) (cplx : PyF → PyF → V)

/-- file.py:103-105: a subgroup and its attribute LEVEL -/
def subDesc (h : H5) (n m : String) : Except Err (String × String) := do
  let a ← attr (h.groups [n, m])
  let level ← attr a.level
  .ok (m, level)

/-- file.py:87-110: what the loop reads of a group: the attributes (LEVEL also in the constructors
of the data classes, sifdata.py:33), the tables that the constructor of HydroData reads, the
subgroups.  Simplified: the other attributes that the constructors read are not read; `sif2hdf5` sets
all or none. -/
def describe (h : H5) (g : String × List String) : Except Err GroupDesc := do
  let a ← attr (h.groups [g.1])
  let datatype ← attr a.datatype
  let level ← if datatype = "STRUCTURAL" ∨ datatype = "HYDRODYNAMIC" then attr a.level
    else .ok (a.level.getD "")
  if datatype = "HYDRODYNAMIC" then
    let t ← loadHydro num cplx h [g.1]
    let _ ← hydroInit pi t
  let subs ← g.2.mapM (subDesc h g.1)
  .ok { name := g.1, datatype := datatype, level := level
        hydroInit := do
          let t ← loadHydro num cplx h [g.1]
          let _ ← hydroInit pi t
          .ok ()
        subs := subs }

/-- the groups in front of the first one that cannot be read -/
def readable (h : H5) : List (String × List String) → List GroupDesc
  | [] => []
  | g :: rest =>
    match describe pi num cplx h g with
    | .ok d => d :: readable h rest
    | .error _ => []

/-- file.py:56-113 `File.__init__` on an HDF5 file with contents `h`; if a group cannot be read, the
loop may have failed for another reason before -/
def openTables (s : State) (name : Origin) (h : H5) : State × Except Err Nat :=
  match (iter h).mapM (describe pi num cplx h) with
  | .error e => ({ s with
      life := { s.life with handles := s.life.handles ++ [true] }
      store := s.store ++ [(name, h)] },
      match (openFile s.life (readable pi num cplx h (iter h))).2 with
      | .error e' => .error e'
      | .ok _ => .error e)
  | .ok gs =>
    let r := openFile s.life gs
    ({ s with life := r.1, store := s.store ++ [(name, h)] }, r.2)

/-- file.py:18-26 `open_hdf5`; PyTables does not open a file for reading under a name under which it
is open for writing.  Simplified: what is appended to a file that a conversion has left open is not
seen by the objects that are open. -/
def openHdf5 (s : State) (filename : Str) : State × Except Err Nat :=
  match s.conv.out (s.conv.fullPath filename) with
  | some (.h5 h) => openTables iter pi num cplx s (.disk (s.conv.fullPath filename)) h
  | some (.left h) =>
    if s.conv.leaked.contains (s.conv.fullPath filename) then (s, .error .valueError)
    else openTables iter pi num cplx s (.disk (s.conv.fullPath filename)) h
  | none => (s, .error .fileNotFound)

/-- file.py:28-43 `open_sif` -/
def openSif (D : Dec) (B : Nat) (s : State) (filename : Str) : State × Except Err Nat :=
  match sif2hdf5 D B { inMemory := true } (.name filename) (.one []) s.conv with
  | (.ok (.memory name h), cw) =>
    match parseSifname filename with
    | .error e => ({ s with conv := cw }, .error e)
    | .ok m =>
      match openTables iter pi num cplx { s with conv := cw } (.memory name) h with
      | (s', .ok f) =>
        (s', getItem s'.life f (String.ofList (m.fileprefix ++ m.letter :: m.selno)))
      | (s', .error e) => (s', .error e)
  | (.ok _, cw) => ({ s with conv := cw }, .error .typeError)
  | (.error e, cw) => ({ s with conv := cw }, .error e)

/-- `sif2hdf5` called by the user, with an output file on disk -/
def convert (D : Dec) (B : Nat) (o : Options) (s : State) (arg : SifArg) (pre : PrefixArg) :
    State × Except Err Result :=
  let r := sif2hdf5 D B { o with inMemory := false } arg pre { s.conv with reading := openPaths s }
  ({ s with conv := { r.2 with reading := [] } }, r.1)

/-- objects are closed; the names of in-memory files that are closed can be used again -/
def afterClose (s : State) (w : Life.World) : State :=
  { s with
    life := w
    conv := { s.conv with
      memory := s.conv.memory.filter fun n => !isOpen s s.life (.memory n) || isOpen s w (.memory n) } }

/-- file.py:169-184 `f.close()` -/
def closeFile (s : State) (f : Nat) : State := afterClose s (Life.closeFile s.life f)

/-- sifdata.py:120-127 `d.close()` -/
def closeData (s : State) (d : Nat) : State := afterClose s (Life.closeData s.life d)

/-- file.py:45-49 `close_all_files()` -/
def closeAll (s : State) (order : List Nat) : State × Except Err Unit :=
  let r := Life.closeAll s.life order
  (afterClose s r.1, r.2)

/-- the contents of the HDF5 file of a File -/
def contentsOf (s : State) (f : Nat) : Except Err H5 :=
  match s.life.files[f]? with
  | some (.opened _ k) =>
    match s.store[k]? with
    | some x => .ok x.2
    | none => .error .closedFile
  | _ => .error .closedFile

/-- the group a data object reads (its attribute `_tbgroup`); `ClosedFileError` on a closed object
(sifdata.py:61-64) -/
def groupOf (s : State) (d : Nat) : Except Err (H5 × Path) :=
  match s.life.datas[d]? with
  | some (.opened _ p (.file f)) => do .ok (← contentsOf s f, [p])
  | some (.opened _ p (.data d')) =>
    match s.life.datas[d']? with
    | some (.opened _ p' (.file f)) => do
      .ok (← contentsOf s f, [p', String.ofList (p.toList.drop (p'.toList.length + 1))])
    | _ => .error .closedFile
  | _ => .error .closedFile

/-- the tables of a first level data object -/
def struc (s : State) (d : Nat) : Except Err (Struc K) := do
  let x ← groupOf s d
  loadStruc num x.1 x.2

/-- the tables of a top level data object -/
def top (s : State) (d : Nat) : Except Err (Data.Top K) := do
  let x ← groupOf s d
  loadTop num x.1 x.2

/-- a hydrodynamic data object -/
def hydro (s : State) (d : Nat) : Except Err (HydroObj K V) := do
  let x ← groupOf s d
  let t ← loadHydro num cplx x.1 x.2
  hydroInit pi t

/-- one call, or a change of the current directory and of the files that are read -/
inductive Step (D : Dec) (B : Nat) : State → State → Prop
  | openHdf5 (s : State) (filename : Str) : Step D B s (openHdf5 iter pi num cplx s filename).1
  | openSif (s : State) (filename : Str) : Step D B s (openSif iter pi num cplx D B s filename).1
  | convert (o : Options) (s : State) (arg : SifArg) (pre : PrefixArg) :
      Step D B s (convert D B o s arg pre).1
  | closeFile (s : State) (f : Nat) : Step D B s (closeFile s f)
  | closeData (s : State) (d : Nat) : Step D B s (closeData s d)
  | closeAll (s : State) (order : List Nat) : order.Perm s.life.registry →
      Step D B s (closeAll s order).1
  | elsewhere (s : State) (dir : Str) (disk : Str → Option Bytes) :
      Step D B s { s with conv := { s.conv with cwd := dir ++ ['/'], disk := disk } }

/-- any number of calls -/
inductive Steps (D : Dec) (B : Nat) : State → State → Prop
  | refl (s : State) : Steps D B s s
  | snoc {s1 s2 s3 : State} : Steps D B s1 s2 → Step iter pi num cplx D B s2 s3 → Steps D B s1 s3

/-- the states that calls can lead to, whatever is on the disk and in the output files to start
with -/
inductive Reachable (D : Dec) (B : Nat) : State → Prop
  | start (dir : Str) (disk : Str → Option Bytes) (out : Str → Option H5) :
      Reachable D B { conv := { cwd := dir ++ ['/'], disk := disk,
                                out := fun p => (out p).map .h5 } }
  | step {s s' : State} : Reachable D B s → Step iter pi num cplx D B s s' → Reachable D B s'

end
end Verif.Session
