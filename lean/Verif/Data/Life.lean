import Verif.Py
import Verif.Data.Struc
/-!
# Model of `/repo/freesif/data/file.py` and of opening and closing in `sifdata.py`

The Python objects live in a heap `World`: File objects, data objects (both numbered in order
of creation), the HDF5 handles and the module variable `_open_files`.  What a data object reads
is its group (`path`); its tables are modelled in `Struc` and `Hydro`, here only whether it is
open matters.  Names of HDF5 groups in one place are distinct, so no key of the dict `_data` is
assigned twice and assignments append.
-/

namespace Verif.Data.Life
open Verif Verif.Data

/-- the classes of data objects -/
inductive Cls where
  | top
  | inter
  | first
  | hydro
  deriving DecidableEq, Repr

/-- the attribute `file` of a data object: the File, or the data object of the parent group
(file.py:89-110) -/
inductive Owner where
  | file (f : Nat)
  | data (d : Nat)
  deriving DecidableEq, Repr

/-- a data object; `_close` (sifdata.py:129-131) clears all attributes -/
inductive DataSt where
  | opened (cls : Cls) (path : String) (owner : Owner)
  | closed
  deriving DecidableEq, Repr

/-- a File object: its dict `_data` and its HDF5 handle; `close` clears all attributes -/
inductive FileSt where
  | opened (items : List (String × Nat)) (handle : Nat)
  | closed
  deriving DecidableEq, Repr

/-- all objects made so far; `handles` tells which HDF5 handles are open -/
structure World where
  files : List FileSt := []
  datas : List DataSt := []
  handles : List Bool := []
  registry : List Nat := []
  deriving DecidableEq, Repr

/-- a group of an HDF5 file: name, attributes DATATYPE and LEVEL, subgroups with their LEVEL, and
how `HydroData.__init__` ends on it -/
structure GroupDesc where
  name : String
  datatype : String
  level : String
  hydroInit : Except Err Unit := .ok ()
  subs : List (String × String) := []

/-- file.py:87-98: the class of the data object made for a group; `none`: no branch applies and
the variable `data` keeps its value -/
def classOf (g : GroupDesc) : Except Err (Option Cls) :=
  if g.datatype = "STRUCTURAL" then
    if g.level = "TOPLEVEL" then .ok (some .top)
    else if g.level = "FIRSTLEVEL" then .ok (some .first)
    else .ok none
  else if g.datatype = "HYDRODYNAMIC" then
    match g.hydroInit with
    | .ok _ => .ok (some .hydro)
    | .error e => .error e
  else .ok none

/-- file.py:106-110 -/
def subClass (level : String) : Option Cls :=
  if level = "INTERLEVEL" then some .inter
  else if level = "FIRSTLEVEL" then some .first
  else none

/-- the state of the loop of `File.__init__`: data objects made so far (numbered from `base`), the
dict, the variable `data` -/
structure Build where
  made : List DataSt := []
  items : List (String × Nat) := []
  data : Option Nat := none

/-- file.py:103-110: the loop over the subgroups -/
def addSubs (base : Nat) (gname : String) (data : Nat) : List (String × String) → Build → Build
  | [], b => b
  | (name, level) :: rest, b =>
    match subClass level with
    | some c =>
      addSubs base gname data rest
        { b with made := b.made ++ [.opened c (gname ++ "/" ++ name) (.data data)]
                 items := b.items ++ [(gname ++ "/" ++ name, base + b.made.length)] }
    | none => addSubs base gname data rest b

/-- file.py:83-110: the loop over the groups -/
def addGroups (fid base : Nat) : List GroupDesc → Build → Except Err Build
  | [], b => .ok b
  | g :: rest, b => do
    let c ← classOf g
    let b : Build :=
      match c with
      | some c => { b with made := b.made ++ [.opened c g.name (.file fid)]
                           data := some (base + b.made.length) }
      | none => b
    match b.data with
    | some d =>
      addGroups fid base rest (addSubs base g.name d g.subs { b with items := b.items ++ [(g.name, d)] })
    | none => .error .unboundLocal

/-- file.py:56-113 `File.__init__` on an HDF5 file with the groups `gs`: a new handle is opened
first; if the loop fails the object is not registered and the handle stays open -/
def openFile (w : World) (gs : List GroupDesc) : World × Except Err Nat :=
  match addGroups w.files.length w.datas.length gs {} with
  | .ok b =>
    ({ files := w.files ++ [.opened b.items w.handles.length]
       datas := w.datas ++ b.made
       handles := w.handles ++ [true]
       registry := w.registry ++ [w.files.length] }, .ok w.files.length)
  | .error e => ({ w with handles := w.handles ++ [true] }, .error e)

/-- file.py:164-167 `_check_isopen`, then the dict -/
def items (w : World) (f : Nat) : Except Err (List (String × Nat)) :=
  match w.files[f]? with
  | some (.opened l _) => .ok l
  | _ => .error .closedFile

/-- file.py:115-117 `f[name]` -/
def getItem (w : World) (f : Nat) (name : String) : Except Err Nat := do
  let l ← items w f
  match l.find? fun p => p.1 = name with
  | some p => .ok p.2
  | none => .error .keyError

/-- file.py:119-121 `f.get(name)` -/
def get (w : World) (f : Nat) (name : String) : Except Err (Option Nat) := do
  let l ← items w f
  .ok ((l.find? fun p => p.1 = name).map (·.2))

/-- file.py:123-125 -/
def keys (w : World) (f : Nat) : Except Err (List String) := do
  let l ← items w f
  .ok (l.map (·.1))

/-- file.py:127-129 -/
def values (w : World) (f : Nat) : Except Err (List Nat) := do
  let l ← items w f
  .ok (l.map (·.2))

/-- file.py:135-137 `name in f` -/
def contains (w : World) (f : Nat) (name : String) : Except Err Bool := do
  let l ← items w f
  .ok (l.any fun p => p.1 = name)

/-- file.py:161-162: `__iter__` returns a view, which is not an iterator: `iter(f)` raises
`TypeError` -/
def iterate (w : World) (f : Nat) : Except Err (List Nat) := do
  let _ ← values w f
  .error .typeError

/-- `_isopen` of a data object -/
def dataOpen (w : World) (d : Nat) : Bool :=
  match w.datas[d]? with
  | some (.opened _ _ _) => true
  | _ => false

/-- sifdata.py:129-131 `_close` on every object of the list -/
def closeDatas (ds : List Nat) (datas : List DataSt) : List DataSt :=
  ds.foldl (fun l d => l.set d .closed) datas

/-- file.py:169-184 `File.close` -/
def closeFile (w : World) (f : Nat) : World :=
  match w.files[f]? with
  | some (.opened l h) =>
    { files := w.files.set f .closed
      datas := closeDatas (l.map (·.2)) w.datas
      handles := w.handles.set h false
      registry := w.registry.erase f }
  | _ => w

/-- sifdata.py:120-127 `SifData.close`; the argument `n` bounds the number of objects on the way to
the File -/
def closeDataAux : Nat → World → Nat → World
  | 0, w, _ => w
  | n + 1, w, d =>
    match w.datas[d]? with
    | some (.opened _ _ (.file f)) => closeFile w f
    | some (.opened _ _ (.data d')) => closeDataAux n w d'
    | _ => w

/-- `d.close()` -/
def closeData (w : World) (d : Nat) : World := closeDataAux (w.datas.length + 1) w d

/-- file.py:47-48: the loop over the set `_open_files`, whose elements come in the order `order`;
asking for a next element (or the end) after the size changed raises `RuntimeError` -/
def closeLoop (size : Nat) : List Nat → World → World × Except Err Unit
  | [], w => if w.registry.length = size then (w, .ok ()) else (w, .error .runtimeError)
  | f :: rest, w =>
    if w.registry.length = size then closeLoop size rest (closeFile w f)
    else (w, .error .runtimeError)

/-- file.py:45-49 `close_all_files` -/
def closeAll (w : World) (order : List Nat) : World × Except Err Unit :=
  match closeLoop w.registry.length order w with
  | (w', .ok _) => ({ w' with registry := [] }, .ok ())
  | (w', .error e) => (w', .error e)

/-- file.py:28-43 `open_sif` on a converted file with the groups `gs`: the data object of the
group `name` -/
def openSif (w : World) (gs : List GroupDesc) (name : String) : World × Except Err Nat :=
  match openFile w gs with
  | (w', .ok f) => (w', getItem w' f name)
  | (w', .error e) => (w', .error e)

/-- one call that changes objects; the iteration order of the set of open files is any -/
inductive Step : World → World → Prop
  | openFile (w : World) (gs : List GroupDesc) : Step w (openFile w gs).1
  | openSif (w : World) (gs : List GroupDesc) (name : String) : Step w (openSif w gs name).1
  | closeFile (w : World) (f : Nat) : Step w (closeFile w f)
  | closeData (w : World) (d : Nat) : Step w (closeData w d)
  | closeAll (w : World) (order : List Nat) : order.Perm w.registry → Step w (closeAll w order).1

/-- any number of calls -/
inductive Steps : World → World → Prop
  | refl (w : World) : Steps w w
  | snoc {w1 w2 w3 : World} : Steps w1 w2 → Step w2 w3 → Steps w1 w3

/-- the states a session can reach -/
def Reachable (w : World) : Prop := Steps {} w

end Verif.Data.Life
