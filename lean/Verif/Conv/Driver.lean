import Verif.Conv.Names
import Verif.Parse.Convert
import Verif.Parse.Left
/-!
# `sif2hdf5`

Model of `/repo/freesif/sequentialparser/sif2hdf5.py`.
-/

namespace Verif.Conv
open Verif Verif.Seq Verif.Parse

/-- An HDF5 file on disk: closed by the conversions, or left open by one that raised. -/
inductive OutFile where
  | h5 (h : H5)
  | left (h : H5)

/-- What `sif2hdf5` reads and writes: the current directory (with its final slash), the files to be
read and the HDF5 files by absolute path, the names under which HDF5 files are open (in memory, on
disk but left open by a conversion that raised, or on disk for reading), the printed lines, and the
state of the `parsers` module. -/
structure World where
  cwd : Str := ['/']
  disk : Str → Option Bytes := fun _ => none
  out : Str → Option OutFile := fun _ => none
  memory : List Str := []
  leaked : List Str := []
  reading : List Str := []
  printed : List Str := []
  st : St := {}

/-- what `sif2hdf5` returns -/
inductive Result where
  | none
  /-- the full path of the HDF5 file -/
  | path (p : Str)
  /-- an open in-memory file -/
  | memory (name : Str) (h : H5)

/-- `path.realpath`, `path.abspath`.  Simplified: no symbolic links, `.` and `..`. -/
def World.fullPath (w : World) (name : Str) : Str :=
  match name with
  | '/' :: _ => name
  | _ => w.cwd ++ name

/-- line ends of a text file (universal newlines mode of `open(..., 'r')`) -/
def newlines : Str → Str
  | '\r' :: '\n' :: r => '\n' :: newlines r
  | '\r' :: r => '\n' :: newlines r
  | c :: r => c :: newlines r
  | [] => []

/-- sif2hdf5.py:221-224, 284-287 a file opened with `FormattedFile` or `UnformattedFile`.
Simplified: the text is decoded byte by byte (bytes above 127 are not modelled). -/
def sourceOf (formatted : Bool) (b : Bytes) : Source :=
  if formatted then .formatted (newlines (b.map latin1)) else .unformatted b

/-- sif2hdf5.py:256-274 file names for the rows of the hierarchy, with `ihref` -/
def candidates (info : NameInfo) : List (List Cell) → Except Err (List (Str × Int))
  | [] => .ok []
  | r :: rows => do
    if info.ext = ['S', 'I', 'F'] ∨ info.ext = ['S', 'I', 'U'] then
      let lev ← hField r "islevl"
      if lev = 1 then
        let t ← hField r "iselty"
        let h ← hField r "ihref"
        let more ← candidates info rows
        .ok ((info.fileprefix ++ 'R' :: (toString t).toList ++ 'H' :: (toString h).toList ++
          '.' :: info.ext, h) :: more)
      else candidates info rows
    else
      let k ← hField r "indsel"
      if k = 1 then
        let t ← hField r "iselty"
        let h ← hField r "ihref"
        let more ← candidates info rows
        .ok ((info.fileprefix ++ 'T' :: (toString t).toList ++ '.' :: info.ext, h) :: more)
      else candidates info rows

/-- sif2hdf5.py:280-295 read the lower level files; the messages are returned as well, also those
printed before an exception -/
def readLower (D : Dec) (B : Nat) (only : Option (List String)) (disk : Str → Option Bytes)
    (dir : Str) (formatted : Bool) : List (Str × Int) → St → Except Err St × List Str
  | [], st => (.ok st, [])
  | (name, ihref) :: more, st =>
    match disk (dir ++ name) with
    | some b =>
      match setCurrentIhref ihref (reset false st) with
      | .error e => (.error e, [])
      | .ok st1 =>
        match parseSource D B only st1 (sourceOf formatted b) with
        | .error e => (.error e, [])
        | .ok st2 => readLower D B only disk dir formatted more st2
    | none =>
      let r := readLower D B only disk dir formatted more st
      (r.1, ("file not found: ".toList ++ name) :: r.2)

/-- rows of `hierarch_table[1:]` -/
def hierarchTail (st : St) : Except Err (List (List Cell)) :=
  match st.g.hierarchTable with
  | none => .error .typeError
  | some p =>
    match st.h5.tabs (p, "HIERARCH") with
    | none => .error .nodeError
    | some t => .ok (t.rows.drop 1)

/-- sif2hdf5.py:250-274 names of the lower level files with `ihref` -/
def lowerNames (info : NameInfo) (st : St) : Except Err (List (Str × Int)) := do
  let rows ← hierarchTail st
  candidates info rows

/-- sif2hdf5.py:234-295 parse the first file, then the lower level files -/
def parseAll (D : Dec) (B : Nat) (only : Option (List String)) (disk : Str → Option Bytes)
    (dir : Str) (info : NameInfo) (formatted : Bool) (bytes : Bytes) (st : St) :
    Except Err St × List Str :=
  let st := { st with g := { st.g with filetypeid := String.ofList [info.letter] } }
  match parseSource D B only st (sourceOf formatted bytes) with
  | .error e => (.error e, [])
  | .ok st =>
    if st.g.hasHierarch then
      match lowerNames info st with
      | .error e => (.error e, [])
      | .ok files => readLower D B only disk dir formatted files st
    else (.ok st, [])

/-- sif2hdf5.py:280-295 raise: what is left behind -/
def lowerLeft (D : Dec) (B : Nat) (only : Option (List String)) (disk : Str → Option Bytes)
    (dir : Str) (formatted : Bool) : List (Str × Int) → St → Left
  | [], st => st.left
  | (name, ihref) :: more, st =>
    match disk (dir ++ name) with
    | some b =>
      match setCurrentIhref ihref (reset false st) with
      | .error _ => st.left
      | .ok st1 =>
        match parseSource D B only st1 (sourceOf formatted b) with
        | .error _ => sourceLeft D B only st1 (sourceOf formatted b)
        | .ok st2 => lowerLeft D B only disk dir formatted more st2
    | none => lowerLeft D B only disk dir formatted more st

/-- sif2hdf5.py:234-295 raise: what is left behind -/
def allLeft (D : Dec) (B : Nat) (only : Option (List String)) (disk : Str → Option Bytes)
    (dir : Str) (info : NameInfo) (formatted : Bool) (bytes : Bytes) (st : St) : Left :=
  let st := { st with g := { st.g with filetypeid := String.ofList [info.letter] } }
  match parseSource D B only st (sourceOf formatted bytes) with
  | .error _ => sourceLeft D B only st (sourceOf formatted bytes)
  | .ok st =>
    if st.g.hasHierarch then
      match lowerNames info st with
      | .error _ => st.left
      | .ok files => lowerLeft D B only disk dir formatted files st
    else st.left

/-- the keyword arguments of `sif2hdf5` but `prefix` -/
structure Options where
  hdf5name : Option Str := none
  append : Bool := false
  usefileprefix : Bool := true
  only : Option (List String) := none
  inMemory : Bool := false

/-- `hdf5name` if it is true -/
def Options.outName (o : Options) : Option Str :=
  match o.hdf5name with
  | some (c :: r) => some (c :: r)
  | _ => none

/-- `str.upper()` of an extension -/
def upper (s : Str) : Str := s.map Char.toUpper

/-- an HDF5 file is open under this name -/
def World.inUse (w : World) (name : Str) : Bool :=
  w.memory.contains name || w.leaked.contains name || w.reading.contains name

/-- sif2hdf5.py:230 `tb.open_file(hdf5name, 'a' if append else 'w')`.  PyTables compares the names as
they are given: it raises ValueError if a file is open for reading under this name, or open at all
and is to be overwritten.  Otherwise the HDF5 library refuses a file that is open for reading, and
an open file that is to be overwritten (HDF5ExtError). -/
def openOutput (w : World) (given : Str) (append : Bool) : Except Err H5 :=
  if w.reading.contains given || (!append && w.inUse given) then .error .valueError
  else
    match w.out (w.fullPath given) with
    | none => .ok {}
    | some (.h5 h) =>
      if w.reading.contains (w.fullPath given) then .error .hdf5Error
      else .ok (if append then h else {})
    | some (.left h) => if append then .ok h else .error .hdf5Error

/-- the output file after a conversion: closed, unless an earlier conversion has left it open -/
def closeOutput (found : Option OutFile) (h : H5) : OutFile :=
  match found with
  | some (.left _) => .left h
  | _ => .h5 h

/-- sif2hdf5.py:170-304 `sif2hdf5` on one file name.  If parsing raises, the HDF5 file stays open and
the element types read so far are kept.  Simplified: the rest of the state of `parsers` is left as
it was after the reset (each conversion starts with a reset). -/
def convertFile (D : Dec) (B : Nat) (o : Options) (name pre : Str) (w : World) :
    Except Err Result × World :=
  if o.outName = none ∧ o.append then (.error .valueError, w)
  else
    let full := w.fullPath name
    let (dir, fname) := splitPath full
    match convMatch fname with
    | none => (.error .valueError, w)
    | some info =>
      if upper info.ext = ['S', 'I', 'N'] then (.error .valueError, w)
      else
        let st0 := reset true w.st
        let gpre := if o.usefileprefix then pre ++ info.fileprefix else pre
        let st1 := { st0 with g := { st0.g with groupnamePrefix := String.ofList gpre } }
        let w1 := { w with st := st1 }
        match w.disk full with
        | none => (.error .fileNotFound, w1)
        | some bytes =>
          let formatted : Bool := bytes.head? != some 75
          let auto := fname.dropLast.dropLast.dropLast ++ ['h', '5']
          if o.inMemory then
            if w.inUse auto then (.error .valueError, w1)
            else
              match parseAll D B o.only w.disk dir info formatted bytes { st1 with h5 := {} } with
              | (.error e, msgs) =>
                let k := allLeft D B o.only w.disk dir info formatted bytes { st1 with h5 := {} }
                (.error e, { w1 with
                  st := { st1 with env := { st1.env with elem := k.elem } },
                  memory := auto :: w.memory, printed := w.printed ++ msgs })
              | (.ok st, msgs) => (.ok (.memory auto st.h5),
                  { w1 with st := st, memory := auto :: w.memory, printed := w.printed ++ msgs })
          else
            let given := o.outName.getD auto
            let outName := w.fullPath given
            match openOutput w given o.append with
            | .error e => (.error e, w1)
            | .ok h0 =>
              match parseAll D B o.only w.disk dir info formatted bytes { st1 with h5 := h0 } with
              | (.error e, msgs) =>
                let k := allLeft D B o.only w.disk dir info formatted bytes { st1 with h5 := h0 }
                (.error e, { w1 with
                  st := { st1 with env := { st1.env with elem := k.elem } },
                  printed := w.printed ++ msgs, leaked := given :: w.leaked,
                  out := fun p => if p = outName then some (.left k.h5) else w.out p })
              | (.ok st, msgs) => (.ok (.path outName), { w1 with
                  st := st, printed := w.printed ++ msgs,
                  out := fun p =>
                    if p = outName then some (closeOutput (w.out outName) st.h5) else w.out p })

/-- sif2hdf5.py:170-304 `sif2hdf5` on one file name with a list as `prefix`: it cannot be joined with
a string in line 203, or, once the files are open, in `get_path` (parsers.py:258-272).  Simplified:
if reading raises before a group name is needed, the exception is that one. -/
def convertListed (o : Options) (name : Str) (w : World) : Except Err Result × World :=
  if o.outName = none ∧ o.append then (.error .valueError, w)
  else
    let full := w.fullPath name
    let fname := (splitPath full).2
    match convMatch fname with
    | none => (.error .valueError, w)
    | some info =>
      if upper info.ext = ['S', 'I', 'N'] then (.error .valueError, w)
      else
        let w1 := { w with st := reset true w.st }
        if o.usefileprefix then (.error .typeError, w1)
        else
          match w.disk full with
          | none => (.error .fileNotFound, w1)
          | some _ =>
            let auto := fname.dropLast.dropLast.dropLast ++ ['h', '5']
            if o.inMemory then
              if w.inUse auto then (.error .valueError, w1)
              else (.error .typeError, { w1 with memory := auto :: w.memory })
            else
              let given := o.outName.getD auto
              let outName := w.fullPath given
              match openOutput w given o.append with
              | .error e => (.error e, w1)
              | .ok h0 => (.error .typeError, { w1 with
                  leaked := given :: w.leaked,
                  out := fun p => if p = outName then some (.left h0) else w.out p })

/-- the argument `sifname` -/
inductive SifArg where
  | name (s : Str)
  /-- a list or tuple of strings -/
  | names (l : List Str)
  /-- anything else -/
  | other

/-- the argument `prefix` -/
inductive PrefixArg where
  | one (s : Str)
  | many (l : List Str)

/-- consecutive calls; the first exception ends them -/
def convertEach (D : Dec) (B : Nat) (o : Options) : List (Str × Str) → World →
    Except Err Result × World
  | [], w => (.ok .none, w)
  | (n, p) :: more, w =>
    match convertFile D B o n p w with
    | (.ok _, w') => convertEach D B o more w'
    | (.error e, w') => (.error e, w')

/-- sif2hdf5.py:154-158 one prefix for each name -/
def prefixList (ns : List Str) : PrefixArg → List Str
  | .one p => ns.map fun _ => p
  | .many [] => ns.map fun _ => []
  | .many ps => ps

/-- sif2hdf5.py:145-168 `sif2hdf5` -/
def sif2hdf5 (D : Dec) (B : Nat) (o : Options) (arg : SifArg) (pre : PrefixArg) (w : World) :
    Except Err Result × World :=
  match arg with
  | .name n =>
    match pre with
    | .one p => convertFile D B o n p w
    | .many _ => convertListed o n w
  | .other => (.error .typeError, w)
  | .names ns =>
    if o.inMemory then (.error .typeError, w)
    else
      match o.outName with
      | some _ =>
        match ns, prefixList ns pre with
        | n :: ns, p :: ps =>
          match convertFile D B o n p w with
          | (.ok _, w') => convertEach D B { o with append := true } (ns.zip ps) w'
          | (.error e, w') => (.error e, w')
        | _, _ => (.error .indexError, w)
      | none => convertEach D B o (ns.zip (prefixList ns pre)) w

end Verif.Conv
