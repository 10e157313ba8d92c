import Verif.Conv.Driver
import Verif.Conv.NameSpec
import Verif.Parse.Records
/-!
# What `sif2hdf5` does (specification)
-/

namespace Verif.Conv
open Verif Verif.Seq Verif.Parse

/-- the extensions of structural results files -/
def ResultsExt (ext : Str) : Prop := ext = "SIF".toList ∨ ext = "SIU".toList

/-- the file to look for because of a row of the hierarchy (columns: number of fields, hierarchy
reference, type, index, level, ...), and the hierarchy reference of the row -/
inductive Wanted (fp ext : Str) (row : List Cell) : Str → Int → Prop
  /-- results: one file for each superelement of level 1 -/
  | results {t r : Int} : ResultsExt ext → HasField row 4 1 → HasField row 2 t → HasField row 1 r →
      Wanted fp ext row (fp ++ "R".toList ++ (toString t).toList ++ "H".toList ++
        (toString r).toList ++ ".".toList ++ ext) r
  /-- models: one file for the first repetition of each superelement type -/
  | input {t r : Int} : ¬ ResultsExt ext → HasField row 3 1 → HasField row 2 t →
      HasField row 1 r →
      Wanted fp ext row (fp ++ "T".toList ++ (toString t).toList ++ ".".toList ++ ext) r

/-- rows of the hierarchy without a file -/
inductive Unwanted (ext : Str) (row : List Cell) : Prop
  | results {n : Int} : ResultsExt ext → HasField row 4 n → n ≠ 1 → Unwanted ext row
  | input {n : Int} : ¬ ResultsExt ext → HasField row 3 n → n ≠ 1 → Unwanted ext row

/-- the repetition index of a superelement, kept for results files only -/
inductive IndexOf (ft : String) (hrec : List Cell) : Option Int → Prop
  | results {n : Int} : ft = "R" → HasField hrec 3 n → IndexOf ft hrec (some n)
  | other : ft ≠ "R" → IndexOf ft hrec none

/-- The lower level files of the superelement in group `hp`, with hierarchy `all`: for the rows in
order, the file in directory `dir` is converted, if there is one; otherwise its name is printed.
`h` and `h'` are the contents of the output file before and after. -/
inductive LowerFiles (D : Dec) (only : Option (List String)) (disk : Str → Option Bytes)
    (dir fp ext : Str) (formatted : Bool) (pre ft : String) (topSel : Int) (hp : Path)
    (all : List (List Cell)) : List (List Cell) → H5 → H5 → List Str → Prop
  | nil {h} : LowerFiles D only disk dir fp ext formatted pre ft topSel hp all [] h h []
  | skip {row rows h h' ms} : Unwanted ext row →
      LowerFiles D only disk dir fp ext formatted pre ft topSel hp all rows h h' ms →
      LowerFiles D only disk dir fp ext formatted pre ft topSel hp all (row :: rows) h h' ms
  | missing {row rows h h' ms name r} : Wanted fp ext row name r → disk (dir ++ name) = none →
      LowerFiles D only disk dir fp ext formatted pre ft topSel hp all rows h h' ms →
      LowerFiles D only disk dir fp ext formatted pre ft topSel hp all (row :: rows) h h'
        (("file not found: ".toList ++ name) :: ms)
  | file {row rows h h' ms name} {k : Nat} {b : Bytes} {hrec : List Cell} {idx : Option Int}
      {sk f outs names s lev dt ix h1} :
      Wanted fp ext row name (k + 1) → disk (dir ++ name) = some b → all[k]? = some hrec →
      IndexOf ft hrec idx →
      Encoded D sk f (sourceOf formatted b) →
      Job only sk (fun _ => none) f outs names (.low pre ft topSel idx hp hrec) s h lev dt ix →
      Converted outs names (.low pre ft topSel idx hp hrec) s h lev dt ix h1 →
      LowerFiles D only disk dir fp ext formatted pre ft topSel hp all rows h1 h' ms →
      LowerFiles D only disk dir fp ext formatted pre ft topSel hp all (row :: rows) h h' ms

/-- The conversion of the file with bytes `b` in directory `dir` and of its lower level files:
`fp`, `l`, `ext` are prefix, letter and extension of the file name, `pre` the group name prefix. -/
inductive Conversion (D : Dec) (only : Option (List String)) (disk : Str → Option Bytes)
    (dir fp : Str) (l : Char) (ext : Str) (pre : Str) (b : Bytes) : H5 → H5 → List Str → Prop
  | alone {sk f outs names s h0 lev dt ix h1} :
      Encoded D sk f (sourceOf (b.head? != some 75) b) →
      Job only sk (fun _ => none) f outs names (.top (String.ofList pre) (String.ofList [l])) s h0
        lev dt ix →
      Converted outs names (.top (String.ofList pre) (String.ofList [l])) s h0 lev dt ix h1 →
      ofType "HIERARCH" outs = [] →
      Conversion D only disk dir fp l ext pre b h0 h1 []
  | hierarchy {sk f outs names s h0 lev dt ix h1 h2 ms t} :
      Encoded D sk f (sourceOf (b.head? != some 75) b) →
      Job only sk (fun _ => none) f outs names (.top (String.ofList pre) (String.ofList [l])) s h0
        lev dt ix →
      Converted outs names (.top (String.ofList pre) (String.ofList [l])) s h0 lev dt ix h1 →
      ofType "HIERARCH" outs ≠ [] →
      h1.tabs ([String.ofList pre ++ String.ofList [l] ++ toString s], "HIERARCH") = some t →
      LowerFiles D only disk dir fp ext (b.head? != some 75) (String.ofList pre) (String.ofList [l])
        s [String.ofList pre ++ String.ofList [l] ++ toString s] t.rows t.rows.tail h1 h2 ms →
      Conversion D only disk dir fp l ext pre b h0 h2 ms

/-- the name of the output file: the given one, or the name of the input file with another
extension -/
def GivenName (o : Options) (fname given : Str) : Prop :=
  (given ≠ [] ∧ o.hdf5name = some given) ∨
  ((o.hdf5name = none ∨ o.hdf5name = some []) ∧ ∃ stem ext, fname = stem ++ ext ∧ ext.length = 3 ∧
    given = stem ++ "h5".toList)

/-- the output file, in the current directory unless its name says otherwise -/
def OutputName (o : Options) (w : World) (fname out : Str) : Prop :=
  ∃ given, GivenName o fname given ∧ out = w.fullPath given

/-- The output file can be opened under the name `given` and then holds `h0`: no file is open for
reading under this name; the file is overwritten only if it is not open and if none is open under
this name; it is appended to only if it is not open for reading. -/
structure Before (w : World) (append : Bool) (given : Str) (h0 : H5) : Prop where
  notRead : given ∉ w.reading
  notUsed : append = false → given ∉ w.memory ∧ given ∉ w.leaked
  contents : match w.out (w.fullPath given) with
    | none => h0 = {}
    | some (.h5 h) => w.fullPath given ∉ w.reading ∧ if append then h0 = h else h0 = {}
    | some (.left h) => append = true ∧ h0 = h

/-- `found` is what was there before under this path; `h` is now in it -/
structure Closed (found : Option OutFile) (h : H5) (f : OutFile) : Prop where
  /-- it stays open if it was left open -/
  left : ∀ h1, found = some (.left h1) → f = .left h
  closed : (∀ h1, found ≠ some (.left h1)) → f = .h5 h

/-- consecutive calls of `sif2hdf5` with file names: each is made if those before returned -/
inductive OneByOne (call : Options → Str → Str → World → Except Err Result × World) :
    List (Options × Str × Str) → World → Except Err Result → World → Prop
  | nil {w} : OneByOne call [] w (.ok .none) w
  | cons {o n p more w r w' res w''} : call o n p w = (.ok r, w') →
      OneByOne call more w' res w'' → OneByOne call ((o, n, p) :: more) w res w''
  | raises {o n p more w e w'} : call o n p w = (.error e, w') →
      OneByOne call ((o, n, p) :: more) w (.error e) w'

end Verif.Conv
