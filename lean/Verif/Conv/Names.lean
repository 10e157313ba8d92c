import Verif.Seq.Base
/-!
# File names

Model of the file name analysis of `sif2hdf5` (`/repo/freesif/sequentialparser/sif2hdf5.py`) and
`parse_sifname` (`/repo/freesif/data/helpers.py`).  `re.match` is modelled by the list of its
possible matches in the order in which the backtracking matcher tries them; the match is the first
of the list.  Simplified: names are ASCII (`\w`, `\d` and `(?i)` above U+007F are not modelled).
-/

namespace Verif.Conv
open Verif Verif.Seq

/-- `[\w-]` (ASCII) -/
def wordish (c : Char) : Bool := c.isAlphanum || c == '_' || c == '-'

/-- `\d` (ASCII) -/
def digit (c : Char) : Bool := c.isDigit

/-- `[\w-]*?`: as few characters as possible first -/
def lazyWord : Str → List (Str × Str)
  | [] => [([], [])]
  | c :: r =>
    ([], c :: r) :: if wordish c then (lazyWord r).map fun x => (c :: x.1, x.2) else []

/-- `\d*`: as many characters as possible first -/
def greedyDigits : Str → List (Str × Str)
  | [] => [([], [])]
  | c :: r =>
    (if digit c then (greedyDigits r).map fun x => (c :: x.1, x.2) else []) ++ [([], c :: r)]

/-- one character of a set, `(?i)` -/
def oneOf (cs : List Char) : Str → List (Char × Str)
  | [] => []
  | c :: r => if cs.contains c.toLower then [(c, r)] else []

/-- `[1-9]\d*` -/
def number (s : Str) : List (Str × Str) :=
  (oneOf ['1', '2', '3', '4', '5', '6', '7', '8', '9'] s).flatMap fun x =>
    (greedyDigits x.2).map fun y => (x.1 :: y.1, y.2)

/-- `(H[1-9]\d*)?` : what follows it -/
def optIndex (s : Str) : List Str :=
  ((oneOf ['h'] s).flatMap fun x => (number x.2).map (·.2)) ++ [s]

/-- `.` -/
def anyChar : Str → List Str
  | [] => []
  | c :: r => if c = '\n' then [] else [r]

/-- `(si[fun]|fem)` : the extension and what follows -/
def extension (s : Str) : List (Str × Str) :=
  ((oneOf ['s'] s).flatMap fun x => (oneOf ['i'] x.2).flatMap fun y =>
    (oneOf ['f', 'u', 'n'] y.2).map fun z => ([x.1, y.1, z.1], z.2)) ++
  ((oneOf ['f'] s).flatMap fun x => (oneOf ['e'] x.2).flatMap fun y =>
    (oneOf ['m'] y.2).map fun z => ([x.1, y.1, z.1], z.2))

/-- sif2hdf5.py:179-184 the groups `prefix`, `letter`, `ext` -/
structure NameInfo where
  fileprefix : Str
  letter : Char
  ext : Str
  deriving DecidableEq, Repr

/-- the part of the pattern behind the prefix (sif2hdf5.py:180-182) -/
def convTail (pre s : Str) : List NameInfo :=
  (oneOf ['r', 't', 'g', 'l'] s).flatMap fun l =>
  (number l.2).flatMap fun n =>
  (optIndex n.2).flatMap fun h =>
  (anyChar h).flatMap fun d =>
  (extension d).map fun e => ⟨pre, l.1, e.1⟩

/-- sif2hdf5.py:179-184 `re.match(name_pattern, fname)` -/
def convMatch (s : Str) : Option NameInfo :=
  ((lazyWord s).flatMap fun p => convTail p.1 p.2).head?

/-- helpers.py:34-38 the groups `prefix`, `letter`, `selno`, `ext` -/
structure SifName where
  fileprefix : Str
  letter : Char
  selno : Str
  ext : Str
  deriving DecidableEq, Repr

/-- the part of the pattern behind the prefix (helpers.py:35-38) -/
def sifTail (pre s : Str) : List SifName :=
  (oneOf ['r', 't', 'g', 'l'] s).flatMap fun l =>
  (number l.2).flatMap fun n =>
  (optIndex n.2).flatMap fun h =>
  (anyChar h).flatMap fun d =>
  (extension d).map fun e => ⟨pre, l.1, n.1, e.1⟩

/-- helpers.py:34-40 `re.match(name_pattern, fname)` -/
def sifMatch (s : Str) : Option SifName :=
  ((lazyWord s).flatMap fun p => sifTail p.1 p.2).head?

/-- `path.split`: directory (with its final slash, which `path.split` drops and `path.join` puts
back) and file name -/
def splitPath (s : Str) : Str × Str :=
  ((s.reverse.dropWhile (· != '/')).reverse, (s.reverse.takeWhile (· != '/')).reverse)

/-- helpers.py:29-46 `parse_sifname` -/
def parseSifname (filename : Str) : Except Err SifName :=
  match sifMatch (splitPath filename).2 with
  | none => .error .valueError
  | some m => .ok m

end Verif.Conv
