import Verif.Seq.Files
/-!
# Writing formatted files

Model of the writing side of `FormattedFile`
(`/repo/freesif/sequentialparser/sequentialfiles.py:349-402`).  A call that raises may have written
something before: the result of a call is its outcome together with the new state.  The
formatting of a number (`'{:>16.8e}'.format(f)`) is a parameter.
-/

namespace Verif.Seq.W

/-- state of a file opened for writing: the text written so far and `float_places_left` -/
structure WState where
  out : Str := []
  places : Int := 0
  deriving DecidableEq

/-- sequentialfiles.py:264-268 `__init__(mode='w')` -/
def openFile : WState := {}

/-- sequentialfiles.py:349-362 `_write_line`.  Line 355 calls `self.write`, an attribute that
neither `FormattedFile` nor `SequentialFile` (sequentialfiles.py:78-168) defines: AttributeError.
Lines 356-362 are never reached. -/
def writeLine (_header : Str) (_rec : List PyF) (s : WState) : Except Err Unit × WState :=
  let s1 := if s.places ≠ 0 then { s with out := s.out ++ ['\n'] } else s
  (.error .attributeError, s1)

/-- sequentialfiles.py:363-367 `write_string` -/
def writeString (text : Str) (blanks : Nat) (s : WState) : Except Err Unit × WState :=
  let s1 := if s.places ≠ 0 then { s with out := s.out ++ ['\n'] } else s
  (.ok (), { s1 with out := s1.out ++ (List.replicate blanks ' ' ++ text ++ ['\n']) })

/-- the loop `for i in range(0, 4*n_lines, 4)` (sequentialfiles.py:394-395) -/
def writeLines : Nat → List PyF → WState → Except Err Unit × WState
  | 0, _, s => (.ok (), s)
  | n + 1, fs, s =>
    match writeLine (List.replicate 8 ' ') (fs.take 4) s with
    | (.error e, s1) => (.error e, s1)
    | (.ok (), s1) => writeLines n (fs.drop 4) s1

/-- sequentialfiles.py:369-395 `write_floats` -/
def writeFloats (fmt : PyF → Str) (fs : List PyF) (s : WState) : Except Err Unit × WState :=
  if fs.length = 0 then (.ok (), s)
  else
    let fpl := s.places
    let s1 := if fpl ≠ 0 then { s with out := s.out ++ ((pyTake fs fpl).map fmt).flatten } else s
    if fpl ≠ 0 ∧ fpl > fs.length then (.ok (), { s1 with places := fpl - fs.length })
    else if fpl ≠ 0 ∧ fpl = fs.length then
      (.ok (), { s1 with places := 0, out := s1.out ++ ['\n'] })
    else
      let rest := pyDrop fs fpl
      let n := rest.length / 4 + (if rest.length % 4 ≠ 0 then 1 else 0)
      writeLines n rest s1

/-- sequentialfiles.py:400-402 `write_record` -/
def writeRecord (fmt : PyF → Str) (name : Str) (rec : List PyF) (s : WState) :
    Except Err Unit × WState :=
  match writeLine name (rec.take 4) s with
  | (.error e, s1) => (.error e, s1)
  | (.ok (), s1) => writeFloats fmt (rec.drop 4) s1

/-- the calls a user can make -/
inductive Call where
  | record (name : Str) (rec : List PyF)
  | floats (fs : List PyF)
  | string (text : Str) (blanks : Nat)

/-- one call -/
def call (fmt : PyF → Str) : Call → WState → Except Err Unit × WState
  | .record name rec, s => writeRecord fmt name rec s
  | .floats fs, s => writeFloats fmt fs s
  | .string t b, s => writeString t b s

/-- a history of calls (the caller catches exceptions and goes on) -/
def calls (fmt : PyF → Str) : List Call → WState → WState
  | [], s => s
  | c :: cs, s => calls fmt cs (call fmt c s).2

end Verif.Seq.W
