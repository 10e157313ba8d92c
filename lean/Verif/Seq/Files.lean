import Verif.Seq.Ops
/-!
# The two file classes

Model of `/repo/freesif/sequentialparser/sequentialfiles.py` (reading side), method by method.
The state of a file object is the part of the file that has not been read yet plus the
attributes `hasrest` and `floatrest`.  `tell`/`seek` save and restore the unread part.  The
attribute `hasrest` is first set by `read_stringrec`; a `read_floats`/`at_headerrec` call before any
other read would raise `AttributeError` and is modelled as if `hasrest` were `False` (no parser
does that: the first call of `parse_file` is `read_headerrec`).
-/

namespace Verif.Seq

/-- State of an open sequential file; `α` is `UInt8` (unformatted) or `Char` (formatted). -/
structure FState (α : Type) where
  rem : List α
  hasrest : Bool := false
  floatrest : List PyF := []
  deriving DecidableEq, Repr

abbrev UState := FState UInt8
abbrev TState := FState Char

/-- the part of `read_floats` after the reading loop, common to both classes
(sequentialfiles.py:231-236 and 321-326): `self.floatrest = floats[n:]`, set `hasrest` if that is
not empty, return `floats[:n]` -/
def finishFloats {α : Type} (n : Int) (floats : List PyF) (s : FState α) :
    List PyF × FState α :=
  (pyTake floats n,
   { s with floatrest := pyDrop floats n,
            hasrest := if (pyDrop floats n).length > 0 then true else s.hasrest })

/-! ## Common base class: skip_restofrecord -/

/-- the methods of the derived classes used by `SequentialFile.skip_restofrecord`; `ρ` is the type
of a string record -/
structure FileOps (α ρ : Type) where
  readString : FState α → Except Err (ρ × FState α)
  readFloatrec : Nat → FState α → Except Err (List PyF × FState α)
  readHeader : FState α → Except Err ((String × List PyF) × FState α)
  readFloats : Int → Nat → FState α → Except Err (List PyF × FState α)
  /-- `string_rec[:8] == self._contrec_leadingspace` -/
  blankLed : ρ → Bool
  /-- `string_rec[:8].strip() in self.allowed_record_names` -/
  allowedLed : ρ → Bool
  /-- `self.strip_recname(string_rec[:8]), self.tofloatrec(string_rec[8:])` -/
  asHeader : ρ → Except Err (String × List PyF)

section Skip
variable {α ρ : Type} (F : FileOps α ρ)

/-- `n` calls of `read_stringrec()` (sequentialfiles.py:123-126) -/
def readStrings : Nat → FState α → Except Err (FState α)
  | 0, s => .ok s
  | n + 1, s =>
    match F.readString s with
    | .error e => .error e
    | .ok (_, s') => readStrings n s'

/-- sequentialfiles.py:255-258 and 344-347 `skip_contrecs` -/
def skipContrecs : Nat → ρ → FState α → Except Err ((String × List PyF) × FState α)
  | 0, _, _ => .error .outOfFuel
  | fuel + 1, rec, s =>
    if F.blankLed rec then
      match F.readString s with
      | .error e => .error e
      | .ok (rec', s') => skipContrecs fuel rec' s'
    else
      match F.asHeader rec with
      | .error e => .error e
      | .ok h => .ok (h, s)

/-- sequentialfiles.py:95-146 `skip_restofrecord` -/
def skipRestofrecord (name : String) (rec : List PyF) (s : FState α) :
    Except Err ((String × List PyF) × FState α) := do
  let r0 ← pyIdx rec 0
  -- 116-119: first float is negative
  if r0.ltZero then
    if r0.eqInt (-5) then
      let (_, s1) ← F.readFloatrec 0 s
      F.readHeader s1
    else
      F.readHeader s
  -- 122-127: TDxxxxxx records
  else if name.toList.take 2 = ['T', 'D'] then
    let n ← (← pyIdx rec 2).toInt
    let s1 ← readStrings F (rangeLen (floorDiv n 100)) s
    let m ← (← pyIdx rec 3).toInt
    let s2 ← readStrings F (rangeLen (floorDiv m 100)) s1
    F.readHeader s2
  else
    -- 130-131
    let (srec, s1) ← F.readString s
    if F.blankLed srec then
      skipContrecs F (s1.rem.length + 2) srec s1
    else if F.allowedLed srec then
      match F.asHeader srec with
      | .error e => .error e
      | .ok h => .ok (h, s1)
    else
      -- 143-146: `int(rec[0])` first, then seek back (only the position is restored)
      let n ← r0.toInt
      let (_, s3) ← F.readFloats (n - 4) 0 { s1 with rem := s.rem }
      F.readHeader s3

end Skip

/-! ## UnformattedFile -/

namespace U

/-- sequentialfiles.py:173-180 `__init__(mode='r')`: the first byte is skipped -/
def openFile (content : Bytes) : UState := { rem := content.drop 1 }

/-- sequentialfiles.py:182-191 `read_stringrec`: a length byte (129 stands for 128), the payload,
one trailing byte.  `struct.error` at the end of the file; reads of the payload and of the
trailing byte may be short at the end of the file. -/
def readStringrec (s : UState) : Except Err (Bytes × UState) :=
  match s.rem with
  | [] => .error .structError
  | l :: r =>
    let n := if l = 129 then 128 else l.toNat
    .ok (r.take n, { s with rem := (r.drop n).drop 1, hasrest := false })

/-- sequentialfiles.py:193-194 `tofloatrec` -/
def tofloatrec (D : Dec) : Bytes → Except Err (List PyF)
  | [] => .ok []
  | a :: b :: c :: d :: r =>
    match tofloatrec D r with
    | .error e => .error e
    | .ok fs => .ok (D.f32 a b c d :: fs)
  | _ => .error .structError

/-- sequentialfiles.py:196-197 `read_floatrec` -/
def readFloatrec (D : Dec) (skip : Nat) (s : UState) : Except Err (List PyF × UState) := do
  let (c, s') ← readStringrec s
  let fs ← tofloatrec D (c.drop skip)
  .ok (fs, s')

/-- `stringrec[:8].decode().strip(), self.tofloatrec(stringrec[8:])`
(sequentialfiles.py:201, 252-253, 258) -/
def asHeader (D : Dec) (c : Bytes) : Except Err (String × List PyF) := do
  let name ← decodeAscii (c.take 8)
  let fs ← tofloatrec D (c.drop 8)
  .ok (String.ofList (stripBy wsChar name), fs)

/-- sequentialfiles.py:199-201 `read_headerrec` -/
def readHeader (D : Dec) (s : UState) : Except Err ((String × List PyF) × UState) := do
  let (c, s') ← readStringrec s
  let h ← asHeader D c
  .ok (h, s')

/-- sequentialfiles.py:223-224 `while len(floats) < floats_to_read: floats += read_floatrec()` -/
def readLoop (D : Dec) (skip : Nat) (need : Nat) :
    Nat → List PyF → UState → Except Err (List PyF × UState)
  | 0, _, _ => .error .outOfFuel
  | fuel + 1, acc, s =>
    if acc.length < need then
      match readFloatrec D skip s with
      | .error e => .error e
      | .ok (fs, s') => readLoop D skip need fuel (acc ++ fs) s'
    else .ok (acc, s)

/-- sequentialfiles.py:203-236 `read_floats` -/
def readFloats (D : Dec) (n : Int) (skip : Nat) (s : UState) :
    Except Err (List PyF × UState) :=
  if n = 0 then .ok ([], s)
  else
    let floatrest := if s.hasrest then s.floatrest else []
    let toRead : Int := n - floatrest.length
    if toRead > 0 then
      match readLoop D skip toRead.toNat (s.rem.length + 2) [] s with
      | .error e => .error e
      | .ok (fs, s1) => .ok (finishFloats n (floatrest ++ fs) s1)
    else .ok (finishFloats n floatrest s)

/-- `self.f.read(9)[1:].strip()` (sequentialfiles.py:244) -/
def peekName (s : UState) : Bytes := stripBy wsByte ((s.rem.take 9).drop 1)

/-- sequentialfiles.py:238-250 `at_headerrec` (the position is restored) -/
def atHeaderrec (s : UState) : Bool := !s.hasrest && allowedB (peekName s)

/-- the eight blanks of `_contrec_leadingspace` (sequentialfiles.py:180) -/
def blanks : Bytes := List.replicate 8 32

/-- the methods used by the base class -/
def fileOps (D : Dec) : FileOps UInt8 Bytes where
  readString := readStringrec
  readFloatrec := readFloatrec D
  readHeader := readHeader D
  readFloats := readFloats D
  blankLed c := decide (c.take 8 = blanks)
  allowedLed c := allowedB (stripBy wsByte (c.take 8))
  asHeader := asHeader D

/-- what the caller gets from a string record -/
def lineResult (m : LineMode) (c : Bytes) : Except Err Str :=
  match m with
  | .raw => .ok (c.map latin1)
  | .strip => .ok ((stripBy wsByte c).map latin1)
  | .name => decodeAscii (stripBy wsByte c)

/-- `UnformattedFile` as an implementation of the calls -/
def reader (D : Dec) : Reader UState where
  step o s :=
    match o with
    | .line m => do
      let (c, s') ← readStringrec s
      let t ← lineResult m c
      .ok (t, s')
    | .header => readHeader D s
    | .floatrec skip => readFloatrec D skip s
    | .floats n skip => readFloats D n skip s
    | .skip name rec => skipRestofrecord (fileOps D) name rec s
    | .atHeader => .ok (atHeaderrec s, s)

end U

/-! ## FormattedFile -/

namespace T

/-- sequentialfiles.py:264-270 `__init__`.  The text is the content of the file after Python's
newline translation. -/
def openFile (content : Str) : TState := { rem := content }

/-- `readline()[:-1]`: everything up to the next newline; the last character of a file that does
not end with a newline is lost, and at the end of the file the result is empty
(sequentialfiles.py:276) -/
def lineOf (t : Str) : Str := if '\n' ∈ t then t.takeWhile (· != '\n') else t.dropLast

/-- the text after the next newline -/
def afterLine (t : Str) : Str := (t.dropWhile (· != '\n')).drop 1

/-- sequentialfiles.py:273-276 `read_stringrec` -/
def readStringrec (s : TState) : Except Err (Str × TState) :=
  .ok (lineOf s.rem, { s with rem := afterLine s.rem, hasrest := false })

/-- the fields `stringrec[i:i+16]` for `i in range(0, len(stringrec), 16)` -/
def fields : Nat → Str → List Str
  | 0, _ => []
  | n + 1, t => if t = [] then [] else t.take 16 :: fields n (t.drop 16)

/-- `[float(x) for x in ...]` -/
def floatAll (D : Dec) : List Str → Except Err (List PyF)
  | [] => .ok []
  | t :: ts =>
    match D.float t with
    | .error e => .error e
    | .ok x =>
      match floatAll D ts with
      | .error e => .error e
      | .ok xs => .ok (x :: xs)

/-- sequentialfiles.py:278-280 `tofloatrec` -/
def tofloatrec (D : Dec) (t : Str) : Except Err (List PyF) := floatAll D (fields t.length t)

/-- sequentialfiles.py:283-284 `read_floatrec`: `skipfirst` is ignored, 8 characters are always
skipped -/
def readFloatrec (D : Dec) (_skip : Nat) (s : TState) : Except Err (List PyF × TState) := do
  let (c, s') ← readStringrec s
  let fs ← tofloatrec D (c.drop 8)
  .ok (fs, s')

/-- `stringrec[:8].strip(), self.tofloatrec(stringrec[8:])` (sequentialfiles.py:294, 347) -/
def asHeader (D : Dec) (c : Str) : Except Err (String × List PyF) := do
  let fs ← tofloatrec D (c.drop 8)
  .ok (String.ofList (stripBy wsChar (c.take 8)), fs)

/-- sequentialfiles.py:286-294 `read_headerrec` -/
def readHeader (D : Dec) (s : TState) : Except Err ((String × List PyF) × TState) := do
  let (c, s') ← readStringrec s
  let h ← asHeader D c
  .ok (h, s')

/-- sequentialfiles.py:313-314: `n` lines of floats -/
def readLines (D : Dec) (skip : Nat) :
    Nat → List PyF → TState → Except Err (List PyF × TState)
  | 0, acc, s => .ok (acc, s)
  | n + 1, acc, s =>
    match readFloatrec D skip s with
    | .error e => .error e
    | .ok (fs, s') => readLines D skip n (acc ++ fs) s'

/-- sequentialfiles.py:296-326 `read_floats`; `int(ceil(x/4.))` is `(x + 3) / 4` (exact for the
sizes a file can have) -/
def readFloats (D : Dec) (n : Int) (skip : Nat) (s : TState) :
    Except Err (List PyF × TState) :=
  if n = 0 then .ok ([], s)
  else
    let floatrest := if s.hasrest then s.floatrest else []
    let toRead : Int := n - floatrest.length
    if toRead > 0 then
      match readLines D skip ((toRead.toNat + 3) / 4) [] s with
      | .error e => .error e
      | .ok (fs, s1) => .ok (finishFloats n (floatrest ++ fs) s1)
    else .ok (finishFloats n floatrest s)

/-- `self.f.read(8).strip()` (sequentialfiles.py:333) -/
def peekName (s : TState) : Str := stripBy wsChar (s.rem.take 8)

/-- sequentialfiles.py:328-339 `at_headerrec` -/
def atHeaderrec (s : TState) : Bool := !s.hasrest && allowedS (peekName s)

/-- the eight blanks of `_contrec_leadingspace` (sequentialfiles.py:270) -/
def blanks : Str := List.replicate 8 ' '

/-- the methods used by the base class -/
def fileOps (D : Dec) : FileOps Char Str where
  readString := readStringrec
  readFloatrec := readFloatrec D
  readHeader := readHeader D
  readFloats := readFloats D
  blankLed c := decide (c.take 8 = blanks)
  allowedLed c := allowedS (stripBy wsChar (c.take 8))
  asHeader := asHeader D

/-- what the caller gets from a string record (`isinstance(add, str)`: no decoding) -/
def lineResult (m : LineMode) (c : Str) : Str :=
  match m with
  | .raw => c
  | .strip => stripBy wsChar c
  | .name => stripBy wsChar c

/-- `FormattedFile` as an implementation of the calls -/
def reader (D : Dec) : Reader TState where
  step o s :=
    match o with
    | .line m => do
      let (c, s') ← readStringrec s
      .ok (lineResult m c, s')
    | .header => readHeader D s
    | .floatrec skip => readFloatrec D skip s
    | .floats n skip => readFloats D n skip s
    | .skip name rec => skipRestofrecord (fileOps D) name rec s
    | .atHeader => .ok (atHeaderrec s, s)

end T

/-! ## get_recordcount -/

section Count
variable {α ρ : Type} (F : FileOps α ρ)

/-- increment the count of a name (sequentialfiles.py:161-164) -/
def bump (name : String) : List (String × Nat) → List (String × Nat)
  | [] => [(name, 1)]
  | (k, n) :: r => if k = name then (k, n + 1) :: r else (k, n) :: bump name r

/-- the loop of `get_recordcount` (sequentialfiles.py:156-165) -/
def countLoop : Nat → String → List PyF → List (String × Nat) → FState α →
    Except Err (List (String × Nat) × FState α)
  | 0, _, _, _, _ => .error .outOfFuel
  | fuel + 1, name, rec, recs, s =>
    if name = "" then .ok (recs, s)
    else
      match skipRestofrecord F name rec s with
      | .error e => .error e
      | .ok ((name', rec'), s') => countLoop fuel name' rec' (bump name' recs) s'

/-- sequentialfiles.py:148-165 `get_recordcount` -/
def getRecordcount (s : FState α) : Except Err (List (String × Nat) × FState α) :=
  match F.readHeader s with
  | .error e => .error e
  | .ok ((name, rec), s') => countLoop F (s.rem.length + 2) name rec [(name, 1)] s'

end Count

end Verif.Seq
