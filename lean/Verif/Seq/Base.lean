import Verif.Single
/-!
# Text, bytes and record names

Model of the string handling shared by the two file classes of
`/repo/freesif/sequentialparser/sequentialfiles.py`.
-/

namespace Verif.Seq

/-- A Python `str` as a list of characters. -/
abbrev Str := List Char

/-- A Python `bytes` object. -/
abbrev Bytes := List UInt8

/-- The two number decoders used by `tofloatrec`: `struct.unpack('f', ...)` of four bytes
(sequentialfiles.py:194) and `float(...)` of a text field (sequentialfiles.py:279).  All theorems
hold for every choice of decoders; `Dec.std` below is the standard one. -/
structure Dec where
  f32 : UInt8 → UInt8 → UInt8 → UInt8 → PyF
  float : Str → Except Err PyF

/-- `bytes.strip()` removes these bytes. -/
def wsByte (b : UInt8) : Bool :=
  b == 32 || b == 9 || b == 10 || b == 11 || b == 12 || b == 13

/-- `str.strip()` removes these characters (ASCII part of Python's `str.isspace`; the
white space characters above U+007F are not modelled). -/
def wsChar (c : Char) : Bool :=
  c == ' ' || c == '\t' || c == '\n' || c == '\x0b' || c == '\x0c' || c == '\r' ||
  c == '\x1c' || c == '\x1d' || c == '\x1e' || c == '\x1f'

/-- `strip()`: drop the elements satisfying `p` at both ends. -/
def stripBy {α : Type} (p : α → Bool) (l : List α) : List α :=
  ((l.dropWhile p).reverse.dropWhile p).reverse

/-- the character with the code of a byte -/
def latin1 (b : UInt8) : Char := Char.ofNat b.toNat

/-- `bytes.decode()` of a record name or text.  Simplified: any byte above 127 is an error
(valid multi-byte UTF-8 sequences are not modelled). -/
def decodeAscii (b : Bytes) : Except Err Str :=
  if b.all (fun x => decide (x < 128)) then .ok (b.map latin1) else .error .unicodeError

/-- sequentialfiles.py:14-43 `allowed_record_names_str` (as written, with repetitions). -/
def allowedNamesStr : List String :=
  [
    "DATE", "IDENT", "IEND", "TDMATER", "TDSECT", "TDSETNAM", "TDSUPNAM", "TEXT", "TSLAYER",
    "ACFD", "ADDATA", "BEISTE", "BELFIX", "BELLAX", "BELLO2", "BELOAD1", "BEDRAG1", "BEMASS1",
    "BEUSLO", "BEUVLO", "BEWAKIN", "BEWALO1", "BGRAV", "BLDEP", "BLDEP", "BNACCLO", "BNBCD",
    "BNDISPL", "BNDOF", "BNINCO", "BNLOAD", "BNLOAX", "BNMASS", "BNTEMP", "BNTRCOS", "BNWALO",
    "BRIGAC", "BRIGDI", "BRIGVE", "BQDP", "GBARM", "GBEAMG", "GBOX", "GCHAN", "GCHANR",
    "GCOORD", "GCROINT", "GDOBO", "GECC", "GECCEN", "GELINT", "GELMNT1", "GELREF1", "GELSTRP",
    "GELTH", "GIORH", "GIORHR", "GLMASS", "GLSEC", "GLSECR", "GNODE", "GPIPE", "GSEPSPEC",
    "GSETMEMB", "GSLAYER", "GSLPLATE", "GSLSTIFF", "GTONP", "GUNIVEC", "GUSYI", "MAXDMP",
    "MAXSPR", "MCNT", "MGDAMP", "MGLDAMP", "MGLMASS", "MGMASS", "MGSPRNG", "MISOAL", "MISOEML",
    "MISOHL", "MISOHNL", "MISOPL", "MISOPL", "MISOPL", "MISOSEL", "MISTEL", "MORSMEL",
    "MORSSEL", "MORSSOL", "MSHGLSP", "MTEMP", "MTENONL", "MTRMEL", "MTRSEL", "MTRSOL", "ADDATA",
    "AMATRIX", "AMDACCL", "AMDDAMP", "AMDDISP", "AMDFREQ", "AMDLOAD", "AMDMASS", "AMDSTIFF",
    "AMDVELO", "BLDEP", "BNBCD", "BNDISPL", "BNDOF", "BNINCO", "BNLOAD", "BNMASS", "BNTRCOS",
    "BQDP", "BSELL", "GCOORD", "GELMNT1", "GELMNT2", "GELREF1", "GNODE", "HIERARCH", "HSUPSTAT",
    "HSUPTRAN", "MAXDMP", "MAXSPR", "MGDAMP", "MGSPRNG", "RBLODCMB", "RDELNFOR", "RDFORCES",
    "RDIELCOR", "RDMLFACT", "RDNODBOC", "RDNODREA", "RDNODRES", "RDPOINTS", "RDRESCMB",
    "RDRESREF", "RDSERIES", "RDSTRAIN", "RDSTRESS", "RDTRANS", "RSUMLOAD", "RSUMMASS",
    "RSUMREAC", "RSUPTRAN", "RVABSCIS", "RVELNFOR", "RVFORCES", "RVNODACC", "RVNODDIS",
    "RVNODVEL", "RVNODREA", "RVORDINA", "RVSTRAIN", "RVSTRESS", "TNODE", "TELEMENT", "TDRESREF",
    "TDSERIES", "TDSUPNAM", "W1EXFORC", "W1MATRIX", "WIMOTION", "WISFORCE", "W2EXFDIF",
    "W2EXFSUM", "W2FLUDIF", "W2FLUSUM", "W2HDRIFT", "W2MDRIFI", "WBODCON", "WBODY", "WDRESREF",
    "WFKPOINT", "WFLUIDKN", "WGLOBDEF", "WGRESPON", "WSCATTER", "WSECTION", "WSURFACE",
    "TDBODNAM", "TDRSNAM", "TDSCATTER", "TDSCONC", "SCONCEPT", "SCONMESH", "SCONPLIS",
    "SPROSELE", "SPROMATR", "SPROSEGM", "SPROHYDR", "SPROCODE", "SPROORIE", "SPROECCE",
    "SPROPILE", "SPROSOIL", "IRECSIZE", "W1PANPRE"]

/-- sequentialfiles.py:45-74 `allowed_record_names_b`, each byte string written as text.  The
element `'WISFORCE'` of line 71 lacks the `b` prefix: it is a `str`, never equal to a
byte string, and therefore left out. -/
def allowedNamesB : List String :=
  [
    "DATE", "IDENT", "IEND", "TDMATER", "TDSECT", "TDSETNAM", "TDSUPNAM", "TEXT", "TSLAYER",
    "ACFD", "ADDATA", "BEISTE", "BELFIX", "BELLAX", "BELLO2", "BELOAD1", "BEDRAG1", "BEMASS1",
    "BEUSLO", "BEUVLO", "BEWAKIN", "BEWALO1", "BGRAV", "BLDEP", "BLDEP", "BNACCLO", "BNBCD",
    "BNDISPL", "BNDOF", "BNINCO", "BNLOAD", "BNLOAX", "BNMASS", "BNTEMP", "BNTRCOS", "BNWALO",
    "BRIGAC", "BRIGDI", "BRIGVE", "BQDP", "GBARM", "GBEAMG", "GBOX", "GCHAN", "GCHANR",
    "GCOORD", "GCROINT", "GDOBO", "GECC", "GECCEN", "GELINT", "GELMNT1", "GELREF1", "GELSTRP",
    "GELTH", "GIORH", "GIORHR", "GLMASS", "GLSEC", "GLSECR", "GNODE", "GPIPE", "GSEPSPEC",
    "GSETMEMB", "GSLAYER", "GSLPLATE", "GSLSTIFF", "GTONP", "GUNIVEC", "GUSYI", "MAXDMP",
    "MAXSPR", "MCNT", "MGDAMP", "MGLDAMP", "MGLMASS", "MGMASS", "MGSPRNG", "MISOAL", "MISOEML",
    "MISOHL", "MISOHNL", "MISOPL", "MISOPL", "MISOPL", "MISOSEL", "MISTEL", "MORSMEL",
    "MORSSEL", "MORSSOL", "MSHGLSP", "MTEMP", "MTENONL", "MTRMEL", "MTRSEL", "MTRSOL", "ADDATA",
    "AMATRIX", "AMDACCL", "AMDDAMP", "AMDDISP", "AMDFREQ", "AMDLOAD", "AMDMASS", "AMDSTIFF",
    "AMDVELO", "BLDEP", "BNBCD", "BNDISPL", "BNDOF", "BNINCO", "BNLOAD", "BNMASS", "BNTRCOS",
    "BQDP", "BSELL", "GCOORD", "GELMNT1", "GELMNT2", "GELREF1", "GNODE", "HIERARCH", "HSUPSTAT",
    "HSUPTRAN", "MAXDMP", "MAXSPR", "MGDAMP", "MGSPRNG", "RBLODCMB", "RDELNFOR", "RDFORCES",
    "RDIELCOR", "RDMLFACT", "RDNODBOC", "RDNODREA", "RDNODRES", "RDPOINTS", "RDRESCMB",
    "RDRESREF", "RDSERIES", "RDSTRAIN", "RDSTRESS", "RDTRANS", "RSUMLOAD", "RSUMMASS",
    "RSUMREAC", "RSUPTRAN", "RVABSCIS", "RVELNFOR", "RVFORCES", "RVNODACC", "RVNODDIS",
    "RVNODVEL", "RVNODREA", "RVORDINA", "RVSTRAIN", "RVSTRESS", "TNODE", "TELEMENT", "TDRESREF",
    "TDSERIES", "TDSUPNAM", "W1EXFORC", "W1MATRIX", "WIMOTION", "W2EXFDIF", "W2EXFSUM",
    "W2FLUDIF", "W2FLUSUM", "W2HDRIFT", "W2MDRIFI", "WBODCON", "WBODY", "WDRESREF", "WFKPOINT",
    "WFLUIDKN", "WGLOBDEF", "WGRESPON", "WSCATTER", "WSECTION", "WSURFACE", "TDBODNAM",
    "TDRSNAM", "TDSCATTER", "TDSCONC", "SCONCEPT", "SCONMESH", "SCONPLIS", "SPROSELE",
    "SPROMATR", "SPROSEGM", "SPROHYDR", "SPROCODE", "SPROORIE", "SPROECCE", "SPROPILE",
    "SPROSOIL", "IRECSIZE", "W1PANPRE"]

/-- `x in allowed_record_names_str` -/
def allowedS (x : Str) : Bool := allowedNamesStr.contains (String.ofList x)

/-- `x in allowed_record_names_b` (byte strings are compared through the injective map
`latin1`) -/
def allowedB (x : Bytes) : Bool := allowedNamesB.contains (String.ofList (x.map latin1))

/-! ### the standard decoders (for concrete examples) -/

/-- IEEE 754 binary32, little endian (native order of the usual machines). -/
def f32le (b0 b1 b2 b3 : UInt8) : PyF :=
  let n : Nat := b0.toNat + 256 * b1.toNat + 65536 * b2.toNat + 16777216 * b3.toNat
  let neg : Bool := decide (2147483648 ≤ n)
  let ex : Nat := n / 8388608 % 256
  let man : Nat := n % 8388608
  let mag : Rat :=
    if ex = 0 then (man : Rat) / (2 ^ 149 : Nat)
    else if 150 ≤ ex then ((8388608 + man : Nat) : Rat) * (2 ^ (ex - 150) : Nat)
    else ((8388608 + man : Nat) : Rat) / (2 ^ (150 - ex) : Nat)
  if ex = 255 then (if man = 0 then .inf neg else .nan)
  else .rat (if neg then -mag else mag)

/-- value of a digit string, `none` if a character is not a digit -/
def digits? (l : Str) : Option Nat :=
  l.foldl (fun acc c => acc.bind fun n =>
    if c.isDigit then some (10 * n + (c.toNat - 48)) else none) (some 0)

/-- an optional sign -/
def sign : Str → Bool × Str
  | '-' :: r => (true, r)
  | '+' :: r => (false, r)
  | r => (false, r)

/-- an exponent: optional sign and at least one digit -/
def exponent? (l : Str) : Option Int :=
  let (neg, r) := sign l
  if r.isEmpty then none
  else (digits? r).map fun n : Nat => if neg then -(n : Int) else n

/-- what follows the digits of a numeral: nothing, or a letter and an exponent -/
def exponentPart? : Str → Option Int
  | [] => some 0
  | _ :: r => exponent? r

/-- exact value of a numeral without sign -/
def numeral? (body : Str) : Option Rat :=
  let isE := fun c : Char => c == 'e' || c == 'E'
  let mant := body.takeWhile (fun c => !isE c)
  let ip := mant.takeWhile (· != '.')
  let fp := (mant.dropWhile (· != '.')).drop 1
  match exponentPart? (body.dropWhile (fun c => !isE c)), digits? ip, digits? fp with
  | some ex, some a, some b =>
    if ip.isEmpty && fp.isEmpty then none
    else
      let m : Rat := (a : Rat) + (b : Rat) / (10 ^ fp.length : Nat)
      some (if 0 ≤ ex then m * (10 ^ ex.toNat : Nat) else m / (10 ^ (-ex).toNat : Nat))
  | _, _, _ => none

/-- `float(text)` for decimal numerals, `inf`, `infinity` and `nan`.  Underscores in numerals
are not modelled. -/
def floatStd (text : Str) : Except Err PyF :=
  let (neg, body) := sign (stripBy wsChar text)
  let low := String.ofList (body.map Char.toLower)
  if low == "inf" || low == "infinity" then .ok (.inf neg)
  else if low == "nan" then .ok .nan
  else
    match numeral? body with
    | some v => .ok (PyF.double (.rat (if neg then -v else v)))
    | none => .error .valueError

/-- the decoders of CPython on a little endian machine -/
def Dec.std : Dec := ⟨f32le, floatStd⟩

end Verif.Seq
