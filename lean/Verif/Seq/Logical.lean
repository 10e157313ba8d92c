import Verif.Seq.Files
/-!
# Logical files and their physical encodings (specification side)

A *logical file* is what the SESAM format documentation describes: a list of records, each with a
name, header values and further data.  This module defines
* `LRec`: a logical record,
* `L.reader`: the reader one would like to have - it hands out the values of the current record in
  order and refuses everything that is not in the record,
* `U.Encodes`, `T.Encodes`: when a byte string / a text is an encoding of a logical file (any
  chunking of the values into physical records, any padding, any frame bytes).

Nothing here refers to the reading algorithms of `Verif.Seq.Files` except the conversion of one
physical record into numbers (`tofloatrec`).
-/

namespace Verif.Seq

/-- a physical record that precedes the value stream of a logical record -/
inductive Seg where
  /-- a record of floats with `skip` leading blanks, read as one unit -/
  | recd (skip : Nat) (fs : List PyF)
  /-- a record of text -/
  | text (t : Str)
  deriving DecidableEq

/-- A logical record: a header (name and values), physical records read as units, and a stream of
values that the writer may distribute over physical records.  `skip` blanks lead each physical
record of the stream on unformatted files; `pad` are fill values behind the last value on its
physical record. -/
structure LRec where
  name : String
  head : List PyF
  pre : List Seg := []
  skip : Nat := 0
  vals : List PyF := []
  pad : List PyF := []
  deriving DecidableEq

/-- stands for the end of a formatted file: there, the header that is read has no name and no
values -/
def endMark : LRec := { name := "", head := [] }

/-- stands for the place where an unformatted file has an empty record (as where it has been filled
up with zeros), or ends behind the length byte of a record: there, too, the header that is read has
no name and no values -/
def stopMark : LRec := { name := "", head := [], skip := 1 }

/-- a record name as it can stand in the first eight columns: not empty, at most eight characters,
no blanks or control characters -/
def NameOK (name : String) : Prop :=
  name.toList ≠ [] ∧ name.toList.length ≤ 8 ∧ ∀ c ∈ name.toList, 33 ≤ c.toNat ∧ c.toNat ≤ 126

/-- text that both file kinds can carry: printable ASCII -/
def TextOK (t : Str) : Prop := ∀ c ∈ t, 32 ≤ c.toNat ∧ c.toNat ≤ 126

/-- the name field: left justified in eight columns -/
def nameField (name : String) : Str :=
  name.toList ++ List.replicate (8 - name.toList.length) ' '

/-- the byte of an ASCII character -/
def toByte (c : Char) : UInt8 := UInt8.ofNat c.toNat

/-- text as seen by the parsers in the three modes -/
def textResult (m : LineMode) (t : Str) : Str :=
  match m with
  | .raw => t
  | .strip => stripBy (· == ' ') t
  | .name => stripBy (· == ' ') t

/-! ### the logical reader -/

/-- State of the logical reader: what is left of the current record, the number of calls that
have consumed data of it, the records that follow. -/
structure LState where
  cur : LRec
  ops : Nat
  rest : List LRec

/-- the record names of the SESAM interface format that are recognised when a record is skipped or
its optional fields are looked for.  W1MOTION, W1SFORCE, W2MDRIFT, TDLOAD and WINPUT are not
among them. -/
def knownNames : List String :=
  ["ACFD", "ADDATA", "AMATRIX", "AMDACCL", "AMDDAMP", "AMDDISP", "AMDFREQ", "AMDLOAD", "AMDMASS",
   "AMDSTIFF", "AMDVELO", "BEDRAG1", "BEISTE", "BELFIX", "BELLAX", "BELLO2", "BELOAD1", "BEMASS1",
   "BEUSLO", "BEUVLO", "BEWAKIN", "BEWALO1", "BGRAV", "BLDEP", "BNACCLO", "BNBCD", "BNDISPL",
   "BNDOF", "BNINCO", "BNLOAD", "BNLOAX", "BNMASS", "BNTEMP", "BNTRCOS", "BNWALO", "BQDP",
   "BRIGAC", "BRIGDI", "BRIGVE", "BSELL", "DATE", "GBARM", "GBEAMG", "GBOX", "GCHAN", "GCHANR",
   "GCOORD", "GCROINT", "GDOBO", "GECC", "GECCEN", "GELINT", "GELMNT1", "GELMNT2", "GELREF1",
   "GELSTRP", "GELTH", "GIORH", "GIORHR", "GLMASS", "GLSEC", "GLSECR", "GNODE", "GPIPE",
   "GSEPSPEC", "GSETMEMB", "GSLAYER", "GSLPLATE", "GSLSTIFF", "GTONP", "GUNIVEC", "GUSYI",
   "HIERARCH", "HSUPSTAT", "HSUPTRAN", "IDENT", "IEND", "IRECSIZE", "MAXDMP", "MAXSPR", "MCNT",
   "MGDAMP", "MGLDAMP", "MGLMASS", "MGMASS", "MGSPRNG", "MISOAL", "MISOEML", "MISOHL", "MISOHNL",
   "MISOPL", "MISOSEL", "MISTEL", "MORSMEL", "MORSSEL", "MORSSOL", "MSHGLSP", "MTEMP", "MTENONL",
   "MTRMEL", "MTRSEL", "MTRSOL", "RBLODCMB", "RDELNFOR", "RDFORCES", "RDIELCOR", "RDMLFACT",
   "RDNODBOC", "RDNODREA", "RDNODRES", "RDPOINTS", "RDRESCMB", "RDRESREF", "RDSERIES", "RDSTRAIN",
   "RDSTRESS", "RDTRANS", "RSUMLOAD", "RSUMMASS", "RSUMREAC", "RSUPTRAN", "RVABSCIS", "RVELNFOR",
   "RVFORCES", "RVNODACC", "RVNODDIS", "RVNODREA", "RVNODVEL", "RVORDINA", "RVSTRAIN", "RVSTRESS",
   "SCONCEPT", "SCONMESH", "SCONPLIS", "SPROCODE", "SPROECCE", "SPROHYDR", "SPROMATR", "SPROORIE",
   "SPROPILE", "SPROSEGM", "SPROSELE", "SPROSOIL", "TDBODNAM", "TDMATER", "TDRESREF", "TDRSNAM",
   "TDSCATTER", "TDSCONC", "TDSECT", "TDSERIES", "TDSETNAM", "TDSUPNAM", "TELEMENT", "TEXT",
   "TNODE", "TSLAYER", "W1EXFORC", "W1MATRIX", "W1PANPRE", "W2EXFDIF", "W2EXFSUM", "W2FLUDIF",
   "W2FLUSUM", "W2HDRIFT", "W2MDRIFI", "WBODCON", "WBODY", "WDRESREF", "WFKPOINT", "WFLUIDKN",
   "WGLOBDEF", "WGRESPON", "WIMOTION", "WSCATTER", "WSECTION", "WSURFACE"]

namespace L

/-- start of a file -/
def openFile (f : List LRec) : LState := { cur := { name := "", head := [] }, ops := 1, rest := f }

/-- move to the next record; `e` is the exception if there is none -/
def next (e : Err) (s : LState) : Except Err ((String × List PyF) × LState) :=
  match s.rest with
  | [] => .error e
  | r :: rs => .ok ((r.name, r.head), { cur := r, ops := 0, rest := rs })

/-- a record that consists of its header, and is not a text record -/
def bare (r : LRec) : Bool :=
  r.pre.isEmpty && r.vals.isEmpty && !r.head.isEmpty && r.name.toList.take 2 != ['T', 'D']

/-- the logical reader; `sk` tells which records may be skipped.  Asked for the header behind the last
record it raises `struct.error`, asked for anything else that is not there `outOfFuel` (which says
nothing about the readers of files, see `Simulates`).  Only in the last record of a formatted file,
which `endMark` follows, fewer values are handed out than asked for. -/
def reader (sk : LRec → Bool) : Reader LState where
  step o s :=
    match o with
    | .line m =>
      match s.cur.pre with
      | .text t :: p =>
        .ok (textResult m t, { s with cur := { s.cur with pre := p }, ops := s.ops + 1 })
      | _ => .error .outOfFuel
    | .header =>
      if s.cur.pre = [] ∧ s.cur.vals = [] then next .structError s else .error .outOfFuel
    | .floatrec k =>
      match s.cur.pre with
      | .recd k' fs :: p =>
        if k = k' then .ok (fs, { s with cur := { s.cur with pre := p }, ops := s.ops + 1 })
        else .error .outOfFuel
      | _ => .error .outOfFuel
    | .floats n k =>
      if n = 0 then .ok ([], s)
      else if s.cur.pre = [] ∧ 0 < n ∧ n.toNat ≤ s.cur.vals.length ∧ k = s.cur.skip then
        .ok (s.cur.vals.take n.toNat,
          { s with cur := { s.cur with vals := s.cur.vals.drop n.toNat }, ops := s.ops + 1 })
      else if s.cur.pre = [] ∧ s.cur.pad = [] ∧ s.cur.vals.length < n.toNat ∧ s.rest.head? = some endMark then
        .ok (s.cur.vals, { s with cur := { s.cur with vals := [] }, ops := s.ops + 1 })
      else .error .outOfFuel
    | .skip name rec =>
      if s.ops = 0 ∧ name = s.cur.name ∧ rec = s.cur.head ∧ sk s.cur = true then
        next (if bare s.cur then .structError else .outOfFuel) s
      else .error .outOfFuel
    | .atHeader =>
      if s.cur.pre = [] ∧ s.ops ≤ 1 then
        if s.cur.vals ≠ [] then
          (if s.cur.skip = 8 then .ok (false, s) else .error .outOfFuel)
        else if s.cur.pad ≠ [] then .ok (false, s)
        else
          match s.rest with
          | r :: _ =>
            if r.name ∈ knownNames then .ok (true, s)
            else if r = endMark then .ok (false, s)
            else .error .outOfFuel
          | [] => .error .outOfFuel
      else .error .outOfFuel

end L

/-! ### unformatted encodings -/

/-- is `name` the name of a text record (`TDxxxxxx`)? -/
def isTD (name : String) : Prop := ∃ r, name.toList = 'T' :: 'D' :: r

namespace U

/-- one framed physical record: length byte (129 allowed for 128), payload, any trailing byte -/
def Frame (c bs : Bytes) : Prop :=
  ∃ l t, bs = l :: (c ++ [t]) ∧ c.length = (if l = 129 then 128 else l.toNat)

/-- a sequence of framed records -/
inductive Frames : List Bytes → Bytes → Prop
  | nil : Frames [] []
  | cons {c b cs bs} : Frame c b → Frames cs bs → Frames (c :: cs) (b ++ bs)

/-- payload of a header record -/
def Head (D : Dec) (r : LRec) (c : Bytes) : Prop :=
  NameOK r.name ∧ ∃ fb, c = (nameField r.name).map toByte ++ fb ∧ tofloatrec D fb = .ok r.head

/-- payload of a float record with `skip` leading blanks -/
def Chunk (D : Dec) (skip : Nat) (c : Bytes) (vs : List PyF) : Prop :=
  ∃ fb, c = List.replicate skip 32 ++ fb ∧ tofloatrec D fb = .ok vs

/-- payload of a unit record -/
def SegEnc (D : Dec) : Seg → Bytes → Prop
  | .recd k fs, c => Chunk D k c fs
  | .text t, c => TextOK t ∧ c = t.map toByte

/-- payloads of a value stream: `vss` are the values per physical record.  Padding is on the last
physical record only, and that record carries at least one value. -/
def Stream (D : Dec) (skip : Nat) (vals pad : List PyF) (cs : List Bytes) : Prop :=
  ∃ vss, List.Forall₂ (Chunk D skip) cs vss ∧ vss.flatten = vals ++ pad ∧
    (cs ≠ [] → vss.dropLast.flatten.length < vals.length)

/-- payloads of everything behind the header -/
def Body (D : Dec) (r : LRec) (cs : List Bytes) : Prop :=
  ∃ ps fs, cs = ps ++ fs ∧ List.Forall₂ (SegEnc D) r.pre ps ∧ Stream D r.skip r.vals r.pad fs

/-- does a payload start with eight blanks? -/
def BlankLed (c : Bytes) : Prop := ∃ r, c = List.replicate 8 32 ++ r

/-- does a payload start with an allowed record name?  (`nm` surrounded by blanks fills the
first eight bytes) -/
def NameLed (c : Bytes) : Prop :=
  ∃ nm ∈ knownNames, (stripBy wsByte (c.take 8)).map latin1 = nm.toList

/-- the layouts of skipped records -/
inductive Skippable (D : Dec) (r : LRec) (body : List Bytes) (next : String) : Prop
  /-- first value negative, no further data -/
  | negative (h0 : PyF) (t : List PyF) : r.head = h0 :: t → h0.ltZero = true →
      h0.eqInt (-5) = false → body = [] → Skippable D r body next
  /-- first value -5, one more record of floats -/
  | minusFive (h0 : PyF) (t : List PyF) (c : Bytes) (fs : List PyF) : r.head = h0 :: t →
      h0.ltZero = true → h0.eqInt (-5) = true → body = [c] → tofloatrec D c = .ok fs →
      Skippable D r body next
  /-- text record with `a/100 + b/100` text lines -/
  | text (h0 h1 h2 h3 : PyF) (t : List PyF) (a b : Int) : r.head = h0 :: h1 :: h2 :: h3 :: t →
      h0.ltZero = false → isTD r.name → h2.toInt = .ok a → h3.toInt = .ok b →
      body.length = (a / 100).toNat + (b / 100).toNat → Skippable D r body next
  /-- continuation records with eight leading blanks -/
  | blankLed (h0 : PyF) (t : List PyF) : r.head = h0 :: t → h0.ltZero = false → ¬ isTD r.name →
      body ≠ [] → (∀ c ∈ body, BlankLed c) → Skippable D r body next
  /-- no continuation records, and the next record has a recognised name -/
  | alone (h0 : PyF) (t : List PyF) : r.head = h0 :: t → h0.ltZero = false → ¬ isTD r.name →
      body = [] → next ∈ knownNames → Skippable D r body next
  /-- `NFIELD` counted continuation records without leading blanks, any chunking -/
  | counted (h0 : PyF) (t : List PyF) (c : Bytes) (cs : List Bytes) : r.head = h0 :: t →
      h0.ltZero = false → ¬ isTD r.name → body = c :: cs → ¬ BlankLed c → ¬ NameLed c →
      r.pre = [] → r.skip = 0 → h0.toInt = .ok ((r.vals.length : Int) + 4) →
      Skippable D r body next

/-- `Encodes D sk z f bs`: the bytes `bs` (behind the initial `K`) are the records `f` followed by
the bytes `z`; records selected by `sk` have one of the skippable layouts.  The last of the records
may be `stopMark`: there is a record of length 0, or the file ends behind a length byte. -/
inductive Encodes (D : Dec) (sk : LRec → Bool) (z : Bytes) : List LRec → Bytes → Prop
  | nil : Encodes D sk z [] z
  | empty {t} : Encodes D sk z [stopMark] (0 :: t :: z)
  | cut {l} : z = [] → Encodes D sk z [stopMark] [l]
  | cons {r rs c body b bs} : Head D r c → Body D r body → Frames (c :: body) b →
      (sk r = true → ∀ n ∈ rs.head?, Skippable D r body n.name) →
      Encodes D sk z rs bs → Encodes D sk z (r :: rs) (b ++ bs)

end U

/-! ### formatted encodings -/

namespace T

/-- lines joined to text -/
def unlines : List Str → Str
  | [] => []
  | l :: ls => l ++ '\n' :: unlines ls

/-- a line of fields decodes to values -/
def Fields (D : Dec) (t : Str) (vs : List PyF) : Prop :=
  '\n' ∉ t ∧ tofloatrec D t = .ok vs

/-- header line -/
def Head (D : Dec) (r : LRec) (c : Str) : Prop :=
  NameOK r.name ∧ ∃ fb, c = nameField r.name ++ fb ∧ Fields D fb r.head

/-- continuation line of floats: eight blanks, then the fields (whatever `skip` is) -/
def Chunk (D : Dec) (c : Str) (vs : List PyF) : Prop :=
  ∃ fb, c = List.replicate 8 ' ' ++ fb ∧ Fields D fb vs

/-- line of a unit record -/
def SegEnc (D : Dec) : Seg → Str → Prop
  | .recd _ fs, c => Chunk D c fs
  | .text t, c => TextOK t ∧ c = t

/-- lines of a value stream: four values on each line but the last, at most four on the last -/
def Stream (D : Dec) (vals pad : List PyF) (cs : List Str) : Prop :=
  ∃ vss, List.Forall₂ (Chunk D) cs vss ∧ vss.flatten = vals ++ pad ∧
    (∀ vs ∈ vss.dropLast, vs.length = 4) ∧ (∀ vs ∈ vss, vs.length ≤ 4) ∧
    (cs ≠ [] → vss.dropLast.flatten.length < vals.length)

/-- lines behind the header -/
def Body (D : Dec) (r : LRec) (cs : List Str) : Prop :=
  ∃ ps fs, cs = ps ++ fs ∧ List.Forall₂ (SegEnc D) r.pre ps ∧ Stream D r.vals r.pad fs

/-- does a line start with eight blanks? -/
def BlankLed (c : Str) : Prop := ∃ r, c = List.replicate 8 ' ' ++ r

/-- the layouts of skipped records -/
inductive Skippable (D : Dec) (r : LRec) (body : List Str) (next : String) : Prop
  | negative (h0 : PyF) (t : List PyF) : r.head = h0 :: t → h0.ltZero = true →
      h0.eqInt (-5) = false → body = [] → Skippable D r body next
  | minusFive (h0 : PyF) (t : List PyF) (c : Str) (fs : List PyF) : r.head = h0 :: t →
      h0.ltZero = true → h0.eqInt (-5) = true → body = [c] → Chunk D c fs →
      Skippable D r body next
  | text (h0 h1 h2 h3 : PyF) (t : List PyF) (a b : Int) : r.head = h0 :: h1 :: h2 :: h3 :: t →
      h0.ltZero = false → isTD r.name → h2.toInt = .ok a → h3.toInt = .ok b →
      body.length = (a / 100).toNat + (b / 100).toNat → Skippable D r body next
  | blankLed (h0 : PyF) (t : List PyF) : r.head = h0 :: t → h0.ltZero = false → ¬ isTD r.name →
      body ≠ [] → (∀ c ∈ body, BlankLed c) → Skippable D r body next
  | alone (h0 : PyF) (t : List PyF) : r.head = h0 :: t → h0.ltZero = false → ¬ isTD r.name →
      body = [] → next ∈ knownNames → Skippable D r body next
  /-- no continuation records, at the end of the file -/
  | last (h0 : PyF) (t : List PyF) (n : Int) : r.head = h0 :: t → h0.ltZero = false →
      ¬ isTD r.name → body = [] → h0.toInt = .ok n → next = "" → Skippable D r body next

/-- `Encodes D sk z f t`: the text `t` consists of the lines of the records `f` followed by `z`.
The last of the records may be `endMark`; then nothing follows. -/
inductive Encodes (D : Dec) (sk : LRec → Bool) (z : Str) : List LRec → Str → Prop
  | nil : Encodes D sk z [] z
  | eof : z = [] → Encodes D sk z [endMark] []
  | cons {r rs c body t} : Head D r c → Body D r body →
      (sk r = true → ∀ n ∈ rs.head?, Skippable D r body n.name) →
      Encodes D sk z rs t → Encodes D sk z (r :: rs) (unlines (c :: body) ++ t)

end T

end Verif.Seq
