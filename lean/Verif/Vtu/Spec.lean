import Verif.Vtu.Model

/-!
# Specification of the VTU output

An XML document is a tree; `render` is its text with two blanks of indentation per level.  The
document a history of calls stands for is computed by `docStep`, which knows nothing of the
writer's flags, stack or output.
-/

namespace Verif.Vtu

/-- an XML element with attributes and children, or a line of text -/
inductive Xml
  | elem (tag : Str) (attrs : List (Str × Str)) (children : List Xml)
  | text (t : Str)

/-- indentation: two blanks per level -/
def blanks (d : Nat) : Str := List.replicate (2 * d) ' '

/-- ` key="value"` for every attribute -/
def attrText (attrs : List (Str × Str)) : Str :=
  attrs.flatMap fun kv => " ".toList ++ kv.1 ++ "=\"".toList ++ kv.2 ++ "\"".toList

/-- start tag on a line of its own -/
def startTag (d : Nat) (tag : Str) (attrs : List (Str × Str)) : Str :=
  blanks d ++ "<".toList ++ tag ++ attrText attrs ++ ">\n".toList

/-- end tag on a line of its own -/
def endTag (d : Nat) (tag : Str) : Str := blanks d ++ "</".toList ++ tag ++ ">\n".toList

mutual
/-- text of an element at nesting depth `d` -/
def render (d : Nat) : Xml → Str
  | .elem tag attrs ch => startTag d tag attrs ++ renderAll (d + 1) ch ++ endTag d tag
  | .text t => blanks d ++ t ++ "\n".toList
def renderAll (d : Nat) : List Xml → Str
  | [] => []
  | x :: xs => render d x ++ renderAll d xs
end

/-! ### base64 decoding and little endian numbers -/

/-- value of a base64 digit -/
def b64val (c : Char) : Option Nat :=
  if 'A' ≤ c ∧ c ≤ 'Z' then some (c.toNat - 65)
  else if 'a' ≤ c ∧ c ≤ 'z' then some (c.toNat - 97 + 26)
  else if '0' ≤ c ∧ c ≤ '9' then some (c.toNat - 48 + 52)
  else if c = '+' then some 62
  else if c = '/' then some 63
  else none

/-- RFC 4648 decoding (strict: groups of four, padding only at the end) -/
def b64decode : Str → Option (List Byte)
  | [] => some []
  | [a, b, '=', '='] => do
    let n := (← b64val a) * 64 + (← b64val b)
    if n % 16 = 0 then some [UInt8.ofNat (n / 16)] else none
  | [a, b, c, '='] => do
    let n := (← b64val a) * 4096 + (← b64val b) * 64 + (← b64val c)
    if n % 4 = 0 then some [UInt8.ofNat (n / 1024), UInt8.ofNat (n / 4 % 256)] else none
  | a :: b :: c :: d :: rest => do
    let n := (← b64val a) * 262144 + (← b64val b) * 4096 + (← b64val c) * 64 + (← b64val d)
    let bs ← b64decode rest
    some (UInt8.ofNat (n / 65536) :: UInt8.ofNat (n / 256 % 256) :: UInt8.ofNat (n % 256) :: bs)
  | _ => none

/-- number with the given bytes, least significant first -/
def leVal : List Byte → Nat
  | [] => 0
  | b :: bs => b.toNat + 256 * leVal bs

/-! ### tables -/

/-- VTK names of the numpy data types -/
def vtkNames : List (String × String) :=
  [("int8", "Int8"), ("uint8", "UInt8"), ("int16", "Int16"), ("uint16", "UInt16"),
   ("int32", "Int32"), ("uint32", "UInt32"), ("int64", "Int64"), ("uint64", "UInt64"),
   ("float32", "Float32"), ("float64", "Float64")]

/-- VTK cell type of the SESAM element types: line, quadratic edge, quad, triangle, quadratic
triangle, quadratic quad -/
def vtkCellTypes : List (Nat × Nat) := [(15, 3), (23, 21), (24, 9), (25, 5), (26, 22), (28, 23)]

/-- a named array as handed to the writer -/
structure DataArr where
  arr : Arr
  name : Str
  comps : List Str

inductive Kind | point | cell
deriving DecidableEq

/-- a `PointData` or `CellData` section -/
structure Section where
  kind : Kind
  arrays : List DataArr

/-- a piece: points, connectivity and VTK type ids in VTK order, offsets and SESAM types,
and its sections -/
structure Piece where
  points : Arr
  con : Arr
  offsets : IArr
  types : IArr
  vtkTypes : IArr
  sections : List Section

abbrev Doc := List Piece

/-- number of components: 1 for a 1d array, number of columns for a 2d array -/
def ncomp (a : Arr) : Option Nat :=
  match a.tail with
  | [] => some 1
  | [n] => some n
  | _ => none

/-- shape and content fit together -/
def Arr.WF (a : Arr) : Prop := ∀ r ∈ a.rows, r.length = a.tail.prod * a.itemsize

/-- number of bytes according to shape and item size -/
def Arr.nbytes (a : Arr) : Nat := (a.rows.length * a.tail.prod) * a.itemsize

/-- what can be written: at most 2d, a VTK data type, less than 2^64 bytes -/
def Writable (a : Arr) : Prop :=
  a.tail.length ≤ 1 ∧ (∃ vt, (a.dtype, vt) ∈ vtkNames) ∧ a.nbytes < 2 ^ 64

/-- The `DataArray` element of an array: type, name and component attributes, and a text that
decodes to an 8 byte little endian byte count followed by the raw bytes.  (A relation, so that
nothing is said about arrays that cannot be written.) -/
inductive DataXml : DataArr → Xml → Prop
  | mk (d : DataArr) (nc : Nat) (vt : String) (t : Str) (hdr : List Byte)
      (hn : ncomp d.arr = some nc)
      (hv : (d.arr.dtype, vt) ∈ vtkNames)
      (ht : b64decode t = some (hdr ++ d.arr.rows.flatten))
      (hl : hdr.length = 8) (hh : leVal hdr = d.arr.nbytes) :
      DataXml d (.elem "DataArray".toList
        ([("type".toList, vt.toList), ("Name".toList, d.name),
          ("NumberOfComponents".toList, natStr nc), ("format".toList, "binary".toList)]
          ++ d.comps.zipIdx.map fun (c, i) => ("ComponentName".toList ++ natStr i, c))
        [.text t])

def Kind.tag : Kind → Str
  | .point => "PointData".toList
  | .cell => "CellData".toList

inductive SectionXml : Section → Xml → Prop
  | mk (s : Section) (xs : List Xml) (h : List.Forall₂ DataXml s.arrays xs) :
      SectionXml s (.elem s.kind.tag [] xs)

inductive PieceXml : Piece → Xml → Prop
  | mk (p : Piece) (x1 x2 x3 x4 : Xml) (xs : List Xml)
      (h1 : DataXml ⟨p.points, "points".toList, []⟩ x1)
      (h2 : DataXml ⟨p.con, "connectivity".toList, []⟩ x2)
      (h3 : DataXml ⟨p.offsets.toArr, "offsets".toList, []⟩ x3)
      (h4 : DataXml ⟨p.vtkTypes.toArr, "types".toList, []⟩ x4)
      (h : List.Forall₂ SectionXml p.sections xs) :
      PieceXml p (.elem "Piece".toList
        [("NumberOfPoints".toList, natStr p.points.rows.length),
         ("NumberOfCells".toList, natStr p.offsets.vals.length)]
        (.elem "Points".toList [] [x1] :: .elem "Cells".toList [] [x2, x3, x4] :: xs))

/-- the whole document: VTKFile > UnstructuredGrid > Piece* -/
inductive DocXml : Doc → Xml → Prop
  | mk (d : Doc) (xs : List Xml) (h : List.Forall₂ PieceXml d xs) :
      DocXml d (.elem "VTKFile".toList
        [("type".toList, "UnstructuredGrid".toList), ("version".toList, "1.0".toList),
         ("byte_order".toList, "LittleEndian".toList), ("header_type".toList, "UInt64".toList)]
        [.elem "UnstructuredGrid".toList [] xs])

/-- the effect of a call on the document -/
inductive DocStep : Doc → Call → Doc → Prop
  | newPiece (d : Doc) (p c : Arr) (o t : IArr) (rows : List (List Byte)) (vt : List Nat)
      (hr : reorderData conTable c.rows 0 o.vals t.vals = (rows, none))
      (ht : List.Forall₂ (fun a b => (a, b) ∈ vtkCellTypes) t.vals vt) :
      DocStep d (.newPiece p c o t)
        (d ++ [⟨p, { c with rows := rows }, o, t, ⟨"int64", 8, vt⟩, []⟩])
  | startPoint (d : Doc) (p : Piece) :
      DocStep (d ++ [p]) .startPointdata
        (d ++ [{ p with sections := p.sections ++ [⟨.point, []⟩] }])
  | startCell (d : Doc) (p : Piece) :
      DocStep (d ++ [p]) .startCelldata
        (d ++ [{ p with sections := p.sections ++ [⟨.cell, []⟩] }])
  | addData (d : Doc) (p : Piece) (ss : List Section) (s : Section) (a : Arr) (n : Str)
      (cs : List Str) (h : p.sections = ss ++ [s]) :
      DocStep (d ++ [p]) (.addData a n cs)
        (d ++ [{ p with sections := ss ++ [⟨s.kind, s.arrays ++ [⟨a, n, cs⟩]⟩] }])
  | addCellpoints (d : Doc) (p : Piece) (ss : List Section) (s : Section) (a : Arr) (n : Str)
      (cs : List Str) (rows : List (List Byte)) (h : p.sections = ss ++ [s])
      (hr : reorderData resTable a.rows 0 p.offsets.vals p.types.vals = (rows, none)) :
      DocStep (d ++ [p]) (.addDataCellpoints a n cs)
        (d ++ [{ p with sections :=
          ss ++ [⟨s.kind, s.arrays ++ [⟨{ a with rows := rows }, n, cs⟩]⟩] }])
  | close (d : Doc) : DocStep d .close d

/-- effects of several calls -/
inductive DocSteps : Doc → List Call → Doc → Prop
  | nil (d : Doc) : DocSteps d [] d
  | cons {d d' d'' : Doc} {c : Call} {cs : List Call} (h : DocStep d c d')
      (hs : DocSteps d' cs d'') : DocSteps d (c :: cs) d''

/-- a run of the writer: the outcome of every call (exceptions are caught by the caller, who goes
on with the next call) and the final state -/
def outcomes : St → List Call → List (Call × Option Err) × St
  | s, [] => ([], s)
  | s, c :: cs =>
    let r := c.run s
    let rest := outcomes r.1 cs
    ((c, r.2) :: rest.1, rest.2)

/-- calls other than `new_piece` and `close` -/
def Call.isSmall : Call → Bool
  | .newPiece .. => false
  | .close => false
  | _ => true

end Verif.Vtu
