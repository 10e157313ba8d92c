import Verif.Data.ElemResSpec
import Verif.Data.HierSpec
import Verif.Parse.TraceSpec
/-!
# Which model, sets and results a SESAM file describes (specification)

Stated on the logical records of the file: fields `head` and `vals` of the records of each type, in
the order of the file.  `num` says what number a float stands for.  The numbers of the file are
rounded to single precision (`PyF.single`; what that means is specified in `Verif.Single`).
-/

namespace Verif.Data.Load
open Verif Verif.Data Verif.Parse Verif.Seq

variable {K : Type}

/-- The records of a type, up to the end of the file; `block`: the record before is one of them.
Void records count only if they follow a record of the type directly (and the type is not IDENT). -/
def recordsAfter (block : Bool) (name : String) : List LRec → List LRec
  | [] => []
  | r :: rest =>
    if r.name = "IEND" ∧ r.head.head? = some (.rat 0) then []
    else if r.name = name then
      if isVoid r = true ∧ block = false then recordsAfter false name rest
      else r :: recordsAfter (name ≠ "IDENT") name rest
    else recordsAfter false name rest

/-- the records of a type, up to the end of the file -/
def recordsOf (name : String) (f : List LRec) : List LRec := recordsAfter false name f

/-- the number that a field of the file stands for: the field is rounded to single precision -/
def at32 (num : PyF → K) (x : PyF) : K := num x.single

/-- a GNODE record of node `n.1`, the node at position `n.2` (counted from 0) -/
def IsNode (r : LRec) (n : Node K × Nat) : Prop :=
  ∃ a b c d, r.head = [a, b, c, d] ∧ HasInt a n.1.ext ∧ HasInt b ((n.2 : Int) + 1)

/-- a GCOORD record of the node -/
def IsCoord (num : PyF → K) (r : LRec) (n : Node K) : Prop :=
  ∃ a x y z, r.head = [a, x, y, z] ∧ at32 num x = n.pos.x ∧ at32 num y = n.pos.y ∧ at32 num z = n.pos.z

/-- a GELMNT1 record of element `e.1`, the element at position `e.2` (counted from 0) -/
def IsElem (r : LRec) (e : Element × Nat) : Prop :=
  (∃ a b c d, r.head = [a, b, c, d] ∧ HasInt a e.1.ext ∧ HasInt b ((e.2 : Int) + 1) ∧
    HasInt c e.1.typ) ∧
  List.Forall₂ (fun x (n : Nat) => HasInt x n) r.vals e.1.nodes

/-- The file describes the nodes and elements of the mesh; there are some. -/
structure MeshFile (num : PyF → K) (f : List LRec) (m : Mesh K) : Prop where
  nodes : List.Forall₂ IsNode (recordsOf "GNODE" f) m.nodes.zipIdx
  coords : List.Forall₂ (IsCoord num) (recordsOf "GCOORD" f) m.nodes
  elems : List.Forall₂ IsElem (recordsOf "GELMNT1" f) m.elems.zipIdx
  someNode : m.nodes ≠ []
  someElem : m.elems ≠ []

/-- A record that names a number (TDSETNAM, TDLOAD): the name is given in the first `codnam / 100`
lines of text, blanks around each line do not count; names have 64 characters at most. -/
def IsName (r : LRec) (p : Str × Int) : Prop :=
  ∃ a b c d n ns ts ns', r.head = [a, b, c, d] ∧ HasInt b p.2 ∧ HasInt c n ∧
    r.pre = (ns ++ ts).map Seg.text ∧ ns.length = (n / 100).toNat ∧ List.Forall₂ Trim ns ns' ∧
    p.1 = ns'.flatten.take 64

/-- a GSETMEMB record -/
def IsMembers (r : LRec) (s : SetRec) : Prop :=
  ∃ a b c d e mem, r.head = [a, b, c, d] ∧ r.vals = e :: mem ∧ HasInt b s.id ∧ HasInt d s.kind ∧
    List.Forall₂ (fun x (n : Nat) => HasInt x n) mem s.members

/-- The file describes the sets of the mesh; there are some. -/
structure SetsFile (f : List LRec) (m : Mesh K) : Prop where
  names : List.Forall₂ IsName (recordsOf "TDSETNAM" f) m.names
  sets : List.Forall₂ IsMembers (recordsOf "GSETMEMB" f) m.sets
  someName : m.names ≠ []
  someSet : m.sets ≠ []

/-- an RDRESREF record -/
def IsRef (r : LRec) (x : ResRef) : Prop :=
  ∃ a b c d e g h more, r.head = [a, b, c, d] ∧ r.vals = e :: g :: h :: more ∧ HasInt b x.ires ∧
    HasInt c x.irno ∧ HasInt d x.ieres ∧ HasInt g x.icompl

/-- a record of node results: result case, number of the node, values -/
def IsNodeRes (num : PyF → K) (r : LRec) (x : Int × Nat × List (Num K)) : Prop :=
  ∃ a b c d e vals, r.head = [a, b, c, d] ∧ r.vals = e :: vals ∧ HasInt b x.1 ∧
    HasInt c (x.2.1 : Int) ∧ vals.map (at32 num) = x.2.2.flatMap raw

/-- the record type of each type of node results -/
inductive NodeResType : String → String → Prop
  | displacement : NodeResType "displacement" "RVNODDIS"
  | velocity : NodeResType "velocity" "RVNODVEL"
  | acceleration : NodeResType "acceleration" "RVNODACC"

/-- The file has the node results `rs` of a type. -/
structure NodeResFile (num : PyF → K) (f : List LRec) (m : Mesh K) (restype : String)
    (rs : List (CaseRes K)) : Prop where
  table : ∃ name, NodeResType restype name ∧
    List.Forall₂ (IsNodeRes num) (recordsOf name f) (records rs)
  complete : ∀ c ∈ rs, c.values.length = m.nodes.length ∧ ∀ v ∈ c.values, v.length = 6
  distinct : (rs.map CaseRes.ires).Nodup
  someRecord : records rs ≠ []

/-- a record of node results whatever it holds -/
def IsNodeRec (num : PyF → K) (r : LRec) (x : NodeRec K) : Prop :=
  ∃ a b c d e vals, r.head = [a, b, c, d] ∧ r.vals = e :: vals ∧ HasInt b x.ires ∧
    HasInt c (x.node : Int) ∧ vals.map (at32 num) = x.values

/-- The file has the records of node results `recs` of a type. -/
def NodeRecFile (num : PyF → K) (f : List LRec) (restype : String) (recs : List (NodeRec K)) : Prop :=
  recs ≠ [] ∧ ∃ name, NodeResType restype name ∧
    List.Forall₂ (IsNodeRec num) (recordsOf name f) recs

/-- a record of element results -/
def IsElemRes {V : Type} (num : PyF → K) (stored : V → List K) (r : LRec) (x : ElemRec V) : Prop :=
  ∃ a b c d e vals, r.head = [a, b, c, d] ∧ r.vals = e :: vals ∧ HasInt b x.ires ∧
    HasInt c (x.elem : Int) ∧ HasInt e x.typ ∧ vals.map (at32 num) = x.values.flatMap stored

/-- the record type of each type of element results, and the kind of elements that have it -/
inductive ElemResType : String → String → String → Prop
  | beamforce : ElemResType "beamforce" "RVFORCES" "beam"
  | generalstress : ElemResType "generalstress" "RVSTRESS" "shell"
  | decomposedstress : ElemResType "decomposedstress" "RVSTRESS" "shell"

/-- The file has the records of element results `recs`. -/
def ElemResFile {V : Type} (num : PyF → K) (f : List LRec) (restype kind : String)
    (stored : V → List K) (recs : List (ElemRec V)) : Prop :=
  recs ≠ [] ∧ ∃ name, ElemResType restype name kind ∧
    List.Forall₂ (IsElemRes num stored) (recordsOf name f) recs

/-- a GELREF1 record: the geometry of the element -/
def IsGeo (r : LRec) (geo : Int) : Prop :=
  ∃ rec2 x0 x1 x2 x3, r.pre = [.recd 8 rec2, .recd 8 [x0, x1, x2, x3]] ∧ HasInt x0 geo

/-- a GBEAMG record: number of the geometry, 15 cross section properties (in the last record of a
formatted file that ends too early, those that are missing are zero) -/
def IsBeam (num : PyF → K) (r : LRec) (x : Int × List K) : Prop :=
  ∃ a b c d, r.head = [a, b, c, d] ∧ HasInt a x.1 ∧
    (fit 15 (b :: c :: d :: r.vals)).map (at32 num) = x.2

/-- a GELTH record: number of the geometry, thickness -/
def IsThick (num : PyF → K) (r : LRec) (x : Int × K) : Prop :=
  ∃ a b c d, r.head = [a, b, c, d] ∧ HasInt a x.1 ∧ at32 num b = x.2

/-- an RSUPTRAN or HSUPTRAN record: number and elements of the matrix, row by row -/
def IsTran (num : PyF → K) (r : LRec) (x : TranRow K) : Prop :=
  ∃ a b c d, r.head = [a, b, c, d] ∧ HasInt b x.itref ∧
    ∀ i j : Fin 4, ((c :: d :: r.vals)[4 * i.val + j.val]?).map (at32 num) = some (x.t i j)

/-- a HIERARCH record -/
def IsHier (r : LRec) (x : HierRow) : Prop :=
  ∃ a b c d e f g h, r.head = [a, b, c, d] ∧ (∃ more, r.vals = e :: f :: g :: h :: more) ∧
    HasInt b x.ihref ∧ HasInt c x.iselty ∧ HasInt d x.indsel ∧ HasInt e x.islevl ∧
    HasInt f x.itref ∧ HasInt g x.ihpref

/-- the records of a type describe the rows of a table: there is no table if there are none -/
def Describes {α : Type} (R : LRec → α → Prop) (recs : List LRec) : Option (List α) → Prop
  | none => recs = []
  | some xs => xs ≠ [] ∧ List.Forall₂ R recs xs

/-- The data object has what the file describes, and only that: model, sets, result cases, results,
sections, names of load cases, transformations. -/
structure Reads (num : PyF → K) (f : List LRec) (d : Struc K) : Prop where
  mesh : ∀ m, MeshFile num f m → Holds d m
  sets : ∀ m, SetsFile f m → HoldsSets d m
  noSets : recordsOf "TDSETNAM" f = [] → d.tdsetnam = none
  refs : ∀ o, Describes IsRef (recordsOf "RDRESREF" f) o → d.rdresref = o
  nodeRes : ∀ m restype rs, NodeResFile num f m restype rs → HoldsRes d m restype rs
  nodeRecs : ∀ restype recs, NodeRecFile num f restype recs → HoldsNodeRecs d restype recs
  elemRes : ∀ (V : Type) restype kind (stored : V → List K) recs,
    ElemResFile num f restype kind stored recs → HoldsElemRes d restype kind stored recs
  geo : ∀ o, Describes IsGeo (recordsOf "GELREF1" f) o → d.gelref1 = o
  beams : ∀ o, Describes (IsBeam num) (recordsOf "GBEAMG" f) o → d.gbeamg = o
  thick : ∀ o, Describes (IsThick num) (recordsOf "GELTH" f) o → d.gelth = o
  tran : ∀ o, Describes (IsTran num) (recordsOf "RSUPTRAN" f) o → d.rsuptran = o
  loads : ∀ o, Describes (fun r (b : NameRow) => IsName r (b.name, b.idno))
    (recordsOf "TDLOAD" f) o → d.tdload = o

/-- what the object of a top level group has -/
structure ReadsTop (num : PyF → K) (f : List LRec) (d : Top K) : Prop where
  hier : ∀ o, Describes IsHier (recordsOf "HIERARCH" f) o → d.hierarch = o
  tran : ∀ o, Describes (IsTran num) (recordsOf "HSUPTRAN" f) o → d.hsuptran = o

end Verif.Data.Load
