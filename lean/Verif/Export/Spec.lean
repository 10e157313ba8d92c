import Verif.Export.Model
import Verif.Vtu.Props
import Verif.Data.ElemResSpec
/-!
# What a VTU file shows of a mesh (specification)
-/

namespace Verif.Export
open Verif Verif.Vtu Verif.Data

variable {K : Type}

/-- numbers of the data type are written with their own number of bytes, under a VTK name -/
structure Enc.Ok (e : Enc K) : Prop where
  vtk : ∃ vt, (e.dtype, vt) ∈ vtkNames
  len : ∀ x, (e.bytes x).length = e.itemsize
  size : e.itemsize ≤ 8

/-- an integer type with a VTK name -/
structure IntType.Ok (t : IntType) : Prop where
  vtk : ∃ vt, (t.dtype, vt) ∈ vtkNames
  size : t.itemsize ≤ 8

/-- the bytes of a position -/
def Enc.pos (e : Enc K) (p : XYZ K) : List Byte := e.bytes p.x ++ e.bytes p.y ++ e.bytes p.z

/-- the numbers in an array of integers, little endian -/
def numbers (a : Arr) : List Nat := a.rows.map leVal

/-- The piece shows the elements `els` of a mesh on the nodes `ns` (positions in the mesh):
the points are the positions of these nodes; there is one cell for each element, of the VTK type
for its SESAM type, and the points of the cell are those of the nodes of the element, in VTK
order. -/
structure Shows (e : Enc K) (m : Mesh K) (els : List Element) (ns : List Nat) (p : Piece) : Prop where
  points : List.Forall₂ (fun n row => ∃ node, m.nodes[n]? = some node ∧ row = e.pos node.pos) ns
    p.points.rows
  types : List.Forall₂ (fun (el : Element) v => ∃ t : Nat, el.typ = t ∧ (t, v) ∈ vtkCellTypes) els
    (numbers p.vtkTypes.toArr)
  cells : ∃ blocks : List (List Nat), numbers p.con = blocks.flatten ∧
    numbers p.offsets.toArr = ends 0 blocks ∧
    List.Forall₂ (fun (el : Element) b => List.Forall₂ (fun (k n : Nat) =>
      (ns[k]?).map (· + 1) = some n) b (vtkOrder el.typ.toNat el.nodes)) els blocks

/-- The file with text `out` is the XML text of a document with the single piece `p`. -/
def Holds1 (out : Vtu.Str) (p : Piece) : Prop := ∃ x, DocXml [p] x ∧ out = render 0 x

/-- The calls return normally, one after the other, on a new writer, and so does `close()`; the
file then has the text `out`. -/
def Written (calls : List Call) (out : Vtu.Str) : Prop :=
  (∀ r ∈ (outcomes init.1 calls).1, r.2 = none) ∧
    ∃ s, close (outcomes init.1 calls).2 = (s, none) ∧ s.out = out

end Verif.Export
