import Verif.Data.ElemSpec
import Verif.Data.ResSpec
/-!
# Element results on the file (specification)
-/

namespace Verif.Data
open Verif

variable {K V : Type}

/-- a record of element results: result case, number of the element, type of the element, values -/
structure ElemRec (V : Type) where
  ires : Int
  elem : Nat
  typ : Int
  values : List V

/-- the table of each type of result, and the kind of elements that have it -/
inductive ElemTable (d : Struc K) : String → Option (List ElemRes × List K) → String → Prop
  | beamforce : ElemTable d "beamforce" d.rvforces "beam"
  | generalstress : ElemTable d "generalstress" d.rvstress "shell"
  | decomposedstress : ElemTable d "decomposedstress" d.rvstress "shell"

/-- A data object holds records of element results; `stored`: the numbers that a value is stored
as. -/
def HoldsElemRes (d : Struc K) (restype kind : String) (stored : V → List K) (recs : List (ElemRec V)) :
    Prop :=
  ∃ rows arr, ElemTable d restype (some (rows, arr)) kind ∧
    List.Forall₂ (fun (e : ElemRec V) (r : ElemRes) => r.ires = e.ires ∧ r.iielno = e.elem ∧
      r.ir = e.typ ∧ Part arr r.start r.stop (e.values.flatMap stored)) recs rows

/-- real values -/
def storedReal (x : K) : List K := [x]

/-- complex values: real and imaginary part -/
def storedComplex (p : K × K) : List K := [p.1, p.2]

/-- those with a property, in order -/
inductive Kept {α : Type} (P : α → Prop) : List α → List α → Prop
  | nil : Kept P [] []
  | keep {a l k} : P a → Kept P l k → Kept P (a :: l) (a :: k)
  | drop {a l k} : ¬ P a → Kept P l k → Kept P (a :: l) k

/-- the record is of a wanted result case and of one of the elements at the positions `es` -/
def Concerns (refs : List ResRef) (run : Int) (rescases : CasesArg) (es : List Nat) (e : ElemRec V) :
    Prop :=
  (∃ r, Wanted refs run rescases r ∧ r.ires = e.ires) ∧ ∃ i ∈ es, e.elem = i + 1

/-- the distinct internal numbers of the wanted result cases -/
def CaseNumbers (refs : List ResRef) (run : Int) (rescases : CasesArg) (cs : List Int) : Prop :=
  cs.Nodup ∧ ∀ c, c ∈ cs ↔ ∃ r, Wanted refs run rescases r ∧ r.ires = c

/-- number of values of a record for each type of element -/
def valuesOf : Int → Option Nat
  | 15 => some 18
  | 23 => some 12
  | 24 => some 30
  | 25 => some 24
  | 26 => some 30
  | 28 => some 40
  | _ => none

/-- the sizes of the axes of the results at a node: components, or surfaces and components -/
def dimsOf : String → Int → Option (List Nat)
  | "beamforce", 15 => some [6]
  | "beamforce", 23 => some [6]
  | "generalstress", 24 => some [2, 3]
  | "generalstress", 25 => some [2, 3]
  | "generalstress", 26 => some [2, 5]
  | "generalstress", 28 => some [2, 5]
  | "decomposedstress", 24 => some [6]
  | "decomposedstress", 25 => some [6]
  | "decomposedstress", 26 => some [8]
  | "decomposedstress", 28 => some [8]
  | _, _ => none

/-- the records of one result case: one record for each of the elements at the positions `es`, in
order, of the type of the element and with the right number of values -/
def LinesUp (m : Mesh K) (es : List Nat) (recs : List (ElemRec V)) : Prop :=
  List.Forall₂ (fun i r => r.elem = i + 1 ∧ valuesOf r.typ = some r.values.length ∧
    ∃ e, m.elems[i]? = some e ∧ r.typ = e.typ) es recs

end Verif.Data
