import Verif.Data.Spec
/-!
# What the tables of results hold (specification)
-/

namespace Verif.Data
open Verif
open Verif.Seq (Str)

variable {K : Type}

/-- the node results of one result case: its internal number and the values of each node -/
structure CaseRes (K : Type) where
  ires : Int
  values : List (List (Num K))

/-- a value as it is stored -/
def raw : Num K → List K
  | .re x => [x]
  | .cx x y => [x, y]

/-- a value of a real (flag 0) or complex result case -/
def OfKind (flag : Int) (v : Num K) : Prop :=
  (flag = 0 ∧ ∃ x, v = .re x) ∨ (flag ≠ 0 ∧ ∃ x y, v = .cx x y)

/-- the records in the order of the file: result case by result case, node by node.
(Case, number of the node, values.) -/
def records (rs : List (CaseRes K)) : List (Int × Nat × List (Num K)) :=
  rs.flatMap fun c => c.values.zipIdx.map fun p => (c.ires, p.2 + 1, p.1)

/-- the table of each type of result -/
inductive ResTable (d : Struc K) : String → Option (List NodeRes × List K) → Prop
  | displacement : ResTable d "displacement" d.rvnoddis
  | velocity : ResTable d "velocity" d.rvnodvel
  | acceleration : ResTable d "acceleration" d.rvnodacc

/-- a data object holds node results: all nodes of each result case, six values each -/
structure HoldsRes (d : Struc K) (m : Mesh K) (restype : String) (rs : List (CaseRes K)) : Prop where
  table : ∃ rows arr, ResTable d restype (some (rows, arr)) ∧
    List.Forall₂ (fun (e : Int × Nat × List (Num K)) (r : NodeRes) => r.ires = e.1 ∧
      r.iinod = e.2.1 ∧ Part arr r.start r.stop (e.2.2.flatMap raw)) (records rs) rows
  complete : ∀ c ∈ rs, c.values.length = m.nodes.length ∧ ∀ v ∈ c.values, v.length = 6
  distinct : (rs.map CaseRes.ires).Nodup

/-- the result cases that `run` and `rescases` ask for -/
def Wanted (refs : List ResRef) (run : Int) (rescases : CasesArg) (r : ResRef) : Prop :=
  r ∈ refs ∧ r.irno = run ∧
    (rescases = .all ∨ rescases = .one r.ieres ∨ ∃ l, rescases = .many l ∧ r.ieres ∈ l)

/-- the wanted ones of the result cases, in the order of the file -/
def Picked (refs : List ResRef) (run : Int) (rescases : CasesArg) (rs picked : List (CaseRes K)) :
    Prop :=
  picked.Sublist rs ∧
    ∀ c ∈ rs, c ∈ picked ↔ ∃ r, Wanted refs run rescases r ∧ r.ires = c.ires

/-- the values of the nodes `ns`, row by row -/
def RowsOf (c : CaseRes K) (ns : List Nat) (rows : List (List (Num K))) : Prop :=
  List.Forall₂ (fun n v => c.values[n]? = some v) ns rows

/-- a record of node results whatever it holds: result case, number of the node, the numbers stored -/
structure NodeRec (K : Type) where
  ires : Int
  node : Nat
  values : List K

/-- a data object holds records of node results, complete or not, in any order -/
def HoldsNodeRecs (d : Struc K) (restype : String) (recs : List (NodeRec K)) : Prop :=
  ∃ rows arr, ResTable d restype (some (rows, arr)) ∧
    List.Forall₂ (fun (e : NodeRec K) (r : NodeRes) => r.ires = e.ires ∧ r.iinod = e.node ∧
      Part arr r.start r.stop e.values) recs rows

/-- the record is of a wanted result case and of one of the nodes at the positions `ns` -/
def ConcernsNode (refs : List ResRef) (run : Int) (rescases : CasesArg) (ns : List Nat)
    (e : NodeRec K) : Prop :=
  (∃ r, Wanted refs run rescases r ∧ r.ires = e.ires) ∧ ∃ n ∈ ns, e.node = n + 1

/-- the numbers stored, as real (flag 0) or complex values -/
def Numbers (flag : Int) (xs : List K) (vs : List (Num K)) : Prop :=
  vs.flatMap raw = xs ∧ ∀ v ∈ vs, OfKind flag v

/-- the values one after the other, cut into `n` arrays of the same number of rows of six -/
def CutSix {β : Type} (n : Nat) (vs : List β) (arrs : List (List (List β))) : Prop :=
  arrs.length = n ∧ arrs.flatten.flatten = vs ∧ (∃ p, ∀ a ∈ arrs, a.length = p) ∧
    ∀ a ∈ arrs, ∀ r ∈ a, r.length = 6

end Verif.Data
