import Verif.Data.Struc
/-!
# Superelement hierarchies (specification)
-/

namespace Verif.Data
open Verif

variable {K : Type}

/-- the first row with a property -/
def FirstRow {β : Type} (rows : List β) (p : β → Prop) (r : β) : Prop :=
  ∃ a b, rows = a ++ r :: b ∧ p r ∧ ∀ x ∈ a, ¬ p x

/-- `p` is the parent of `r` in the hierarchy -/
def Parent (hier : List HierRow) (r p : HierRow) : Prop := FirstRow hier (fun x => x.ihref = r.ihpref) p

/-- `t` is the transformation from the superelement `r` to its parent -/
def TransOf (trans : List (TranRow K)) (r : HierRow) (t : Mat4 K) : Prop :=
  ∃ x, FirstRow trans (fun x => x.itref = r.itref) x ∧ x.t = t

/-- The product of the transformations on the way from a superelement up to its ancestor on a
level (row vectors are multiplied from the left: the transformation of the superelement comes
first). -/
inductive Up [Semiring K] (hier : List HierRow) (trans : List (TranRow K)) (level : Int) :
    HierRow → Mat4 K → Prop
  | here {r} : r.islevl = level → Up hier trans level r 1
  | step {r p t m} : r.islevl < level → TransOf trans r t → Parent hier r p →
      Up hier trans level p m → Up hier trans level r (t * m)

/-- the way up goes past a level -/
inductive Skips (hier : List HierRow) (level : Int) : HierRow → Prop
  | over {r p} : r.islevl < level → Parent hier r p → p.islevl > level → Skips hier level r
  | up {r p} : r.islevl < level → Parent hier r p → Skips hier level p → Skips hier level r

/-- A hierarchy with top level `top`: each superelement below it has a parent on a higher level
and a transformation; nothing is above the top level.  (The reference 0 means: no parent.) -/
structure WellFormed (hier : List HierRow) (trans : List (TranRow K)) (top : Int) : Prop where
  parent : ∀ r ∈ hier, r.islevl < top → r.ihpref ≠ 0 ∧ ∃ p, Parent hier r p ∧ r.islevl < p.islevl
  tran : ∀ r ∈ hier, r.islevl < top → ∃ t, TransOf trans r t
  le : ∀ r ∈ hier, r.islevl ≤ top

end Verif.Data
