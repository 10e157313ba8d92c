import Verif.Data.Elem
/-!
# Positions of results in elements (specification)

Natural coordinates of the result points on the file and of the nodes, in their order.
-/

namespace Verif.Data
open Verif

variable {K V : Type} [Field K] [AddCommGroup V] [Module K V]

/-- result points of the 8-node quadrilateral: 2 x 2 Gauss points, `g = 1/√3` -/
def quadPoints (g : K) : List (K × K) := [(-g, -g), (g, -g), (-g, g), (g, g)]

/-- nodes of the 8-node quadrilateral: around the element, corners and midsides in turn -/
def quadNodes : List (K × K) :=
  [(-1, -1), (0, -1), (1, -1), (1, 0), (1, 1), (0, 1), (-1, 1), (-1, 0)]

/-- result points of the 6-node triangle, in area coordinates -/
def triPoints : List (K × K × K) := [(2/3, 1/6, 1/6), (1/6, 2/3, 1/6), (1/6, 1/6, 2/3)]

/-- nodes of the 6-node triangle: around the element, corners and midsides in turn -/
def triNodes : List (K × K × K) :=
  [(1, 0, 0), (1/2, 1/2, 0), (0, 1, 0), (0, 1/2, 1/2), (0, 0, 1), (1/2, 0, 1/2)]

/-- result points of the 3-node beam -/
def beamPoints (g : K) : List K := [-g, g]

/-- nodes of the 3-node beam -/
def beamNodes : List K := [-1, 0, 1]

/-- a bilinear field -/
def bilinear (c0 c1 c2 c3 : V) (q : K × K) : V := c0 + q.1 • c1 + q.2 • c2 + (q.1 * q.2) • c3

/-- a linear field on a triangle -/
def linear3 (c0 c1 c2 : V) (q : K × K × K) : V := q.1 • c0 + q.2.1 • c1 + q.2.2 • c2

def IsBilinear (f : K × K → V) : Prop := ∃ c0 c1 c2 c3, ∀ q, f q = bilinear c0 c1 c2 c3 q

def IsLinear3 (f : K × K × K → V) : Prop := ∃ c0 c1 c2, ∀ q, f q = linear3 c0 c1 c2 q

/-- the number of nodes of each supported element type -/
def nodesOf : Int → Option Nat
  | 15 => some 2
  | 23 => some 3
  | 24 => some 4
  | 25 => some 3
  | 26 => some 6
  | 28 => some 8
  | _ => none

/-- the stresses `g` of a point (lower surface, then upper surface from `m`) are membrane minus and
plus bending stress of `r` -/
def Recombines (m : Nat) (g r : List V) : Prop :=
  ∀ c, c < 3 → ∃ mem ben, r[c]? = some mem ∧ r[3 + c]? = some ben ∧
    g[m + c]? = some (mem + ben) ∧ g[c]? = some (mem - ben)

end Verif.Data
