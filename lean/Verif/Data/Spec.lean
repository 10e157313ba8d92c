import Verif.Data.Struc
/-!
# What a structural data object holds, and which part of it a selection means (specification)

A mesh: nodes, elements with the numbers of their nodes, named sets.  Nodes and elements are
numbered 1, 2, ... in the order of the file (Sesam's internal numbers).
-/

namespace Verif.Data
open Verif
open Verif.Seq (Str)

/-- a node: external number, position -/
structure Node (K : Type) where
  ext : Int
  pos : XYZ K

/-- an element: external number, type, internal numbers of its nodes -/
structure Element where
  ext : Int
  typ : Int
  nodes : List Nat

/-- a set record: number of the set, kind of the members (2: elements), numbers of the members -/
structure SetRec where
  id : Int
  kind : Int
  members : List Nat

/-- a finite element model with named sets (name and number of each set) -/
structure Mesh (K : Type) where
  nodes : List (Node K)
  elems : List Element
  names : List (Str × Int) := []
  sets : List SetRec := []

variable {K : Type}

/-- The rows of the element table: numbered consecutively, each with its own part of the array of
node numbers, one part after the other.  `n`: number of the first element, `s`: start of its
part. -/
inductive ElemRows : Nat → Nat → List Element → List ElemRow → Prop
  | nil {n s} : ElemRows n s [] []
  | cons {n s : Nat} {e es rs} : ElemRows (n + 1) (s + e.nodes.length) es rs →
      ElemRows n s (e :: es)
        (⟨e.ext, n, e.typ, s, (s + e.nodes.length : Nat)⟩ :: rs)

/-- rows of the node table: numbered consecutively -/
inductive NodeRows : Nat → List (Node K) → List NodeRow → Prop
  | nil {n} : NodeRows n [] []
  | cons {n : Nat} {a as rs} : NodeRows (n + 1) as rs → NodeRows n (a :: as) (⟨a.ext, n⟩ :: rs)

/-- the part of an array that a row refers to -/
def Part {β : Type} (arr : List β) (start stop : Int) (items : List β) : Prop :=
  ∃ a b : Nat, start = a ∧ stop = b ∧ a ≤ b ∧ b ≤ arr.length ∧ (arr.drop a).take (b - a) = items

/-- a data object holds the nodes and elements of a mesh -/
structure Holds (d : Struc K) (m : Mesh K) : Prop where
  isOpen : d.isOpen = true
  nodes : ∃ rows, d.gnode = some rows ∧ NodeRows 1 m.nodes rows
  coords : d.gcoord = some (m.nodes.map Node.pos)
  elems : ∃ rows, d.gelmnt1 = some (rows, (m.elems.flatMap Element.nodes).map fun n : Nat => (n : Int)) ∧
    ElemRows 1 0 m.elems rows

/-- a data object holds the sets of a mesh -/
structure HoldsSets (d : Struc K) (m : Mesh K) : Prop where
  names : d.tdsetnam = some (m.names.map fun p => ⟨p.2, p.1⟩)
  sets : ∃ rows arr, d.gsetmemb = some (rows, arr) ∧
    List.Forall₂ (fun (s : SetRec) (r : MembRow) => r.isref = s.id ∧ r.istype = s.kind ∧
      Part arr r.start r.stop (s.members.map fun n : Nat => (n : Int))) m.sets rows

/-- every element has nodes, all of them in the mesh; element sets have elements of the mesh -/
structure Valid (m : Mesh K) : Prop where
  nodes : ∀ e ∈ m.elems, e.nodes ≠ [] ∧ ∀ n ∈ e.nodes, 1 ≤ n ∧ n ≤ m.nodes.length
  sets : ∀ s ∈ m.sets, s.kind = 2 → ∀ n ∈ s.members, 1 ≤ n ∧ n ≤ m.elems.length

/-- the number that a set name stands for: that of its first definition -/
def FirstId (m : Mesh K) (name : Str) (id : Int) : Prop :=
  ∃ before after, m.names = before ++ (name, id) :: after ∧ ∀ p ∈ before, p.1 ≠ name

/-- a record of elements of the named set -/
def RecordOf (m : Mesh K) (name : Str) (s : SetRec) : Prop :=
  s ∈ m.sets ∧ FirstId m name s.id ∧ s.kind = 2

/-- element number `e` is in the named set -/
def InSet (m : Mesh K) (name : Str) (e : Nat) : Prop := ∃ s, RecordOf m name s ∧ e ∈ s.members

/-- the element numbers wanted by the argument `sets`: all without names; the union of the named
sets otherwise.  All names must be defined, and there must be a record of elements for one of
them. -/
inductive WantsSets (m : Mesh K) : SetsArg → (Nat → Prop) → Prop
  | all : WantsSets m .none fun _ => True
  | noName : WantsSets m (.one []) fun _ => True
  | noNames : WantsSets m (.many []) fun _ => True
  | noBytes : WantsSets m (.bytes []) fun _ => True
  | one {name} : name ≠ [] → (∃ s, RecordOf m name s) → WantsSets m (.one name) (InSet m name)
  | many {names} : names ≠ [] → (∀ n ∈ names, ∃ id, FirstId m n id) →
      (∃ n ∈ names, ∃ s, RecordOf m n s) →
      WantsSets m (.many names) fun e => ∃ n ∈ names, InSet m n e

/-- the element types wanted by the argument `kind` -/
inductive WantsKind : Option String → (Int → Prop) → Prop
  | all : WantsKind none fun _ => True
  | empty : WantsKind (some "") fun _ => True
  | beam : WantsKind (some "beam") fun t => t = 15 ∨ t = 23
  | shell : WantsKind (some "shell") fun t => t = 24 ∨ t = 25 ∨ t = 26 ∨ t = 28

/-- The elements (positions in the mesh, counted from 0) that a selection means, in order. -/
def Chosen (m : Mesh K) (sets : SetsArg) (kind : Option String) (es : List Nat) : Prop :=
  ∃ P Q, WantsSets m sets P ∧ WantsKind kind Q ∧ es.Pairwise (· < ·) ∧
    ∀ i, i ∈ es ↔ ∃ e, m.elems[i]? = some e ∧ P (i + 1) ∧ Q e.typ

/-- no set names are given -/
def NoSets (sets : SetsArg) : Prop := sets = .none ∨ sets = .one [] ∨ sets = .many [] ∨ sets = .bytes []

/-- neither set names nor a kind are given -/
def NoSelection (sets : SetsArg) (kind : Option String) : Prop :=
  NoSets sets ∧ (kind = none ∨ kind = some "")

/-- the elements at given positions -/
def Elements (m : Mesh K) (es : List Nat) (l : List Element) : Prop :=
  List.Forall₂ (fun i e => m.elems[i]? = some e) es l

/-- the distinct members of a list of numbers in increasing order -/
def Distinct (l u : List Nat) : Prop := u.Pairwise (· < ·) ∧ ∀ n, n ∈ u ↔ n ∈ l

/-- The nodes (positions in the mesh, counted from 0) that belong to a selection of elements `l`:
with `disconnected` one for each place of each element, without it each once; without a selection
of elements all nodes of the mesh. -/
inductive ChosenNodes (m : Mesh K) (sets : SetsArg) (kind : Option String) (l : List Element) :
    Bool → List Nat → Prop
  | places {ns} : ns.map (· + 1) = l.flatMap Element.nodes →
      ChosenNodes m sets kind l true ns
  | whole : NoSelection sets kind →
      ChosenNodes m sets kind l false (List.range m.nodes.length)
  | used {ns} : ¬ NoSelection sets kind → Distinct (l.flatMap Element.nodes) (ns.map (· + 1)) →
      ChosenNodes m sets kind l false ns

/-- the sums of the lengths up to and including each element -/
inductive Ends : Nat → List Element → List Int → Prop
  | nil {s} : Ends s [] []
  | cons {s : Nat} {e l os} : Ends (s + e.nodes.length) l os →
      Ends s (e :: l) (((s + e.nodes.length : Nat) : Int) :: os)

/-- The connectivity fits the nodes: each entry is the position of the node listed at that place
of the elements. -/
def FitsNodes (con : List Int) (ns : List Nat) (l : List Element) : Prop :=
  List.Forall₂ (fun (c : Int) (n : Nat) => ∃ k : Nat, c = k ∧ (ns[k]?).map (· + 1) = some n) con
    (l.flatMap Element.nodes)

end Verif.Data
