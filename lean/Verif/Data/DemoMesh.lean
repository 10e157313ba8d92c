import Verif.Data.Spec
/-!
# An example: six nodes, four elements, four sets

Node 6 belongs to no element.  The name `A` is defined twice; the second definition is not used.
Set `A` has two records of elements and one of nodes.
-/

namespace Verif.Data.Demo
open Verif Verif.Data
open Verif.Seq (Str)

def nodes : List (Node Int) :=
  [⟨11, ⟨0, 0, 0⟩⟩, ⟨12, ⟨1, 0, 0⟩⟩, ⟨13, ⟨1, 1, 0⟩⟩, ⟨14, ⟨0, 1, 0⟩⟩, ⟨15, ⟨0, 0, 5⟩⟩,
   ⟨16, ⟨7, 7, 7⟩⟩]

def elems : List Element :=
  [⟨101, 15, [1, 5]⟩, ⟨102, 24, [1, 2, 3, 4]⟩, ⟨103, 25, [2, 3, 5]⟩, ⟨104, 15, [5, 3]⟩]

def nameA : Str := ['A']
def nameB : Str := ['B']
def nameC : Str := ['C']
def nameS : Str := ['S']

def mesh : Mesh Int where
  nodes := nodes
  elems := elems
  names := [(nameA, 1), (nameB, 2), (nameA, 3), (nameS, 3)]
  sets := [⟨1, 2, [4]⟩, ⟨2, 2, [2, 1]⟩, ⟨1, 1, [6]⟩, ⟨1, 2, [2]⟩, ⟨3, 2, [3]⟩]

def object : Struc Int where
  gnode := some [⟨11, 1⟩, ⟨12, 2⟩, ⟨13, 3⟩, ⟨14, 4⟩, ⟨15, 5⟩, ⟨16, 6⟩]
  gcoord := some [⟨0, 0, 0⟩, ⟨1, 0, 0⟩, ⟨1, 1, 0⟩, ⟨0, 1, 0⟩, ⟨0, 0, 5⟩, ⟨7, 7, 7⟩]
  gelmnt1 := some
    ([⟨101, 1, 15, 0, 2⟩, ⟨102, 2, 24, 2, 6⟩, ⟨103, 3, 25, 6, 9⟩, ⟨104, 4, 15, 9, 11⟩],
     [1, 5, 1, 2, 3, 4, 2, 3, 5, 5, 3])
  tdsetnam := some [⟨1, nameA⟩, ⟨2, nameB⟩, ⟨3, nameA⟩, ⟨3, nameS⟩]
  gsetmemb := some
    ([⟨1, 2, 0, 1⟩, ⟨2, 2, 1, 3⟩, ⟨1, 1, 3, 4⟩, ⟨1, 2, 4, 5⟩, ⟨3, 2, 5, 6⟩],
     [4, 2, 1, 6, 2, 3])

theorem holds : Holds object mesh where
  isOpen := rfl
  nodes := ⟨_, rfl, .cons (.cons (.cons (.cons (.cons (.cons .nil)))))⟩
  coords := rfl
  elems := ⟨_, rfl, .cons (.cons (.cons (.cons .nil)))⟩

theorem holdsSets : HoldsSets object mesh where
  names := rfl
  sets := by
    refine ⟨_, _, rfl, ?_⟩
    refine .cons ⟨rfl, rfl, 0, 1, rfl, rfl, by decide, by decide, rfl⟩ <|
      .cons ⟨rfl, rfl, 1, 3, rfl, rfl, by decide, by decide, rfl⟩ <|
      .cons ⟨rfl, rfl, 3, 4, rfl, rfl, by decide, by decide, rfl⟩ <|
      .cons ⟨rfl, rfl, 4, 5, rfl, rfl, by decide, by decide, rfl⟩ <|
      .cons ⟨rfl, rfl, 5, 6, rfl, rfl, by decide, by decide, rfl⟩ .nil

theorem valid : Valid mesh where
  nodes := by
    intro e he
    simp only [mesh, elems, List.mem_cons, List.not_mem_nil, or_false] at he
    rcases he with rfl | rfl | rfl | rfl <;> refine ⟨by simp, ?_⟩ <;> decide
  sets := by
    intro s hs
    simp only [mesh, List.mem_cons, List.not_mem_nil, or_false] at hs
    rcases hs with rfl | rfl | rfl | rfl | rfl <;> decide

theorem firstA : FirstId mesh nameA 1 := ⟨[], _, rfl, by simp⟩
theorem firstB : FirstId mesh nameB 2 :=
  ⟨[(nameA, 1)], _, rfl, by simp [nameA, nameB]⟩

theorem noC (id : Int) : ¬ FirstId mesh nameC id := by
  rintro ⟨a, b, h, _⟩
  have : (nameC, id) ∈ mesh.names := by rw [h]; simp
  simp [mesh, nameA, nameB, nameC, nameS] at this

theorem firstA_only {id : Int} (h : FirstId mesh nameA id) : id = 1 := by
  obtain ⟨a, b, h, hb⟩ := h
  cases a with
  | nil =>
    have := congrArg List.head? h
    simp [mesh] at this
    exact this.symm
  | cons p a =>
    have := congrArg List.head? h
    simp [mesh] at this
    exact absurd (by rw [← this]) (hb p List.mem_cons_self)

/-- set `A` consists of the elements 4 and 2 -/
theorem inA (n : Nat) : InSet mesh nameA n ↔ n = 4 ∨ n = 2 := by
  constructor
  · rintro ⟨s, ⟨hs, hid, hk⟩, hn⟩
    have hid := firstA_only hid
    simp only [mesh, List.mem_cons, List.not_mem_nil, or_false] at hs
    rcases hs with rfl | rfl | rfl | rfl | rfl <;> simp_all
  · rintro (rfl | rfl)
    · exact ⟨⟨1, 2, [4]⟩, ⟨by simp [mesh], firstA, rfl⟩, by simp⟩
    · exact ⟨⟨1, 2, [2]⟩, ⟨by simp [mesh], firstA, rfl⟩, by simp⟩

theorem recordA : ∃ s, RecordOf mesh nameA s := ⟨⟨1, 2, [4]⟩, by simp [mesh], firstA, rfl⟩

theorem elem_at {i : Nat} {e : Element} (h : mesh.elems[i]? = some e) :
    i = 0 ∧ e = ⟨101, 15, [1, 5]⟩ ∨ i = 1 ∧ e = ⟨102, 24, [1, 2, 3, 4]⟩ ∨
    i = 2 ∧ e = ⟨103, 25, [2, 3, 5]⟩ ∨ i = 3 ∧ e = ⟨104, 15, [5, 3]⟩ := by
  match i, h with
  | 0, h => simp [mesh, elems] at h; simp [h]
  | 1, h => simp [mesh, elems] at h; simp [h]
  | 2, h => simp [mesh, elems] at h; simp [h]
  | 3, h => simp [mesh, elems] at h; simp [h]
  | _ + 4, h => simp [mesh, elems] at h

/-- set `S` has a shell only, so there are no beams in it -/
theorem chosenBeamS : Chosen mesh (.one nameS) (some "beam") [] := by
  have hS : FirstId mesh nameS 3 :=
    ⟨[(nameA, 1), (nameB, 2), (nameA, 3)], _, rfl, by simp [nameA, nameB, nameS]⟩
  have hno : ∀ id, FirstId mesh nameS id → id = 3 := by
    rintro id ⟨a, b, h, _⟩
    have : (nameS, id) ∈ mesh.names := by rw [h]; simp
    simpa [mesh, nameA, nameB, nameS] using this
  refine ⟨_, _, .one (by simp [nameS]) ⟨⟨3, 2, [3]⟩, by simp [mesh], hS, rfl⟩, .beam, by simp,
    fun i => ?_⟩
  constructor
  · simp
  · rintro ⟨e, he, ⟨s, ⟨hs, hid, hk⟩, hn⟩, ht⟩
    replace hid := hno _ hid
    simp only [mesh, List.mem_cons, List.not_mem_nil, or_false] at hs
    have : i = 2 := by
      rcases hs with rfl | rfl | rfl | rfl | rfl <;> simp at hid hn <;> exact hn
    rcases elem_at he with ⟨rfl, rfl⟩ | ⟨rfl, rfl⟩ | ⟨rfl, rfl⟩ | ⟨rfl, rfl⟩ <;> simp_all

/-- the elements of set `A`: positions 1 and 3 -/
theorem chosenA : Chosen mesh (.one nameA) none [1, 3] := by
  refine ⟨_, _, .one (by simp [nameA]) recordA, .all, by decide, fun i => ?_⟩
  constructor
  · intro h
    simp only [List.mem_cons, List.not_mem_nil, or_false] at h
    rcases h with rfl | rfl
    · exact ⟨_, rfl, (inA _).mpr (.inr rfl), trivial⟩
    · exact ⟨_, rfl, (inA _).mpr (.inl rfl), trivial⟩
  · rintro ⟨e, _, h, _⟩
    have := (inA _).mp h
    simp only [List.mem_cons, List.not_mem_nil, or_false]
    omega

/-- the beams of set `A` -/
theorem chosenBeamA : Chosen mesh (.one nameA) (some "beam") [3] := by
  refine ⟨_, _, .one (by simp [nameA]) recordA, .beam, by decide, fun i => ?_⟩
  constructor
  · intro h
    obtain rfl := List.mem_singleton.mp h
    exact ⟨_, rfl, (inA _).mpr (.inl rfl), .inl rfl⟩
  · rintro ⟨e, he, h, ht⟩
    rcases elem_at he with ⟨rfl, rfl⟩ | ⟨rfl, rfl⟩ | ⟨rfl, rfl⟩ | ⟨rfl, rfl⟩
    · exact absurd ((inA _).mp h) (by decide)
    · simp at ht
    · simp at ht
    · simp

/-- the shells of set `A` -/
theorem chosenShellA : Chosen mesh (.one nameA) (some "shell") [1] := by
  refine ⟨_, _, .one (by simp [nameA]) recordA, .shell, by decide, fun i => ?_⟩
  constructor
  · intro h
    obtain rfl := List.mem_singleton.mp h
    exact ⟨_, rfl, (inA _).mpr (.inr rfl), .inl rfl⟩
  · rintro ⟨e, he, h, ht⟩
    rcases elem_at he with ⟨rfl, rfl⟩ | ⟨rfl, rfl⟩ | ⟨rfl, rfl⟩ | ⟨rfl, rfl⟩
    · simp at ht
    · simp
    · exact absurd ((inA _).mp h) (by decide)
    · simp at ht

/-- all beams -/
theorem chosenBeam : Chosen mesh .none (some "beam") [0, 3] := by
  refine ⟨_, _, .all, .beam, by decide, fun i => ?_⟩
  constructor
  · intro h
    simp only [List.mem_cons, List.not_mem_nil, or_false] at h
    rcases h with rfl | rfl
    · exact ⟨_, rfl, trivial, .inl rfl⟩
    · exact ⟨_, rfl, trivial, .inl rfl⟩
  · rintro ⟨e, he, _, ht⟩
    rcases elem_at he with ⟨rfl, rfl⟩ | ⟨rfl, rfl⟩ | ⟨rfl, rfl⟩ | ⟨rfl, rfl⟩ <;> simp_all

/-- the elements of set `A` -/
theorem elementsA : Elements mesh [1, 3] [⟨102, 24, [1, 2, 3, 4]⟩, ⟨104, 15, [5, 3]⟩] :=
  .cons rfl (.cons rfl .nil)

theorem selectedA : ¬ NoSelection (.one nameA) none := by
  rintro ⟨h | h | h, _⟩ <;> simp [nameA] at h

/-- the nodes of the elements of set `A` -/
theorem nodesA : ChosenNodes mesh (.one nameA) none
    [⟨102, 24, [1, 2, 3, 4]⟩, ⟨104, 15, [5, 3]⟩] false [0, 1, 2, 3, 4] :=
  .used selectedA ⟨by decide, by simp; omega⟩

/-- ... one node for each place -/
theorem placesA : ChosenNodes mesh (.one nameA) none
    [⟨102, 24, [1, 2, 3, 4]⟩, ⟨104, 15, [5, 3]⟩] true [0, 1, 2, 3, 4, 2] :=
  .places rfl

end Verif.Data.Demo
