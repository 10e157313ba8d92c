import Verif.Export.Refuse
import Verif.Data.ResDemo
import Verif.Data.ElemDemo
/-!
# Writing a mesh and its results: examples

Shows that the hypotheses of the theorems in `Verif.Export.Mesh`, `Verif.Export.Results` and
`Verif.Export.Refuse` can be met.
-/

namespace Verif.Export.Demo
open Verif Verif.Vtu Verif.Data Verif.Export Verif.Data.Demo

/-- numbers as 32 bit integers -/
def encInt : Enc Int := ⟨"int32", 4, fun x => leBytes 4 (x % 2 ^ 32).toNat⟩
def encRat : Enc Rat := ⟨"int32", 4, fun x => leBytes 4 (x.num % 2 ^ 32).toNat⟩
def i4 : IntType := ⟨"int32", 4⟩

theorem encInt_ok : encInt.Ok := ⟨⟨"Int32", by decide⟩, fun _ => leBytes_length 4 _, by decide⟩
theorem encRat_ok : encRat.Ok := ⟨⟨"Int32", by decide⟩, fun _ => leBytes_length 4 _, by decide⟩
theorem i4_ok : i4.Ok := ⟨⟨"Int32", by decide⟩, by decide⟩

def elsA : List Element := [⟨102, 24, [1, 2, 3, 4]⟩, ⟨104, 15, [5, 3]⟩]

/-- C71: the elements of set `A`, a quad and a line, on the nodes they use; no data -/
example := export_mesh holds valid (.inr holdsSets) chosenA (els := elsA)
  (.cons rfl (.cons rfl .nil)) (by simp [elsA]) nodesA
  (by intro e he; simp only [elsA, List.mem_cons, List.not_mem_nil, or_false] at he
      rcases he with rfl | rfl <;> rfl)
  encInt_ok (tt := i4) i4_ok i4_ok (by simp) (by simp [elsA]) (by simp [i4]) (by simp [elsA, i4]) 0 0

/-- the same, each element with points of its own -/
example := export_mesh holds valid (.inr holdsSets) chosenA (els := elsA)
  (.cons rfl (.cons rfl .nil)) (by simp [elsA]) placesA
  (by intro e he; simp only [elsA, List.mem_cons, List.not_mem_nil, or_false] at he
      rcases he with rfl | rfl <;> rfl)
  encInt_ok (tt := i4) i4_ok i4_ok (by simp) (by simp [elsA]) (by simp [i4]) (by simp [elsA, i4]) 0 0

theorem wanted_case2 {r : ResRef} : Data.Wanted resRefTable 1 (.one 2) r ↔ r = ⟨9, 1, 2, 0⟩ := by
  constructor
  · rintro ⟨h1, h2, h | h | ⟨_, h, _⟩⟩
    · cases h
    · injection h with h
      simp only [resRefTable, List.mem_cons, List.not_mem_nil, or_false] at h1
      rcases h1 with rfl | rfl | rfl <;> simp_all
    · cases h
  · rintro rfl
    exact ⟨by simp [resRefTable], rfl, .inr (.inl rfl)⟩

def case2 : CaseRes Int := ⟨9, [six 9 1, six 9 2, six 9 3]⟩

theorem picked_case2 : Picked resRefTable 1 (.one 2) results [case2] := by
  refine ⟨by simp [results, case2], fun c hc => ?_⟩
  simp only [results, List.mem_cons, List.not_mem_nil, or_false] at hc
  constructor
  · intro h
    obtain rfl := List.mem_singleton.mp h
    exact ⟨_, wanted_case2.mpr rfl, rfl⟩
  · rintro ⟨r, hr, he⟩
    rw [wanted_case2.mp hr] at he
    rcases hc with rfl | rfl
    · simp at he
    · simp [case2]

/-- C71: the translations of the beam in result case 2, at its nodes 1 and 3 -/
example := export_node_results resHolds resValid (.inl (.inl rfl)) resChosen
  (els := [⟨1, 15, [1, 3]⟩]) (.cons rfl .nil) (by simp) (disc := true) (ns := [0, 2]) (.places rfl)
  (by simp [resMesh]) (.inr (.inl (by rintro ⟨_, h | h⟩ <;> simp at h)))
  (by intro e he; obtain rfl := List.mem_singleton.mp he; rfl)
  encInt_ok encInt_ok (tt := i4) i4_ok i4_ok (by simp) (by simp) (by simp [i4]) (by simp [i4])
  resHoldsRes (refs := resRefTable) rfl (run := 1) (rescases := .one 2)
  (by intro r h; rw [wanted_case2.mp h]) picked_case2
  (by intro r h; rw [wanted_case2.mp h]; exact ⟨case2, by simp [results, case2], rfl⟩)
  (by
    intro v hv x hx
    refine .inl ⟨rfl, ?_⟩
    simp only [case2, List.mem_cons, List.not_mem_nil, or_false] at hv
    rcases hv with rfl | rfl | rfl <;> simp only [six, List.mem_cons, List.not_mem_nil, or_false] at hx <;>
      rcases hx with rfl | rfl | rfl | rfl | rfl | rfl <;> exact ⟨_, rfl⟩)
  (cols := 3) (by decide) "displacement".toList ["x".toList, "y".toList, "z".toList] 0 0

theorem elem_case2 {r : ResRef} : Data.Wanted elemRefs 1 (.one 2) r ↔ r = ⟨9, 1, 2, 0⟩ := wanted_case2

theorem concerns2 (ires : Int) (e n : Nat) :
    Concerns elemRefs 1 (.one 2) [0, 3] (force ires e n) ↔ ires = 9 ∧ (e = 1 ∨ e = 4) := by
  unfold Concerns
  constructor
  · rintro ⟨⟨r, h, h1⟩, h2⟩
    rw [elem_case2.mp h] at h1
    exact ⟨h1.symm, by simpa [force] using h2⟩
  · rintro ⟨rfl, h⟩
    exact ⟨⟨_, elem_case2.mpr rfl, rfl⟩, by simpa [force] using h⟩

/-- C71: the forces of the two beams in result case 2 -/
example := export_element_results elemHolds elemValid (.inl (.inl rfl)) (restype := "beamforce")
  elemChosen (els := [⟨101, 15, [1, 5]⟩, ⟨104, 15, [5, 3]⟩]) (.cons rfl (.cons rfl .nil)) (by simp)
  (ns := [0, 4, 4, 2]) (.places rfl) (k := 6) (by decide)
  (by intro e he; simp only [List.mem_cons, List.not_mem_nil, or_false] at he; rcases he with rfl | rfl <;> rfl)
  (by intro e he; simp only [List.mem_cons, List.not_mem_nil, or_false] at he; rcases he with rfl | rfl <;> rfl)
  elemHoldsRes (refs := elemRefs) rfl (run := 1) (rescases := .one 2)
  (by intro r h; rw [elem_case2.mp h]) (c := 9)
  ⟨by simp, fun c => ⟨fun h => ⟨_, elem_case2.mpr rfl, (List.mem_singleton.mp h).symm⟩, by
    rintro ⟨r, h, rfl⟩; rw [elem_case2.mp h]; simp⟩⟩
  (rs := [force 9 1 5, force 9 4 6])
  (.drop (by rw [concerns2]; decide) <| .drop (by rw [concerns2]; decide) <|
    .drop (by rw [concerns2]; decide) <| .drop (by rw [concerns2]; decide) <|
    .keep (by rw [concerns2]; decide) <| .keep (by rw [concerns2]; decide) .nil)
  (elemLines _ (by simp)) (0 : Rat) encRat_ok encRat_ok (tt := i4) i4_ok i4_ok (by simp)
  (by simp [i4]) (by simp [i4]) "beamforce".toList [] 0 0

/-! ## what is refused -/

theorem piece_added {d d' : Doc} {p c : Arr} {o t : IArr} (h : DocStep d (.newPiece p c o t) d') :
    ∃ q, d' = d ++ [q] := by
  generalize hc : Call.newPiece p c o t = x at h
  cases h <;> cases hc
  exact ⟨_, rfl⟩

theorem data_started {d d' : Doc} (h : DocStep d .startPointdata d') :
    ∃ d0 q, d' = d0 ++ [q] ∧ q.sections ≠ [] ∧ d0.length + 1 = d.length := by
  generalize hc : Call.startPointdata = x at h
  cases h <;> cases hc
  exact ⟨_, _, rfl, by simp, by simp⟩

/-- a piece with one line, point data started -/
theorem started : ∃ s p, Rel s ([] ++ [p]) ∧ p.sections ≠ [] := by
  have h1 : ∃ s, Call.run (.newPiece ⟨"int32", 4, [3], [leBytes 12 1, leBytes 12 2]⟩
      ⟨"int32", 4, [], [leBytes 4 0, leBytes 4 1]⟩ ⟨"int32", 4, [2]⟩ ⟨"int32", 4, [15]⟩) init.1 =
      (s, none) := ⟨_, Prod.ext rfl (by decide +kernel)⟩
  obtain ⟨s, h1⟩ := h1
  obtain ⟨d, h2, h3⟩ := step_ok rel_init.2 (by simp) h1
  obtain ⟨q, rfl⟩ := piece_added h2
  rcases start_point h3 with ⟨h4, -⟩ | ⟨s', d', h4, h5, h6⟩
  · simp at h4
  · obtain ⟨d0, q', rfl, h7, h8⟩ := data_started h5
    obtain rfl : d0 = [] := by simpa using h8
    exact ⟨_, _, h6, h7⟩

/-- C71: general stresses are in three dimensions; complex results have no VTK type -/
example : ∃ s, addData (ndArr encRat ⟨[4, 2, 3], List.range 24 |>.map (fun i => (i : Rat))⟩) [] [] s =
      (s, some .vtkError) ∧
    addData (rowsArr (⟨"complex64", 8, fun _ => List.replicate 8 0⟩ : Enc Rat) 6 [[1, 2, 3, 4, 5, 6]])
      [] [] s = (s, some .keyError) := by
  obtain ⟨s, p, h, hp⟩ := started
  exact ⟨s, (export_refused h hp _ [] []).1 (by decide), (export_refused h hp _ [] []).2 (by decide)
    (by simp [rowsArr, vtkNames])⟩

/-- a spring (type 18) and a line -/
def springMesh : Mesh Int where
  nodes := [⟨1, ⟨0, 0, 0⟩⟩, ⟨2, ⟨1, 0, 0⟩⟩]
  elems := [⟨1, 15, [1, 2]⟩, ⟨2, 18, [2]⟩]

def springs : Struc Int where
  gnode := some [⟨1, 1⟩, ⟨2, 2⟩]
  gcoord := some [⟨0, 0, 0⟩, ⟨1, 0, 0⟩]
  gelmnt1 := some ([⟨1, 1, 15, 0, 2⟩, ⟨2, 2, 18, 2, 3⟩], [1, 2, 2])

theorem springsHold : Holds springs springMesh where
  isOpen := rfl
  nodes := ⟨_, rfl, .cons (.cons .nil)⟩
  coords := rfl
  elems := ⟨_, rfl, .cons (.cons .nil)⟩

theorem springsValid : Valid springMesh where
  nodes := by
    intro e he
    simp only [springMesh, List.mem_cons, List.not_mem_nil, or_false] at he
    rcases he with rfl | rfl <;> refine ⟨by simp, by decide⟩
  sets := by simp [springMesh]

theorem springsAll : Chosen springMesh .none none [0, 1] := by
  refine ⟨_, _, .all, .all, by simp, fun i => ⟨fun h => ?_, ?_⟩⟩
  · simp only [List.mem_cons, List.not_mem_nil, or_false] at h
    rcases h with rfl | rfl <;> exact ⟨_, rfl, trivial, trivial⟩
  · rintro ⟨e, he, _⟩
    match i, he with
    | 0, _ => simp
    | 1, _ => simp
    | _ + 2, he => simp [springMesh] at he

/-- C71: a mesh with a spring cannot be written -/
example := export_unsupported springsHold springsValid (.inl (.inl rfl)) springsAll
  (els := springMesh.elems) (.cons rfl (.cons rfl .nil)) (by simp [springMesh]) (.whole ⟨.inl rfl, .inl rfl⟩)
  (by intro e he; simp only [springMesh, List.mem_cons, List.not_mem_nil, or_false] at he
      rcases he with rfl | rfl <;> simp)
  ⟨⟨2, 18, [2]⟩, by simp [springMesh], rfl⟩ encInt i4 i4 i4 0 0

example := unsupported_blocks (s := init.1) (doc := []) rel_init.2 ⟨"int32", 4, [3], []⟩
  ⟨"int32", 4, [], [[1], [0], [1]]⟩ ⟨"int32", 4, [2, 3]⟩ ⟨"int32", 4, [15, 18]⟩
  (rows := [[1], [0], [1]]) rfl ⟨18, by simp, by simp [vtkCellTypes]⟩
example := empty_refused (s := init.1) (doc := []) rel_init.2 ⟨"int32", 4, [3], []⟩
  ⟨"int32", 4, [], []⟩ ⟨"int32", 4, []⟩ ⟨"int32", 4, []⟩ rfl

end Verif.Export.Demo
