import Verif.Data.ResProps
/-!
# Node results: example, and the case in which the claim fails

Two result cases (internal numbers 7 and 9) with displacements of three nodes; one beam from node 1
to node 3, so that node 2 belongs to no element.
-/

namespace Verif.Data.Demo
open Verif Verif.Data

/-- six values: the number of the case and the number of the node -/
def six (c n : Int) : List (Num Int) := [.re (10 * c + n), .re 0, .re 0, .re 0, .re 0, .re n]

def resMesh : Mesh Int where
  nodes := [⟨1, ⟨0, 0, 0⟩⟩, ⟨2, ⟨1, 0, 0⟩⟩, ⟨3, ⟨2, 0, 0⟩⟩]
  elems := [⟨1, 15, [1, 3]⟩]

def results : List (CaseRes Int) :=
  [⟨7, [six 7 1, six 7 2, six 7 3]⟩, ⟨9, [six 9 1, six 9 2, six 9 3]⟩]

def resRefTable : List ResRef := [⟨7, 1, 1, 0⟩, ⟨8, 2, 1, 0⟩, ⟨9, 1, 2, 0⟩]

def resObject : Struc Int where
  gnode := some [⟨1, 1⟩, ⟨2, 2⟩, ⟨3, 3⟩]
  gcoord := some [⟨0, 0, 0⟩, ⟨1, 0, 0⟩, ⟨2, 0, 0⟩]
  gelmnt1 := some ([⟨1, 1, 15, 0, 2⟩], [1, 3])
  rdresref := some resRefTable
  rvnoddis := some
    ([⟨7, 1, 0, 6⟩, ⟨7, 2, 6, 12⟩, ⟨7, 3, 12, 18⟩, ⟨9, 1, 18, 24⟩, ⟨9, 2, 24, 30⟩, ⟨9, 3, 30, 36⟩],
     [71, 0, 0, 0, 0, 1, 72, 0, 0, 0, 0, 2, 73, 0, 0, 0, 0, 3,
      91, 0, 0, 0, 0, 1, 92, 0, 0, 0, 0, 2, 93, 0, 0, 0, 0, 3])

theorem resHolds : Holds resObject resMesh where
  isOpen := rfl
  nodes := ⟨_, rfl, .cons (.cons (.cons .nil))⟩
  coords := rfl
  elems := ⟨_, rfl, .cons .nil⟩

theorem resValid : Valid resMesh where
  nodes := by
    intro e he
    simp only [resMesh, List.mem_singleton] at he
    subst he
    refine ⟨by simp, by decide⟩
  sets := by simp [resMesh]

theorem resHoldsRes : HoldsRes resObject resMesh "displacement" results where
  table := ⟨_, _, .displacement, by
    refine .cons ⟨rfl, rfl, 0, 6, rfl, rfl, by decide, by decide, rfl⟩ <|
      .cons ⟨rfl, rfl, 6, 12, rfl, rfl, by decide, by decide, rfl⟩ <|
      .cons ⟨rfl, rfl, 12, 18, rfl, rfl, by decide, by decide, rfl⟩ <|
      .cons ⟨rfl, rfl, 18, 24, rfl, rfl, by decide, by decide, rfl⟩ <|
      .cons ⟨rfl, rfl, 24, 30, rfl, rfl, by decide, by decide, rfl⟩ <|
      .cons ⟨rfl, rfl, 30, 36, rfl, rfl, by decide, by decide, rfl⟩ .nil⟩
  complete := by
    intro c hc
    simp only [results, List.mem_cons, List.not_mem_nil, or_false] at hc
    rcases hc with rfl | rfl <;> refine ⟨rfl, ?_⟩ <;> simp [six]
  distinct := by decide

theorem wanted_run1 {r : ResRef} (h : Wanted resRefTable 1 .all r) :
    r = ⟨7, 1, 1, 0⟩ ∨ r = ⟨9, 1, 2, 0⟩ := by
  obtain ⟨h1, h2, _⟩ := h
  simp only [resRefTable, List.mem_cons, List.not_mem_nil, or_false] at h1
  rcases h1 with rfl | rfl | rfl <;> simp_all

theorem resPicked : Picked resRefTable 1 .all results results := by
  refine ⟨List.Sublist.refl _, fun c hc => ⟨fun _ => ?_, fun _ => hc⟩⟩
  simp only [results, List.mem_cons, List.not_mem_nil, or_false] at hc
  rcases hc with rfl | rfl
  · exact ⟨⟨7, 1, 1, 0⟩, ⟨by simp [resRefTable], rfl, .inl rfl⟩, rfl⟩
  · exact ⟨⟨9, 1, 2, 0⟩, ⟨by simp [resRefTable], rfl, .inl rfl⟩, rfl⟩

theorem resChosen : Chosen resMesh .none (some "beam") [0] := by
  refine ⟨_, _, .all, .beam, by simp, fun i => ?_⟩
  constructor
  · intro h
    obtain rfl := List.mem_singleton.mp h
    exact ⟨_, rfl, trivial, .inl rfl⟩
  · rintro ⟨e, he, _⟩
    match i, he with
    | 0, _ => simp
    | _ + 1, he => simp [resMesh] at he

/-- C32: the beams, one node for each place: nodes 1 and 3 -/
example := node_results_line_up_partial (disc := true) (ns := [0, 2]) resHolds resValid
  (.inl (.inl rfl)) resChosen (l := [⟨1, 15, [1, 3]⟩]) (.cons rfl .nil) (.inl (by simp))
  (.places rfl) (by simp [resMesh])
  (.inr ⟨by simp, .inl (by rintro ⟨_, h | h⟩ <;> simp at h)⟩) resHoldsRes
  (refs := resRefTable) rfl (flag := 0)
  (by intro r h; rcases wanted_run1 h with rfl | rfl <;> rfl) resPicked
  (by
    intro r h
    rcases wanted_run1 h with rfl | rfl
    · exact ⟨_, List.mem_cons_self, rfl⟩
    · exact ⟨_, List.mem_cons_of_mem _ List.mem_cons_self, rfl⟩)
  (by
    intro c hc v hv x hx
    refine .inl ⟨rfl, ?_⟩
    simp only [results, List.mem_cons, List.not_mem_nil, or_false] at hc
    rcases hc with rfl | rfl <;> simp only [List.mem_cons, List.not_mem_nil, or_false] at hv <;>
      rcases hv with rfl | rfl | rfl <;> simp only [six, List.mem_cons, List.not_mem_nil, or_false] at hx <;>
      rcases hx with rfl | rfl | rfl | rfl | rfl | rfl <;> exact ⟨_, rfl⟩)
  (by simp [results])

example : getNodeResults resObject "displacement" 1 .all .none (some "beam") true =
    .ok (.cases [[six 7 1, six 7 3], [six 9 1, six 9 3]]) := rfl

/-- **C32** is false of the code for `disconnected` without a selection, if there are nodes without
elements: `get_nodenumbers` gives the nodes 1 and 3, but the results are those of the nodes 1 and
2. -/
theorem unused_nodes_misalign :
    Holds resObject resMesh ∧ Valid resMesh ∧ HoldsRes resObject resMesh "displacement" results ∧
    getNodeNumbers resObject .none none true "internal" = .ok [1, 3] ∧
    getNodeResults resObject "displacement" 1 (.one 1) .none none true =
      .ok (.single [six 7 1, six 7 2]) ∧ six 7 2 ≠ six 7 3 :=
  ⟨resHolds, resValid, resHoldsRes, rfl, rfl, by decide⟩

theorem resChosenAll : Chosen resMesh .none none [0] := by
  refine ⟨_, _, .all, .all, by simp, fun i => ?_⟩
  constructor
  · intro h
    obtain rfl := List.mem_singleton.mp h
    exact ⟨_, rfl, trivial, trivial⟩
  · rintro ⟨e, he, _⟩
    match i, he with
    | 0, _ => simp
    | _ + 1, he => simp [resMesh] at he

/-- C79: nodes 1 and 3 belong to an element, the values are those of the nodes 1 and 2 -/
example := disconnected_results (ns := [0, 2]) resHolds resValid ⟨.inl rfl, .inl rfl⟩
  resChosenAll (l := [⟨1, 15, [1, 3]⟩]) (.cons rfl .nil) (by simp)
  rfl (by simp [resMesh]) resHoldsRes
  (refs := resRefTable) rfl (flag := 0)
  (by intro r h; rcases wanted_run1 h with rfl | rfl <;> rfl) resPicked
  (by
    intro r h
    rcases wanted_run1 h with rfl | rfl
    · exact ⟨_, List.mem_cons_self, rfl⟩
    · exact ⟨_, List.mem_cons_of_mem _ List.mem_cons_self, rfl⟩)
  (by
    intro c hc v hv x hx
    refine .inl ⟨rfl, ?_⟩
    simp only [results, List.mem_cons, List.not_mem_nil, or_false] at hc
    rcases hc with rfl | rfl <;> simp only [List.mem_cons, List.not_mem_nil, or_false] at hv <;>
      rcases hv with rfl | rfl | rfl <;> simp only [six, List.mem_cons, List.not_mem_nil, or_false] at hx <;>
      rcases hx with rfl | rfl | rfl | rfl | rfl | rfl <;> exact ⟨_, rfl⟩)
  (by simp [results])
example : [0, 2].map (usedBefore [⟨1, 15, [1, 3]⟩]) = [0, 1] := by decide

/-- the same nodes and results without elements -/
def bareMesh : Mesh Int := { resMesh with elems := [] }
def bareObject : Struc Int := { resObject with gelmnt1 := some ([], []) }
theorem bareHoldsRes : HoldsRes bareObject bareMesh "displacement" results where
  table := ⟨_, _, .displacement, by
    refine .cons ⟨rfl, rfl, 0, 6, rfl, rfl, by decide, by decide, rfl⟩ <|
      .cons ⟨rfl, rfl, 6, 12, rfl, rfl, by decide, by decide, rfl⟩ <|
      .cons ⟨rfl, rfl, 12, 18, rfl, rfl, by decide, by decide, rfl⟩ <|
      .cons ⟨rfl, rfl, 18, 24, rfl, rfl, by decide, by decide, rfl⟩ <|
      .cons ⟨rfl, rfl, 24, 30, rfl, rfl, by decide, by decide, rfl⟩ <|
      .cons ⟨rfl, rfl, 30, 36, rfl, rfl, by decide, by decide, rfl⟩ .nil⟩
  complete := resHoldsRes.complete
  distinct := resHoldsRes.distinct

example := disconnected_no_elements (d := bareObject) (m := bareMesh)
  ⟨rfl, ⟨_, rfl, .cons (.cons (.cons .nil))⟩, rfl, ⟨_, rfl, .nil⟩⟩
  ⟨by simp [bareMesh], by simp [bareMesh, resMesh]⟩
  ⟨.inl rfl, .inl rfl⟩ (es := [])
  ⟨_, _, .all, .all, by simp, fun i => by simp [bareMesh]⟩ .nil (by simp [bareMesh, resMesh])
  bareHoldsRes
  (refs := resRefTable) rfl (flag := 0)
  (by intro r h; rcases wanted_run1 h with rfl | rfl <;> rfl) resPicked
  (by
    intro r h
    rcases wanted_run1 h with rfl | rfl
    · exact ⟨_, List.mem_cons_self, rfl⟩
    · exact ⟨_, List.mem_cons_of_mem _ List.mem_cons_self, rfl⟩)
  (by
    intro c hc v hv x hx
    refine .inl ⟨rfl, ?_⟩
    simp only [results, List.mem_cons, List.not_mem_nil, or_false] at hc
    rcases hc with rfl | rfl <;> simp only [List.mem_cons, List.not_mem_nil, or_false] at hv <;>
      rcases hv with rfl | rfl | rfl <;> simp only [six, List.mem_cons, List.not_mem_nil, or_false] at hx <;>
      rcases hx with rfl | rfl | rfl | rfl | rfl | rfl <;> exact ⟨_, rfl⟩)
  (by simp [results])

/-- a real and a complex result case -/
example := mixed_results (d := { resObject with rdresref := some [⟨7, 1, 1, 0⟩, ⟨9, 1, 2, 1⟩] })
  rfl .displacement rfl (run := 1) (rescases := .all) (by simp)
  (r := ⟨7, 1, 1, 0⟩) (r' := ⟨9, 1, 2, 1⟩) ⟨by simp, rfl, .inl rfl⟩ ⟨by simp, rfl, .inl rfl⟩
  (by decide) .none none false

/-- result case 5 does not exist -/
example := no_such_case (d := resObject) (restype := "displacement") rfl .displacement rfl (run := 1)
  (rescases := .one 5) (by simp)
  (by
    rintro r ⟨h1, _, h | h | ⟨_, h, _⟩⟩
    · cases h
    · injection h with h
      simp only [resRefTable, List.mem_cons, List.not_mem_nil, or_false] at h1
      rcases h1 with rfl | rfl | rfl <;> simp at h
    · cases h) .none none false

example := (no_such_type resObject "velocity" 1 .all .none none false).2 rfl .velocity
example := (no_such_type resObject "temperature" 1 .all .none none false).1
  (by
    intro t h
    have : ∀ s, ResTable resObject s t → s ≠ "temperature" := by intro s h; cases h <;> decide
    exact this _ h rfl)

end Verif.Data.Demo
