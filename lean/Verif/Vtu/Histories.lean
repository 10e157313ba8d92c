import Verif.Vtu.Again
/-!
# C45: what the writer accepts after any history of calls, and concrete cases of the theorems about
the writer
-/

namespace Verif.Vtu
open Verif

theorem cur_of_rel {s : St} {d : Doc} (h : Rel s d) :
    (d = [] → s.cur = none) ∧
    ∀ p, d.getLast? = some p → s.cur = some (p.offsets.vals, p.types.vals) := by
  rcases h with ⟨hd, -, hc⟩ | ⟨⟨ds, p, -, -, hd, -, -, -, -, -, -, -, -, hc⟩, -⟩ |
    ⟨ds, p, -, -, sec, -, hd, -, -, -, -, -, -, -, -, -, hc⟩
  · exact ⟨fun _ => hc, fun p hp => by rw [hd] at hp; cases hp⟩
  · refine ⟨fun h0 => by rw [h0] at hd; simp at hd, fun q hq => ?_⟩
    rw [hd] at hq
    simp only [List.getLast?_append, List.getLast?_singleton, Option.some_or, Option.some.injEq] at hq
    rw [← hq]; exact hc
  · refine ⟨fun h0 => by rw [h0] at hd; simp at hd, fun q hq => ?_⟩
    rw [hd] at hq
    simp only [List.getLast?_append, List.getLast?_singleton, Option.some_or, Option.some.injEq] at hq
    rw [← hq]; exact hc

/-- **C45** After any history of calls in which `new_piece` did not raise (other calls may have been
refused) the writer has a document `d` made of the calls that were not refused, and the next call
is accepted or refused as follows: sections need a piece, data need a section, element results need a
piece and fit its elements; any other refused call (but a byte count overflow) changes nothing. -/
theorem legal_after_history (calls : List Call) (hnc : Call.close ∉ calls)
    (herr : ∀ p ∈ (outcomes init.1 calls).1, ∀ e, p.2 = some e →
      p.1.isSmall = true ∧ e ≠ .structError) :
    ∃ d s, s = (outcomes init.1 calls).2 ∧
      DocSteps [] (((outcomes init.1 calls).1.filter (fun p => p.2.isNone)).map Prod.fst) d ∧
      (d = [] → (startPointdata s).2 = some .vtkError ∧ (startCelldata s).2 = some .vtkError ∧
        (∀ a n cs, (addData a n cs s).2 = some .vtkError) ∧
        ∀ a n cs, (addDataCellpoints a n cs s).2 = some .typeError) ∧
      (∀ p, d.getLast? = some p →
        (startPointdata s).2 = none ∧ (startCelldata s).2 = none ∧
        (p.sections = [] → ∀ a n cs, (addData a n cs s).2 = some .vtkError) ∧
        (p.sections ≠ [] → ∀ a n cs, Writable a → (addData a n cs s).2 = none) ∧
        ∀ a n cs rows, reorderData resTable a.rows 0 p.offsets.vals p.types.vals = (rows, none) →
          (p.sections = [] → (addDataCellpoints a n cs s).2 = some .vtkError) ∧
          (p.sections ≠ [] → Writable { a with rows := rows } →
            (addDataCellpoints a n cs s).2 = none)) ∧
      (∀ p, d.getLast? = some p → ∀ a n cs rows e,
        reorderData resTable a.rows 0 p.offsets.vals p.types.vals = (rows, some e) →
        (addDataCellpoints a n cs s).2 = some e) ∧
      ∀ (c : Call) e, c.isSmall = true → (c.run s).2 = some e → e ≠ .structError →
        (c.run s).1 = s := by
  obtain ⟨d, hds, hrel⟩ := run_rel init.1 [] calls rel_init.2 hnc herr
  obtain ⟨l1, l2, l3, l4, -⟩ := vtu_legal _ d hrel
  obtain ⟨c1, c2⟩ := cur_of_rel hrel
  refine ⟨d, _, rfl, hds, fun hd => ⟨(l1 hd).1, (l1 hd).2, fun a n cs => ?_, fun a n cs => ?_⟩,
    fun p hp => ?_, fun p hp a n cs rows e hr => ?_, fun c e hc he hne => ?_⟩
  · exact l3 a n cs fun p hp => by rw [hd] at hp; cases hp
  · rw [addDataCellpoints, c1 hd]
  · have hd : d ≠ [] := by rintro rfl; cases hp
    have h0 : p.sections = [] → ∀ a n cs, (addData a n cs (outcomes init.1 calls).2).2 =
        some .vtkError := fun hs a n cs => l3 a n cs fun q hq => by
      rw [hp] at hq; rw [← Option.some.inj hq]; exact hs
    refine ⟨(l2 hd).1, (l2 hd).2, h0, fun hs a n cs hw => l4 a n cs p hp hs hw,
      fun a n cs rows hr => ⟨fun hs => ?_, fun hs hw => ?_⟩⟩
    · rw [addDataCellpoints, c2 p hp]
      simp only [hr]
      exact h0 hs _ n cs
    · rw [addDataCellpoints, c2 p hp]
      simp only [hr]
      exact l4 _ n cs p hp hs hw
  · rw [addDataCellpoints, c2 p hp]
    simp only [hr]
  · exact refused_no_effect hrel hc hne (Prod.ext rfl he)

/-! ## cases -/

/-- the history of `exCalls`: data too early (refused), a piece, displacements, a cell section -/
theorem exCalls_ok : ∀ p ∈ (outcomes init.1 exCalls).1, ∀ e, p.2 = some e →
    p.1.isSmall = true ∧ e ≠ .structError := by
  intro p hp e he
  have h : (outcomes init.1 exCalls).1.all (fun p => match p.2 with
      | none => true
      | some e => p.1.isSmall && decide (e ≠ .structError)) = true := by decide +kernel
  have := List.all_eq_true.mp h p hp
  rw [he] at this
  simpa using this

example := vtu_document exCalls (by decide) exCalls_ok
example := legal_after_history exCalls (by decide) exCalls_ok
/-- with no calls at all -/
example : (startPointdata init.1).2 = some .vtkError ∧
    (addDataCellpoints exCon "early".toList [] init.1).2 = some .typeError := by
  obtain ⟨d, s, rfl, hd, h, -⟩ := legal_after_history [] (by simp) (by simp [outcomes])
  generalize hl : ((outcomes init.1 []).1.filter (fun p => p.2.isNone)).map Prod.fst = l at hd
  cases hd with
  | nil => exact ⟨(h rfl).1, (h rfl).2.2.2 _ _ _⟩
  | cons => cases hl

/-- a beam with three nodes, a shell with four and one with eight, one more entry -/
example := reorder_connectivity (α := Nat) [[1, 2, 3], [4, 5, 6, 7], [8, 9, 10, 11, 12, 13, 14, 15]]
  [23, 24, 28] [16] rfl (by decide)
/-- a triangle with six nodes between others -/
example := reorder_results (α := Nat) [[1, 2, 3], [4, 5, 6, 7, 8, 9], [8, 9]] [23, 26, 15] [] rfl
  (by decide)
/-- a shell with eight nodes that has seven -/
example := reorder_wrong_length (α := Nat) [1, 2, 3] [4, 5, 6, 7, 8, 9, 10] [] 28 [] []
  (.inr ⟨rfl, by decide⟩)

/-- the payload of the displacements of `exCalls` -/
example : ∃ s', addData exPoints "disp".toList [] (outcomes init.1 (exCalls.take 3)).2 = (s', none) ∧
    ∃ tag attrs t hdr, s'.out = (outcomes init.1 (exCalls.take 3)).2.out ++
        render (outcomes init.1 (exCalls.take 3)).2.elements.length (.elem tag attrs [.text t]) ∧
      tag = "DataArray".toList ∧ ("Name".toList, "disp".toList) ∈ attrs ∧
      b64decode t = some (hdr ++ exPoints.rows.flatten) ∧ hdr.length = 8 ∧
      leVal hdr = exPoints.rows.flatten.length := by
  have h : (addData exPoints "disp".toList [] (outcomes init.1 (exCalls.take 3)).2).2 = none := by
    decide +kernel
  exact ⟨_, Prod.ext rfl h, addData_payload exPoints "disp".toList [] _ _
    (by simp [Arr.WF, exPoints]) (by decide +kernel) (Prod.ext rfl h)⟩

/-- a beam and an eight node shell given for the second time; a triangle with results for the fifth -/
example : (vtkOrder 23)^[2] [7, 8, 9] ≠ vtkOrder 23 [7, 8, 9] := fun h =>
  absurd (((right_iff 23 [7, 8, 9] (by decide) (by decide) 2).mp h).1 rfl) (by decide)
example : (vtkOrder 28)^[4] [1, 2, 3, 4, 5, 6, 7, 8] = vtkOrder 28 [1, 2, 3, 4, 5, 6, 7, 8] :=
  (right_iff 28 _ (by decide) (by decide) 4).mpr (by decide)
example : (vtkResOrder 26)^[5] [1, 2, 3, 4, 5, 6] = vtkResOrder 26 [1, 2, 3, 4, 5, 6] :=
  (right_res_iff 26 _ (by decide) (by decide) 5).mpr (by decide)

/-- `new_piece` of the arrays of `exAgain` with a points array that cannot be written: the
connectivity has been put in VTK order -/
example : let h : Heap := { (runs exAgain [.create 0]).2 with
      arrs := fun a => if a = 0 then ⟨"complex64", 8, [], [[]]⟩ else exAgain.arrs a }
    (RCall.run (.newPiece 0 0 1 0 1) h).2 = some .keyError ∧
    ((RCall.run (.newPiece 0 0 1 0 1) h).1.arrs 1).rows =
      (List.zipWith vtkOrder [26, 28] (exBlocks 1)).flatten ++ [] := by
  refine ⟨by decide +kernel, refused_reorders (doc := []) rfl (by decide) _ (by decide +kernel)
    (by decide) (by decide) 0 0 ?_⟩
  rw [show (({ (runs exAgain [.create 0]).2 with
      arrs := fun a => if a = 0 then ⟨"complex64", 8, [], [[]]⟩ else exAgain.arrs a } : Heap).writers 0)
    = init.1 by decide +kernel]
  exact rel_init.2

end Verif.Vtu
