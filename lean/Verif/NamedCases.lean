import Verif.Data.LifeDemo
import Verif.Data.LifeAny
import Verif.Data.HierProps
import Verif.Data.ElemResProps
import Verif.Parse.Open
import Verif.Parse.Records
import Verif.Seq.Floats
import Verif.Seq.Props
import Verif.Vtf.Props
import Verif.Vtu.Again
/-!
# Concrete cases, theorem by theorem

Each case applies a theorem to concrete arguments that meet its hypotheses.
-/

namespace Verif.Data.Life.Demo
open Verif Verif.Data Verif.Data.Life

/-- the file with the hierarchy is open, with its four objects -/
example := open_file session_reachable first_items

/-- `close_all_files` three times, exceptions ignored -/
example := close_all_partial (w := session) session_reachable
  (.call (order := [1, 0, 2]) (by decide +kernel) (.call (order := [0, 2]) (by decide +kernel)
    (.call (order := [2]) (by decide +kernel) (.none _))))

/-- `f["ABT5/T2"]` is an object below the one of `f["ABT5"]` -/
example : ∃ w' d d', openFile {} hierarchy = (w', .ok 0) ∧ getItem w' 0 "ABT5/T2" = .ok d ∧
    getItem w' 0 "ABT5" = .ok d' ∧ w'.datas[d]? = some (.opened .inter "ABT5/T2" (.data d')) := by
  obtain ⟨w', l, h1, h2⟩ := open_holds_partial {} hierarchy_listing
  obtain ⟨d, k1, -, d', k2, k3⟩ := open_lookup h2 (by decide)
    (e := { name := "ABT5/T2", cls := .inter, parent := some "ABT5" }) (by simp)
  exact ⟨w', d, d', h1, k1, k2, k3⟩

/-- objects of a closed file -/
example := closed_struc (K := Rat) (d := { isOpen := false }) rfl
example := closed_top (K := Rat) (d := { isOpen := false }) rfl 7 1 1 .top

end Verif.Data.Life.Demo

namespace Verif.Data.Life.AnyDemo
open Verif Verif.Data Verif.Data.Life

theorem shows : Shows none groups shown := by
  refine .own (es := []) (.first rfl rfl) .nil
    (.other (es := [{ name := "X/T3", cls := .first, parent := some "X" }]) ⟨?_, ?_⟩
      (.first (.other ?_ ?_ .nil)) (.own (es := []) (.hydro rfl rfl) .nil .nil)) <;> simp

/-- `f["X"]` is `f["T1"]`, and not `f["T2"]` -/
example : ∃ w', openFile {} groups = (w', .ok 0) ∧ keys w' 0 = .ok ["T1", "X", "X/T3", "T2"] ∧
    getItem w' 0 "X" = getItem w' 0 "T1" ∧ getItem w' 0 "X" ≠ getItem w' 0 "T2" := by
  obtain ⟨w', l, h1, h2⟩ := open_shows {} shows
  obtain ⟨k1, -, k2⟩ := shown_lookup h2 (by decide)
  exact ⟨w', h1, k1, (k2 _ (.tail _ (.head _)) _ (.head _)).2 rfl,
    fun h => absurd ((k2 _ (.tail _ (.head _)) _ (.tail _ (.tail _ (.tail _ (.head _))))).1 h)
      (by decide)⟩

end Verif.Data.Life.AnyDemo

namespace Verif.Data.Demo
open Verif Verif.Data

/-- every superelement below level 3 has a way up -/
example := reaches_or_skips wellFormed (n := 3) (by decide) (r := ⟨4, 1, 2, 1, 7, 2⟩) (by decide)
  (by decide)
example : ∃ m, Up hier trans 3 ⟨4, 1, 2, 1, 7, 2⟩ m ∧
    ∀ m', Up hier trans 3 ⟨4, 1, 2, 1, 7, 2⟩ m' → m' = m :=
  ⟨_, second_up, fun _ h => up_unique h second_up⟩

/-- the 24 values of a thin shell triangle: the first point has values 0 to 2 and 12 to 14 -/
example : processElem (0 : Rat) 25 "generalstress" "nodes" ((List.range 24).map fun i => (i : Rat)) =
    .ok (some ⟨[2, 3], [[0, 1, 2, 12, 13, 14], [3, 4, 5, 15, 16, 17], [9, 10, 11, 21, 22, 23]]⟩) :=
  (thin_tri_points 0 "nodes" (by decide)).trans (by decide +kernel)

end Verif.Data.Demo

namespace Verif.Parse.Demo
open Verif Verif.Seq Verif.Parse

/-- only the records of the selection, of a file with an end record -/
example := (accepted endSkip).selectOpen endless endsOnce endPassed

example := readable_recognised_partial "IRECSIZE" (.inr (by decide))

end Verif.Parse.Demo

namespace Verif.Seq
open Verif

/-- writing a record, or numbers, after text has been written -/
example := W.write_record_raises (fun _ => []) [.string "abc".toList 2] "GNODE".toList [.rat 1]
example := W.write_floats_raises (fun _ => []) W.openFile rfl [.rat 1, .rat 2] (by decide)
example := W.write_string_roundtrip_partial (fun _ => [])
  [.string "abc".toList 2, .floats [.rat 1], .string [] 0] (by
    intro c hc t b e
    simp only [List.mem_cons, List.not_mem_nil, or_false] at hc
    rcases hc with rfl | rfl | rfl <;> cases e <;> decide)

/-- -5 is `-1.25 * 2^2` -/
example : Bits32 true 129 2097152 (f32le 0 0 160 192) :=
  f32le_bits _ _ _ _ true 129 2097152 (by decide) (by decide) (by decide)
example := floatStd_ok (text := " -5.00000000e+00".toList) (x := .rat (-5)) (by decide +kernel)

end Verif.Seq

namespace Verif
example : PyF.single (.rat (-16777216)) = .rat (-16777216) := single_int (n := -16777216) (by decide)
example : PyF.round binary32 (.rat (5 / 4)) = .rat (5 / 4) :=
  round_exact ⟨5, -2, by decide, by decide, by decide +kernel⟩ (by decide +kernel)
example : .rat 1 = PyF.round binary32 (.rat 1) := Rounds.eq (by
  have h : PyF.round binary32 (.rat 1) = .rat 1 := by decide +kernel
  have k := round_rounds binary32 (.rat 1)
  rwa [h] at k)
end Verif

namespace Verif.Vtf

/-- a class derived from the one for VTF files, with an attribute of its own -/
example := derived_not_created (("colour", .none) :: vtfClass) "Model".toList [] (by decide)

end Verif.Vtf

namespace Verif.Vtu

/-- data before there is a piece -/
example := refused_no_effect (c := .addData exCon "early".toList []) rel_init.2 rfl
  (e := .vtkError) (by decide) (s' := ((Call.addData exCon "early".toList []).run init.1).1) rfl
example := vtu_legal init.1 [] rel_init.2

/-- the calls on writer 0 before the results are given in time -/
def exBefore : List RCall :=
  [.create 0, .newPiece 0 0 1 0 1, .addDataCellpoints 0 2 "early".toList [], .startPointdata 0]

/-- the results are given twice, refused the first time: they are written in the order of two calls -/
example : ∃ p : Piece, ∃ ss t, p.sections = ss ++ [t] ∧
    Rel ((RCall.run (.addDataCellpoints 0 2 "stress".toList []) (runs exAgain exBefore).2).1.writers 0)
      ([] ++ [{ p with sections := ss ++ [⟨t.kind, t.arrays ++ [⟨{ exAgain.arrs 2 with
        rows := (inResOrder 2 [26, 28] (exBlocks 2)).flatten ++ [] }, "stress".toList, []⟩]⟩] }]) := by
  obtain ⟨piece, h1, -, h2, h3, -⟩ := piece_again (c := 1) (o := 0) (t := 1)
    (types := [26, 28]) (blocks := exBlocks 1) (rest := []) rfl (by decide)
    [.create 0] exAgain (by decide +kernel) (by decide) (by decide)
    (by simp [RCall.Only]) (by decide +kernel) 0 0 (by decide)
    (by rw [show (runs exAgain [.create 0]).2.writers 0 = init.1 by decide +kernel]
        exact rel_init.2) (by decide +kernel)
  rcases start_point h1 with ⟨h, -⟩ | ⟨s', d', k1, k2, k3⟩
  · cases h
  have e : (runs exAgain exBefore).2.writers 0 = s' := by
    have : (runs exAgain exBefore).2.writers 0 = (startPointdata ((RCall.run (.newPiece 0 0 1 0 1)
        (runs exAgain [.create 0]).2).1.writers 0)).1 := by decide +kernel
    rw [this, k1]
  generalize hd : [] ++ [piece] = d at k2
  cases k2 with
  | startPoint d q =>
    obtain ⟨rfl, rfl⟩ : d = [] ∧ q = piece := by
      cases d with
      | nil => simpa [eq_comm] using hd
      | cons x d => simp at hd
    refine ⟨_, results_written (a := 2) (o := 0) (t := 1) (types := [26, 28]) (blocks := exBlocks 2)
      (rest := []) rfl (by decide) exBefore exAgain (by decide +kernel) (by decide) (by decide)
      (by simp [exBefore, RCall.OnlyRes]) (fun _ => .inl rfl) 0 "stress".toList [] (e ▸ k3) ?_ ?_
      (by decide +kernel)⟩
    · rw [show q.offsets.vals = _ from congrArg IArr.vals h2]
      decide
    · rw [show q.types.vals = _ from congrArg IArr.vals h3]
      decide

end Verif.Vtu
