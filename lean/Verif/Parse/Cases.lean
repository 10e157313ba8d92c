import Verif.Parse.Records
import Verif.Parse.Repeats
import Verif.Parse.SelectDemo
import Verif.Parse.Terminates
/-!
# Concrete cases of the theorems about one conversion

`Demo.job` is a model file, `Demo.resJob` a results file, `Demo.jobPassed` with `Demo.wanted` a
conversion of some record types only.
-/

namespace Verif.Parse.Cases
open Verif Verif.Seq Verif.Parse Verif.Parse.Demo

example (B : Nat) := one_row_per_record job clean onDisk.2 B
example (B : Nat) := no_record_no_table job clean onDisk.1 B
example (B : Nat) := slices_are_own resJob resClean resOnDisk B
example (B : Nat) := fixed_layout_rows (jobPassed.select wanted_closed wanted_or_passed) clean
  onDiskPassed.2 B
example (B : Nat) := optional_fields job clean onDisk.1 B
example (B : Nat) := classification resJob resClean resOnDisk B
example := classified_function resJob.classified resJob.classified
example := classified_total (outs := resOuts) (pl := .top "" "R")
  (fun o ho hn => absurd hn (by revert o; decide +kernel)) (by intros; contradiction) (by decide)

/-- the results of an element whose points, components or result case have not been declared -/
example (B fuel : Nat) (w : Work) : Prog.run (L.reader fun _ => false)
    (loop B rvelmresBody "RVSTRESS" (fuel + 1) w {} ("RVSTRESS", [.rat 9, .rat 1, .rat 1, .rat 1]))
    ⟨⟨"RVSTRESS", [.rat 9, .rat 1, .rat 1, .rat 1], [], 0, [.rat 1, .rat 5], []⟩, 0, []⟩ =
      .error .keyError :=
  have h1 : HasInt (.rat 1) 1 := ⟨1, rfl, by norm_num, by norm_num⟩
  missing_declaration_raises _ B fuel w {} rfl h1 h1 h1 h1 (.inl rfl)

/-- an element of a type that is not supported -/
example (B fuel : Nat) (w : Work) : Prog.run (L.reader fun _ => false)
    (loop B gelmnt1Body "GELMNT1" (fuel + 1) w {} ("GELMNT1", [.rat 1, .rat 1, .rat 33, .rat 0]))
    ⟨⟨"GELMNT1", [.rat 1, .rat 1, .rat 33, .rat 0], [], 0, [.rat 1, .rat 5], []⟩, 0, []⟩ =
      .error .keyError :=
  unsupported_type_raises (elno := 1) (ty := 33) _ _ B fuel w {}
    ⟨1, rfl, by norm_num, by norm_num⟩ ⟨33, rfl, by norm_num, by norm_num⟩ (by simp [NodeCount])

/-- two groups of directions, no frequencies and times -/
example (env : Env) (pad : List PyF) :=
  have h1 : HasInt (.rat 1) 1 := ⟨1, rfl, by norm_num, by norm_num⟩
  have h2 : HasInt (.rat 2) 2 := ⟨2, rfl, by norm_num, by norm_num⟩
  references_read (env := env) (pad := pad) (a := .rat 10) (b := .rat 1) (name := "WDRESREF")
    (vals := [.rat 1, .rat 5, .rat 6, .rat 1, .rat 7, .rat 8])
    (ts := [(1, [vector [.rat 5, .rat 6]]), (1, [vector [.rat 7, .rat 8]])])
    (dir := [[vector [.rat 5, .rat 6]], [vector [.rat 7, .rat 8]]]) (freq := []) (time := []) h1 h2
    (.cons (d := [.rat 5, .rat 6]) h1 ⟨[[.rat 5, .rat 6]], by simp, rfl, rfl⟩ rfl
      (.cons (d := [.rat 7, .rat 8]) (l := []) h1 ⟨[[.rat 7, .rat 8]], by simp, rfl, rfl⟩ rfl .nil))
    (.this (.this .nil)) (.other (by decide) (.other (by decide) .nil))
    (.other (by decide) (.other (by decide) .nil))
/-- … and how they are stored: two pairs, the row gives the second -/
example (B : Nat) := references_stored B (l := ⟨"WDRESREF", [colI "nfield"],
      [arrV "dir" 2, arrV "freq" 2, arrV "time" 2]⟩)
  (t := ⟨[], [[], [], []], [(0, 0), (0, 0), (0, 0)]⟩) (row := numbers [.rat 10])
  (cells := [.sc (.int 10)]) rfl rfl (by stored)
  (dir := [[vector [.rat 5, .rat 6]], [vector [.rat 7, .rat 8]]]) (freq := []) (time := [])
  (cx := [[.vec [.flt (.rat 5), .flt (.rat 6)]], [.vec [.flt (.rat 7), .flt (.rat 8)]]])
  (.cons (.cons (Stored.vec (.cons (.flt (rounds_of (by decide +kernel)))
      (.cons (.flt (rounds_of (by decide +kernel))) .nil))) .nil)
    (.cons (.cons (Stored.vec (.cons (.flt (rounds_of (by decide +kernel)))
      (.cons (.flt (rounds_of (by decide +kernel))) .nil))) .nil) .nil)) .nil .nil

/-- any bytes and any text -/
example (src : Source) := parse_limit_irrelevant Dec.std std_fine 3 none {} src (src.size + 2) le_rfl
example (b : Bytes) (t : Str) := recordcount_terminates Dec.std std_fine b t

end Verif.Parse.Cases
