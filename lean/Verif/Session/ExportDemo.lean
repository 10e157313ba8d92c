import Verif.Session.Export
import Verif.Session.WholeDemo
import Verif.Export.Demo
/-!
# From the results files of the session in `Verif.Session.WholeDemo` to VTU files

Shows that the hypotheses of the theorems in `Verif.Session.Export` can be met.
-/

namespace Verif.Session.ExportDemo
open Verif Verif.Seq
open Verif.Parse hiding num
open Verif.Conv Verif.Data Verif.Data.Life Verif.Data.Load Verif.Session Verif.Session.WholeDemo
open Verif.Export Verif.Export.Demo
open Verif.Data.Load.HydroDemo (cplx)
open Verif.Data.Load.Demo (num loadFile loadNames)
open Verif.Data.Load.Demo2 (beamFile beamNames beamRec)

/-- translations of the nodes of set `A` -/
example := fun (h1 : H5)
    (F : SesamFile Dec.std start.conv "R5.SIU".toList "/m/".toList "R5.SIU".toList [] 'R'
      "5".toList "SIU".toList (75 :: Parse.Demo.bytes loadFile) [] loadFile loadNames 5 "R5"
      "FIRSTLEVEL" "STRUCTURAL" {} h1 h1 []) (hi : Enumerates h1 (iter h1)) =>
  session_export_node_results reach F
    (stem := "R5.".toList) (e3 := "SIU".toList) rfl rfl (by decide) hi (by decide +kernel)
    Load.Demo.meshFile Load.Demo.valid (.inr Load.Demo.setsFile) Load.Demo.chosen
    (els := [⟨6, 15, [2, 3]⟩]) (.cons rfl .nil) (by simp)
    (disc := false) (ns := [1, 2]) (.used (by simp [NoSelection, NoSets]) ⟨by simp, by simp⟩)
    (.inl rfl) (by intro e he; obtain rfl := List.mem_singleton.mp he; rfl) encRat_ok encRat_ok i4
    i4_ok i4_ok (by simp) (by simp) (by simp [i4]) (by simp [i4])
    (c := Load.Demo.results[0]) Load.Demo.resFile' Load.Demo.refs (run := 1) (rescases := .all)
    (fun r hr => by rw [Demo2.wanted.mp hr])
    ⟨List.Sublist.refl _, fun c hc => ⟨fun _ => ⟨_, Demo2.wanted.mpr rfl, by
      simp only [Load.Demo.results, List.mem_singleton] at hc; rw [hc]⟩, fun _ => hc⟩⟩
    (fun r hr => ⟨Load.Demo.results[0], by simp [Load.Demo.results],
      by rw [Demo2.wanted.mp hr]; rfl⟩)
    (by simp [Load.Demo.results, OfKind]) (cols := 3) (by decide) "displacement".toList [] 0 0

example : ∃ h1, SesamFile Dec.std start.conv "R5.SIU".toList "/m/".toList "R5.SIU".toList [] 'R'
    "5".toList "SIU".toList (75 :: Parse.Demo.bytes loadFile) [] loadFile loadNames 5 "R5"
    "FIRSTLEVEL" "STRUCTURAL" {} h1 h1 [] ∧ Enumerates h1 (iter h1) := load

/-- forces of the beam -/
example := fun (h1 : H5)
    (F : SesamFile Dec.std start.conv "/b/R5.SIU".toList "/b/".toList "R5.SIU".toList []
      'R' "5".toList "SIU".toList (75 :: Parse.Demo.bytes beamFile) [] beamFile beamNames 5 "R5"
      "FIRSTLEVEL" "STRUCTURAL" {} h1 h1 []) (hi : Enumerates h1 (iter h1)) =>
  session_export_element_results reach F
    (stem := "R5.".toList) (e3 := "SIU".toList) rfl rfl (by decide) hi (by decide +kernel)
    Demo2.meshFile Demo2.valid (.inl Demo2.noSets) (restype := "beamforce") Demo2.chosen
    (els := [⟨5, 15, [1, 2]⟩]) (.cons rfl .nil) (by simp) (ns := [0, 1]) (.places rfl) (k := 6)
    (by decide) (by simp [nodesOf]) (by simp [dimsOf]) Demo2.forceFile
    Demo2.refs (run := 1) (rescases := .all)
    (fun r hr => by rw [Demo2.wanted.mp hr]) (c := 1)
    ⟨by simp, fun c => ⟨fun h => ⟨⟨1, 1, 1, 0⟩, Demo2.wanted.mpr rfl, (List.mem_singleton.mp h).symm⟩,
      by rintro ⟨r, h, rfl⟩; rw [Demo2.wanted.mp h]; simp⟩⟩ (rs := [beamRec])
    (.keep ⟨⟨_, Demo2.wanted.mpr rfl, rfl⟩, 0, by simp, rfl⟩ .nil)
    (.cons ⟨rfl, by decide +kernel, _, rfl, rfl⟩ .nil) 0 encRat_ok encRat_ok i4 i4_ok i4_ok
    (by simp) (by simp [i4]) (by simp [i4]) "beamforce".toList [] 0 0

example : ∃ h1, SesamFile Dec.std start.conv "/b/R5.SIU".toList "/b/".toList "R5.SIU".toList []
    'R' "5".toList "SIU".toList (75 :: Parse.Demo.bytes beamFile) [] beamFile beamNames 5 "R5"
    "FIRSTLEVEL" "STRUCTURAL" {} h1 h1 [] ∧ Enumerates h1 (iter h1) := beam

end Verif.Session.ExportDemo
