import Verif.Session.AnyRes
import Verif.Session.WholeDemo
/-!
# The records of node and element results of two files: examples
-/

namespace Verif.Session.WholeDemo
open Verif Verif.Seq
open Verif.Parse hiding num
open Verif.Conv Verif.Data Verif.Data.Life Verif.Data.Load Verif.Session
open Verif.Data.Load.HydroDemo (cplx)
open Verif.Data.Load.Demo (num loadFile loadNames)
open Verif.Data.Load.Demo2 (beamFile beamNames beamRec)

def rec1 : NodeRec Rat := ⟨1, 1, [1, 2, 3, 4, 5, 6]⟩
def rec2 : NodeRec Rat := ⟨1, 2, [7, 8, 9, 10, 11, 12]⟩
def rec3 : NodeRec Rat := ⟨1, 3, [2, 4, 6, 8, 10, 12]⟩

theorem recFile : NodeRecFile num loadFile "displacement" [rec1, rec2, rec3] := by
  refine ⟨by simp, _, .displacement, .cons ?_ (.cons ?_ (.cons ?_ .nil))⟩ <;>
    exact ⟨_, _, _, _, _, _, rfl, rfl, toInt_hasInt (by decide +kernel),
      toInt_hasInt (by decide +kernel), by decide +kernel⟩

theorem oneCase : CaseNumbers [⟨1, 1, 1, 0⟩] 1 .all [1] :=
  ⟨by simp, fun c => ⟨fun h => ⟨⟨1, 1, 1, 0⟩, Demo2.wanted.mpr rfl, (List.mem_singleton.mp h).symm⟩,
    by rintro ⟨r, h, rfl⟩; rw [Demo2.wanted.mp h]; simp⟩⟩

/-- C83: displacements of the nodes of set `A` -/
example : ∃ s1 d o, openSif iter 3 num cplx Dec.std 10000 start "R5.SIU".toList = (s1, .ok d) ∧
    struc num (closeFile s1 7) d = .ok o ∧
    getNodeResults o "displacement" 1 .all (.one ['A']) none false =
      .ok (.single [[.re 7, .re 8, .re 9, .re 10, .re 11, .re 12],
        [.re 2, .re 4, .re 6, .re 8, .re 10, .re 12]]) := by
  obtain ⟨h1, F, hi⟩ := load
  obtain ⟨s1, d, q1, q2⟩ := session_node_records reach F
    (stem := "R5.".toList) (e3 := "SIU".toList) rfl rfl (by decide) hi (by decide +kernel)
    Load.Demo.meshFile Load.Demo.valid (.inr Load.Demo.setsFile) Load.Demo.chosen
    (els := [⟨6, 15, [2, 3]⟩]) (.cons rfl .nil) (.inl (by simp))
    (ns := [1, 2]) (.used (by simp [NoSelection, NoSets]) ⟨by simp, by simp⟩)
    recFile Load.Demo.refs (run := 1) (rescases := .all) (flag := 0)
    (fun r hr => by rw [Demo2.wanted.mp hr]) oneCase (by simp) (kept := [rec2, rec3])
    (.drop (by rintro ⟨_, n, hn, h⟩; simp [rec1] at hn h; omega) <|
      .keep ⟨⟨_, Demo2.wanted.mpr rfl, rfl⟩, 1, by simp, rfl⟩ <|
      .keep ⟨⟨_, Demo2.wanted.mpr rfl, rfl⟩, 2, by simp, rfl⟩ .nil)
  obtain ⟨o, q3, q4, -⟩ := q2 _ (.closeFile 7 (by decide) .refl)
  exact ⟨s1, d, o, q1, q3, (q4
    [.re 7, .re 8, .re 9, .re 10, .re 11, .re 12, .re 2, .re 4, .re 6, .re 8, .re 10, .re 12]
    [[[.re 7, .re 8, .re 9, .re 10, .re 11, .re 12], [.re 2, .re 4, .re 6, .re 8, .re 10, .re 12]]]
    (by simp) ⟨rfl, by simp [OfKind]⟩ ⟨rfl, rfl, ⟨2, by simp⟩, by simp⟩).1 _ rfl⟩

/-- C83: forces of the beam -/
example := fun (h1 : H5)
    (F : SesamFile Dec.std start.conv "/b/R5.SIU".toList "/b/".toList "R5.SIU".toList []
      'R' "5".toList "SIU".toList (75 :: Parse.Demo.bytes beamFile) [] beamFile beamNames 5 "R5"
      "FIRSTLEVEL" "STRUCTURAL" {} h1 h1 []) (hi : Enumerates h1 (iter h1)) =>
  session_element_records reach F
    (stem := "R5.".toList) (e3 := "SIU".toList) rfl rfl (by decide) hi (by decide +kernel)
    Demo2.meshFile Demo2.valid (.inl Demo2.noSets) Demo2.chosen Demo2.forceFile
    Demo2.refs (run := 1) (rescases := .all)
    (fun r hr => by rw [Demo2.wanted.mp hr]) oneCase (by simp) (kept := [beamRec])
    (.keep ⟨⟨_, Demo2.wanted.mpr rfl, rfl⟩, 0, by simp, rfl⟩ .nil) (by simp) (s3 := 0)
    (pos := "nodes") (bs := [⟨[6], [0, 2].map fun i => (List.range 6).map fun k =>
      at1 beamRec.values (6 * i + k)⟩])
    (.cons (by
      have h : beamRec.values.length = 18 := by decide +kernel
      show process15 beamRec.values = _
      unfold process15
      rw [if_pos h]) .nil) (dims := [6]) (by simp)
    (.inr ⟨by decide, _, rfl⟩)

end Verif.Session.WholeDemo
