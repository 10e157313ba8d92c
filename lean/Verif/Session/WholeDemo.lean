import Verif.Session.Whole
import Verif.Session.Demo
import Verif.Data.LoadDemo2
/-!
# A session with results files

Shows that the hypotheses of the theorems in `Verif.Session.Whole` can be met.
-/

namespace Verif.Session.WholeDemo
open Verif Verif.Seq
open Verif.Parse hiding num
open Verif.Conv Verif.Data Verif.Data.Life Verif.Data.Load Verif.Session
open Verif.Session.Demo (enum_one)
open Verif.Data.Load.HydroDemo (cplx)
open Verif.Data.Load.Demo (num loadFile loadNames loadJob loadOnDisk)
open Verif.Data.Load.Demo2 (beamFile beamNames beamJob beamOnDisk beamRec)

/-- two results files `R5.SIU`, in `/m/` and in `/b/` -/
def disk (p : Str) : Option Bytes :=
  if p = "/m/R5.SIU".toList then some (75 :: Parse.Demo.bytes loadFile)
  else if p = "/b/R5.SIU".toList then some (75 :: Parse.Demo.bytes beamFile)
  else none

/-- the names of the groups -/
def iter (h : H5) : List (String × List String) :=
  if (h.groups ["R5"]).isSome then [("R5", [])] else []

def start : State := { conv := { cwd := "/m".toList ++ ['/'], disk := disk } }

theorem reach : Reachable iter (3 : Rat) num cplx Dec.std 10000 start :=
  .start "/m".toList disk fun _ => none

theorem name : SesamName "R5.SIU".toList [] 'R' "5".toList "SIU".toList :=
  ⟨⟨[], [], rfl, by simp, by unfold FileLetter; decide, ⟨'5', [], rfl, by decide, by simp⟩, .inl rfl,
    'S', 'I', 'U', rfl, by decide⟩, by
    rintro e ⟨x, y, z, rfl, -⟩ h
    simpa using h.length_le⟩

theorem enum {h : H5} {a : Attrs} (hg : GroupsAfter {} ["R5"] a h) : Enumerates h (iter h) := by
  have e : iter h = [("R5", [])] := by
    unfold iter
    rw [hg.1]
    rfl
  rw [e]
  exact enum_one (by decide) hg

theorem load : ∃ h1, SesamFile Dec.std start.conv "R5.SIU".toList "/m/".toList "R5.SIU".toList [] 'R'
    "5".toList "SIU".toList (75 :: Parse.Demo.bytes loadFile) [] loadFile loadNames 5 "R5"
    "FIRSTLEVEL" "STRUCTURAL" {} h1 h1 [] ∧ Enumerates h1 (iter h1) := by
  obtain ⟨st1, -, c1⟩ := loadJob.source Parse.Demo.resClean 1 loadOnDisk
  refine ⟨st1.h5, ⟨⟨rfl, .inr ⟨"/m".toList, rfl⟩, by decide⟩, name, by decide +kernel, rfl,
    by decide +kernel, _, _, _, loadOnDisk, loadJob, c1, .alone (by decide +kernel)⟩, ?_⟩
  obtain ⟨recs, -, hg⟩ := c1.groups
  have hp : (Place.top "" "R").path 5 = ["R5"] := by decide +kernel
  rw [hp] at hg
  exact enum hg

theorem beam : ∃ h1, SesamFile Dec.std start.conv "/b/R5.SIU".toList "/b/".toList "R5.SIU".toList []
    'R' "5".toList "SIU".toList (75 :: Parse.Demo.bytes beamFile) [] beamFile beamNames 5 "R5"
    "FIRSTLEVEL" "STRUCTURAL" {} h1 h1 [] ∧ Enumerates h1 (iter h1) := by
  obtain ⟨st1, -, c1⟩ := beamJob.source Parse.Demo.resClean 1 beamOnDisk
  refine ⟨st1.h5, ⟨⟨rfl, .inr ⟨"/b".toList, rfl⟩, by decide⟩, name, by decide +kernel,
    by decide +kernel, by decide +kernel, _, _, _, beamOnDisk, beamJob, c1,
    .alone (by decide +kernel)⟩, ?_⟩
  obtain ⟨recs, -, hg⟩ := c1.groups
  have hp : (Place.top "" "R").path 5 = ["R5"] := by decide +kernel
  rw [hp] at hg
  exact enum hg

/-- the nodes of set `A`; then the other file is tried, some File is closed -/
example : ∃ s1 d con offs coords, openSif iter 3 num cplx Dec.std 10000 start "R5.SIU".toList =
      (s1, .ok d) ∧
    (∃ o, struc num (closeFile (openSif iter 3 num cplx Dec.std 10000 s1 "/b/R5.SIU".toList).1 7) d =
        .ok o ∧
      getElements o (.one ['A']) none false = .ok (con, offs, [15]) ∧
      getNodes o 0 (.one ['A']) none false .none 0 = .ok coords) ∧ coords.length = 2 := by
  obtain ⟨h1, F, hi⟩ := load
  obtain ⟨s1, d, con, offs, coords, q1, q2, q3, q4, q5⟩ := session_mesh reach F
    (stem := "R5.".toList) (e3 := "SIU".toList) rfl rfl (by decide) hi (by decide +kernel)
    Load.Demo.meshFile Load.Demo.valid (.inr Load.Demo.setsFile) Load.Demo.chosen
    (els := [⟨6, 15, [2, 3]⟩]) (.cons rfl .nil) (.inl (by simp))
    (disc := false) (ns := [1, 2]) (.used (by simp [NoSelection, NoSets]) ⟨by simp, by simp⟩) 0 0
  exact ⟨s1, d, con, offs, coords, q1,
    q2 _ (.closeFile 7 (by decide) (.openSif _ .refl)), q3.length_eq.symm⟩

/-- displacements of the nodes of set `A` -/
example := fun (h1 : H5)
    (F : SesamFile Dec.std start.conv "R5.SIU".toList "/m/".toList "R5.SIU".toList [] 'R'
      "5".toList "SIU".toList (75 :: Parse.Demo.bytes loadFile) [] loadFile loadNames 5 "R5"
      "FIRSTLEVEL" "STRUCTURAL" {} h1 h1 []) (hi : Enumerates h1 (iter h1)) =>
  session_node_results reach F
    (stem := "R5.".toList) (e3 := "SIU".toList) rfl rfl (by decide) hi (by decide +kernel)
    Load.Demo.meshFile Load.Demo.valid (.inr Load.Demo.setsFile) Load.Demo.chosen
    (els := [⟨6, 15, [2, 3]⟩]) (.cons rfl .nil) (.inl (by simp))
    (disc := false) (ns := [1, 2]) (.used (by simp [NoSelection, NoSets]) ⟨by simp, by simp⟩)
    (.inl rfl) (picked := Load.Demo.results) Load.Demo.resFile' Load.Demo.refs (run := 1)
    (rescases := .all) (flag := 0)
    (fun r hr => by rw [Demo2.wanted.mp hr])
    ⟨List.Sublist.refl _, fun c hc => ⟨fun _ => ⟨_, Demo2.wanted.mpr rfl, by
      simp only [Load.Demo.results, List.mem_singleton] at hc; rw [hc]⟩, fun _ => hc⟩⟩
    (fun r hr => ⟨Load.Demo.results[0], by simp [Load.Demo.results],
      by rw [Demo2.wanted.mp hr]; rfl⟩)
    (by simp [Load.Demo.results, OfKind]) (by simp [Load.Demo.results])

/-- forces of the beam, its section, names -/
example : ∃ s1 d, openSif iter 3 num cplx Dec.std 10000 start "/b/R5.SIU".toList = (s1, .ok d) ∧
    (∃ o, struc num s1 d = .ok o ∧ ∃ x,
      getElementResults 0 o "beamforce" "nodes" 1 .all .none = .ok (.real ⟨[2, 6], x⟩)) ∧
    (∃ o, struc num s1 d = .ok o ∧ getSectionProperties o .none =
      .ok [(7, [0, 2, 3, 4, 5, 6, 7, 8, 9, 10, 11, 12, 1, 2, 3])]) ∧
    (∃ o, struc num s1 d = .ok o ∧ getSetNames o = .ok none) := by
  obtain ⟨h1, F, hi⟩ := beam
  obtain ⟨s1, d, bss, q1, -, -, q2⟩ := session_element_results reach F
    (stem := "R5.".toList) (e3 := "SIU".toList) rfl rfl (by decide) hi (by decide +kernel)
    Demo2.meshFile Demo2.valid (.inl Demo2.noSets) Demo2.chosen (els := [⟨5, 15, [1, 2]⟩])
    (.cons rfl .nil) (by simp) (dims := [6]) (by simp [nodesOf]) (by simp [dimsOf]) Demo2.forceFile
    Demo2.refs (run := 1) (rescases := .all)
    (fun r hr => by rw [Demo2.wanted.mp hr]) (cs := [1])
    ⟨by simp, fun c => ⟨fun h => ⟨⟨1, 1, 1, 0⟩, Demo2.wanted.mpr rfl, (List.mem_singleton.mp h).symm⟩,
      by rintro ⟨r, h, rfl⟩; rw [Demo2.wanted.mp h]; simp⟩⟩ (by simp) (css := [[beamRec]])
    (.keep ⟨⟨_, Demo2.wanted.mpr rfl, rfl⟩, 0, by simp, rfl⟩ .nil) rfl
    (by
      intro c hc
      obtain rfl : c = [beamRec] := by simpa using hc
      exact .cons ⟨rfl, by decide +kernel, _, rfl, rfl⟩ .nil) 0
  obtain ⟨s1', d', q1', q3⟩ := session_sections reach F
    (stem := "R5.".toList) (e3 := "SIU".toList) rfl rfl (by decide) hi (by decide +kernel)
    Demo2.meshFile Demo2.valid (.inl Demo2.noSets) (geos := [7])
    ⟨by simp, .cons ⟨_, _, _, _, _, rfl, toInt_hasInt (by decide +kernel)⟩ .nil⟩
  obtain ⟨s1'', d'', q1'', q4⟩ := session_set_names reach F
    (stem := "R5.".toList) (e3 := "SIU".toList) rfl rfl (by decide) hi (by decide +kernel)
  rw [q1] at q1' q1''
  cases q1'
  cases q1''
  obtain ⟨o, q5, q6⟩ := q2 _ .refl
  obtain ⟨o', q7, q8, -⟩ := q3 _ .refl
  obtain ⟨o'', q9, -, q10⟩ := q4 _ .refl
  refine ⟨s1, d, q1, ⟨o, q5, _, q6⟩, ⟨o', q7, ?_⟩, ⟨o'', q9, q10 (by decide +kernel)⟩⟩
  exact q8 [0] [7] [(7, [0, 2, 3, 4, 5, 6, 7, 8, 9, 10, 11, 12, 1, 2, 3])] _ Demo2.chosen
    (.cons rfl .nil)
    ⟨by simp, .cons ⟨_, _, _, _, rfl, toInt_hasInt (by decide +kernel), by decide +kernel⟩ .nil⟩
    (.cons ⟨[], [], rfl, by simp⟩ .nil)

end Verif.Session.WholeDemo

namespace Verif.Session.Demo
open Verif Verif.Seq
open Verif.Parse hiding num
open Verif.Conv Verif.Data Verif.Data.Life Verif.Data.Load Verif.Session
open Verif.Conv.Demo (topFile cells ext_not_results)
open Verif.Data.Load.HydroDemo (hydFile grid num cplx)

/-- a hydrodynamic results file, after a structural file was opened as well -/
example : ∃ s' d o, openSif iter 3 num cplx Dec.std 10000 start "G5.SIU".toList = (s', .ok d) ∧
    hydro 3 num cplx (openSif iter 3 num cplx Dec.std 10000 s' "T5.FEM".toList).1 d = .ok o ∧
    getAngularFreqs o = .ok [2, 1/2] := by
  obtain ⟨h1, lev, F, hi⟩ := hyd
  obtain ⟨s', d, tabs, o, q1, -, -, -, q2, q3⟩ := session_hydro reach F (stem := "G5.".toList)
    (e3 := "SIU".toList) rfl rfl (by decide) hi (by decide +kernel) grid
  exact ⟨s', d, o, q1, q3 _ (.openSif _ .refl), q2⟩

/-- a hierarchy, after the file of the lower superelement was opened as well -/
example : ∃ s' d o m d' o', openSif iter 3 num cplx Dec.std 10000 start "T9.FEM".toList = (s', .ok d) ∧
    ∀ s2, s2 = (openSif iter 3 num cplx Dec.std 10000 s' "T5.FEM".toList).1 →
      top num s2 d = .ok o ∧ ReadsTop num topFile o ∧
      getItem s2.life 0 ("T9" ++ "/" ++ m) = .ok d' ∧ struc num s2 d' = .ok o' := by
  obtain ⟨h1, h2, F, hi, tab, ht, hr⟩ := two
  obtain ⟨s', d, o, q1, -, q2, q3, sk, f', i, hrec, idx, t', m, lev', d', -, u1, u2, -, -, u3, q4, q5⟩ :=
    session_hierarchy reach F (stem := "T9.".toList)
      (e3 := "FEM".toList) rfl rfl (by decide) hi (by decide +kernel) (by decide) ht
      (row := cells [8, 2, 5, 1, 1, 1, 1, 0, 0, 0])
      (by rw [hr]; decide) (.input (t := 5) (r := 2) ext_not_results rfl rfl rfl)
      (b' := 75 :: Parse.Demo.bytes Parse.Demo.file) (by decide +kernel)
  have hl : lev' = "FIRSTLEVEL" := by
    cases u3 with
    | results => rfl
    | first => rfl
    | @inter k h1 h2 h3 =>
      exfalso
      obtain rfl : i = 1 := by omega
      rw [hr] at u2
      obtain rfl : hrec = cells [8, 2, 5, 1, 1, 1, 1, 0, 0, 0] := by
        have e : Conv.Demo.rows[1]? = some (cells [8, 2, 5, 1, 1, 1, 1, 0, 0, 0]) := by decide
        rw [e] at u2
        cases u2
        rfl
      have e : (cells [8, 2, 5, 1, 1, 1, 1, 0, 0, 0])[4]? = some (.sc (.int 1)) := by decide
      unfold HasField at h2
      rw [e] at h2
      cases h2
      omega
  obtain ⟨o', -, -, -, q6⟩ := q5 hl
  refine ⟨s', d, o, m, d', o', q1, ?_⟩
  rintro s2 rfl
  exact ⟨q3 _ (.openSif _ .refl), q2, q4 _ (.openSif _ .refl), q6 _ (.openSif _ .refl)⟩

end Verif.Session.Demo
