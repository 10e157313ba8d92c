import Verif.Data.HydroMore
import Mathlib.Algebra.Field.Rat
import Mathlib.Algebra.Module.Prod
import Mathlib.Algebra.Order.Ring.Unbundled.Rat
/-!
# Concrete cases for C35, C36, C37, C52, C53

A file with two directions and three frequencies (not in increasing order), two bodies whose
records are interleaved, two sections, two points, panels on two symmetry parts.
-/

namespace Verif.Data.Hydro.Demo
open Verif

abbrev Cx := Rat × Rat

def dirsD : List Rat := [3, 1]
def freqsD : List Rat := [1/2, 2, 1]

/-- six components that tell direction, frequency and component apart -/
def sixOf (d f : Rat) : List Cx := (List.range 6).map fun c => (100 * d + f, (c : Rat))

def threeOf (d f : Rat) : List Rat := (List.range 3).map fun c => 100 * d + f + (c : Rat) / 10

def condsD : List BodConRow := [⟨5, 1⟩, ⟨8, 2⟩, ⟨9, 1⟩]

def secD : List (SectionRow Rat) := [⟨1, 1, 1, 11, [0, 0, 0], [1, 0, 0], [0, 1, 0]⟩,
  ⟨1, 2, 2, 12, [5, 0, 0], [6, 0, 0], [5, 1, 0]⟩]

def ptsD : List (PointRow Rat) := [⟨1, [0, 0, 0]⟩, ⟨2, [10, 0, -5]⟩]

def fluidOf (d f : Rat) (p : PointRow Rat) : FluidRow Cx :=
  { p := (d, f), v := [(d, p.ifkpnt), (f, p.ifkpnt), (0, p.ifkpnt)] }

def panelOf (d f : Rat) (s p : Int) : PanelRow Cx :=
  { ibcond := 5, isymm1 := s, p := (100 * d + f, 10 * s + p), ipan := p }

def mat (x : Rat) : List (List Rat) :=
  (List.range 6).map fun i => (List.range 6).map fun j => x + (10 * i + j : Nat)

def tabsD : HydroTabs Rat Cx where
  wdresref := some ([3, 3, 3, 1, 1, 1], [1/2, 2, 1, 1/2, 2, 1], [])
  wglobdef := some [⟨10, 1000, 300⟩]
  wbodcon := some condsD
  wbody := some [⟨31, 8, [("bmass", .real [[70]])]⟩, ⟨31, 5, [("bmass", .real [[50]]), ("vol", .real [[20]])]⟩]
  wsection := some secD
  wfkpoint := some ptsD
  w1motion := some (dirsD.flatMap fun d => freqsD.flatMap fun f =>
    [⟨5, sixOf d f⟩, ⟨8, sixOf (d + 50) f⟩])
  w2hdrift := some (dirsD.flatMap fun d => freqsD.map fun f => ⟨5, threeOf d f⟩)
  w1sforce := some (secD.flatMap fun s => dirsD.flatMap fun d => freqsD.map fun f =>
    ⟨5, sixOf (d + 1000 * s.isect) f⟩)
  wfluidkn := some (dirsD.flatMap fun d => freqsD.flatMap fun f => ptsD.map fun p => fluidOf d f p)
  w1matrix := some [⟨5, 5, 12, mat 1⟩, ⟨5, 8, 12, mat 2⟩, ⟨5, 5, 31, mat 3⟩, ⟨5, 5, 12, mat 4⟩,
    ⟨5, 5, 31, mat 5⟩]
  w1panpre := some (dirsD.flatMap fun d => freqsD.flatMap fun f => [1, 2].flatMap fun s =>
    [4, 7, 9].map fun p => panelOf d f s p)

theorem gridD : OnGrid tabsD dirsD freqsD where
  dirs_nodup := by decide +kernel
  freqs_nodup := by decide +kernel
  dirs_ne := by decide
  freqs_ne := by decide
  refs := by decide +kernel

/-- the file opens -/
theorem opensD : ∃ h, hydroInit 3 tabsD = .ok h := opens 3 tabsD rfl rfl

theorem body1 : BodyCondition condsD 1 5 := ⟨[], ⟨5, 1⟩, [⟨8, 2⟩, ⟨9, 1⟩], rfl, rfl, rfl, by simp⟩

theorem body2 : BodyCondition condsD 2 8 := ⟨[⟨5, 1⟩], ⟨8, 2⟩, [⟨9, 1⟩], rfl, rfl, rfl, by decide⟩

/-- motions of body 2: component 4 for direction 1 (index 1) and frequency 2 (index 1) -/
example {h : HydroObj Rat Cx} (hi : hydroInit 3 tabsD = .ok h) :
    ∃ a, getMotionRaos h 2 = .ok a ∧ a.shape = [6, 2, 3] ∧ a.get [4, 1, 1] = (5102, 4) := by
  obtain ⟨a, h1, h2, h3⟩ := motion_raos (row := fun d f => sixOf (d + 50) f)
    (recs := dirsD.flatMap fun d => freqsD.map fun f => ⟨8, sixOf (d + 50) f⟩) hi gridD rfl
    (.body rfl (by decide) body2 (by decide +kernel)) ⟨fun d _ f _ => by simp [sixOf], by decide +kernel⟩
  exact ⟨a, h1, h2, h3 4 1 1 1 2 _ rfl rfl (by decide +kernel)⟩

example {h : HydroObj Rat Cx} (hi : hydroInit 3 tabsD = .ok h) :
    getDirections 3 h "radians" = .ok [3, 1] ∧ getAngularFreqs h = .ok [1/2, 2, 1] :=
  grid_axes hi gridD

/-- the distinct values of a list with repetitions, in order of first appearance -/
example : npUniqueInOrder [(3 : Int), 1, 3, 2, 1, 0] = .ok [3, 1, 2, 0] := by decide

example {h : HydroObj Rat Cx} (hi : hydroInit 3 tabsD = .ok h) :
    ∃ a, getHorizMeandrift h 1 = .ok a ∧ a.get [2, 0, 2] = 301 + 2 / 10 := by
  obtain ⟨a, h1, h2, h3⟩ := horiz_meandrift (row := threeOf)
    (recs := dirsD.flatMap fun d => freqsD.map fun f => ⟨5, threeOf d f⟩) hi gridD rfl
    (.body rfl (by decide) body1 (by decide +kernel)) ⟨fun d _ f _ => by simp [threeOf], by decide +kernel⟩
  exact ⟨a, h1, h3 2 0 2 3 1 _ rfl rfl (by decide +kernel)⟩

example {h : HydroObj Rat Cx} (hi : hydroInit 3 tabsD = .ok h) :
    ∃ a, getSectionForceRaos h 1 = .ok a ∧ a.shape = [2, 6, 2, 3] ∧
      a.get [1, 5, 0, 1] = (200302, 5) := by
  obtain ⟨a, h1, h2, h3⟩ := section_raos (row := fun s d f => sixOf (d + 1000 * s.isect) f)
    (recs := secD.flatMap fun s => dirsD.flatMap fun d => freqsD.map fun f =>
      ⟨5, sixOf (d + 1000 * s.isect) f⟩) hi gridD rfl rfl
    (.body rfl (by decide) body1 (by decide +kernel)) (fun s _ d _ f _ => by simp [sixOf])
    (by decide +kernel)
  exact ⟨a, h1, h2, h3 1 5 0 1 _ 3 2 _ rfl rfl rfl (by decide +kernel)⟩

theorem kinD : HoldsKinematics dirsD freqsD ptsD (dirsD.flatMap fun d => freqsD.flatMap fun f =>
    ptsD.map fun p => fluidOf d f p) fluidOf :=
  ⟨fun _ _ _ _ _ _ => rfl, rfl⟩

example {h : HydroObj Rat Cx} (hi : hydroInit 3 tabsD = .ok h) :
    ∃ a, getFluidKinematicsRaos h "velocity" = .ok a ∧ a.shape = [2, 3, 2, 3] ∧
      a.get [1, 1, 0, 1] = (2, 2) := by
  obtain ⟨a, h1, h2, h3⟩ := velocity_raos hi gridD rfl rfl kinD
  exact ⟨a, h1, h2, h3 1 1 0 1 _ 3 2 _ rfl rfl rfl rfl⟩

example {h : HydroObj Rat Cx} (hi : hydroInit 3 tabsD = .ok h) :
    ∃ a, getFluidKinematicsRaos h "elevation" = .ok a ∧
      ((1000 : Rat) * 10) • a.get [1, 0, 1] = (3, 2) := by
  obtain ⟨a, h1, h2, h3⟩ := elevation_raos (rest := []) (gl := ⟨10, 1000, 300⟩)
    hi gridD rfl rfl kinD rfl (by decide) (by decide)
  exact ⟨a, h1, h3 1 0 1 _ 3 2 rfl rfl rfl⟩

/-- the second record for the pair of bodies (1, 1) and type 12 is the fourth of the file -/
example {h : HydroObj Rat Cx} (hi : hydroInit 3 tabsD = .ok h) :
    ∃ a, getAddedmass h 1 1 = .ok a ∧ a.shape = [6, 6, 2] ∧ a.get [2, 3, 1] = 27 := by
  obtain ⟨a, h1, h2, h3, h4, _⟩ := all_matrices (sel := [⟨5, 5, 12, mat 1⟩, ⟨5, 5, 12, mat 4⟩])
    hi rfl rfl body1 body1 (mtyp := 12) (by decide) (by decide +kernel)
  exact ⟨a, h4 rfl, h2, h3 2 3 1 _ _ _ rfl rfl (by decide +kernel)⟩

example {h : HydroObj Rat Cx} (hi : hydroInit 3 tabsD = .ok h) :
    ∃ a, getHydrostaticRestoring h 1 1 = .ok a ∧ a.get [5, 0] = 53 := by
  obtain ⟨a, h1, h2, _, _, h3, _⟩ := first_matrix
    (pre := [⟨5, 5, 12, mat 1⟩, ⟨5, 8, 12, mat 2⟩]) (m := ⟨5, 5, 31, mat 3⟩)
    (post := [⟨5, 5, 12, mat 4⟩, ⟨5, 5, 31, mat 5⟩])
    hi rfl rfl body1 body1 (mtyp := 31) (by decide) rfl ⟨rfl, rfl, rfl⟩ (by
      intro r hr
      simp only [List.mem_cons, List.not_mem_nil, or_false] at hr
      rcases hr with rfl | rfl <;> unfold IsMatrixFor <;> decide)
  exact ⟨a, h3 rfl, h1.2 5 0 _ _ rfl (by decide +kernel)⟩

theorem pressD : HoldsPressures dirsD freqsD [1, 2] [4, 7, 9] (dirsD.flatMap fun d =>
    freqsD.flatMap fun f => [1, 2].flatMap fun s => [4, 7, 9].map fun p => panelOf d f s p) panelOf :=
  ⟨fun _ _ _ _ _ _ _ _ => ⟨rfl, rfl⟩, rfl⟩

example {h : HydroObj Rat Cx} (hi : hydroInit 3 tabsD = .ok h) :
    ∃ a ids, getPanelPressures h 1 = .ok (some a) ∧ a.shape = [3, 2, 2, 3] ∧
      a.get [1, 1, 0, 2] = (301, 27) ∧ getPressurePanelIds h 1 = .ok (some ids) ∧
      ids[4]? = some (7, 2) := by
  have hr : RecordsOf tabsD (fun r : PanelRow Cx => r.ibcond) (dirsD.flatMap fun d =>
      freqsD.flatMap fun f => [1, 2].flatMap fun s => [4, 7, 9].map fun p => panelOf d f s p) 1 _ :=
    .body rfl (by decide) body1 rfl
  have hall : (dirsD.flatMap fun d => freqsD.flatMap fun f => [1, 2].flatMap fun s =>
      [4, 7, 9].map fun p => panelOf d f s p).filter (fun r => r.ibcond = 5) =
      dirsD.flatMap fun d => freqsD.flatMap fun f => [1, 2].flatMap fun s =>
      [4, 7, 9].map fun p => panelOf d f s p := by decide +kernel
  rw [hall] at hr
  obtain ⟨a, h1, h2, h3⟩ := panel_pressures hi gridD rfl hr pressD (by decide) (by decide)
    (by decide) (by decide)
  obtain ⟨ids, h4, _, h5⟩ := ids_match_pressures hi gridD rfl hr pressD (by decide) (by decide)
    (by decide) (by decide)
  exact ⟨a, ids, h1, h2, (h3 1 1 0 2 7 2 3 1 rfl rfl rfl rfl).trans (by decide +kernel), h4, h5 1 1 7 2 rfl rfl⟩

example {h : HydroObj Rat Cx} (hi : hydroInit 3 tabsD = .ok h) :
    getBodyProperties h 1 = .ok [("bmass", .real [[50]]), ("vol", .real [[20]])] :=
  body_properties (pre := [⟨31, 8, [("bmass", .real [[70]])]⟩]) (post := [])
    (m := ⟨31, 5, [("bmass", .real [[50]]), ("vol", .real [[20]])]⟩) hi rfl rfl body1 rfl rfl
    (by decide) (by
      intro e he
      simp only [List.mem_cons, List.not_mem_nil, or_false] at he
      rcases he with rfl | rfl <;> decide)

def tabsRev : HydroTabs Rat Cx :=
  { tabsD with
    w1panpre := some (dirsD.flatMap fun d => freqsD.flatMap fun f => [1].flatMap fun s =>
      [9, 4].map fun p => panelOf d f s p) }

/-- **Panels listed in decreasing order: ids and pressures do not go together** - `[0, 0, :, :]` is
panel 9, row 0 of the ids is panel 4. -/
theorem reversed_panels {h : HydroObj Rat Cx} (hi : hydroInit 3 tabsRev = .ok h) :
    ∃ a, getPanelPressures h 0 = .ok (some a) ∧ a.get [0, 0, 0, 0] = (panelOf 3 (1/2) 1 9).p ∧
      getPressurePanelIds h 0 = .ok (some [(4, 1), (9, 1)]) := by
  have hg : OnGrid tabsRev dirsD freqsD := ⟨gridD.dirs_nodup, gridD.freqs_nodup, gridD.dirs_ne,
    gridD.freqs_ne, gridD.refs⟩
  obtain ⟨a, h1, h2, h3⟩ := panel_pressures (S := [1]) (P := [9, 4]) (row := panelOf) hi hg rfl .all
    ⟨fun _ _ _ _ _ _ _ _ => ⟨rfl, rfl⟩, rfl⟩ (by decide) (by decide) (by decide) (by decide)
  refine ⟨a, h1, h3 0 0 0 0 9 1 3 (1/2) rfl rfl rfl rfl, ?_⟩
  have hall : (hydroInit 3 tabsRev >>= fun h => getPressurePanelIds h 0) =
      .ok (some [(4, 1), (9, 1)]) := by decide +kernel
  rw [hi] at hall
  exact hall

def tabsShort : HydroTabs Rat Cx :=
  { tabsD with
    w1motion := some (dirsD.flatMap fun d => [1/2, 2].map fun f => ⟨5, sixOf d f⟩) }

/-- motions for an object without the third frequency: 4 records instead of 6 -/
example {h : HydroObj Rat Cx} (hi : hydroInit 3 tabsShort = .ok h) :
    getMotionRaos h 0 = .error .valueError := by
  refine (wrong_count hi ⟨gridD.dirs_nodup, gridD.freqs_nodup, gridD.dirs_ne, gridD.freqs_ne,
    gridD.refs⟩).1 _ _ rfl .all ?_ (by decide)
  intro r hr
  obtain ⟨d, _, hr⟩ := List.mem_flatMap.1 hr
  obtain ⟨f, _, rfl⟩ := List.mem_map.1 hr
  simp [sixOf]

/-- a time domain file -/
example {h : HydroObj Rat Cx} (hi : hydroInit 3 { tabsD with wdresref := some ([3], [], [1, 2]) } = .ok h) :
    getMotionRaos h 1 = .error .resultError := (time_domain 1 "" hi rfl).1

end Verif.Data.Hydro.Demo
