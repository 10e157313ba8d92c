import Verif.Session.Disk
import Verif.Session.WholeDemo
/-!
# A session with HDF5 files on disk

Shows that the hypotheses of the theorems in `Verif.Session.Disk` can be met.
-/

namespace Verif.Session.DiskDemo
open Verif Verif.Seq
open Verif.Parse hiding num
open Verif.Conv Verif.Data Verif.Data.Life Verif.Data.Load Verif.Session
open Verif.Session.WholeDemo (start load name disk)
open Verif.Data.Load.HydroDemo (cplx)
open Verif.Data.Load.Demo (num loadFile loadNames loadJob loadOnDisk)
open Verif.Data.Load.Demo2 (beamFile beamNames beamOnDisk beamAccepted beamOuts)

/-- the options: convert to `out.h5` -/
def write : Options := { hdf5name := some "out.h5".toList }

/-- the options: convert to `out.h5`, keeping what it has -/
def append : Options := { hdf5name := some "out.h5".toList, append := true }

theorem before : Before start.conv false "out.h5".toList {} :=
  ⟨by simp [start], fun _ => by simp [start], by simp [start]⟩

/-- `sif2hdf5('R5.SIU', 'out.h5')`, `open_hdf5('/m/out.h5')` -/
example : ∃ s1 s2 d x, convert Dec.std 10000 write start (.name "R5.SIU".toList) (.one []) =
      (s1, .ok (.path "/m/out.h5".toList)) ∧
    openHdf5 WholeDemo.iter 3 num cplx s1 "/m/out.h5".toList = (s2, .ok 0) ∧
    getItem s2.life 0 "R5" = .ok d ∧
    struc num (closeFile (openSif WholeDemo.iter 3 num cplx Dec.std 10000 s2 "R5.SIU".toList).1 7) d =
      .ok x ∧ Reads num loadFile x := by
  obtain ⟨h1, F, hi⟩ := load
  obtain ⟨s1, s2, d, x, q1, q2, q3, -, -, -, -, -, q4, q5⟩ := hdf5_object (o := write) (upre := [])
    (given := "out.h5".toList) (hdf5 := "/m/out.h5".toList) WholeDemo.reach F rfl rfl
    (by intro h; cases h) (.inl ⟨by simp, rfl⟩) (by decide +kernel) (by intro h he; cases he)
    (by intro p hp; rfl) before proper_empty hi
  exact ⟨s1, s2, d, x, q1, q2, q3, q5 _ (.closeFile 7 (by decide) (.openSif _ .refl)), q4⟩

/-- `open_sif('R5.SIU')` instead -/
example : ∃ a da s1 b db, openSif WholeDemo.iter 3 num cplx Dec.std 10000 start "R5.SIU".toList =
      (a, .ok da) ∧
    convert Dec.std 10000 { write with usefileprefix := true } start (.name "R5.SIU".toList) (.one []) =
      (s1, .ok (.path "/m/out.h5".toList)) ∧
    openHdf5 WholeDemo.iter 3 num cplx s1 "/m/out.h5".toList = (b, .ok 0) ∧
    getItem b.life 0 "R5" = .ok db ∧ struc num a da = struc num b db := by
  obtain ⟨h1, F, hi⟩ := load
  obtain ⟨a, da, s1, b, db, q1, q2, q3, q4, q5⟩ := both_ways
    (o := { write with usefileprefix := true })
    (given := "out.h5".toList) (hdf5 := "/m/out.h5".toList) WholeDemo.reach F
    (stem := "R5.".toList) (e3 := "SIU".toList) rfl rfl (by decide) hi (by decide +kernel)
    F.class_first rfl rfl
    (by intro h; cases h) (.inl ⟨by simp [write], rfl⟩) (by decide +kernel) (by intro h he; cases he)
    (by intro p hp; rfl) before
  exact ⟨a, da, s1, b, db, q1, q2, q3, q4, (q5 _ _ .refl .refl).1⟩

/-! ### two files in one -/

/-- the names of the groups -/
def iter (h : H5) : List (String × List String) :=
  (if (h.groups ["R5"]).isSome then [("R5", [])] else []) ++
    if (h.groups ["bR5"]).isSome then [("bR5", [])] else []

theorem reach : Reachable iter (3 : Rat) num cplx Dec.std 10000 start :=
  .start "/m".toList disk fun _ => none

/-- the second file is converted with the prefix `b`, into what the first has left -/
theorem beamJob {h0 : H5} (hfree : ∀ n, h0.tabs (["bR5"], n) = none) :
    Job none (fun _ => false) (fun _ => none) beamFile beamOuts beamNames
      (.top "b" "R") 5 h0 "FIRSTLEVEL" "STRUCTURAL" (some none) where
  accepted := beamAccepted _
  sel := by decide
  gives := ⟨_, rfl, .inl ⟨rfl, rfl⟩⟩
  allows := by
    intro o ho hn
    exfalso
    revert o
    decide +kernel
  hier := trivial
  free := by
    intro l _
    have hp : (Place.top "b" "R").path 5 = ["bR5"] := by decide +kernel
    rw [hp]
    exact hfree l.name
  classified := .resAlone (by decide +kernel)

theorem enum_two {h1 h2 : H5} {n m : String} {a a' : Attrs} (hn : '/' ∉ n.toList)
    (hm : '/' ∉ m.toList) (hnm : n ≠ m) (g1 : GroupsAfter {} [n] a h1)
    (g2 : GroupsAfter h1 [m] a' h2) : Enumerates h2 [(n, []), (m, [])] where
  groups k := by
    have other : ∀ k, k ≠ m → h2.groups [k] = h1.groups [k] := fun k hk =>
      g2.2.2 [k] (.inl (by
        rintro ⟨t, ht⟩
        simp only [List.cons_append, List.nil_append, List.cons.injEq] at ht
        exact hk ht.1)) (by simpa using hk)
    constructor
    · intro hk
      simp only [List.map_cons, List.map_nil, List.mem_cons, List.not_mem_nil, or_false] at hk
      rcases hk with rfl | rfl
      · exact ⟨a, by rw [other _ hnm]; exact g1.1⟩
      · exact ⟨a', g2.1⟩
    · rintro ⟨b, hb⟩
      by_contra hne
      simp only [List.map_cons, List.map_nil, List.mem_cons, List.not_mem_nil, or_false,
        not_or] at hne
      rw [other _ hne.2, g1.2.2 [k] (.inl (by
        rintro ⟨t, ht⟩
        simp only [List.cons_append, List.nil_append, List.cons.injEq] at ht
        exact hne.1 ht.1)) (by simpa using hne.1)] at hb
      cases hb
  nodup := by simpa using hnm
  subs p hp := by
    have none : ∀ x y, h2.groups [x, y] = none := by
      intro x y
      rw [g2.2.2 [x, y] (.inl fun hx => by simpa using hx.length_le) (by simp),
        g1.2.2 [x, y] (.inl fun hx => by simpa using hx.length_le) (by simp)]
    have : p.2 = [] := by
      simp only [List.mem_cons, List.not_mem_nil, or_false] at hp
      rcases hp with rfl | rfl <;> rfl
    rw [this]
    refine ⟨by simp, fun k => ⟨fun hk => (by cases hk), ?_⟩⟩
    rintro ⟨b, hb⟩
    rw [none] at hb
    cases hb
  slash p hp := by
    simp only [List.mem_cons, List.not_mem_nil, or_false] at hp
    rcases hp with rfl | rfl
    · exact ⟨hn, by simp⟩
    · exact ⟨hm, by simp⟩

/-- `/m/R5.SIU`, and `/b/R5.SIU` after it with the prefix `b` -/
theorem both : ∃ h1 h2, SesamFile Dec.std start.conv "R5.SIU".toList "/m/".toList "R5.SIU".toList []
      'R' "5".toList "SIU".toList (75 :: Parse.Demo.bytes loadFile) [] loadFile loadNames 5 "R5"
      "FIRSTLEVEL" "STRUCTURAL" {} h1 h1 [] ∧
    SesamFile Dec.std start.conv "/b/R5.SIU".toList "/b/".toList "R5.SIU".toList []
      'R' "5".toList "SIU".toList (75 :: Parse.Demo.bytes beamFile) "b".toList beamFile beamNames 5
      "bR5" "FIRSTLEVEL" "STRUCTURAL" h1 h2 h2 [] ∧ Enumerates h2 (iter h2) := by
  obtain ⟨st1, -, c1⟩ := loadJob.source Parse.Demo.resClean 1 loadOnDisk
  have hp : (Place.top "" "R").path 5 = ["R5"] := by decide +kernel
  have hp' : (Place.top "b" "R").path 5 = ["bR5"] := by decide +kernel
  have hfree : ∀ n, st1.h5.tabs (["bR5"], n) = none := fun n =>
    c1.tables.2 _ (.inl (by rw [hp]; simp))
  have j := beamJob hfree
  have clean : Clean (.top "b" "R") (fun _ => none) st1.h5
      { h5 := st1.h5, g := { filetypeid := "R", groupnamePrefix := "b" } } :=
    ⟨rfl, rfl, rfl, fun _ => rfl, rfl, rfl, rfl, rfl, rfl, rfl⟩
  obtain ⟨st2, -, c2⟩ := j.source clean 1 beamOnDisk
  refine ⟨st1.h5, st2.h5, ⟨⟨rfl, .inr ⟨"/m".toList, rfl⟩, by decide⟩, name, by decide +kernel, rfl,
    by decide +kernel, _, _, _, loadOnDisk, loadJob, c1, .alone (by decide +kernel)⟩,
    ⟨⟨rfl, .inr ⟨"/b".toList, rfl⟩, by decide⟩, name, by decide +kernel,
    by decide +kernel, by decide +kernel, _, _, _, beamOnDisk, j, c2, .alone (by decide +kernel)⟩, ?_⟩
  obtain ⟨recs, -, g1⟩ := c1.groups
  obtain ⟨recs', -, g2⟩ := c2.groups
  rw [hp] at g1
  rw [hp'] at g2
  have e : iter st2.h5 = [("R5", []), ("bR5", [])] := by
    have r5 : st2.h5.groups ["R5"] = _ := g2.2.2 ["R5"] (.inl (by
      rintro ⟨t, ht⟩
      simp at ht)) (by simp)
    unfold iter
    rw [r5, g1.1, g2.1]
    rfl
  rw [e]
  exact enum_two (by decide) (by decide) (by decide) g1 g2

/-- `sif2hdf5('R5.SIU', 'out.h5')`, `sif2hdf5('/b/R5.SIU', 'out.h5', append=True,
prefix='b')`, `open_hdf5('out.h5')` -/
example : ∃ s1 s2 s3 d d' x x',
    convert Dec.std 10000 write start (.name "R5.SIU".toList) (.one []) =
      (s1, .ok (.path "/m/out.h5".toList)) ∧
    convert Dec.std 10000 append s1 (.name "/b/R5.SIU".toList) (.one "b".toList) =
      (s2, .ok (.path "/m/out.h5".toList)) ∧
    openHdf5 iter 3 num cplx s2 "out.h5".toList = (s3, .ok 0) ∧
    getItem s3.life 0 "R5" = .ok d ∧ getItem s3.life 0 "bR5" = .ok d' ∧
    Reads num loadFile x ∧ Reads num beamFile x' ∧
    struc num s3 d = .ok x ∧ struc num s3 d' = .ok x' := by
  obtain ⟨h1, h2, F, F', hi⟩ := both
  obtain ⟨s1, s2, s3, d, d', x, x', q1, q2, q3, q4, q5, q6, q7, -, -, q8⟩ := two_in_one (o := write)
    (o' := append) (upre := []) (upre' := "b".toList) (given := "out.h5".toList) reach F F' (by decide)
    rfl rfl rfl rfl (by simp) rfl rfl rfl rfl (by simp [start]) (by intro h he; cases he)
    (by intro p hp; rfl) hi
  exact ⟨s1, s2, s3, d, d', x, x', q1, q2, q3, q4, q5, q6, q7, q8 _ .refl⟩

end Verif.Session.DiskDemo
