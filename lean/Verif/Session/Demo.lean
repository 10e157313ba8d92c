import Verif.Session.Closing
import Verif.Conv.Demo
import Verif.Data.LoadHydroDemo
/-!
# A session with a model of two levels and a hydrodynamic results file

Shows that the hypotheses of the theorems can be met.
-/

namespace Verif.Session.Demo
open Verif Verif.Seq
open Verif.Parse hiding num
open Verif.Conv Verif.Data Verif.Data.Life Verif.Data.Load Verif.Session
open Verif.Parse.Demo (lay onDisk)
open Verif.Conv.Demo (topFile topOuts topJob lowJob topName cells ext_not_results)
open Verif.Data.Load.HydroDemo (hydFile hydOuts hydNames hydJob hydOnDisk grid num cplx)

/-- `T9.FEM` and `T5.FEM` in `/m/`, `T9.FEM` in `/x/`, `G5.SIU` in `/m/`, superelement 5
also as `T6.FEM` and `t5.FEM` -/
def disk (p : Str) : Option Bytes :=
  if p = "/m/T9.FEM".toList then some (75 :: Parse.Demo.bytes topFile)
  else if p = "/m/T5.FEM".toList then some (75 :: Parse.Demo.bytes Parse.Demo.file)
  else if p = "/x/T9.FEM".toList then some (75 :: Parse.Demo.bytes topFile)
  else if p = "/m/T6.FEM".toList then some (75 :: Parse.Demo.bytes Parse.Demo.file)
  else if p = "/m/t5.FEM".toList then some (75 :: Parse.Demo.bytes Parse.Demo.file)
  else if p = "/m/G5.SIU".toList then some (75 :: Parse.Demo.bytes hydFile)
  else none

/-- the names of the groups -/
def iter (h : H5) : List (String × List String) :=
  if (h.groups ["T9"]).isSome then [("T9", ["T5"])]
  else if (h.groups ["T5"]).isSome then [("T5", [])]
  else if (h.groups ["t5"]).isSome then [("t5", [])]
  else if (h.groups ["G5"]).isSome then [("G5", [])] else []

def world : Conv.World := { cwd := "/m".toList ++ ['/'], disk := disk }

def start : State := { conv := world }

theorem reach : Reachable iter (3 : Rat) num cplx Dec.std 10000 start :=
  .start "/m".toList disk fun _ => none

/-- groups of an HDF5 file with one group -/
theorem enum_one {h : H5} {n : String} {a : Attrs} (hn : '/' ∉ n.toList)
    (hg : GroupsAfter {} [n] a h) : Enumerates h [(n, [])] where
  groups n' := by
    constructor
    · intro hm
      simp only [List.map_cons, List.map_nil, List.mem_singleton] at hm
      subst hm
      exact ⟨a, hg.1⟩
    · rintro ⟨a', h'⟩
      by_contra hne
      simp only [List.map_cons, List.map_nil, List.mem_singleton] at hne
      rw [hg.2.2 [n'] (.inl (by
        rintro ⟨t, ht⟩
        simp only [List.cons_append, List.nil_append, List.cons.injEq] at ht
        exact hne ht.1)) (by simpa using hne)] at h'
      cases h'
  nodup := by simp
  subs p hp := by
    simp only [List.mem_singleton] at hp
    subst hp
    refine ⟨by simp, fun m => ⟨fun hm => (by cases hm), ?_⟩⟩
    rintro ⟨a', h'⟩
    rw [hg.2.2 [n, m] (.inl (fun hx => by simpa using hx.length_le)) (by simp)] at h'
    cases h'
  slash p hp := by
    simp only [List.mem_singleton] at hp
    subst hp
    exact ⟨hn, by simp⟩

/-! ### a first level model -/

theorem firstName : SesamName "T5.FEM".toList [] 'T' "5".toList "FEM".toList :=
  ⟨⟨[], [], rfl, by simp, by unfold FileLetter; decide, ⟨'5', [], rfl, by decide, by simp⟩, .inl rfl,
    'F', 'E', 'M', rfl, by decide⟩, by
    rintro e ⟨x, y, z, rfl, -⟩ h
    simpa using h.length_le⟩

theorem first : ∃ h1, SesamFile Dec.std start.conv "T5.FEM".toList "/m/".toList "T5.FEM".toList [] 'T'
    "5".toList "FEM".toList (75 :: Parse.Demo.bytes Parse.Demo.file) [] Parse.Demo.file
    Parse.Demo.names 5 "T5" "FIRSTLEVEL" "STRUCTURAL" {} h1 h1 [] ∧ Enumerates h1 (iter h1) := by
  obtain ⟨st1, -, c1⟩ := Parse.Demo.job.source Parse.Demo.clean 1 onDisk.1
  refine ⟨st1.h5, ⟨⟨rfl, .inr ⟨"/m".toList, rfl⟩, by decide⟩, firstName, by decide +kernel, rfl,
    by decide +kernel, _, _, _, onDisk.1, Parse.Demo.job, c1, .alone (by decide +kernel)⟩, ?_⟩
  obtain ⟨recs, -, hg⟩ := c1.groups
  have hp : (Place.top "" "T").path 5 = ["T5"] := by decide +kernel
  rw [hp] at hg
  have e : iter st1.h5 = [("T5", [])] := by
    have h9 : st1.h5.groups ["T9"] = none := by
      rw [hg.2.2 ["T9"] (.inl (by decide)) (by decide)]
    unfold iter
    rw [h9, hg.1]
    rfl
  rw [e]
  exact enum_one (by decide) hg

example : ∃ s' d o, openSif iter 3 num cplx Dec.std 10000 start "T5.FEM".toList = (s', .ok d) ∧
    struc num s' d = .ok o ∧ o.seltyp = 5 ∧ Reads num Parse.Demo.file o := by
  obtain ⟨h1, F, hi⟩ := first
  obtain ⟨s', d, o, q1, -, -, q2, -, -, q3, -, q4⟩ := open_sif_first reach F (stem := "T5.".toList)
    (e3 := "FEM".toList) rfl rfl (by decide) hi (by decide +kernel)
  exact ⟨s', d, o, q1, q2, q3, q4⟩

/-- the file name has another number than the superelement in the file -/
example : ∃ s', openSif iter 3 num cplx Dec.std 10000 start "T6.FEM".toList = (s', .error .keyError) := by
  obtain ⟨h1, F, hi⟩ := first
  have n6 : SesamName "T6.FEM".toList [] 'T' "6".toList "FEM".toList :=
    ⟨⟨[], [], rfl, by simp, by unfold FileLetter; decide, ⟨'6', [], rfl, by decide, by simp⟩, .inl rfl,
      'F', 'E', 'M', rfl, by decide⟩, by
      rintro e ⟨x, y, z, rfl, -⟩ h
      simpa using h.length_le⟩
  have F' : SesamFile Dec.std start.conv "T6.FEM".toList "/m/".toList "T6.FEM".toList [] 'T'
      "6".toList "FEM".toList (75 :: Parse.Demo.bytes Parse.Demo.file) [] Parse.Demo.file
      Parse.Demo.names 5 "T5" "FIRSTLEVEL" "STRUCTURAL" {} h1 h1 [] :=
    ⟨⟨rfl, .inr ⟨"/m".toList, rfl⟩, by decide⟩, n6, by decide +kernel, rfl, F.group, F.records⟩
  obtain ⟨s', q, -⟩ := open_sif_other_number (pi := (3 : Rat)) (num := num) (cplx := cplx) reach F'
    (stem := "T6.".toList) (e3 := "FEM".toList) rfl rfl (by decide) hi F'.class_first
    (by decide +kernel)
  exact ⟨s', q⟩

/-- the letter of the file name is lower case -/
example : ∃ s', openSif iter 3 num cplx Dec.std 10000 start "t5.FEM".toList =
    (s', .error .unboundLocal) := by
  have name : SesamName "t5.FEM".toList [] 't' "5".toList "FEM".toList :=
    ⟨⟨[], [], rfl, by simp, by unfold FileLetter; decide, ⟨'5', [], rfl, by decide, by simp⟩, .inl rfl,
      'F', 'E', 'M', rfl, by decide⟩, by
      rintro e ⟨x, y, z, rfl, -⟩ h
      simpa using h.length_le⟩
  have job : Job none (fun _ => false) (fun _ => none) Parse.Demo.file Parse.Demo.outs Parse.Demo.names
      (.top "" "t") 5 {} "" "UNKNOWN" none :=
    { Parse.Demo.job with
      allows := by
        intro o ho hn
        exfalso
        revert o
        decide +kernel
      hier := trivial
      free := fun _ _ => rfl
      classified := .other (by decide) }
  obtain ⟨st1, -, c1⟩ := job.source (st := { g := { filetypeid := "t" } })
    ⟨rfl, rfl, rfl, fun _ => rfl, rfl, rfl, rfl, rfl, rfl, rfl⟩ 1 onDisk.1
  have F : SesamFile Dec.std start.conv "t5.FEM".toList "/m/".toList "t5.FEM".toList [] 't'
      "5".toList "FEM".toList (75 :: Parse.Demo.bytes Parse.Demo.file) [] Parse.Demo.file
      Parse.Demo.names 5 "t5" "" "UNKNOWN" {} st1.h5 st1.h5 [] :=
    ⟨⟨rfl, .inr ⟨"/m".toList, rfl⟩, by decide⟩, name, by decide +kernel, rfl,
      by decide +kernel, _, _, _, onDisk.1, job, c1, .alone (by decide +kernel)⟩
  obtain ⟨recs, -, hg⟩ := c1.groups
  have hp : (Place.top "" "t").path 5 = ["t5"] := by decide +kernel
  rw [hp] at hg
  have e : iter st1.h5 = [("t5", [])] := by
    have h9 : st1.h5.groups ["T9"] = none := by
      rw [hg.2.2 ["T9"] (.inl (by decide)) (by decide)]
    have h5 : st1.h5.groups ["T5"] = none := by
      rw [hg.2.2 ["T5"] (.inl (by decide)) (by decide)]
    unfold iter
    rw [h9, h5, hg.1]
    rfl
  obtain ⟨s', q, -⟩ := open_sif_lower_case (pi := (3 : Rat)) (num := num) (cplx := cplx) reach F
    (stem := "t5.".toList) (e3 := "FEM".toList) rfl rfl (by decide)
    (by rw [e]; exact enum_one (by decide) hg) (by decide)
  exact ⟨s', q⟩

/-! ### a hydrodynamic results file -/

theorem hydName : SesamName "G5.SIU".toList [] 'G' "5".toList "SIU".toList :=
  ⟨⟨[], [], rfl, by simp, by unfold FileLetter; decide, ⟨'5', [], rfl, by decide, by simp⟩, .inl rfl,
    'S', 'I', 'U', rfl, by decide⟩, by
    rintro e ⟨x, y, z, rfl, -⟩ h
    simpa using h.length_le⟩

theorem hyd : ∃ h1 lev, SesamFile Dec.std start.conv "G5.SIU".toList "/m/".toList "G5.SIU".toList []
    'G' "5".toList "SIU".toList (75 :: Parse.Demo.bytes hydFile) [] hydFile hydNames 5 "G5" lev
    "HYDRODYNAMIC" {} h1 h1 [] ∧ Enumerates h1 (iter h1) := by
  obtain ⟨st1, -, c1⟩ := hydJob.source HydroDemo.hydClean 1 hydOnDisk
  refine ⟨st1.h5, _, ⟨⟨rfl, .inr ⟨"/m".toList, rfl⟩, by decide⟩, hydName, by decide +kernel, rfl,
    by decide +kernel, _, _, _, hydOnDisk, hydJob, c1, .alone (by decide +kernel)⟩, ?_⟩
  obtain ⟨recs, -, hg⟩ := c1.groups
  have hp : (Place.top "" "G").path 5 = ["G5"] := by decide +kernel
  rw [hp] at hg
  have e : iter st1.h5 = [("G5", [])] := by
    have h9 : st1.h5.groups ["T9"] = none := by
      rw [hg.2.2 ["T9"] (.inl (by decide)) (by decide)]
    have h5 : st1.h5.groups ["T5"] = none := by
      rw [hg.2.2 ["T5"] (.inl (by decide)) (by decide)]
    have h5' : st1.h5.groups ["t5"] = none := by
      rw [hg.2.2 ["t5"] (.inl (by decide)) (by decide)]
    unfold iter
    rw [h9, h5, h5', hg.1]
    rfl
  rw [e]
  exact enum_one (by decide) hg

example : ∃ s' d o, openSif iter 3 num cplx Dec.std 10000 start "G5.SIU".toList = (s', .ok d) ∧
    hydro 3 num cplx s' d = .ok o ∧ getAngularFreqs o = .ok [2, 1/2] := by
  obtain ⟨h1, lev, F, hi⟩ := hyd
  obtain ⟨s', d, tabs, o, q1, -, -, q2, -, -, -, q3⟩ := open_sif_hydro reach F (stem := "G5.".toList)
    (e3 := "SIU".toList) rfl rfl (by decide) hi (by decide +kernel) grid
  exact ⟨s', d, o, q1, q2, q3⟩

/-! ### two levels -/

theorem two' : ∃ h1 h2, SesamFile Dec.std start.conv "T9.FEM".toList "/m/".toList "T9.FEM".toList []
    'T' "9".toList "FEM".toList (75 :: Parse.Demo.bytes topFile) [] topFile
    ["IDENT", "HIERARCH", "IEND"] 9 "T9" "TOPLEVEL" "STRUCTURAL" {} h1 h2 [] ∧
    Enumerates h2 (iter h2) ∧ (∃ a, h2.groups ["T9", "T5"] = some a ∧
      a.level = some "FIRSTLEVEL") ∧ iter h2 = [("T9", ["T5"])] ∧
    ∃ tab, h1.tabs (["T9"], "HIERARCH") = some tab ∧ tab.rows = Conv.Demo.rows := by
  have clean : Clean (.top "" "T") (fun _ => none) {} { g := { filetypeid := "T" } } :=
    Parse.Demo.clean
  have enc : Encoded Dec.std (fun _ => false) topFile
      (.unformatted (75 :: Parse.Demo.bytes topFile)) :=
    .unformatted (Parse.Demo.encodesU (by decide +kernel))
  obtain ⟨st1, -, c1⟩ := topJob.source clean 1 enc
  have ht := c1.tables.1 (lay "HIERARCH") (by decide +kernel) (by decide +kernel)
  have hfree : ∀ n, st1.h5.tabs (["T9", "T5"], n) = none := fun n =>
    c1.tables.2 _ (.inl (by simp [Place.path]))
  have j := lowJob ht Conv.Demo.topRows hfree
  have low : Clean (.low "" "T" 9 none ["T9"] (cells [8, 2, 5, 1, 1, 1, 1, 0, 0, 0]))
      (fun _ => none) st1.h5
      { h5 := st1.h5
        g :=
          { filetypeid := "T"
            hasHierarch := true
            hierarchTable := some ["T9"]
            currentHrec := some (cells [8, 2, 5, 1, 1, 1, 1, 0, 0, 0]) } } :=
    ⟨rfl, rfl, rfl, fun _ => rfl, rfl, rfl, rfl, rfl, rfl, rfl, rfl, rfl⟩
  obtain ⟨st2, -, c2⟩ := j.source low 1 onDisk.1
  refine ⟨st1.h5, st2.h5, ⟨⟨rfl, .inr ⟨"/m".toList, rfl⟩, by decide⟩, topName, by decide +kernel,
    rfl, by decide +kernel, _, _, _, enc, topJob, c1, .lower (by decide +kernel) ht ?_⟩,
    and_assoc.mp (and_assoc.mp ⟨?_, _, ht, Conv.Demo.topRows⟩)⟩
  · show LowerFiles _ _ _ _ _ _ _ _ _ _ _ (contents (lay "HIERARCH") topOuts).rows
      (contents (lay "HIERARCH") topOuts).rows.tail _ _ _
    rw [Conv.Demo.topRows]
    exact .file (k := 1) (.input (t := 5) (r := 2) ext_not_results rfl rfl rfl) (by decide +kernel)
      rfl (.other (by decide)) onDisk.1 j c2
      (.skip (.input (n := 2) ext_not_results rfl (by decide)) .nil)
  · obtain ⟨recs, -, g1⟩ := c1.groups
    obtain ⟨recs', -, g2⟩ := c2.groups
    have hp : (Place.top "" "T").path 9 = ["T9"] := by decide +kernel
    have hp' : (Place.low "" "T" 9 none ["T9"] (cells [8, 2, 5, 1, 1, 1, 1, 0, 0, 0])).path 5 =
        ["T9", "T5"] := by decide +kernel
    rw [hp] at g1
    rw [hp'] at g2
    have t9 := g2.2.1 ["T9"] ⟨["T5"], rfl⟩ (by simp) (by simp)
    have e : iter st2.h5 = [("T9", ["T5"])] := by
      unfold iter
      rw [t9]
      rfl
    rw [e]
    refine ⟨⟨?_, _, g2.1, rfl⟩, rfl⟩
    have pre1 : ∀ n, n ≠ "T9" → ¬ [n] <+: ["T9", "T5"] := by
      rintro n hn ⟨t, ht⟩
      simp only [List.cons_append, List.nil_append, List.cons.injEq] at ht
      exact hn ht.1
    refine ⟨?_, by simp, ?_, ?_⟩
    · intro n
      simp only [List.map_cons, List.map_nil, List.mem_singleton]
      constructor
      · rintro rfl
        exact ⟨_, t9⟩
      · rintro ⟨a, ha⟩
        by_contra hne
        rw [g2.2.2 [n] (.inl (pre1 n hne)) (by simp), g1.2.2 [n] (.inl (by
          rintro ⟨t, ht⟩
          simp only [List.cons_append, List.nil_append, List.cons.injEq] at ht
          exact hne ht.1)) (by simpa using hne)] at ha
        cases ha
    · intro p hp
      simp only [List.mem_singleton] at hp
      subst hp
      refine ⟨by simp, fun m => ?_⟩
      simp only [List.mem_singleton]
      constructor
      · rintro rfl
        exact ⟨_, g2.1⟩
      · rintro ⟨a, ha⟩
        by_contra hne
        have hnp : ¬ ["T9", m] <+: ["T9", "T5"] := by
          rintro ⟨t, ht⟩
          simp only [List.cons_append, List.nil_append, List.cons.injEq] at ht
          exact hne ht.2.1
        rw [g2.2.2 _ (.inl hnp) (by simpa using hne),
          g1.2.2 _ (.inl (fun hx => by simpa using hx.length_le)) (by simp)] at ha
        cases ha
    · intro p hp
      simp only [List.mem_singleton] at hp
      subst hp
      exact ⟨by decide, by simp⟩

theorem two : ∃ h1 h2, SesamFile Dec.std start.conv "T9.FEM".toList "/m/".toList "T9.FEM".toList []
    'T' "9".toList "FEM".toList (75 :: Parse.Demo.bytes topFile) [] topFile
    ["IDENT", "HIERARCH", "IEND"] 9 "T9" "TOPLEVEL" "STRUCTURAL" {} h1 h2 [] ∧
    Enumerates h2 (iter h2) ∧ ∃ tab, h1.tabs (["T9"], "HIERARCH") = some tab ∧
      tab.rows = Conv.Demo.rows := by
  obtain ⟨h1, h2, F, hi, -, -, h⟩ := two'
  exact ⟨h1, h2, F, hi, h⟩

/-- the top level object and the object of the lower superelement -/
example : ∃ s' d o m d', openSif iter 3 num cplx Dec.std 10000 start "T9.FEM".toList = (s', .ok d) ∧
    top num s' d = .ok o ∧ ReadsTop num topFile o ∧
    getItem s'.life 0 ("T9" ++ "/" ++ m) = .ok d' := by
  obtain ⟨h1, h2, F, hi, tab, ht, hr⟩ := two
  obtain ⟨s', d, o, q1, q2, -, q3, -, q4⟩ := open_sif_top reach F (stem := "T9.".toList)
    (e3 := "FEM".toList) rfl rfl (by decide) hi (by decide +kernel)
  obtain ⟨sk, f', names', t', i, hrec, idx, m, lev', d', -, -, -, r4, r5, -, r6, -⟩ :=
    lower_object F q2.holds (by decide) ht rfl (row := cells [8, 2, 5, 1, 1, 1, 1, 0, 0, 0])
      (by rw [hr]; decide) (.input (t := 5) (r := 2) ext_not_results rfl rfl rfl)
      (b' := 75 :: Parse.Demo.bytes Parse.Demo.file) (by decide +kernel)
  exact ⟨s', d, o, m, d', q1, q3, q4, r6⟩

/-! ### names and closing -/

/-- while `/m/T9.FEM` is open, `/x/T9.FEM` cannot be opened; afterwards its name is free -/
example : ∃ s' d s'', openSif iter 3 num cplx Dec.std 10000 start "T9.FEM".toList = (s', .ok d) ∧
    openSif iter 3 num cplx Dec.std 10000 s' "/x/T9.FEM".toList = (s'', .error .valueError) ∧
    "T9.h5".toList ∉ (closeFile s' 0).conv.memory ∧
    ∃ d', getItem s'.life 0 "T9" = .ok d' ∧ top num (closeFile s' 0) d' = .error .closedFile := by
  obtain ⟨h1, h2, F, hi, tab, ht, hr⟩ := two
  obtain ⟨s', d, o, q1, q2, q3, q4, -⟩ := open_sif_top reach F (stem := "T9.".toList)
    (e3 := "FEM".toList) rfl rfl (by decide) hi (by decide +kernel)
  have r' : Reachable iter (3 : Rat) num cplx Dec.std 10000 s' := by
    have := Reachable.step reach (.openSif start "T9.FEM".toList)
    rw [q1] at this
    exact this
  have hm := opened_sif_memory reach q2
  have hdisk : s'.conv.disk = disk := q2.files.2.1
  have hfull : s'.conv.fullPath "/x/T9.FEM".toList = "/x/T9.FEM".toList := rfl
  obtain ⟨s'', e, -⟩ := same_name_refused r' hm (e3 := "FEM".toList)
    (filename := "/x/T9.FEM".toList)
    (b := 75 :: Parse.Demo.bytes topFile) (dir := "/x/".toList)
    (by rw [hfull]; exact ⟨rfl, .inr ⟨"/x".toList, rfl⟩, by decide⟩) topName rfl rfl
    (by rw [hfull, hdisk]; decide +kernel)
  obtain ⟨lst, k, h, hl, -⟩ := hm
  have hit : items s'.life 0 = .ok lst := by
    unfold items
    rw [show s'.life.files[0]? = _ from hl]
  obtain ⟨dd, hd1, hd2⟩ := q2.holds.top "T9" .top (F.proper F.class_top proper_empty).2
  refine ⟨s', d, s'', q1, e, (name_free_after_close r' (opened_sif_memory reach q2)).1, dd, hd1, ?_⟩
  unfold getItem at hd1
  rw [show items s'.life start.life.files.length = .ok lst from hit] at hd1
  cases hf : lst.find? (fun p => p.1 = "T9") with
  | none => simp [bind, Except.bind, hf] at hd1
  | some p =>
    simp only [bind, Except.bind, hf, Except.ok.injEq] at hd1
    subst hd1
    exact (closed_object_raises r' hit (.refl _) (List.mem_of_find?_eq_some hf)).2.1

/-- convert to an HDF5 file and open it; it cannot be converted to again while it is open -/
example : ∃ s1 s2 s3 d, convert Dec.std 10000 { hdf5name := some "a.h5".toList } start
      (.name "T9.FEM".toList) (.one []) = (s1, .ok (.path "/m/a.h5".toList)) ∧
    openHdf5 iter 3 num cplx s1 "a.h5".toList = (s2, .ok 0) ∧ getItem s2.life 0 "T9" = .ok d ∧
    convert Dec.std 10000 { hdf5name := some "/m/a.h5".toList } s2 (.name "T9.FEM".toList) (.one []) =
      (s3, .error .valueError) ∧ s3.conv.out = s2.conv.out := by
  obtain ⟨h1, h2, F, hi, tab, ht, hr⟩ := two
  obtain ⟨s1, s2, d, q1, q2, -, -, q3, c1, c2, -, c3, q4, q5, q6, q7, q8⟩ := convert_then_open reach F
    (o := { hdf5name := some "a.h5".toList }) (hdf5 := "a.h5".toList) (given := "a.h5".toList)
    (upre := []) rfl rfl (by simp) (.inl ⟨by decide, rfl⟩) rfl (fun _ h => by cases h) (by decide)
    ⟨by decide, by decide, rfl⟩
    (proper_empty (pi := (3 : Rat)) (num := num) (cplx := cplx)) F.class_top hi
  have r1 := Reachable.step (reach) (.convert { hdf5name := some "a.h5".toList } start
    (.name "T9.FEM".toList) (.one []))
  rw [q1] at r1
  have r2 : Reachable iter (3 : Rat) num cplx Dec.std 10000 s2 := by
    have := Reachable.step r1 (.openHdf5 s1 "a.h5".toList)
    rw [q4] at this
    exact this
  have hfull : ∀ p, s2.conv.fullPath p = start.conv.fullPath p := by
    intro p
    unfold Conv.World.fullPath
    rw [c3, c2]
  obtain ⟨s3, e, e1, e3, -, e2, -⟩ := open_output_refused r2
    (o := { hdf5name := some "/m/a.h5".toList }) (given := "/m/a.h5".toList) (h := h2)
    (filename := "T9.FEM".toList) (b := 75 :: Parse.Demo.bytes topFile) (upre := [])
    (by rw [hfull]; exact F.path) F.parts F.notSin (by rw [hfull, c3, c1]; exact F.bytes) (by simp)
    (.inl ⟨by decide, rfl⟩) (by rw [hfull, c3]; exact q2) (by rw [hfull]; exact q8)
  refine ⟨s1, s2, s3, d, q1, q4, q6, ?_, e2⟩
  rw [e1, e3 (.inl (by rw [hfull]; rfl))]

/-- the object of `T9.FEM` reads the same group after `T5.FEM` has been opened as well -/
example : ∃ s' d, openSif iter 3 num cplx Dec.std 10000 start "T9.FEM".toList = (s', .ok d) ∧
    ∀ s'', (openSif iter 3 num cplx Dec.std 10000 s' "T5.FEM".toList).1 = s'' →
      dataOpen s''.life d = true → groupOf s'' d = groupOf s' d := by
  obtain ⟨h1, h2, F, hi, tab, ht, hr⟩ := two
  obtain ⟨s', d, o, q1, q2, q3, q4, -⟩ := open_sif_top reach F (stem := "T9.".toList)
    (e3 := "FEM".toList) rfl rfl (by decide) hi (by decide +kernel)
  have r' : Reachable iter (3 : Rat) num cplx Dec.std 10000 s' := by
    have := Reachable.step reach (.openSif start "T9.FEM".toList)
    rw [q1] at this
    exact this
  refine ⟨s', d, q1, ?_⟩
  rintro s'' rfl ho
  obtain ⟨key, o', hk, -⟩ := q3.isOpen
  exact (object_reads_same r' (.snoc (.refl _) (.openSif s' "T5.FEM".toList))
    (List.getElem?_eq_some_iff.mp hk).1 ho).1

end Verif.Session.Demo
