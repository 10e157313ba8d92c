import Verif.Session.MoreReads
import Verif.Session.AnyResDemo
/-!
# A session with a results file of complex beam forces
-/

namespace Verif.Session.ComplexDemo
open Verif Verif.Seq Verif.Parse.Demo
open Verif.Parse hiding num
open Verif.Conv Verif.Data Verif.Data.Life Verif.Data.Load Verif.Session
open Verif.Session.WholeDemo (iter name enum)
open Verif.Data.Load.HydroDemo (cplx)
open Verif.Data.Load.Demo (num)
open Verif.Data.Load.Demo2 (mesh chosen noSets valid)

/-- eighteen complex forces: real part, imaginary part of each -/
def cxForces : List PyF := [
  1, 0, 2, 3, 3, 6, 4, 1, 5, 4, 6, 7, 7, 2, 8, 5, 9, 0, 10, 3, 11, 6, 12, 1, 1, 4, 2, 7,
  3, 2, 4, 5, 5, 0, 6, 3].map PyF.rat

/-- two nodes, one beam, forces of one complex result case -/
def cxFile : List LRec := [
  ⟨"IDENT", [.rat 1, .rat 5, .rat 3, .rat 0], [], 0, [], []⟩,
  ⟨"GNODE", [.rat 11, .rat 1, .rat 6, .rat 123456], [], 0, [], []⟩,
  ⟨"GNODE", [.rat 12, .rat 2, .rat 6, .rat 123456], [], 0, [], []⟩,
  ⟨"GCOORD", [.rat 1, .rat 0, .rat 0, .rat 0], [], 0, [], []⟩,
  ⟨"GCOORD", [.rat 2, .rat 3, .rat 0, .rat 0], [], 0, [], []⟩,
  ⟨"GELMNT1", [.rat 5, .rat 1, .rat 15, .rat 0], [], 8, [.rat 1, .rat 2], [.rat 0, .rat 0]⟩,
  ⟨"RDPOINTS", [.rat 9, .rat 1, .rat 1, .rat 1], [], 0, [.rat 15, .rat 3, .rat 0, .rat 0, .rat 0], []⟩,
  ⟨"RDFORCES", [.rat 9, .rat 15, .rat 6, .rat 1], [], 0, [.rat 2, .rat 3, .rat 4, .rat 5, .rat 6], []⟩,
  ⟨"RDRESREF", [.rat 7, .rat 1, .rat 1, .rat 1], [], 0, [.rat 0, .rat 1, .rat 0], []⟩,
  ⟨"RVFORCES", [.rat 11, .rat 1, .rat 1, .rat 1], [], 0, .rat 15 :: cxForces, []⟩,
  ⟨"IEND", [.rat 0, .rat 0, .rat 0, .rat 0], [], 0, [], []⟩]

/-- what is added to the tables -/
def cxOuts : List Added := [
  ⟨"IDENT", true, [.sc (.int 1), .sc (.int 5), .sc (.int 3)], []⟩,
  ⟨"GNODE", true, [.sc (.int 11), .sc (.int 1), .sc (.int 6), .sc (.int 123456)], []⟩,
  ⟨"GNODE", false, [.sc (.int 12), .sc (.int 2), .sc (.int 6), .sc (.int 123456)], []⟩,
  ⟨"GCOORD", true, [.sc (.int 1), .sc (.flt (.rat 0)), .sc (.flt (.rat 0)), .sc (.flt (.rat 0))], []⟩,
  ⟨"GCOORD", false, [.sc (.int 2), .sc (.flt (.rat 3)), .sc (.flt (.rat 0)), .sc (.flt (.rat 0))], []⟩,
  ⟨"GELMNT1", true, [.sc (.int 5), .sc (.int 1), .sc (.int 15), .sc (.int 0)],
    [some [.sc (.int 1), .sc (.int 2)]]⟩,
  ⟨"RDPOINTS", true, [.sc (.int 9), .sc (.int 1), .sc (.int 1), .sc (.int 1), .sc (.int 15),
    .sc (.int 3), .sc (.int 0), .sc (.int 0), .sc (.int 0)], [some [], some []]⟩,
  ⟨"RDFORCES", true, [.sc (.int 9), .sc (.int 15), .sc (.int 6)],
    [some [.sc (.int 1), .sc (.int 2), .sc (.int 3), .sc (.int 4), .sc (.int 5), .sc (.int 6)]]⟩,
  ⟨"RDRESREF", true, [.sc (.int 7), .sc (.int 1), .sc (.int 1), .sc (.int 1), .sc (.int 0),
    .sc (.int 1), .sc (.int 0)], [some []]⟩,
  ⟨"RVFORCES", true, [.sc (.int 11), .sc (.int 1), .sc (.int 1), .sc (.int 1), .sc (.int 15)],
    [some (cxForces.map fun x => .sc (.flt x))]⟩]

/-- the record types read -/
def cxNames : List String :=
  ["IDENT", "GNODE", "GCOORD", "GELMNT1", "RDPOINTS", "RDFORCES", "RDRESREF", "RVFORCES", "IEND"]

theorem cxAccepted (sk : LRec → Bool) :
    Accepts none sk (fun _ => none) none [] cxFile cxOuts cxNames := by
  have nv : ∀ {n : String} {x : PyF} {t : List PyF} {p sk v d}, x.ltZero = false →
      NotVoid ⟨n, x :: t, p, sk, v, d⟩ := fun h => ⟨_, _, rfl, h⟩
  have fo : ∀ {r : LRec}, r.name ≠ "SCONMESH" → FirstOK r := fun h h' => absurd h' h
  have int : ∀ {x : PyF} (n : Int), x.toInt = .ok n → HasInt x n := fun n h => toInt_hasInt h
  unfold cxFile cxOuts cxNames
  refine .ident rfl trivial (nv (by decide +kernel)) ?_ ?_
  · exact ⟨_, lay "IDENT", .ident (int 1 (by decide +kernel)) (int 5 (by decide +kernel))
      (int 3 (by decide +kernel)), by decide +kernel, rfl, rfl, rfl, by stored, by stored⟩
  refine .first (by simp) (by simp) trivial (nv (by decide +kernel)) (fo (by simp)) ?_ ?_
  · exact ⟨_, lay "GNODE", .fixed (n := 4) (k := 0) (by decide) rfl (by simp), by decide +kernel, rfl, rfl, rfl, by stored, by stored⟩
  refine more rfl (by simp) ?_ ?_
  · exact ⟨_, lay "GNODE", .fixed (n := 4) (k := 0) (by decide) rfl (by simp), by decide +kernel, rfl, rfl, rfl, by stored, by stored⟩
  refine .first (by simp) (by simp) trivial (nv (by decide +kernel)) (fo (by simp)) ?_ ?_
  · exact ⟨_, lay "GCOORD", .fixed (n := 4) (k := 0) (by decide) rfl (by simp), by decide +kernel, rfl, rfl, rfl, by stored, by stored⟩
  refine more rfl (by simp) ?_ ?_
  · exact ⟨_, lay "GCOORD", .fixed (n := 4) (k := 0) (by decide) rfl (by simp), by decide +kernel, rfl, rfl, rfl, by stored, by stored⟩
  refine .first (by simp) (by simp) trivial (nv (by decide +kernel)) (fo (by simp)) ?_ ?_
  · exact ⟨_, lay "GELMNT1", .gelmnt1 (int 1 (by decide +kernel)) (int 15 (by decide +kernel))
      (by unfold NodeCount; simp), by decide +kernel, rfl, rfl, rfl, by stored, by stored⟩
  have pts : IsPoints ⟨"RDPOINTS", [.rat 9, .rat 1, .rat 1, .rat 1], [], 0,
      [.rat 15, .rat 3, .rat 0, .rat 0, .rat 0], []⟩ ⟨1, 1, 1, 3, 0, 0, 0, 0, 0⟩ :=
    ⟨rfl, by simp, by simp, _, _, _, _, _, _, _, _, _, [], rfl, rfl, int 1 (by decide +kernel),
      int 1 (by decide +kernel), int 1 (by decide +kernel), int 3 (by decide +kernel),
      int 0 (by decide +kernel), int 0 (by decide +kernel), int 0 (by decide +kernel)⟩
  refine .first (by simp) (by simp) trivial (nv (by decide +kernel)) (fo (by simp)) ?_ ?_
  · exact ⟨_, lay "RDPOINTS", .rdpoints (pts := []) (xs := []) (p := ⟨1, 1, 1, 3, 0, 0, 0, 0, 0⟩)
      pts .nil .nil rfl, by decide +kernel, rfl, rfl, rfl, by stored, by stored⟩
  refine .first (by simp) (by simp) trivial (nv (by decide +kernel)) (fo (by simp)) ?_ ?_
  · exact ⟨_, lay "RDFORCES", .compdef (by simp) (int 15 (by decide +kernel))
      (int 6 (by decide +kernel)), by decide +kernel, rfl, rfl, rfl, by stored, by stored⟩
  refine .first (by simp) (by simp) trivial (nv (by decide +kernel)) (fo (by simp)) ?_ ?_
  · exact ⟨_, lay "RDRESREF", .rdresref (refs := []) (rvs := []) (int 1 (by decide +kernel))
      (int 1 (by decide +kernel)) (int 0 (by decide +kernel)) ⟨[], by simp, rfl, rfl⟩ rfl,
      by decide +kernel, rfl, rfl, rfl, by stored, by stored⟩
  refine .first (by simp) (by simp) trivial (nv (by decide +kernel)) (fo (by simp)) ?_ ?_
  · exact ⟨_, lay "RVFORCES", .rvelm (res := cxForces) (i := 1) (j := 1) (k := 1) (l := 15) (cplx := 1)
      (nsp := 3) (len := 6) (by simp)
      (int 1 (by decide +kernel)) (int 1 (by decide +kernel)) (int 1 (by decide +kernel))
      (int 15 (by decide +kernel))
      (.earlier (fun a' h => by obtain ⟨p, h, -⟩ := h; exact absurd h.1 (by simp))
        (.earlier (fun a' h => by obtain ⟨p, h, -⟩ := h; exact absurd h.1 (by simp))
          (.here ⟨_, pts, rfl, rfl, rfl⟩)))
      (.earlier (fun a' h => absurd h.1 (by simp [Defines]))
        (.here ⟨by simp [Defines], _, _, _, _, rfl, int 15 (by decide +kernel),
          int 6 (by decide +kernel)⟩))
      (.here ⟨rfl, _, _, _, _, _, _, _, _, rfl, rfl, int 1 (by decide +kernel),
        int 1 (by decide +kernel)⟩) rfl,
      by decide +kernel, rfl, rfl, rfl, by stored, by stored⟩
  exact .stop trivial ⟨rfl, _, _, rfl, rfl⟩

theorem cxOnDisk : Encoded Dec.std (fun _ => false) cxFile (.unformatted (75 :: bytes cxFile)) :=
  .unformatted (encodesU (by decide +kernel))

theorem cxJob : Job none (fun _ => false) (fun _ => none) cxFile cxOuts cxNames
    (.top "" "R") 5 {} "FIRSTLEVEL" "STRUCTURAL" (some none) where
  accepted := cxAccepted _
  sel := by decide
  gives := ⟨_, rfl, .inl ⟨rfl, rfl⟩⟩
  allows := by
    intro o ho hn
    exfalso
    revert o
    decide +kernel
  hier := trivial
  free := fun _ _ => rfl
  classified := .resAlone (by decide +kernel)

theorem meshFile : MeshFile num cxFile mesh where
  nodes := by
    refine .cons ?_ (.cons ?_ .nil) <;>
      exact ⟨_, _, _, _, rfl, toInt_hasInt (by decide +kernel), toInt_hasInt (by decide +kernel)⟩
  coords := by
    refine .cons ?_ (.cons ?_ .nil) <;>
      exact ⟨_, _, _, _, rfl, by decide +kernel, by decide +kernel, by decide +kernel⟩
  elems := by
    refine .cons ?_ .nil
    exact ⟨⟨_, _, _, _, rfl, toInt_hasInt (by decide +kernel), toInt_hasInt (by decide +kernel),
        toInt_hasInt (by decide +kernel)⟩, .cons (toInt_hasInt (by decide +kernel))
        (.cons (toInt_hasInt (by decide +kernel)) .nil)⟩
  someNode := by simp [mesh]
  someElem := by simp [mesh]

/-- the result case -/
theorem refs : Describes IsRef (recordsOf "RDRESREF" cxFile) (some [⟨1, 1, 1, 1⟩]) :=
  ⟨by simp, .cons ⟨_, _, _, _, _, _, _, _, rfl, rfl, toInt_hasInt (by decide +kernel),
    toInt_hasInt (by decide +kernel), toInt_hasInt (by decide +kernel),
    toInt_hasInt (by decide +kernel)⟩ .nil⟩

/-- the complex forces of the beam -/
def cxRec : ElemRec (Rat × Rat) :=
  ⟨1, 1, 15, [
    (1, 0), (2, 3), (3, 6), (4, 1), (5, 4), (6, 7), (7, 2), (8, 5), (9, 0), (10, 3), (11,
    6), (12, 1), (1, 4), (2, 7), (3, 2), (4, 5), (5, 0), (6, 3)]⟩

theorem forceFile : ElemResFile num cxFile "beamforce" "beam" storedComplex [cxRec] :=
  ⟨by simp, _, .beamforce, .cons ⟨_, _, _, _, _, _, rfl, rfl, toInt_hasInt (by decide +kernel),
    toInt_hasInt (by decide +kernel), toInt_hasInt (by decide +kernel), by decide +kernel⟩ .nil⟩

theorem wanted {r : ResRef} : Data.Wanted [⟨1, 1, 1, 1⟩] 1 .all r ↔ r = ⟨1, 1, 1, 1⟩ := by
  unfold Data.Wanted
  constructor
  · rintro ⟨h, -⟩; simpa using h
  · rintro rfl
    exact ⟨by simp, rfl, .inl rfl⟩

theorem oneCase : CaseNumbers [⟨1, 1, 1, 1⟩] 1 .all [1] :=
  ⟨by simp, fun c => ⟨fun h => ⟨⟨1, 1, 1, 1⟩, wanted.mpr rfl, (List.mem_singleton.mp h).symm⟩,
    by rintro ⟨r, h, rfl⟩; rw [wanted.mp h]; simp⟩⟩

/-- the results file `/c/R5.SIU` -/
def disk (p : Str) : Option Bytes :=
  if p = "/c/R5.SIU".toList then some (75 :: Parse.Demo.bytes cxFile) else none

def start : State := { conv := { cwd := "/c".toList ++ ['/'], disk := disk } }

theorem reach : Reachable iter (3 : Rat) num cplx Dec.std 10000 start :=
  .start "/c".toList disk fun _ => none

theorem cx : ∃ h1, SesamFile Dec.std start.conv "R5.SIU".toList "/c/".toList "R5.SIU".toList [] 'R'
    "5".toList "SIU".toList (75 :: Parse.Demo.bytes cxFile) [] cxFile cxNames 5 "R5"
    "FIRSTLEVEL" "STRUCTURAL" {} h1 h1 [] ∧ Enumerates h1 (iter h1) := by
  obtain ⟨st1, -, c1⟩ := cxJob.source Parse.Demo.resClean 1 cxOnDisk
  refine ⟨st1.h5, ⟨⟨rfl, .inr ⟨"/c".toList, rfl⟩, by decide⟩, name, by decide +kernel, rfl,
    by decide +kernel, _, _, _, cxOnDisk, cxJob, c1, .alone (by decide +kernel)⟩, ?_⟩
  obtain ⟨recs, -, hg⟩ := c1.groups
  have hp : (Place.top "" "R").path 5 = ["R5"] := by decide +kernel
  rw [hp] at hg
  exact enum hg

/-- C83: the complex forces at the ends of the beam -/
example : ∃ s1 d o, openSif iter 3 num cplx Dec.std 10000 start "R5.SIU".toList = (s1, .ok d) ∧
    struc num s1 d = .ok o ∧
    getElementResults (0 : Rat) o "beamforce" "nodes" 1 .all .none = .ok (.complex ⟨[2, 6],
      [(1, 0), (2, 3), (3, 6), (4, 1), (5, 4), (6, 7),
       (1, 4), (2, 7), (3, 2), (4, 5), (5, 0), (6, 3)]⟩) := by
  obtain ⟨h1, F, hi⟩ := cx
  obtain ⟨s1, d, q1, q2⟩ := session_element_records_complex reach F
    (stem := "R5.".toList) (e3 := "SIU".toList) rfl rfl (by decide) hi (by decide +kernel)
    meshFile valid (.inl noSets) chosen forceFile
    refs (run := 1) (rescases := .all) (flag := 1) (by decide)
    (fun r hr => by rw [wanted.mp hr]) oneCase (by simp) (kept := [cxRec])
    (.keep ⟨⟨_, wanted.mpr rfl, rfl⟩, 0, by simp, rfl⟩ .nil) (by simp) (s3 := 0)
    (pos := "nodes") (bs := [⟨[6], [0, 2].map fun i => (List.range 6).map fun k =>
      at1 cxRec.values (6 * i + k)⟩])
    (.cons (by
      have h : cxRec.values.length = 18 := by decide +kernel
      show process15 cxRec.values = _
      unfold process15
      rw [if_pos h]) .nil) (dims := [6]) (by simp)
    (.inr ⟨by decide, _, rfl⟩)
  obtain ⟨o, q3, q4, -⟩ := q2 _ .refl
  refine ⟨s1, d, o, q1, q3, (q4 2 (by decide +kernel)).trans ?_⟩
  congr 2

/-- the object of the file stays the same when another file is closed -/
example : ∃ s1 d o, openSif iter 3 num cplx Dec.std 10000 start "R5.SIU".toList = (s1, .ok d) ∧
    o.seltyp = 5 ∧ Reads num cxFile o ∧ struc num (closeFile s1 7) d = .ok o := by
  obtain ⟨h1, F, hi⟩ := cx
  obtain ⟨s1, d, o, q1, -, -, -, q2, -, q3, q4⟩ := session_object reach F
    (stem := "R5.".toList) (e3 := "SIU".toList) rfl rfl (by decide) hi (by decide +kernel)
  exact ⟨s1, d, o, q1, q2, q3, q4 _ (.closeFile 7 (by decide) .refl)⟩

end Verif.Session.ComplexDemo
