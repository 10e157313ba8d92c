import Verif.Data.LoadResults
import Verif.Data.LoadDemo
/-!
# A small results file with a beam, its section and forces
-/

namespace Verif.Data.Load.Demo2
open Verif Verif.Data Verif.Parse Verif.Seq Verif.Parse.Demo Verif.Data.Load

/-- eighteen forces -/
def forces : List PyF := [1, 2, 3, 4, 5, 6, 7, 8, 9, 10, 11, 12, 1, 2, 3, 4, 5, 6].map PyF.rat

/-- two nodes, one beam with its section, load cases with names, forces of one result case -/
def beamFile : List LRec := [
  ⟨"IDENT", [.rat 1, .rat 5, .rat 3, .rat 0], [], 0, [], []⟩,
  ⟨"GNODE", [.rat 11, .rat 1, .rat 6, .rat 123456], [], 0, [], []⟩,
  ⟨"GNODE", [.rat 12, .rat 2, .rat 6, .rat 123456], [], 0, [], []⟩,
  ⟨"GCOORD", [.rat 1, .rat 0, .rat 0, .rat 0], [], 0, [], []⟩,
  ⟨"GCOORD", [.rat 2, .rat 3, .rat 0, .rat 0], [], 0, [], []⟩,
  ⟨"GELMNT1", [.rat 5, .rat 1, .rat 15, .rat 0], [], 8, [.rat 1, .rat 2], [.rat 0, .rat 0]⟩,
  ⟨"GELREF1", [.rat 1, .rat 4, .rat 0, .rat 0],
    [.recd 8 [.rat 0, .rat 0, .rat 0, .rat 0], .recd 8 [.rat 7, .rat 0, .rat 0, .rat 0]], 8, [], []⟩,
  ⟨"GBEAMG", [.rat 7, .rat 0, .rat 2, .rat 3], [], 8, [.rat 4, .rat 5, .rat 6, .rat 7, .rat 8, .rat 9,
    .rat 10, .rat 11, .rat 12, .rat 1, .rat 2, .rat 3], []⟩,
  ⟨"TDLOAD", [.rat 4, .rat 3, .rat 101, .rat 0], [.text [' ', 'A', ' ']], 0, [], []⟩,
  ⟨"RDPOINTS", [.rat 9, .rat 1, .rat 1, .rat 1], [], 0, [.rat 15, .rat 3, .rat 0, .rat 0, .rat 0], []⟩,
  ⟨"RDFORCES", [.rat 9, .rat 15, .rat 6, .rat 1], [], 0, [.rat 2, .rat 3, .rat 4, .rat 5, .rat 6], []⟩,
  ⟨"RDRESREF", [.rat 7, .rat 1, .rat 1, .rat 1], [], 0, [.rat 0, .rat 0, .rat 0], []⟩,
  ⟨"RVFORCES", [.rat 11, .rat 1, .rat 1, .rat 1], [], 0, .rat 15 :: forces, []⟩,
  ⟨"IEND", [.rat 0, .rat 0, .rat 0, .rat 0], [], 0, [], []⟩]

/-- what is added to the tables -/
def beamOuts : List Added := [
  ⟨"IDENT", true, [.sc (.int 1), .sc (.int 5), .sc (.int 3)], []⟩,
  ⟨"GNODE", true, [.sc (.int 11), .sc (.int 1), .sc (.int 6), .sc (.int 123456)], []⟩,
  ⟨"GNODE", false, [.sc (.int 12), .sc (.int 2), .sc (.int 6), .sc (.int 123456)], []⟩,
  ⟨"GCOORD", true, [.sc (.int 1), .sc (.flt (.rat 0)), .sc (.flt (.rat 0)), .sc (.flt (.rat 0))], []⟩,
  ⟨"GCOORD", false, [.sc (.int 2), .sc (.flt (.rat 3)), .sc (.flt (.rat 0)), .sc (.flt (.rat 0))], []⟩,
  ⟨"GELMNT1", true, [.sc (.int 5), .sc (.int 1), .sc (.int 15), .sc (.int 0)],
    [some [.sc (.int 1), .sc (.int 2)]]⟩,
  ⟨"GELREF1", true, [.sc (.int 1), .sc (.int 4), .sc (.int 0), .sc (.int 0), .sc (.int 0),
    .sc (.int 0), .sc (.int 0), .sc (.int 0), .sc (.int 7), .sc (.int 0), .sc (.int 0), .sc (.int 0)],
    [some [], some [], some [], some []]⟩,
  ⟨"GBEAMG", true, [.sc (.int 7), .sc (.flt (.rat 0)), .sc (.flt (.rat 2)), .sc (.flt (.rat 3)),
    .sc (.flt (.rat 4)), .sc (.flt (.rat 5)), .sc (.flt (.rat 6)), .sc (.flt (.rat 7)),
    .sc (.flt (.rat 8)), .sc (.flt (.rat 9)), .sc (.flt (.rat 10)), .sc (.flt (.rat 11)),
    .sc (.flt (.rat 12)), .sc (.flt (.rat 1)), .sc (.flt (.rat 2)), .sc (.flt (.rat 3))], []⟩,
  ⟨"TDLOAD", true, [.sc (.int 4), .sc (.int 3), .sc (.int 101), .sc (.int 0), .sc (.txt ['A'])], [some []]⟩,
  ⟨"RDPOINTS", true, [.sc (.int 9), .sc (.int 1), .sc (.int 1), .sc (.int 1), .sc (.int 15),
    .sc (.int 3), .sc (.int 0), .sc (.int 0), .sc (.int 0)], [some [], some []]⟩,
  ⟨"RDFORCES", true, [.sc (.int 9), .sc (.int 15), .sc (.int 6)],
    [some [.sc (.int 1), .sc (.int 2), .sc (.int 3), .sc (.int 4), .sc (.int 5), .sc (.int 6)]]⟩,
  ⟨"RDRESREF", true, [.sc (.int 7), .sc (.int 1), .sc (.int 1), .sc (.int 1), .sc (.int 0),
    .sc (.int 0), .sc (.int 0)], [some []]⟩,
  ⟨"RVFORCES", true, [.sc (.int 11), .sc (.int 1), .sc (.int 1), .sc (.int 1), .sc (.int 15)],
    [some (forces.map fun x => .sc (.flt x))]⟩]

/-- the record types read -/
def beamNames : List String :=
  ["IDENT", "GNODE", "GCOORD", "GELMNT1", "GELREF1", "GBEAMG", "TDLOAD", "RDPOINTS", "RDFORCES",
   "RDRESREF", "RVFORCES", "IEND"]

/-- the model that the file describes -/
def mesh : Mesh Rat where
  nodes := [⟨11, ⟨0, 0, 0⟩⟩, ⟨12, ⟨3, 0, 0⟩⟩]
  elems := [⟨5, 15, [1, 2]⟩]
  names := []
  sets := []

theorem beamAccepted (sk : LRec → Bool) :
    Accepts none sk (fun _ => none) none [] beamFile beamOuts beamNames := by
  have nv : ∀ {n : String} {x : PyF} {t : List PyF} {p sk v d}, x.ltZero = false →
      NotVoid ⟨n, x :: t, p, sk, v, d⟩ := fun h => ⟨_, _, rfl, h⟩
  have fo : ∀ {r : LRec}, r.name ≠ "SCONMESH" → FirstOK r := fun h h' => absurd h' h
  have int : ∀ {x : PyF} (n : Int), x.toInt = .ok n → HasInt x n := fun n h => toInt_hasInt h
  unfold beamFile beamOuts beamNames
  refine .ident rfl trivial (nv (by decide +kernel)) ?_ ?_
  · exact ⟨_, lay "IDENT", .ident (int 1 (by decide +kernel)) (int 5 (by decide +kernel))
      (int 3 (by decide +kernel)), by decide +kernel, rfl, rfl, rfl, by stored, by stored⟩
  refine .first (by simp) (by simp) trivial (nv (by decide +kernel)) (fo (by simp)) ?_ ?_
  · exact ⟨_, lay "GNODE", .fixed (n := 4) (k := 0) (by decide) rfl (by simp), by decide +kernel, rfl, rfl, rfl, by stored, by stored⟩
  refine more rfl (by simp) ?_ ?_
  · exact ⟨_, lay "GNODE", .fixed (n := 4) (k := 0) (by decide) rfl (by simp), by decide +kernel, rfl, rfl, rfl, by stored, by stored⟩
  refine .first (by simp) (by simp) trivial (nv (by decide +kernel)) (fo (by simp)) ?_ ?_
  · exact ⟨_, lay "GCOORD", .fixed (n := 4) (k := 0) (by decide) rfl (by simp), by decide +kernel, rfl, rfl, rfl, by stored, by stored⟩
  refine more rfl (by simp) ?_ ?_
  · exact ⟨_, lay "GCOORD", .fixed (n := 4) (k := 0) (by decide) rfl (by simp), by decide +kernel, rfl, rfl, rfl, by stored, by stored⟩
  refine .first (by simp) (by simp) trivial (nv (by decide +kernel)) (fo (by simp)) ?_ ?_
  · exact ⟨_, lay "GELMNT1", .gelmnt1 (int 1 (by decide +kernel)) (int 15 (by decide +kernel))
      (by unfold NodeCount; simp), by decide +kernel, rfl, rfl, rfl, by stored, by stored⟩
  refine .first (by simp) (by simp) trivial (nv (by decide +kernel)) (fo (by simp)) ?_ ?_
  · have r0 : ∀ {q : Rat}, q ≠ -1 → Refs 2 (.rat q) [] :=
      fun h => ⟨fun e => absurd (PyF.rat.inj e) h, fun _ => rfl⟩
    exact ⟨_, lay "GELREF1", .gelref1 (geo := []) (fix := []) (ecc := []) (trans := []) (ty := 15) (nn := 2)
      (int 1 (by decide +kernel))
      (.inl (.here ⟨rfl, _, _, _, _, rfl, int 1 (by decide +kernel), int 15 (by decide +kernel)⟩))
      (by unfold NodeCount; simp) (r0 (by decide +kernel)) (r0 (by decide +kernel))
      (r0 (by decide +kernel)) (r0 (by decide +kernel)), by decide +kernel, rfl, rfl, rfl,
      by stored, by stored⟩
  refine .first (by simp) (by simp) trivial (nv (by decide +kernel)) (fo (by simp)) ?_ ?_
  · exact ⟨_, lay "GBEAMG", .fixed (n := 16) (k := 8) (by decide) rfl (by simp), by decide +kernel, rfl, rfl, rfl, by stored, by stored⟩
  refine .first (by simp) (by simp) trivial (nv (by decide +kernel)) (fo (by simp)) ?_ ?_
  · refine ⟨_, lay "TDLOAD", .td (n := 101) (m := 0) (ns := [[' ', 'A', ' ']]) (ns' := [['A']])
      (ts := []) (ts' := []) (by simp)
      (int 101 (by decide +kernel)) (int 0 (by decide +kernel)) rfl rfl
      (.cons ⟨1, 1, rfl, by simp, by simp⟩ .nil) .nil, by decide +kernel, rfl, rfl, rfl, ?_, by stored⟩
    refine ⟨?_, rfl, rfl⟩
    refine .cons ?_ (.cons ?_ (.cons ?_ (.cons ?_ (.cons (.sc (.txt 64 _)) .nil))))
    all_goals exact Stored.sc (.int (toInt_hasInt (by decide +kernel)))
  have pts : IsPoints ⟨"RDPOINTS", [.rat 9, .rat 1, .rat 1, .rat 1], [], 0,
      [.rat 15, .rat 3, .rat 0, .rat 0, .rat 0], []⟩ ⟨1, 1, 1, 3, 0, 0, 0, 0, 0⟩ :=
    ⟨rfl, by simp, by simp, _, _, _, _, _, _, _, _, _, [], rfl, rfl, int 1 (by decide +kernel),
      int 1 (by decide +kernel), int 1 (by decide +kernel), int 3 (by decide +kernel),
      int 0 (by decide +kernel), int 0 (by decide +kernel), int 0 (by decide +kernel)⟩
  refine .first (by simp) (by simp) trivial (nv (by decide +kernel)) (fo (by simp)) ?_ ?_
  · exact ⟨_, lay "RDPOINTS", .rdpoints (pts := []) (xs := []) (p := ⟨1, 1, 1, 3, 0, 0, 0, 0, 0⟩)
      pts .nil .nil rfl, by decide +kernel, rfl, rfl, rfl, by stored, by stored⟩
  refine .first (by simp) (by simp) trivial (nv (by decide +kernel)) (fo (by simp)) ?_ ?_
  · exact ⟨_, lay "RDFORCES", .compdef (by simp) (int 15 (by decide +kernel))
      (int 6 (by decide +kernel)), by decide +kernel, rfl, rfl, rfl, by stored, by stored⟩
  refine .first (by simp) (by simp) trivial (nv (by decide +kernel)) (fo (by simp)) ?_ ?_
  · exact ⟨_, lay "RDRESREF", .rdresref (refs := []) (rvs := []) (int 1 (by decide +kernel))
      (int 0 (by decide +kernel)) (int 0 (by decide +kernel)) ⟨[], by simp, rfl, rfl⟩ rfl,
      by decide +kernel, rfl, rfl, rfl, by stored, by stored⟩
  refine .first (by simp) (by simp) trivial (nv (by decide +kernel)) (fo (by simp)) ?_ ?_
  · exact ⟨_, lay "RVFORCES", .rvelm (res := forces) (i := 1) (j := 1) (k := 1) (l := 15) (cplx := 0)
      (nsp := 3) (len := 6) (by simp)
      (int 1 (by decide +kernel)) (int 1 (by decide +kernel)) (int 1 (by decide +kernel))
      (int 15 (by decide +kernel))
      (.earlier (fun a' h => by obtain ⟨p, h, -⟩ := h; exact absurd h.1 (by simp))
        (.earlier (fun a' h => by obtain ⟨p, h, -⟩ := h; exact absurd h.1 (by simp))
          (.here ⟨_, pts, rfl, rfl, rfl⟩)))
      (.earlier (fun a' h => absurd h.1 (by simp [Defines]))
        (.here ⟨by simp [Defines], _, _, _, _, rfl, int 15 (by decide +kernel),
          int 6 (by decide +kernel)⟩))
      (.here ⟨rfl, _, _, _, _, _, _, _, _, rfl, rfl, int 1 (by decide +kernel),
        int 0 (by decide +kernel)⟩) rfl,
      by decide +kernel, rfl, rfl, rfl, by stored, by stored⟩
  exact .stop trivial ⟨rfl, _, _, rfl, rfl⟩

theorem beamOnDisk : Encoded Dec.std (fun _ => false) beamFile (.unformatted (75 :: bytes beamFile)) :=
  .unformatted (encodesU (by decide +kernel))

theorem beamJob : Job none (fun _ => false) (fun _ => none) beamFile beamOuts beamNames
    (.top "" "R") 5 {} "FIRSTLEVEL" "STRUCTURAL" (some none) where
  accepted := beamAccepted _
  sel := by decide
  gives := ⟨_, rfl, .inl ⟨rfl, rfl⟩⟩
  allows := by
    intro o ho hn
    exfalso
    revert o
    decide +kernel
  hier := trivial
  free := fun _ _ => rfl
  classified := .resAlone (by decide +kernel)

theorem meshFile : MeshFile Demo.num beamFile mesh where
  nodes := by
    refine .cons ?_ (.cons ?_ .nil) <;>
      exact ⟨_, _, _, _, rfl, toInt_hasInt (by decide +kernel), toInt_hasInt (by decide +kernel)⟩
  coords := by
    refine .cons ?_ (.cons ?_ .nil) <;>
      exact ⟨_, _, _, _, rfl, by decide +kernel, by decide +kernel, by decide +kernel⟩
  elems := by
    refine .cons ?_ .nil
    exact ⟨⟨_, _, _, _, rfl, toInt_hasInt (by decide +kernel), toInt_hasInt (by decide +kernel),
        toInt_hasInt (by decide +kernel)⟩, .cons (toInt_hasInt (by decide +kernel))
        (.cons (toInt_hasInt (by decide +kernel)) .nil)⟩
  someNode := by simp [mesh]
  someElem := by simp [mesh]

theorem valid : Valid mesh where
  nodes := by simp [mesh]
  sets := by simp [mesh]

/-- the beams -/
theorem chosen : Chosen mesh .none (some "beam") [0] := by
  refine ⟨_, _, .all, .beam, by simp, fun i => ⟨fun hi => ?_, ?_⟩⟩
  · obtain rfl : i = 0 := by simpa using hi
    exact ⟨_, rfl, trivial, .inl rfl⟩
  · rintro ⟨e, he, -⟩
    have := (List.getElem?_eq_some_iff.mp he).1
    simp only [mesh, List.length_cons, List.length_nil] at this
    obtain rfl : i = 0 := by omega
    simp

theorem noSets : NoSets .none := .inl rfl

/-- the result case -/
theorem refs : Describes IsRef (recordsOf "RDRESREF" beamFile) (some [⟨1, 1, 1, 0⟩]) :=
  ⟨by simp, .cons ⟨_, _, _, _, _, _, _, _, rfl, rfl, toInt_hasInt (by decide +kernel),
    toInt_hasInt (by decide +kernel), toInt_hasInt (by decide +kernel),
    toInt_hasInt (by decide +kernel)⟩ .nil⟩

/-- the forces of the beam -/
def beamRec : ElemRec Rat := ⟨1, 1, 15, forces.map Demo.num⟩

theorem forceFile : ElemResFile Demo.num beamFile "beamforce" "beam" storedReal [beamRec] :=
  ⟨by simp, _, .beamforce, .cons ⟨_, _, _, _, _, _, rfl, rfl, toInt_hasInt (by decide +kernel),
    toInt_hasInt (by decide +kernel), toInt_hasInt (by decide +kernel), by decide +kernel⟩ .nil⟩

theorem wanted {r : ResRef} : Wanted [⟨1, 1, 1, 0⟩] 1 .all r ↔ r = ⟨1, 1, 1, 0⟩ := by
  unfold Wanted
  constructor
  · rintro ⟨h, -⟩; simpa using h
  · rintro rfl
    exact ⟨by simp, rfl, .inl rfl⟩

example := file_to_element_results beamJob resClean 0 beamOnDisk rfl meshFile valid
  (.inl noSets) chosen (l := [⟨5, 15, [1, 2]⟩]) (.cons rfl .nil) (by simp) (dims := [6])
  (by simp [nodesOf]) (by simp [dimsOf]) forceFile refs (run := 1) (rescases := .all)
  (fun r hr => by rw [wanted.mp hr]) (cs := [1])
  ⟨by simp, fun c => ⟨fun h => ⟨⟨1, 1, 1, 0⟩, wanted.mpr rfl, (List.mem_singleton.mp h).symm⟩,
    by rintro ⟨r, h, rfl⟩; rw [wanted.mp h]; simp⟩⟩ (by simp) (css := [[beamRec]])
  (.keep ⟨⟨_, wanted.mpr rfl, rfl⟩, 0, by simp, rfl⟩ .nil) rfl
  (by
    intro c hc
    obtain rfl : c = [beamRec] := by simpa using hc
    exact .cons ⟨rfl, by decide +kernel, _, rfl, rfl⟩ .nil) 0

example := file_to_sections beamJob resClean 0 beamOnDisk rfl meshFile valid
  (.inl noSets) (geos := [7])
  ⟨by simp, .cons ⟨_, _, _, _, _, rfl, toInt_hasInt (by decide +kernel)⟩ .nil⟩

/-- the section of the beam -/
example : Describes (IsBeam Demo.num) (recordsOf "GBEAMG" beamFile)
    (some [(7, [0, 2, 3, 4, 5, 6, 7, 8, 9, 10, 11, 12, 1, 2, 3])]) :=
  ⟨by simp, .cons ⟨_, _, _, _, rfl, toInt_hasInt (by decide +kernel), by decide +kernel⟩ .nil⟩

example := file_to_names beamJob resClean 0 beamOnDisk rfl Demo.num

/-- the name of load case 3 -/
example : List.Forall₂ IsName (recordsOf "TDLOAD" beamFile) [(['A'], 3)] :=
  .cons ⟨_, _, _, _, 101, [[' ', 'A', ' ']], [], [['A']], rfl,
      toInt_hasInt (by decide +kernel), toInt_hasInt (by decide +kernel), rfl, rfl,
      .cons ⟨1, 1, rfl, by simp, by simp⟩ .nil, rfl⟩ .nil

end Verif.Data.Load.Demo2

namespace Verif.Data.Load.Demo
open Verif Verif.Data Verif.Parse Verif.Seq Verif.Parse.Demo Verif.Data.Load

theorem refs : Describes IsRef (recordsOf "RDRESREF" loadFile) (some [⟨1, 1, 1, 0⟩]) :=
  ⟨by simp, .cons ⟨_, _, _, _, _, _, _, _, rfl, rfl, toInt_hasInt (by decide +kernel),
    toInt_hasInt (by decide +kernel), toInt_hasInt (by decide +kernel),
    toInt_hasInt (by decide +kernel)⟩ .nil⟩

/-- displacements of the nodes of set `A` -/
example := file_to_node_results loadJob resClean 0 loadOnDisk rfl meshFile valid
  (.inr setsFile) chosen (l := [⟨6, 15, [2, 3]⟩]) (.cons rfl .nil) (.inl (by simp))
  (disc := false) (ns := [1, 2]) (.used (by simp [NoSelection, NoSets]) ⟨by simp, by simp⟩)
  (.inl rfl) (picked := results) resFile' refs (run := 1) (rescases := .all) (flag := 0)
  (fun r hr => by rw [Demo2.wanted.mp hr])
  ⟨List.Sublist.refl _, fun c hc => ⟨fun _ => ⟨_, Demo2.wanted.mpr rfl, by
    simp only [results, List.mem_singleton] at hc; rw [hc]⟩, fun _ => hc⟩⟩
  (fun r hr => ⟨results[0], by simp [results], by rw [Demo2.wanted.mp hr]; rfl⟩)
  (by simp [results, OfKind]) (by simp [results])

end Verif.Data.Load.Demo
