import Verif.Data.LoadProps
import Verif.Parse.Demo
/-!
# A small results file with a model, a set and displacements
-/

namespace Verif.Data.Load.Demo
open Verif Verif.Data Verif.Parse Verif.Seq Verif.Parse.Demo Verif.Data.Load

/-- three nodes, two beams, the set `A` of the second beam, displacements of one result case -/
def loadFile : List LRec := [
  ⟨"IDENT", [.rat 1, .rat 5, .rat 3, .rat 0], [], 0, [], []⟩,
  ⟨"GNODE", [.rat 11, .rat 1, .rat 6, .rat 123456], [], 0, [], []⟩,
  ⟨"GNODE", [.rat 12, .rat 2, .rat 6, .rat 123456], [], 0, [], []⟩,
  ⟨"GNODE", [.rat 16, .rat 3, .rat 6, .rat 123456], [], 0, [], []⟩,
  ⟨"GCOORD", [.rat 1, .rat 0, .rat 0, .rat 0], [], 0, [], []⟩,
  ⟨"GCOORD", [.rat 2, .rat 3, .rat 0, .rat 0], [], 0, [], []⟩,
  ⟨"GCOORD", [.rat 3, .rat 3, .rat 4, .rat 0], [], 0, [], []⟩,
  ⟨"GELMNT1", [.rat 5, .rat 1, .rat 15, .rat 0], [], 8, [.rat 1, .rat 2], [.rat 0, .rat 0]⟩,
  ⟨"GELMNT1", [.rat 6, .rat 2, .rat 15, .rat 0], [], 8, [.rat 2, .rat 3], [.rat 0, .rat 0]⟩,
  ⟨"TDSETNAM", [.rat 4, .rat 1, .rat 101, .rat 0], [.text [' ', 'A', ' ']], 0, [], []⟩,
  ⟨"GSETMEMB", [.rat 6, .rat 1, .rat 1, .rat 2], [], 0, [.rat 0, .rat 2], []⟩,
  ⟨"RDRESREF", [.rat 7, .rat 1, .rat 1, .rat 1], [], 0, [.rat 0, .rat 0, .rat 0], []⟩,
  ⟨"RVNODDIS", [.rat 11, .rat 1, .rat 1, .rat 0], [], 0, [.rat 0, .rat 1, .rat 2, .rat 3, .rat 4, .rat 5, .rat 6], []⟩,
  ⟨"RVNODDIS", [.rat 11, .rat 1, .rat 2, .rat 0], [], 0, [.rat 0, .rat 7, .rat 8, .rat 9, .rat 10, .rat 11, .rat 12], []⟩,
  ⟨"RVNODDIS", [.rat 11, .rat 1, .rat 3, .rat 0], [], 0, [.rat 0, .rat 2, .rat 4, .rat 6, .rat 8, .rat 10, .rat 12], []⟩,
  ⟨"IEND", [.rat 0, .rat 0, .rat 0, .rat 0], [], 0, [], []⟩]

/-- what is added to the tables -/
def loadOuts : List Added := [
  ⟨"IDENT", true, [.sc (.int 1), .sc (.int 5), .sc (.int 3)], []⟩,
  ⟨"GNODE", true, [.sc (.int 11), .sc (.int 1), .sc (.int 6), .sc (.int 123456)], []⟩,
  ⟨"GNODE", false, [.sc (.int 12), .sc (.int 2), .sc (.int 6), .sc (.int 123456)], []⟩,
  ⟨"GNODE", false, [.sc (.int 16), .sc (.int 3), .sc (.int 6), .sc (.int 123456)], []⟩,
  ⟨"GCOORD", true, [.sc (.int 1), .sc (.flt (.rat 0)), .sc (.flt (.rat 0)), .sc (.flt (.rat 0))], []⟩,
  ⟨"GCOORD", false, [.sc (.int 2), .sc (.flt (.rat 3)), .sc (.flt (.rat 0)), .sc (.flt (.rat 0))], []⟩,
  ⟨"GCOORD", false, [.sc (.int 3), .sc (.flt (.rat 3)), .sc (.flt (.rat 4)), .sc (.flt (.rat 0))], []⟩,
  ⟨"GELMNT1", true, [.sc (.int 5), .sc (.int 1), .sc (.int 15), .sc (.int 0)], [some [.sc (.int 1), .sc (.int 2)]]⟩,
  ⟨"GELMNT1", false, [.sc (.int 6), .sc (.int 2), .sc (.int 15), .sc (.int 0)], [some [.sc (.int 2), .sc (.int 3)]]⟩,
  ⟨"TDSETNAM", true, [.sc (.int 4), .sc (.int 1), .sc (.int 101), .sc (.int 0), .sc (.txt ['A'])], [some []]⟩,
  ⟨"GSETMEMB", true, [.sc (.int 6), .sc (.int 1), .sc (.int 1), .sc (.int 2), .sc (.int 0)], [some [.sc (.int 2)]]⟩,
  ⟨"RDRESREF", true, [.sc (.int 7), .sc (.int 1), .sc (.int 1), .sc (.int 1), .sc (.int 0), .sc (.int 0), .sc (.int 0)], [some []]⟩,
  ⟨"RVNODDIS", true, [.sc (.int 11), .sc (.int 1), .sc (.int 1), .sc (.int 0), .sc (.int 0)], [some [.sc (.flt (.rat 1)), .sc (.flt (.rat 2)), .sc (.flt (.rat 3)), .sc (.flt (.rat 4)), .sc (.flt (.rat 5)), .sc (.flt (.rat 6))]]⟩,
  ⟨"RVNODDIS", false, [.sc (.int 11), .sc (.int 1), .sc (.int 2), .sc (.int 0), .sc (.int 0)], [some [.sc (.flt (.rat 7)), .sc (.flt (.rat 8)), .sc (.flt (.rat 9)), .sc (.flt (.rat 10)), .sc (.flt (.rat 11)), .sc (.flt (.rat 12))]]⟩,
  ⟨"RVNODDIS", false, [.sc (.int 11), .sc (.int 1), .sc (.int 3), .sc (.int 0), .sc (.int 0)], [some [.sc (.flt (.rat 2)), .sc (.flt (.rat 4)), .sc (.flt (.rat 6)), .sc (.flt (.rat 8)), .sc (.flt (.rat 10)), .sc (.flt (.rat 12))]]⟩]

/-- the record types read -/
def loadNames : List String :=
  ["IDENT", "GNODE", "GCOORD", "GELMNT1", "TDSETNAM", "GSETMEMB", "RDRESREF", "RVNODDIS", "IEND"]

/-- a number -/
def num : PyF → Rat
  | .rat q => q
  | _ => 0

/-- the model that the file describes -/
def mesh : Mesh Rat where
  nodes := [⟨11, ⟨0, 0, 0⟩⟩, ⟨12, ⟨3, 0, 0⟩⟩, ⟨16, ⟨3, 4, 0⟩⟩]
  elems := [⟨5, 15, [1, 2]⟩, ⟨6, 15, [2, 3]⟩]
  names := [(['A'], 1)]
  sets := [⟨1, 2, [2]⟩]

/-- the displacements -/
def results : List (CaseRes Rat) :=
  [⟨1, [[.re 1, .re 2, .re 3, .re 4, .re 5, .re 6], [.re 7, .re 8, .re 9, .re 10, .re 11, .re 12],
    [.re 2, .re 4, .re 6, .re 8, .re 10, .re 12]]⟩]

theorem loadAccepted (sk : LRec → Bool) :
    Accepts none sk (fun _ => none) none [] loadFile loadOuts loadNames := by
  have nv : ∀ {n : String} {x : PyF} {t : List PyF} {p sk v d}, x.ltZero = false →
      NotVoid ⟨n, x :: t, p, sk, v, d⟩ := fun h => ⟨_, _, rfl, h⟩
  have fo : ∀ {r : LRec}, r.name ≠ "SCONMESH" → FirstOK r := fun h h' => absurd h' h
  have int : ∀ {x : PyF} (n : Int), x.toInt = .ok n → HasInt x n := fun n h => toInt_hasInt h
  unfold loadFile loadOuts loadNames
  refine .ident rfl trivial (nv (by decide +kernel)) ?_ ?_
  · exact ⟨_, lay "IDENT", .ident (int 1 (by decide +kernel)) (int 5 (by decide +kernel))
      (int 3 (by decide +kernel)), by decide +kernel, rfl, rfl, rfl, by stored, by stored⟩
  refine .first (by simp) (by simp) trivial (nv (by decide +kernel)) (fo (by simp)) ?_ ?_
  · exact ⟨_, lay "GNODE", .fixed (n := 4) (k := 0) (by decide) rfl (by simp), by decide +kernel, rfl, rfl, rfl, by stored, by stored⟩
  refine more rfl (by simp) ?_ ?_
  · exact ⟨_, lay "GNODE", .fixed (n := 4) (k := 0) (by decide) rfl (by simp), by decide +kernel, rfl, rfl, rfl, by stored, by stored⟩
  refine more rfl (by simp) ?_ ?_
  · exact ⟨_, lay "GNODE", .fixed (n := 4) (k := 0) (by decide) rfl (by simp), by decide +kernel, rfl, rfl, rfl, by stored, by stored⟩
  refine .first (by simp) (by simp) trivial (nv (by decide +kernel)) (fo (by simp)) ?_ ?_
  · exact ⟨_, lay "GCOORD", .fixed (n := 4) (k := 0) (by decide) rfl (by simp), by decide +kernel, rfl, rfl, rfl, by stored, by stored⟩
  refine more rfl (by simp) ?_ ?_
  · exact ⟨_, lay "GCOORD", .fixed (n := 4) (k := 0) (by decide) rfl (by simp), by decide +kernel, rfl, rfl, rfl, by stored, by stored⟩
  refine more rfl (by simp) ?_ ?_
  · exact ⟨_, lay "GCOORD", .fixed (n := 4) (k := 0) (by decide) rfl (by simp), by decide +kernel, rfl, rfl, rfl, by stored, by stored⟩
  refine .first (by simp) (by simp) trivial (nv (by decide +kernel)) (fo (by simp)) ?_ ?_
  · exact ⟨_, lay "GELMNT1", .gelmnt1 (int 1 (by decide +kernel)) (int 15 (by decide +kernel))
      (by unfold NodeCount; simp), by decide +kernel, rfl, rfl, rfl, by stored, by stored⟩
  refine more rfl (by simp) ?_ ?_
  · exact ⟨_, lay "GELMNT1", .gelmnt1 (int 2 (by decide +kernel)) (int 15 (by decide +kernel))
      (by unfold NodeCount; simp), by decide +kernel, rfl, rfl, rfl, by stored, by stored⟩
  refine .first (by simp) (by simp) trivial (nv (by decide +kernel)) (fo (by simp)) ?_ ?_
  · refine ⟨_, lay "TDSETNAM", .td (n := 101) (m := 0) (ns := [[' ', 'A', ' ']]) (ns' := [['A']])
      (ts := []) (ts' := []) (by simp)
      (int 101 (by decide +kernel)) (int 0 (by decide +kernel)) rfl rfl
      (.cons ⟨1, 1, rfl, by simp, by simp⟩ .nil) .nil, by decide +kernel, rfl, rfl, rfl, ?_, by stored⟩
    refine ⟨?_, rfl, rfl⟩
    refine .cons ?_ (.cons ?_ (.cons ?_ (.cons ?_ (.cons (.sc (.txt 64 _)) .nil))))
    all_goals exact Stored.sc (.int (toInt_hasInt (by decide +kernel)))
  refine .first (by simp) (by simp) trivial (nv (by decide +kernel)) (fo (by simp)) ?_ ?_
  · exact ⟨_, lay "GSETMEMB", .gsetmemb (int 6 (by decide +kernel)), by decide +kernel, rfl, rfl, rfl, by stored, by stored⟩
  refine .first (by simp) (by simp) trivial (nv (by decide +kernel)) (fo (by simp)) ?_ ?_
  · exact ⟨_, lay "RDRESREF", .rdresref (refs := []) (rvs := []) (int 1 (by decide +kernel))
      (int 0 (by decide +kernel)) (int 0 (by decide +kernel)) ⟨[], by simp, rfl, rfl⟩ rfl,
      by decide +kernel, rfl, rfl, rfl, by stored, by stored⟩
  have cplx : ∀ r past, r = (⟨"RDRESREF", [.rat 7, .rat 1, .rat 1, .rat 1], [], 0,
      [.rat 0, .rat 0, .rat 0], []⟩ : LRec) → Latest (DeclCplx 1) (r :: past) 0 := by
    rintro r past rfl
    exact .here ⟨rfl, _, _, _, _, _, _, _, _, rfl, rfl, int 1 (by decide +kernel),
      int 0 (by decide +kernel)⟩
  have skip : ∀ {r : LRec} {past}, r.name = "RVNODDIS" → Latest (DeclCplx 1) past 0 →
      Latest (DeclCplx 1) (r :: past) 0 := fun hr h => .earlier (fun a' h => absurd h.1 (by simp [hr])) h
  refine .first (by simp) (by simp) trivial (nv (by decide +kernel)) (fo (by simp)) ?_ ?_
  · exact ⟨_, lay "RVNODDIS", .rvnod (n := 11) (i := 1) (cplx := 0) (by simp)
      (int 11 (by decide +kernel)) (int 1 (by decide +kernel)) (cplx _ _ rfl) (by decide) rfl,
      by decide +kernel, rfl, rfl, rfl, by stored, by stored⟩
  refine more rfl (by simp) ?_ ?_
  · exact ⟨_, lay "RVNODDIS", .rvnod (n := 11) (i := 1) (cplx := 0) (by simp)
      (int 11 (by decide +kernel)) (int 1 (by decide +kernel)) (skip rfl (cplx _ _ rfl)) (by decide) rfl,
      by decide +kernel, rfl, rfl, rfl, by stored, by stored⟩
  refine more rfl (by simp) ?_ ?_
  · exact ⟨_, lay "RVNODDIS", .rvnod (n := 11) (i := 1) (cplx := 0) (by simp)
      (int 11 (by decide +kernel)) (int 1 (by decide +kernel)) (skip rfl (skip rfl (cplx _ _ rfl))) (by decide) rfl,
      by decide +kernel, rfl, rfl, rfl, by stored, by stored⟩
  exact .stop trivial ⟨rfl, _, _, rfl, rfl⟩

theorem loadOnDisk : Encoded Dec.std (fun _ => false) loadFile (.unformatted (75 :: bytes loadFile)) :=
  .unformatted (encodesU (by decide +kernel))

/-- the file is superelement 5, a results file (`R5.SIU`) -/
theorem loadJob : Job none (fun _ => false) (fun _ => none) loadFile loadOuts loadNames
    (.top "" "R") 5 {} "FIRSTLEVEL" "STRUCTURAL" (some none) where
  accepted := loadAccepted _
  sel := by decide
  gives := ⟨_, rfl, .inl ⟨rfl, rfl⟩⟩
  allows := by
    intro o ho hn
    exfalso
    revert o
    decide +kernel
  hier := trivial
  free := fun _ _ => rfl
  classified := .resAlone (by decide +kernel)

theorem meshFile : MeshFile num loadFile mesh where
  nodes := by
    refine .cons ?_ (.cons ?_ (.cons ?_ .nil)) <;>
      exact ⟨_, _, _, _, rfl, toInt_hasInt (by decide +kernel), toInt_hasInt (by decide +kernel)⟩
  coords := by
    refine .cons ?_ (.cons ?_ (.cons ?_ .nil)) <;> exact ⟨_, _, _, _, rfl, by decide +kernel, by decide +kernel,
      by decide +kernel⟩
  elems := by
    refine .cons ?_ (.cons ?_ .nil)
    all_goals
      refine ⟨⟨_, _, _, _, rfl, toInt_hasInt (by decide +kernel), toInt_hasInt (by decide +kernel),
        toInt_hasInt (by decide +kernel)⟩, .cons (toInt_hasInt (by decide +kernel))
        (.cons (toInt_hasInt (by decide +kernel)) .nil)⟩
  someNode := by simp [mesh]
  someElem := by simp [mesh]

theorem setsFile : SetsFile loadFile mesh where
  names := by
    refine .cons ⟨_, _, _, _, 101, [[' ', 'A', ' ']], [], [['A']], rfl,
      toInt_hasInt (by decide +kernel), toInt_hasInt (by decide +kernel), rfl, rfl,
      .cons ⟨1, 1, rfl, by simp, by simp⟩ .nil, rfl⟩ .nil
  sets := by
    refine .cons ⟨_, _, _, _, _, _, rfl, rfl, toInt_hasInt (by decide +kernel),
      toInt_hasInt (by decide +kernel), .cons (toInt_hasInt (by decide +kernel)) .nil⟩ .nil
  someName := by simp [mesh]
  someSet := by simp [mesh]

theorem resFile' : NodeResFile num loadFile mesh "displacement" results where
  table := by
    refine ⟨_, .displacement, .cons ?_ (.cons ?_ (.cons ?_ .nil))⟩ <;>
      exact ⟨_, _, _, _, _, _, rfl, rfl, toInt_hasInt (by decide +kernel),
        toInt_hasInt (by decide +kernel), by decide +kernel⟩
  complete := by simp [results, mesh]
  distinct := by simp [results]
  someRecord := by simp [results, records, List.zipIdx]

theorem valid : Valid mesh where
  nodes := by simp [mesh]
  sets := by simp [mesh]

/-- the elements of set `A` -/
theorem chosen : Chosen mesh (.one ['A']) none [1] := by
  have hrec : RecordOf mesh ['A'] ⟨1, 2, [2]⟩ := ⟨by simp [mesh], ⟨[], [], rfl, by simp⟩, rfl⟩
  refine ⟨_, _, .one (by simp) ⟨_, hrec⟩, .all, by simp, fun i => ⟨fun hi => ?_, ?_⟩⟩
  · obtain rfl : i = 1 := by simpa using hi
    exact ⟨_, rfl, ⟨_, hrec, by simp⟩, trivial⟩
  · rintro ⟨e, he, ⟨s, ⟨h1, -, -⟩, h2⟩, -⟩
    obtain rfl : s = ⟨1, 2, [2]⟩ := by simpa [mesh] using h1
    simpa using h2

example := file_to_object loadJob resClean 0 loadOnDisk rfl num
example := file_to_hierarchy loadJob resClean 0 loadOnDisk num

example := file_to_mesh loadJob resClean 0 loadOnDisk rfl meshFile valid
  (.inr setsFile) chosen (l := [⟨6, 15, [2, 3]⟩]) (.cons rfl .nil) (.inl (by simp))
  (disc := false) (ns := [1, 2]) (.used (by simp [NoSelection, NoSets]) ⟨by simp, by simp⟩) 0 0

end Verif.Data.Load.Demo
