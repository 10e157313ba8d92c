import Verif.Conv.Props
/-!
# A model of two levels on disk, used to show that the hypotheses of the theorems can be met
-/

namespace Verif.Conv.Demo
open Verif Verif.Seq Verif.Parse Verif.Parse.Demo

/-- superelement 9 of level 2 holds superelement 5 twice -/
def topFile : List LRec := [
  ⟨"IDENT", [.rat 2, .rat 9, .rat 3, .rat 0], [], 0, [], []⟩,
  ⟨"HIERARCH", [.rat 10, .rat 1, .rat 9, .rat 1], [], 0,
    [.rat 2, .rat 1, .rat 0, .rat 2, .rat 2, .rat 3], []⟩,
  ⟨"HIERARCH", [.rat 8, .rat 2, .rat 5, .rat 1], [], 0, [.rat 1, .rat 1, .rat 1, .rat 0], []⟩,
  ⟨"HIERARCH", [.rat 8, .rat 3, .rat 5, .rat 2], [], 0, [.rat 1, .rat 1, .rat 1, .rat 0], []⟩,
  ⟨"IEND", [.rat 0, .rat 0, .rat 0, .rat 0], [], 0, [], []⟩]

/-- cells of integers -/
def cells (l : List Int) : List Cell := l.map fun n => .sc (.int n)

/-- what is added to the tables -/
def topOuts : List Added := [
  ⟨"IDENT", true, cells [2, 9, 3], []⟩,
  ⟨"HIERARCH", true, cells [10, 1, 9, 1, 2, 1, 0, 2], [some (cells [2, 3])]⟩,
  ⟨"HIERARCH", false, cells [8, 2, 5, 1, 1, 1, 1, 0], [some []]⟩,
  ⟨"HIERARCH", false, cells [8, 3, 5, 2, 1, 1, 1, 0], [some []]⟩]

theorem topAccepted (sk : LRec → Bool) :
    Accepts none sk (fun _ => none) none [] topFile topOuts ["IDENT", "HIERARCH", "IEND"] := by
  have nv : ∀ {n : String} {x : PyF} {t : List PyF} {p sk v d}, x.ltZero = false →
      NotVoid ⟨n, x :: t, p, sk, v, d⟩ := fun h => ⟨_, _, rfl, h⟩
  have fo : ∀ {r : LRec}, r.name ≠ "SCONMESH" → FirstOK r := fun h h' => absurd h' h
  have int : ∀ {x : PyF} (n : Int), x.toInt = .ok n → HasInt x n := fun n h => toInt_hasInt h
  unfold topFile topOuts
  refine .ident rfl trivial (nv (by decide +kernel)) ?_ ?_
  · exact ⟨_, lay "IDENT", .ident (int 2 (by decide +kernel)) (int 9 (by decide +kernel))
      (int 3 (by decide +kernel)), by decide +kernel, rfl, rfl, rfl, by stored, by stored⟩
  refine .first (by simp) (by simp) trivial (nv (by decide +kernel)) (fo (by simp)) ?_ ?_
  · exact ⟨_, lay "HIERARCH", .hierarch (ihs := [.rat 2, .rat 3]) (int 2 (by decide +kernel)),
      by decide +kernel, rfl, rfl, rfl, by stored, by stored⟩
  refine Verif.Parse.Demo.more rfl (by simp) ?_ ?_
  · exact ⟨_, lay "HIERARCH", .hierarch (ihs := []) (int 0 (by decide +kernel)),
      by decide +kernel, rfl, rfl, rfl, by stored, by stored⟩
  refine Verif.Parse.Demo.more rfl (by simp) ?_ ?_
  · exact ⟨_, lay "HIERARCH", .hierarch (ihs := []) (int 0 (by decide +kernel)),
      by decide +kernel, rfl, rfl, rfl, by stored, by stored⟩
  exact .stop trivial ⟨rfl, _, _, rfl, rfl⟩

/-- the top file is `T9.FEM` -/
theorem topJob : Job none (fun _ => false) (fun _ => none) topFile topOuts
    ["IDENT", "HIERARCH", "IEND"] (.top "" "T") 9 {} "TOPLEVEL" "STRUCTURAL" none where
  accepted := topAccepted _
  sel := by decide
  gives := ⟨_, rfl, .inl ⟨rfl, rfl⟩⟩
  allows := by
    intro o ho hn hf
    unfold topOuts at ho
    simp only [List.mem_cons, List.not_mem_nil, or_false] at ho
    rcases ho with rfl | rfl | rfl | rfl
    · exact absurd hn (by simp)
    · rfl
    · cases hf
    · cases hf
  hier := trivial
  free := fun _ _ => rfl
  classified := .modTop (by decide) (by decide +kernel)

/-- the hierarchy in the output file -/
def rows : List (List Cell) :=
  [cells [10, 1, 9, 1, 2, 1, 0, 2, 0, 2], cells [8, 2, 5, 1, 1, 1, 1, 0, 0, 0],
   cells [8, 3, 5, 2, 1, 1, 1, 0, 0, 0]]

theorem topRows : (contents (lay "HIERARCH") topOuts).rows = rows := by decide +kernel

/-- the disk: two levels in directory `/m/` -/
def disk (p : Str) : Option Bytes :=
  if p = "/m/T9.FEM".toList then some (75 :: bytes topFile)
  else if p = "/m/T5.FEM".toList then some (75 :: bytes Parse.Demo.file)
  else none

/-- the current directory is `/m/` -/
def world : World := { cwd := "/m/".toList, disk := disk }

/-- superelement 5 below superelement 9, in any output file that holds the hierarchy -/
theorem lowJob {h1 : H5} {t : Tab} (ht : h1.tabs (["T9"], "HIERARCH") = some t) (hr : t.rows = rows)
    (hfree : ∀ n, h1.tabs (["T9", "T5"], n) = none) :
    Job none (fun _ => false) (fun _ => none) Parse.Demo.file outs names
      (.low "" "T" 9 none ["T9"] (cells [8, 2, 5, 1, 1, 1, 1, 0, 0, 0])) 5 h1
      "FIRSTLEVEL" "STRUCTURAL" none where
  accepted := accepted _
  sel := by decide
  gives := ⟨_, rfl, .inl ⟨rfl, rfl⟩⟩
  allows := by
    intro o ho hn
    exfalso
    revert o
    decide +kernel
  hier := ⟨rfl, t, _, _, ht, hr, rfl⟩
  free := fun _ _ => hfree _
  classified := .modFirst (lev := 1) (by decide) rfl (by decide)

theorem ext_not_results : ¬ ResultsExt "FEM".toList := by unfold ResultsExt; decide

theorem conversion : ∃ h2, Conversion Dec.std none disk "/m/".toList [] 'T' "FEM".toList []
    (75 :: bytes topFile) {} h2 [] ∧
    h2.tabs (["T9", "T5"], "GNODE") = some ((contents (lay "GNODE") outs).table (lay "GNODE")) := by
  have clean : Clean (.top "" "T") (fun _ => none) {} { g := { filetypeid := "T" } } :=
    Verif.Parse.Demo.clean
  have enc : Encoded Dec.std (fun _ => false) topFile (.unformatted (75 :: bytes topFile)) :=
    .unformatted (encodesU (by decide +kernel))
  obtain ⟨st1, -, c1⟩ := topJob.source clean 1 enc
  have ht := c1.tables.1 (lay "HIERARCH") (by decide +kernel) (by decide +kernel)
  have hfree : ∀ n, st1.h5.tabs (["T9", "T5"], n) = none := fun n =>
    c1.tables.2 _ (.inl (by simp [Place.path]))
  have j := lowJob ht topRows hfree
  have low : Clean (.low "" "T" 9 none ["T9"] (cells [8, 2, 5, 1, 1, 1, 1, 0, 0, 0]))
      (fun _ => none) st1.h5
      { h5 := st1.h5
        g :=
          { filetypeid := "T"
            hasHierarch := true
            hierarchTable := some ["T9"]
            currentHrec := some (cells [8, 2, 5, 1, 1, 1, 1, 0, 0, 0]) } } :=
    ⟨rfl, rfl, rfl, fun _ => rfl, rfl, rfl, rfl, rfl, rfl, rfl, rfl, rfl⟩
  obtain ⟨st2, -, c2⟩ := j.source low 1 onDisk.1
  refine ⟨st2.h5, .hierarchy enc topJob c1 (by decide +kernel) ht ?_,
    c2.tables.1 (lay "GNODE") (by decide +kernel) (by decide +kernel)⟩
  show LowerFiles _ _ _ _ _ _ _ _ _ _ _ (contents (lay "HIERARCH") topOuts).rows
    (contents (lay "HIERARCH") topOuts).rows.tail _ _ _
  rw [topRows]
  exact .file (k := 1) (.input (t := 5) (r := 2) ext_not_results rfl rfl rfl) (by decide +kernel)
    rfl (.other (by decide)) onDisk.1 j c2 (.skip (.input (n := 2) ext_not_results rfl (by decide)) .nil)

theorem topName : SesamName "T9.FEM".toList [] 'T' "9".toList "FEM".toList :=
  ⟨⟨[], [], rfl, by simp, by unfold FileLetter; decide, ⟨'9', [], rfl, by decide, by simp⟩, .inl rfl,
    'F', 'E', 'M', rfl, by decide⟩, by
    rintro e ⟨x, y, z, rfl, -⟩ h
    simpa using h.length_le⟩

example : ∃ w' h2, sif2hdf5 Dec.std 10000 {} (.name "T9.FEM".toList) (.one []) world =
    (.ok (.path "/m/T9.h5".toList), w') ∧ w'.out "/m/T9.h5".toList = some (.h5 h2) ∧
    h2.tabs (["T9", "T5"], "GNODE") = some ((contents (lay "GNODE") outs).table (lay "GNODE")) ∧
    w'.printed = [] := by
  obtain ⟨h2, hc, hg⟩ := conversion
  obtain ⟨w', f, k1, k2, k3, -, -, -, -, -, -, k4⟩ := hierarchy_converted (B := 10000) (o := {}) (w := world)
    (name := "T9.FEM".toList) (dir := "/m/".toList) (pre := []) (gpre := [])
    (given := "T9.h5".toList) (no := "9".toList) ⟨rfl, .inr ⟨"/m".toList, rfl⟩, by decide⟩ topName
    (by decide) (by decide +kernel) rfl rfl (by simp)
    (.inr ⟨.inl rfl, "T9.".toList, "FEM".toList, rfl, rfl, rfl⟩)
    ⟨by decide, fun _ => ⟨by decide, by decide⟩, rfl⟩ hc
  rw [k3.closed fun _ h => by cases h] at k2
  exact ⟨w', h2, k1, k2, hg, k4⟩

example : ∃ w' h2, sif2hdf5 Dec.std 10000 { inMemory := true } (.name "T9.FEM".toList) (.one [])
    world = (.ok (.memory "T9.h5".toList h2), w') ∧
    h2.tabs (["T9", "T5"], "GNODE") = some ((contents (lay "GNODE") outs).table (lay "GNODE")) := by
  obtain ⟨h2, hc, hg⟩ := conversion
  obtain ⟨w', k1, -⟩ := hierarchy_in_memory (B := 10000) (o := { inMemory := true }) (w := world)
    (name := "T9.FEM".toList) (dir := "/m/".toList) (pre := []) (gpre := []) (stem := "T9.".toList)
    (e3 := "FEM".toList) (no := "9".toList)
    ⟨rfl, .inr ⟨"/m".toList, rfl⟩, by decide⟩ topName (by decide) (by decide +kernel) rfl rfl rfl
    rfl rfl (by simp [world]) hc
  exact ⟨w', h2, k1, hg⟩

example := sequence_one_file (D := Dec.std) (B := 10000) (w := world)
  (o := { hdf5name := some "all.h5".toList }) (n := "T9.FEM".toList) (ns := ["T5.FEM".toList])
  (pre := .one "A_".toList) rfl rfl (by decide) .same

example := sequence_own_files (D := Dec.std) (B := 10000) (w := world) (o := {})
  (ns := ["T9.FEM".toList, "T5.FEM".toList]) (pre := .many ["A_".toList, "B_".toList]) rfl (.inl rfl)
  (.each (by simp))

/-- what is converted of two files if there is one prefix only -/
def dropped : Bool :=
  match sif2hdf5 Dec.std 10000 { hdf5name := some "all.h5".toList }
      (.names ["T5.FEM".toList, "T9.FEM".toList]) (.many ["A_".toList]) world with
  | (.ok _, w) =>
    match w.out "/m/all.h5".toList with
    | some (.h5 h) => (h.groups ["A_T5"]).isSome && (h.groups ["T9"]).isNone &&
        (h.groups ["A_T9"]).isNone
    | _ => false
  | _ => false

/-- with a list of prefixes shorter than the list of names the last files are silently dropped -/
example : dropped = true := by decide +kernel

end Verif.Conv.Demo
