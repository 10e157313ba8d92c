import Verif.Conv.Refuse
import Verif.Conv.Demo
/-!
# Files that cannot be converted, used to show that the hypotheses of the theorems can be met
-/

namespace Verif.Conv.Demo
open Verif Verif.Seq Verif.Parse Verif.Parse.Demo

/-- a beam element, then an element of type 9 -/
def badElement : List LRec := [
  ⟨"IDENT", [.rat 1, .rat 5, .rat 3, .rat 0], [], 0, [], []⟩,
  ⟨"TDLOAD", [.rat (-1), .rat 0, .rat 0, .rat 0], [], 0, [], []⟩,
  ⟨"GELMNT1", [.rat 1, .rat 1, .rat 15, .rat 0], [], 8, [.rat 1, .rat 2], [.rat 0, .rat 0]⟩,
  ⟨"GELMNT1", [.rat 2, .rat 2, .rat 9, .rat 0], [], 8, [.rat 1, .rat 2], [.rat 0, .rat 0]⟩,
  ⟨"IEND", [.rat 0, .rat 0, .rat 0, .rat 0], [], 0, [], []⟩]

/-- what was added to the tables before -/
def badOuts : List Added := [
  ⟨"IDENT", true, cells [1, 5, 3], []⟩,
  ⟨"GELMNT1", true, cells [1, 1, 15, 0], [some (cells [1, 2])]⟩]

/-- the second element -/
def badStop : Stop :=
  ⟨⟨"GELMNT1", [.rat 2, .rat 2, .rat 9, .rat 0], [], 8, [.rat 1, .rat 2], [.rat 0, .rat 0]⟩,
    [⟨"GELMNT1", [.rat 1, .rat 1, .rat 15, .rat 0], [], 8, [.rat 1, .rat 2], [.rat 0, .rat 0]⟩,
     ⟨"IDENT", [.rat 1, .rat 5, .rat 3, .rat 0], [], 0, [], []⟩], true, true⟩

theorem badRefused (e0 : Int → Option Int) :
    Refuses none (fun _ => false) e0 none [] badElement badOuts .keyError badStop := by
  have nv : ∀ {n : String} {x : PyF} {t : List PyF} {p sk v d}, x.ltZero = false →
      NotVoid ⟨n, x :: t, p, sk, v, d⟩ := fun h => ⟨_, _, rfl, h⟩
  have fo : ∀ {r : LRec}, r.name ≠ "SCONMESH" → FirstOK r := fun h h' => absurd h' h
  have int : ∀ {x : PyF} (n : Int), x.toInt = .ok n → HasInt x n := fun n h => toInt_hasInt h
  unfold badElement badOuts
  refine .ident (by simp) rfl trivial (nv (by decide +kernel)) ?_ ?_
  · exact ⟨_, lay "IDENT", .ident (int 1 (by decide +kernel)) (int 5 (by decide +kernel))
      (int 3 (by decide +kernel)), by decide +kernel, rfl, rfl, rfl, by stored, by stored⟩
  refine .pass (.void (by simp) (by simp) trivial (.one (by decide +kernel) (by decide +kernel))) ?_
  refine .first (by simp) (by simp) trivial (nv (by decide +kernel)) (fo (by simp)) ?_ ?_
  · exact ⟨_, lay "GELMNT1", .gelmnt1 (int 1 (by decide +kernel)) (int 15 (by decide +kernel))
      (by unfold NodeCount; simp), by decide +kernel, rfl, rfl, rfl, by stored, by stored⟩
  refine .wrongMore (r := ⟨"GELMNT1", [.rat 2, .rat 2, .rat 9, .rat 0], [], 8,
    [.rat 1, .rat 2], [.rat 0, .rat 0]⟩) (.elementType (elno := 2) (ty := 9) (int 2 (by decide +kernel))
    (int 9 (by decide +kernel)) (by unfold NodeCount; simp))

theorem badOnDisk : EncodedTo Dec.std (fun _ => false) badElement .keyError
    (.unformatted (75 :: bytes badElement)) :=
  .stops (.unformatted (encodesU (by decide +kernel))) (by decide)

theorem bad (h0 : H5) (hfree : ∀ n, h0.tabs (["T5"], n) = none) (e0 : Int → Option Int) :
    BadFile Dec.std none e0 h0 (.unformatted (75 :: bytes badElement)) (.top "" "T") .keyError
      (.stopped badStop badOuts ["T5"]) :=
  .wrong (s := 5) badOnDisk (badRefused e0) (by decide) ⟨_, rfl, .inl ⟨rfl, rfl⟩⟩
    (by intro o ho hn; exfalso; revert o; decide +kernel)
      (by simp [Stop.Fits, badStop]) trivial fun _ _ => hfree _

/-- `T5.FEM` cannot be converted -/
def badWorld : World :=
  { cwd := "/m/".toList
    disk := fun p => if p = "/m/T9.FEM".toList then some (75 :: bytes topFile)
      else if p = "/m/T5.FEM".toList then some (75 :: bytes badElement) else none }

theorem lowName : SesamName "T5.FEM".toList [] 'T' "5".toList "FEM".toList :=
  ⟨⟨[], [], rfl, by simp, by unfold FileLetter; decide, ⟨'5', [], rfl, by decide, by simp⟩, .inl rfl,
    'F', 'E', 'M', rfl, by decide⟩, by
    rintro e ⟨x, y, z, rfl, -⟩ h
    simpa using h.length_le⟩

example : ∃ w', sif2hdf5 Dec.std 10000 {} (.name "T5.FEM".toList) (.one []) badWorld =
    (.error .keyError, w') ∧ w'.disk = badWorld.disk := by
  obtain ⟨w', h', k1, -, -, -, k2, -⟩ := refused_file (B := 10000) (o := {}) (w := badWorld) (D := Dec.std)
    (b := 75 :: bytes badElement) (h0 := {}) (name := "T5.FEM".toList) (dir := "/m/".toList) (pre := []) (gpre := [])
    (given := "T5.h5".toList) (no := "5".toList) ⟨rfl, .inr ⟨"/m".toList, rfl⟩, by decide⟩ lowName
    (by decide) (by decide +kernel) rfl rfl (by simp)
    (.inr ⟨.inl rfl, "T5.".toList, "FEM".toList, rfl, rfl, rfl⟩) ⟨by decide, fun _ => ⟨by decide, by decide⟩, rfl⟩
    (.file (bad {} (fun _ => rfl) _))
  exact ⟨w', k1, k2⟩

example : ∃ w', sif2hdf5 Dec.std 10000 { inMemory := true } (.name "T5.FEM".toList) (.one [])
    badWorld = (.error .keyError, w') ∧ w'.out = badWorld.out := by
  obtain ⟨w', h', k1, -, k2, -⟩ := refused_in_memory (B := 10000) (o := { inMemory := true })
    (w := badWorld) (D := Dec.std) (b := 75 :: bytes badElement)
    (name := "T5.FEM".toList) (dir := "/m/".toList) (pre := [])
    (gpre := []) (no := "5".toList) (stem := "T5.".toList) (e3 := "FEM".toList)
    ⟨rfl, .inr ⟨"/m".toList, rfl⟩, by decide⟩ lowName (by decide) (by decide +kernel) rfl rfl
    (by simp) rfl rfl (by decide) (.file (bad {} (fun _ => rfl) _))
  exact ⟨w', k1, k2⟩

/-- the lower level file is the one that cannot be converted -/
theorem lowerFails : ∃ F : Failure, F.error = .keyError ∧
    F.remains = .stopped badStop badOuts ["T9", "T5"] ∧
    (∃ t, F.reached.tabs (["T9"], "HIERARCH") = some t) ∧
    ConversionFails Dec.std none (fun _ => none) badWorld.disk "/m/".toList [] 'T'
      "FEM".toList [] (75 :: bytes topFile) {} F := by
  have clean : Clean (.top "" "T") (fun _ => none) {} { g := { filetypeid := "T" } } :=
    Verif.Parse.Demo.clean
  have enc : Encoded Dec.std (fun _ => false) topFile (.unformatted (75 :: bytes topFile)) :=
    .unformatted (encodesU (by decide +kernel))
  obtain ⟨st1, -, c1⟩ := topJob.source clean 1 enc
  have ht := c1.tables.1 (lay "HIERARCH") (by decide +kernel) (by decide +kernel)
  have hfree : ∀ n, st1.h5.tabs (["T9", "T5"], n) = none := fun n =>
    c1.tables.2 _ (.inl (by simp [Place.path]))
  refine ⟨_, ?_, ?_, ?_, .lower (F := ⟨.keyError, [], st1.h5, [], .stopped badStop badOuts ["T9", "T5"]⟩)
    enc topJob c1 (by decide +kernel) ht ?_⟩
  · rfl
  · rfl
  · exact ⟨_, ht⟩
  show LowerFails _ _ _ _ _ _ _ _ _ _ _ (contents (lay "HIERARCH") topOuts).rows
    (contents (lay "HIERARCH") topOuts).rows.tail _ _
  rw [topRows]
  refine .bad (k := 1) (b := 75 :: bytes badElement) (.input (t := 5) (r := 2) ext_not_results rfl rfl rfl) (by decide +kernel)
    rfl (.other (by decide)) (fun e0 => ?_) ?_
  · exact .wrong (s := 5) badOnDisk (badRefused e0) (by decide) ⟨_, rfl, .inl ⟨rfl, rfl⟩⟩
      (by intro o ho hn; exfalso; revert o; decide +kernel)
      (by simp [Stop.Fits, badStop]) ⟨rfl, _, _, _, ht, topRows, rfl⟩ fun _ _ => hfree _
  · intro row hr
    simp only [List.mem_cons, List.not_mem_nil, or_false] at hr
    subst hr
    exact .inl (.input (n := 2) ext_not_results rfl (by decide))

/-- the first element of `T5.FEM` is not written, but its type is known afterwards -/
example : ∃ w' h' t, sif2hdf5 Dec.std 10000 {} (.name "T9.FEM".toList) (.one []) badWorld =
    (.error .keyError, w') ∧ w'.out "/m/T9.h5".toList = some (.left h') ∧
    h'.tabs (["T9"], "HIERARCH") = some t ∧
    h'.tabs (["T9", "T5"], "GELMNT1") = some ((contents (lay "GELMNT1") []).table (lay "GELMNT1")) ∧
    w'.st.env.elem 1 = some 15 := by
  obtain ⟨F, f1, f2, ⟨t, f3⟩, hF⟩ := lowerFails
  obtain ⟨w', h', k1, k2, ⟨e1, -, k3⟩, -⟩ := refused_file (B := 10000) (o := {}) (w := badWorld) (D := Dec.std)
    (b := 75 :: bytes topFile) (name := "T9.FEM".toList) (dir := "/m/".toList) (pre := []) (gpre := [])
    (given := "T9.h5".toList) (no := "9".toList) ⟨rfl, .inr ⟨"/m".toList, rfl⟩, by decide⟩ topName
    (by decide) (by decide +kernel) rfl rfl (by simp)
    (.inr ⟨.inl rfl, "T9.".toList, "FEM".toList, rfl, rfl, rfl⟩)
    ⟨by decide, fun _ => ⟨by decide, by decide⟩, rfl⟩ hF
  rw [f1] at k1
  rw [f2] at k3
  refine ⟨w', h', t, k1, k2, ?_, ?_, ?_⟩
  · rw [k3.others _ (.inl (by simp)), f3]
  · exact k3.tables (lay "GELMNT1") (by decide +kernel) (.inl (by decide +kernel))
  · refine (k3.elements 1 15).mpr (.inl (.earlier ?_ (.here ⟨rfl, _, _, _, _, rfl, toInt_hasInt (by decide +kernel),
      toInt_hasInt (by decide +kernel)⟩)))
    rintro a ⟨-, _, _, _, _, h, h', -⟩
    cases h
    have := h'.unique (toInt_hasInt (n := 2) (by decide +kernel))
    exact absurd this (by decide)

/-! ### a file that is not found before the one that cannot be converted -/

/-- superelement 9 of level 2 holds superelements 6 and 5 -/
def twoFile : List LRec := [
  ⟨"IDENT", [.rat 2, .rat 9, .rat 3, .rat 0], [], 0, [], []⟩,
  ⟨"HIERARCH", [.rat 10, .rat 1, .rat 9, .rat 1], [], 0,
    [.rat 2, .rat 1, .rat 0, .rat 2, .rat 2, .rat 3], []⟩,
  ⟨"HIERARCH", [.rat 8, .rat 2, .rat 6, .rat 1], [], 0, [.rat 1, .rat 1, .rat 1, .rat 0], []⟩,
  ⟨"HIERARCH", [.rat 8, .rat 3, .rat 5, .rat 1], [], 0, [.rat 1, .rat 1, .rat 1, .rat 0], []⟩,
  ⟨"IEND", [.rat 0, .rat 0, .rat 0, .rat 0], [], 0, [], []⟩]

/-- what is added to the tables -/
def twoOuts : List Added := [
  ⟨"IDENT", true, cells [2, 9, 3], []⟩,
  ⟨"HIERARCH", true, cells [10, 1, 9, 1, 2, 1, 0, 2], [some (cells [2, 3])]⟩,
  ⟨"HIERARCH", false, cells [8, 2, 6, 1, 1, 1, 1, 0], [some []]⟩,
  ⟨"HIERARCH", false, cells [8, 3, 5, 1, 1, 1, 1, 0], [some []]⟩]

theorem twoAccepted (sk : LRec → Bool) :
    Accepts none sk (fun _ => none) none [] twoFile twoOuts ["IDENT", "HIERARCH", "IEND"] := by
  have nv : ∀ {n : String} {x : PyF} {t : List PyF} {p sk v d}, x.ltZero = false →
      NotVoid ⟨n, x :: t, p, sk, v, d⟩ := fun h => ⟨_, _, rfl, h⟩
  have fo : ∀ {r : LRec}, r.name ≠ "SCONMESH" → FirstOK r := fun h h' => absurd h' h
  have int : ∀ {x : PyF} (n : Int), x.toInt = .ok n → HasInt x n := fun n h => toInt_hasInt h
  unfold twoFile twoOuts
  refine .ident rfl trivial (nv (by decide +kernel)) ?_ ?_
  · exact ⟨_, lay "IDENT", .ident (int 2 (by decide +kernel)) (int 9 (by decide +kernel))
      (int 3 (by decide +kernel)), by decide +kernel, rfl, rfl, rfl, by stored, by stored⟩
  refine .first (by simp) (by simp) trivial (nv (by decide +kernel)) (fo (by simp)) ?_ ?_
  · exact ⟨_, lay "HIERARCH", .hierarch (ihs := [.rat 2, .rat 3]) (int 2 (by decide +kernel)),
      by decide +kernel, rfl, rfl, rfl, by stored, by stored⟩
  refine Verif.Parse.Demo.more rfl (by simp) ?_ ?_
  · exact ⟨_, lay "HIERARCH", .hierarch (ihs := []) (int 0 (by decide +kernel)),
      by decide +kernel, rfl, rfl, rfl, by stored, by stored⟩
  refine Verif.Parse.Demo.more rfl (by simp) ?_ ?_
  · exact ⟨_, lay "HIERARCH", .hierarch (ihs := []) (int 0 (by decide +kernel)),
      by decide +kernel, rfl, rfl, rfl, by stored, by stored⟩
  exact .stop trivial ⟨rfl, _, _, rfl, rfl⟩

theorem twoJob : Job none (fun _ => false) (fun _ => none) twoFile twoOuts
    ["IDENT", "HIERARCH", "IEND"] (.top "" "T") 9 {} "TOPLEVEL" "STRUCTURAL" none where
  accepted := twoAccepted _
  sel := by decide
  gives := ⟨_, rfl, .inl ⟨rfl, rfl⟩⟩
  allows := by
    intro o ho hn hf
    unfold twoOuts at ho
    simp only [List.mem_cons, List.not_mem_nil, or_false] at ho
    rcases ho with rfl | rfl | rfl | rfl
    · exact absurd hn (by simp)
    · rfl
    · cases hf
    · cases hf
  hier := trivial
  free := fun _ _ => rfl
  classified := .modTop (by decide) (by decide +kernel)

theorem twoRows : (contents (lay "HIERARCH") twoOuts).rows =
    [cells [10, 1, 9, 1, 2, 1, 0, 2, 0, 2], cells [8, 2, 6, 1, 1, 1, 1, 0, 0, 0],
     cells [8, 3, 5, 1, 1, 1, 1, 0, 0, 0]] := by decide +kernel

/-- `T6.FEM` is missing and `T5.FEM` cannot be converted -/
def twoWorld : World :=
  { cwd := "/m/".toList
    disk := fun p => if p = "/m/T9.FEM".toList then some (75 :: bytes twoFile)
      else if p = "/m/T5.FEM".toList then some (75 :: bytes badElement) else none }

theorem twoFails : ∃ F : Failure, F.error = .keyError ∧
    F.messages = ["file not found: T6.FEM".toList] ∧
    ConversionFails Dec.std none (fun _ => none) twoWorld.disk "/m/".toList [] 'T'
      "FEM".toList [] (75 :: bytes twoFile) {} F := by
  have clean : Clean (.top "" "T") (fun _ => none) {} { g := { filetypeid := "T" } } :=
    Verif.Parse.Demo.clean
  have enc : Encoded Dec.std (fun _ => false) twoFile (.unformatted (75 :: bytes twoFile)) :=
    .unformatted (encodesU (by decide +kernel))
  obtain ⟨st1, -, c1⟩ := twoJob.source clean 1 enc
  have ht := c1.tables.1 (lay "HIERARCH") (by decide +kernel) (by decide +kernel)
  have hfree : ∀ n, st1.h5.tabs (["T9", "T5"], n) = none := fun n =>
    c1.tables.2 _ (.inl (by simp [Place.path]))
  refine ⟨_, ?_, ?_, .lower (F := ⟨.keyError, ["file not found: T6.FEM".toList], st1.h5, [],
    .stopped badStop badOuts ["T9", "T5"]⟩) enc twoJob c1 (by decide +kernel) ht ?_⟩
  · rfl
  · rfl
  show LowerFails _ _ _ _ _ _ _ _ _ _ _ (contents (lay "HIERARCH") twoOuts).rows
    (contents (lay "HIERARCH") twoOuts).rows.tail _ _
  rw [twoRows]
  refine .missing (name := "T6.FEM".toList) (r := 2)
    (F := ⟨.keyError, [], st1.h5, [], .stopped badStop badOuts ["T9", "T5"]⟩)
    (.input (t := 6) (r := 2) ext_not_results rfl rfl rfl) (by decide +kernel) ?_
  refine .bad (k := 2) (b := 75 :: bytes badElement) (.input (t := 5) (r := 3) ext_not_results rfl rfl rfl)
    (by decide +kernel) rfl (.other (by decide)) (fun e0 => ?_) (by simp)
  exact .wrong (s := 5) badOnDisk (badRefused e0) (by decide) ⟨_, rfl, .inl ⟨rfl, rfl⟩⟩
      (by intro o ho hn; exfalso; revert o; decide +kernel)
      (by simp [Stop.Fits, badStop]) ⟨rfl, _, _, _, ht, twoRows, rfl⟩
      fun _ _ => hfree _

example : ∃ w', sif2hdf5 Dec.std 10000 {} (.name "T9.FEM".toList) (.one []) twoWorld =
    (.error .keyError, w') ∧ w'.printed = ["file not found: T6.FEM".toList] := by
  obtain ⟨F, f1, f2, hF⟩ := twoFails
  obtain ⟨w', h', k1, -, -, -, -, -, -, -, -, k2⟩ := refused_file (B := 10000) (o := {}) (w := twoWorld) (D := Dec.std)
    (b := 75 :: bytes twoFile) (name := "T9.FEM".toList) (dir := "/m/".toList) (pre := []) (gpre := [])
    (given := "T9.h5".toList) (no := "9".toList) ⟨rfl, .inr ⟨"/m".toList, rfl⟩, by decide⟩ topName
    (by decide) (by decide +kernel) rfl rfl (by simp)
    (.inr ⟨.inl rfl, "T9.".toList, "FEM".toList, rfl, rfl, rfl⟩)
    ⟨by decide, fun _ => ⟨by decide, by decide⟩, rfl⟩ hF
  rw [f1] at k1
  rw [f2] at k2
  exact ⟨w', k1, k2⟩

/-! ### a list as prefix -/

example : ∃ st, sif2hdf5 Dec.std 10000 {} (.name "T9.FEM".toList) (.many ["A".toList]) badWorld =
    (.error .typeError, { badWorld with st := st }) :=
  listed_prefix (dir := "/m/".toList) ⟨rfl, .inr ⟨"/m".toList, rfl⟩, by decide⟩ topName (by decide)
    (by simp) rfl

example : ∃ w', sif2hdf5 Dec.std 10000 { usefileprefix := false } (.name "T9.FEM".toList)
    (.many ["A".toList]) badWorld = (.error .typeError, w') ∧
    w'.out "/m/T9.h5".toList = some (.left {}) := by
  obtain ⟨w', k1, k2, -⟩ := listed_prefix_late (D := Dec.std) (B := 10000)
    (o := { usefileprefix := false }) (w := badWorld) (name := "T9.FEM".toList)
    (dir := "/m/".toList) (no := "9".toList) (ps := ["A".toList]) (h0 := {})
    (given := "T9.h5".toList) ⟨rfl, .inr ⟨"/m".toList, rfl⟩, by decide⟩ topName (by decide)
    (b := 75 :: bytes topFile) (by decide +kernel) rfl rfl (by simp)
    (.inr ⟨.inl rfl, "T9.".toList, "FEM".toList, rfl, rfl, rfl⟩)
    ⟨by decide, fun _ => ⟨by decide, by decide⟩, rfl⟩
  exact ⟨w', k1, k2⟩

/-! ### the other reasons -/

/-- a concept of type 3 -/
def badConcept : List LRec := [
  ⟨"IDENT", [.rat 1, .rat 5, .rat 3, .rat 0], [], 0, [], []⟩,
  ⟨"SCONCEPT", [.rat 5, .rat 1, .rat 3, .rat 0], [], 0, [.rat 0], []⟩,
  ⟨"IEND", [.rat 0, .rat 0, .rat 0, .rat 0], [], 0, [], []⟩]

example (B : Nat) : parseSource Dec.std B none { g := { filetypeid := "T" } }
    (.unformatted (75 :: bytes badConcept)) = .error .notImplemented := by
  have nv : ∀ {n : String} {x : PyF} {t : List PyF} {p sk v d}, x.ltZero = false →
      NotVoid ⟨n, x :: t, p, sk, v, d⟩ := fun h => ⟨_, _, rfl, h⟩
  have int : ∀ {x : PyF} (n : Int), x.toInt = .ok n → HasInt x n := fun n h => toInt_hasInt h
  refine wrong_record_refused (pl := .top "" "T") (s := 5) (e0 := fun _ => none) (h0 := {})
    (outs := [⟨"IDENT", true, cells [1, 5, 3], []⟩]) (sk := fun _ => false)
    (c := ⟨⟨"SCONCEPT", [.rat 5, .rat 1, .rat 3, .rat 0], [], 0, [.rat 0], []⟩,
      [⟨"IDENT", [.rat 1, .rat 5, .rat 3, .rat 0], [], 0, [], []⟩], false, true⟩)
    ?_ (by decide) ⟨_, rfl, .inl ⟨rfl, rfl⟩⟩
    (by intro o ho hn; exfalso; revert o; decide +kernel) (by simp [Stop.Fits]) trivial
    (fun _ _ => rfl) Verif.Parse.Demo.clean B (.stops (.unformatted (encodesU (by decide +kernel))) (by decide))
  refine .ident (by simp) rfl trivial (nv (by decide +kernel)) ?_ ?_
  · exact ⟨_, lay "IDENT", .ident (int 1 (by decide +kernel)) (int 5 (by decide +kernel))
      (int 3 (by decide +kernel)), by decide +kernel, rfl, rfl, rfl, by stored, by stored⟩
  exact .wrongFirst (by simp) trivial (nv (by decide +kernel))
    (.concept (int 3 (by decide +kernel)) (by decide) (by decide))

/-- a node before any identification -/
def noIdent : List LRec := [
  ⟨"GNODE", [.rat 1, .rat 11, .rat 6, .rat 123456], [], 0, [], []⟩,
  ⟨"IEND", [.rat 0, .rat 0, .rat 0, .rat 0], [], 0, [], []⟩]

example (B : Nat) : parseSource Dec.std B none { g := { filetypeid := "T" } }
    (.unformatted (75 :: bytes noIdent)) = .error .nameError :=
  untyped_refused (only := none) (sk := fun _ => false) (.early (by simp) (by unfold HasTable; decide +kernel) (by simp) (by simp)
    trivial ⟨_, _, rfl, by decide +kernel⟩ (fun h => absurd h (by simp))) Verif.Parse.Demo.clean B
    (.unformatted (encodesU (by decide +kernel)))

/-- type 0 -/
def zeroIdent : List LRec := [
  ⟨"IDENT", [.rat 1, .rat 0, .rat 3, .rat 0], [], 0, [], []⟩,
  ⟨"IEND", [.rat 0, .rat 0, .rat 0, .rat 0], [], 0, [], []⟩]

example (B : Nat) : parseSource Dec.std B none { g := { filetypeid := "T" } }
    (.unformatted (75 :: bytes zeroIdent)) = .error .nameError :=
  untyped_refused (only := none) (sk := fun _ => false) (.zero (by simp) rfl trivial ⟨_, _, rfl, by decide +kernel⟩ rfl
    (toInt_hasInt (by decide +kernel))) Verif.Parse.Demo.clean B
    (.unformatted (encodesU (by decide +kernel)))

/-- a void record and an identification with the level only -/
def shortIdent : List LRec := [
  ⟨"GNODE", [.rat (-1), .rat 0, .rat 0, .rat 0], [], 0, [], []⟩,
  ⟨"IDENT", [.rat 1], [], 0, [], []⟩,
  ⟨"IEND", [.rat 0, .rat 0, .rat 0, .rat 0], [], 0, [], []⟩]

/-- "not a number" as the superelement type -/
def nanIdent : List LRec := [
  ⟨"IDENT", [.rat 1, .nan, .rat 3, .rat 0], [], 0, [], []⟩,
  ⟨"IEND", [.rat 0, .rat 0, .rat 0, .rat 0], [], 0, [], []⟩]

theorem nanIdent_halts : Halts none (fun _ => false) none nanIdent .valueError :=
  .ident (by simp) rfl trivial ⟨_, _, rfl, by decide +kernel⟩ (.nan rfl)

/-- superelement 5 with an infinite model number -/
def infIdent : List LRec := [
  ⟨"IDENT", [.rat 1, .rat 5, .inf false, .rat 0], [], 0, [], []⟩,
  ⟨"IEND", [.rat 0, .rat 0, .rat 0, .rat 0], [], 0, [], []⟩]

theorem infIdent_bad : BadIdent none (fun _ => false) none infIdent 5 .overflowError
    ⟨"IDENT", [.rat 1, .rat 5, .inf false, .rat 0], [], 0, [], []⟩ :=
  .model (by simp) rfl trivial ⟨_, _, rfl, by decide +kernel⟩ rfl (toInt_hasInt (by decide +kernel)) rfl
    (toInt_hasInt (n := 1) (by decide +kernel)) (.inf false rfl)

/-- a hierarchy with superelement 9, without number of subelements -/
def nanHier : List LRec := [
  ⟨"HIERARCH", [.rat 8, .rat 1, .rat 9, .rat 1], [], 0, [.rat 1, .rat 1, .rat 0, .nan], []⟩,
  ⟨"IEND", [.rat 0, .rat 0, .rat 0, .rat 0], [], 0, [], []⟩]

theorem nanHier_bad : BadIdent none (fun _ => false) none nanHier 9 .valueError
    ⟨"HIERARCH", [.rat 8, .rat 1, .rat 9, .rat 1], [], 0,
      [.rat 1, .rat 1, .rat 0, .nan], []⟩ :=
  .hier (by simp) trivial ⟨_, _, rfl, by decide +kernel⟩ rfl
    (toInt_hasInt (by decide +kernel)) (.count (.nan rfl))

/-- … whose first line has three numbers only, so that its row is too short -/
example : BadIdent none (fun _ => false) none
    [⟨"HIERARCH", [.rat 8, .rat 1, .rat 9], [], 0, [.rat 1, .rat 1, .rat 0, .rat 0], []⟩] 9
    .valueError ⟨"HIERARCH", [.rat 8, .rat 1, .rat 9], [], 0,
      [.rat 1, .rat 1, .rat 0, .rat 0], []⟩ :=
  .hier (by simp) trivial ⟨_, _, rfl, by decide +kernel⟩ rfl (toInt_hasInt (by decide +kernel))
    (.row (l := layouts.head (by decide)) (ihs := []) (toInt_hasInt (by decide +kernel))
      (List.head_mem _) rfl (.count (by decide +kernel)))

/-- a hierarchy without superelement type -/
example : Stuck ⟨"HIERARCH", [.rat 8, .rat 1, .nan, .rat 1], [], 0,
    [.rat 1, .rat 1, .rat 0, .rat 0], []⟩ .valueError :=
  .hierarchy ⟨_, _, rfl, by decide +kernel⟩ (.nan rfl)

/-- nothing but the end -/
def nothing : List LRec := [⟨"IEND", [.rat 0, .rat 0, .rat 0, .rat 0], [], 0, [], []⟩]

example (B : Nat) : parseSource Dec.std B none { g := { filetypeid := "T" } }
    (.unformatted (75 :: bytes nothing)) = .error .nameError :=
  untyped_refused (only := none) (sk := fun _ => false) (.stop (by simp) trivial ⟨rfl, _, _, rfl, rfl⟩) Verif.Parse.Demo.clean B
    (.unformatted (encodesU (by decide +kernel)))

/-- an output file with the hierarchy -/
def hierFile : H5 :=
  { tabs := fun k => if k = (["T9"], "HIERARCH") then
      some { cols := hierarchCols, arrs := [], rows := rows } else none }

/-- before `T5.FEM` is read below superelement 9 -/
def lowSt : St :=
  { h5 := hierFile
    g :=
      { filetypeid := "T", hasHierarch := true, hierarchTable := some ["T9"]
        currentHrec := some (cells [8, 2, 5, 1, 1, 1, 1, 0, 0, 0]) } }

theorem lowClean : Clean (.low "" "T" 9 none ["T9"] (cells [8, 2, 5, 1, 1, 1, 1, 0, 0, 0]))
    (fun _ => none) hierFile lowSt :=
  ⟨rfl, rfl, rfl, fun _ => rfl, rfl, rfl, rfl, rfl, rfl, rfl, rfl, rfl⟩

theorem lowIn : (Place.low "" "T" 9 none ["T9"] (cells [8, 2, 5, 1, 1, 1, 1, 0, 0, 0])).In
    hierFile := ⟨rfl, _, _, _, rfl, rfl, rfl⟩

example (B : Nat) : parseSource Dec.std B none lowSt (.unformatted (75 :: bytes nothing)) =
    .error .nodeError :=
  untyped_lower_refused (only := none) (sk := fun _ => false) (.stop (by simp) trivial ⟨rfl, _, _, rfl, rfl⟩) lowClean lowIn rfl B
    (.unformatted (encodesU (by decide +kernel)))

/-- … and nothing has been written -/
example (B : Nat) := untyped_lower_left (only := none) (sk := fun _ => false)
  (.stop (by simp) trivial ⟨rfl, _, _, rfl, rfl⟩) lowClean lowIn rfl B
  (.unformatted (k := 75) (encodesU (f := nothing) (by decide +kernel)))
example (B : Nat) := untyped_left (only := none) (sk := fun _ => false)
  (.zero (by simp) rfl trivial ⟨_, _, rfl, by decide +kernel⟩ rfl (toInt_hasInt (by decide +kernel)))
  Verif.Parse.Demo.clean B (.unformatted (k := 75) (encodesU (f := zeroIdent) (by decide +kernel)))

/-- C64, C75: an identification without a type, on files of both levels -/
example (B : Nat) {src : Source} (h : EncodedTo Dec.std (fun _ => false) nanIdent .valueError src) :
    parseSource Dec.std B none lowSt src = .error .valueError ∧
    sourceLeft Dec.std B none lowSt src = ⟨hierFile, fun _ => none⟩ ∧
    parseSource Dec.std B none { g := { filetypeid := "T" } } src = .error .valueError :=
  ⟨halts_refused nanIdent_halts lowClean B h, halts_left nanIdent_halts lowClean B h,
    halts_refused nanIdent_halts Verif.Parse.Demo.clean B h⟩

/-- … with a type, but no model number: the empty table stays -/
example (B : Nat) {src : Source} (h : EncodedTo Dec.std (fun _ => false) infIdent .overflowError src) :
    parseSource Dec.std B none lowSt src = .error .overflowError ∧
    (sourceLeft Dec.std B none lowSt src).h5.tabs (["T9", "T5"], "IDENT") =
      some { cols := [colI "slevel", colI "seltyp", colI "selmod"], arrs := [], rows := [] } :=
  ⟨bad_ident_refused infIdent_bad (by decide) lowIn (by decide +kernel) lowClean B h,
    (bad_ident_left infIdent_bad (by decide) lowIn (by decide +kernel) lowClean B h).tables
      ⟨"IDENT", [colI "slevel", colI "seltyp", colI "selmod"], []⟩ (by decide +kernel)
      (.inr ⟨rfl, rfl⟩)⟩

/-- … a hierarchy without number of subelements -/
example (B : Nat) {src : Source} (h : EncodedTo Dec.std (fun _ => false) nanHier .valueError src) :
    parseSource Dec.std B none { g := { filetypeid := "T" } } src = .error .valueError ∧
    ∃ t, (sourceLeft Dec.std B none { g := { filetypeid := "T" } } src).h5.tabs
      (["T9"], "HIERARCH") = some t ∧ t.rows = [] :=
  ⟨bad_ident_refused (pl := .top "" "T") (h0 := {}) nanHier_bad (by decide) trivial (by decide +kernel) Verif.Parse.Demo.clean B h,
    _, (bad_ident_left (pl := .top "" "T") (h0 := {}) nanHier_bad (by decide) trivial (by decide +kernel)
      Verif.Parse.Demo.clean B h).tables
      (layouts.head (by decide)) (List.head_mem _) (.inr ⟨rfl, rfl⟩), rfl⟩

example (B : Nat) : parseSource Dec.std B none { g := { filetypeid := "T" } }
    (.formatted (Verif.Parse.Demo.text shortIdent)) = .error .indexError :=
  halts_refused (only := none) (sk := fun _ => false)
    (.pass (.void (by simp) (by simp) trivial (.one (by decide +kernel) (by decide +kernel)))
      (.ident (by simp) rfl trivial ⟨_, _, rfl, by decide +kernel⟩ (.missing (by decide))))
    Verif.Parse.Demo.clean B
    (.stops (.formatted (Verif.Parse.Demo.encodesT (by decide +kernel))) (by decide))

example : ∃ st' t, getTable "GNODE" lowSt = .ok (st', ["T9", "TNone"], t) :=
  untyped_lower_table (by unfold HasTable; decide +kernel) lowClean lowIn (by decide +kernel)

/-! Each kind of wrong record. -/

theorem neverNil {α : Type} (P : LRec → α → Prop) : Never P [] := fun r h => by simp at h

example : Wrong (fun _ => none) [] true
    ⟨"GELREF1", [.rat 1, .rat 4, .rat 0, .rat 0],
      [.recd 8 [.rat 0, .rat 0, .rat 0, .rat 0], .recd 8 [.rat (-1), .rat 9, .rat 0, .rat 0]], 8,
      [.rat 7, .rat 8], [.rat 0, .rat 0]⟩ .keyError :=
  .noElement (toInt_hasInt (n := 1) (by decide +kernel)) (neverNil _) rfl

example : Wrong (fun _ => none) [] false
    ⟨"RVNODDIS", [.rat 8, .rat 1, .rat 11, .rat 0], [], 0, [.rat 0, .rat 0], []⟩ .keyError :=
  .noCase (by simp) (toInt_hasInt (n := 8) (by decide +kernel)) (toInt_hasInt (n := 1) (by decide +kernel))
    (neverNil _)

example : Wrong (fun _ => none)
    [⟨"RDRESREF", [.rat 8, .rat 1, .rat 7, .rat 0], [], 0, [.rat 0, .rat (-1), .rat 0, .rat 0], []⟩]
    false ⟨"RVNODDIS", [.rat 8, .rat 1, .rat 11, .rat 0], [], 0, [.rat 0, .rat 0], []⟩
    .zeroDivision :=
  .badCase (i := 1) (by simp) (toInt_hasInt (n := 8) (by decide +kernel)) (toInt_hasInt (by decide +kernel))
    (.here ⟨rfl, _, _, _, _, _, _, _, _, rfl, rfl, toInt_hasInt (by decide +kernel),
      toInt_hasInt (by decide +kernel)⟩)

example : Wrong (fun _ => none) [] true
    ⟨"RVSTRESS", [.rat 8, .rat 1, .rat 11, .rat 0], [], 0, [.rat 1, .rat 0], []⟩ .keyError :=
  .noDeclaration (by simp) (toInt_hasInt (n := 1) (by decide +kernel)) (toInt_hasInt (n := 11) (by decide +kernel))
    (toInt_hasInt (n := 0) (by decide +kernel)) (toInt_hasInt (n := 1) (by decide +kernel)) (.inl (neverNil _))

example : Wrong (fun _ => none) [] true
    ⟨"RDIELCOR", [.rat 8, .rat 1, .rat 11, .rat 0], [], 0, [.rat 1, .rat 0], []⟩ .unboundLocal :=
  .noGrid (toInt_hasInt (n := 1) (by decide +kernel)) (neverNil _) (by decide) (by decide)

example : Wrong (fun _ => none) [] true
    ⟨"WSURFACE", [.rat 9, .rat 1, .rat 11, .rat 0], [], 0,
      [.rat (0 : Int), .rat (-1 : Int), .rat (0 : Int), .rat (0 : Int), .rat 3], []⟩ .valueError :=
  .noValues (toInt_hasInt (by decide +kernel)) rfl rfl rfl rfl (by decide)

end Verif.Conv.Demo
