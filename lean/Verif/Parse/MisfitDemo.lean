import Verif.Conv.RefuseDemo
/-!
# Records whose rows cannot be stored

Too few numbers on a line, or a number that no integer column can hold.
-/

namespace Verif.Parse.Demo
open Verif Verif.Seq Verif.Parse Verif.Conv.Demo

/-- a beam whose references have a line with three numbers in place of four -/
def shortLine : List LRec := [
  ⟨"IDENT", [.rat 1, .rat 5, .rat 3, .rat 0], [], 0, [], []⟩,
  ⟨"GELMNT1", [.rat 1, .rat 1, .rat 15, .rat 0], [], 8, [.rat 1, .rat 2], [.rat 0, .rat 0]⟩,
  ⟨"GELREF1", [.rat 1, .rat 4, .rat 0, .rat 0],
    [.recd 8 [.rat 1, .rat 2, .rat 3], .recd 8 [.rat 7, .rat 0, .rat 0, .rat 0]], 8, [], []⟩,
  ⟨"IEND", [.rat 0, .rat 0, .rat 0, .rat 0], [], 0, [], []⟩]

/-- what was added to the tables before -/
def shortOuts : List Added := [
  ⟨"IDENT", true, cells [1, 5, 3], []⟩,
  ⟨"GELMNT1", true, cells [1, 1, 15, 0], [some (cells [1, 2])]⟩]

/-- the references -/
def shortStop : Stop :=
  ⟨⟨"GELREF1", [.rat 1, .rat 4, .rat 0, .rat 0],
    [.recd 8 [.rat 1, .rat 2, .rat 3], .recd 8 [.rat 7, .rat 0, .rat 0, .rat 0]], 8, [], []⟩,
    [⟨"GELMNT1", [.rat 1, .rat 1, .rat 15, .rat 0], [], 8, [.rat 1, .rat 2], [.rat 0, .rat 0]⟩,
     ⟨"IDENT", [.rat 1, .rat 5, .rat 3, .rat 0], [], 0, [], []⟩], false, true⟩

theorem shortRefused :
    Refuses none (fun _ => false) (fun _ => none) none [] shortLine shortOuts .valueError
      shortStop := by
  have nv : ∀ {n : String} {x : PyF} {t : List PyF} {p sk v d}, x.ltZero = false →
      NotVoid ⟨n, x :: t, p, sk, v, d⟩ := fun h => ⟨_, _, rfl, h⟩
  have fo : ∀ {r : LRec}, r.name ≠ "SCONMESH" → FirstOK r := fun h h' => absurd h' h
  have int : ∀ {x : PyF} (n : Int), x.toInt = .ok n → HasInt x n := fun n h => toInt_hasInt h
  unfold shortLine shortOuts
  refine .ident (by simp) rfl trivial (nv (by decide +kernel)) ?_ ?_
  · exact ⟨_, lay "IDENT", .ident (int 1 (by decide +kernel)) (int 5 (by decide +kernel))
      (int 3 (by decide +kernel)), by decide +kernel, rfl, rfl, rfl, by stored, by stored⟩
  refine .first (by simp) (by simp) trivial (nv (by decide +kernel)) (fo (by simp)) ?_ ?_
  · exact ⟨_, lay "GELMNT1", .gelmnt1 (int 1 (by decide +kernel)) (int 15 (by decide +kernel))
      (by unfold NodeCount; simp), by decide +kernel, rfl, rfl, rfl, by stored, by stored⟩
  refine .misfitFirst (by simp) trivial (nv (by decide +kernel)) (fo (by simp)) (by simp) ⟨by simp, _,
    lay "GELREF1", .gelref1 (geo := []) (fix := []) (ecc := []) (trans := []) (elno := 1) (ty := 15)
      (nn := 2) (int 1 (by decide +kernel)) (.inl (.here ⟨rfl, _, _, _, _, rfl, int 1 (by decide +kernel),
      int 15 (by decide +kernel)⟩)) (by unfold NodeCount; simp) ⟨by decide +kernel, by simp⟩
      ⟨by decide +kernel, by simp⟩ ⟨by decide +kernel, by simp⟩ ⟨by decide +kernel, by simp⟩,
    by decide +kernel, rfl, .count (by decide +kernel)⟩

/-- C64: the formatted file is refused; C75: the beam in front of it is in the output file -/
example (B : Nat) :
    parseSource Dec.std B none { g := { filetypeid := "T" } } (.formatted (text shortLine)) =
      .error .valueError ∧
    LeftBehind B shortStop shortOuts (fun _ => none) {} ["T5"]
      (sourceLeft Dec.std B none { g := { filetypeid := "T" } } (.formatted (text shortLine))).h5
      (sourceLeft Dec.std B none { g := { filetypeid := "T" } } (.formatted (text shortLine))).elem := by
  have henc : EncodedTo Dec.std (fun _ => false) shortLine .valueError (.formatted (text shortLine)) :=
    .stops (.formatted (encodesT (by decide +kernel))) (by decide)
  have ha : (Place.top "" "T").Allows 5 shortOuts := by
    intro o ho hn
    exfalso
    revert o
    decide +kernel
  exact ⟨wrong_record_refused (pl := .top "" "T") (s := 5) (h0 := {}) shortRefused (by decide)
      ⟨_, rfl, .inl ⟨rfl, rfl⟩⟩ ha (by simp [Stop.Fits, shortStop]) trivial (fun _ _ => rfl) clean B henc,
    wrong_record_left (pl := .top "" "T") (s := 5) (h0 := {}) shortRefused (by decide)
      ⟨_, rfl, .inl ⟨rfl, rfl⟩⟩ ha (by simp [Stop.Fits, shortStop]) trivial (fun _ _ => rfl) clean B henc⟩

/-- two nodes; the number of the second is `x` -/
def oddNode (x : PyF) : List LRec := [
  ⟨"IDENT", [.rat 1, .rat 5, .rat 3, .rat 0], [], 0, [], []⟩,
  ⟨"GNODE", [.rat 1, .rat 1, .rat 6, .rat 123456], [], 0, [], []⟩,
  ⟨"GNODE", [.rat 2, x, .rat 6, .rat 123456], [], 0, [], []⟩,
  ⟨"IEND", [.rat 0, .rat 0, .rat 0, .rat 0], [], 0, [], []⟩]

/-- C64: a node number that is not a number, or infinite -/
theorem oddRefused {x : PyF} {e : Err} (h : x = .nan ∧ e = .valueError ∨
    (∃ b, x = .inf b) ∧ e = .overflowError) :
    ∃ outs c, GivesType 5 outs ∧ (∀ o ∈ outs, o.name ≠ "HIERARCH") ∧
      Refuses none (fun _ => false) (fun _ => none) none [] (oddNode x) outs e c := by
  have nv : ∀ {n : String} {x : PyF} {t : List PyF} {p sk v d}, x.ltZero = false →
      NotVoid ⟨n, x :: t, p, sk, v, d⟩ := fun h => ⟨_, _, rfl, h⟩
  have fo : ∀ {r : LRec}, r.name ≠ "SCONMESH" → FirstOK r := fun h h' => absurd h' h
  have int : ∀ {x : PyF} (n : Int), x.toInt = .ok n → HasInt x n := fun n h => toInt_hasInt h
  refine ⟨[⟨"IDENT", true, cells [1, 5, 3], []⟩, ⟨"GNODE", true, cells [1, 1, 6, 123456], []⟩],
    ⟨⟨"GNODE", [.rat 2, x, .rat 6, .rat 123456], [], 0, [], []⟩,
      [⟨"GNODE", [.rat 1, .rat 1, .rat 6, .rat 123456], [], 0, [], []⟩,
       ⟨"IDENT", [.rat 1, .rat 5, .rat 3, .rat 0], [], 0, [], []⟩], true, true⟩,
    ⟨_, rfl, .inl ⟨rfl, rfl⟩⟩, by decide +kernel, ?_⟩
  unfold oddNode
  refine .ident (by simp) rfl trivial (nv (by decide +kernel)) ?_ ?_
  · exact ⟨_, lay "IDENT", .ident (int 1 (by decide +kernel)) (int 5 (by decide +kernel))
      (int 3 (by decide +kernel)), by decide +kernel, rfl, rfl, rfl, by stored, by stored⟩
  refine .first (by simp) (by simp) trivial (nv (by decide +kernel)) (fo (by simp)) ?_ ?_
  · exact ⟨_, lay "GNODE", .fixed (n := 4) (k := 0) (by decide +kernel) rfl (by simp),
      by decide +kernel, rfl, rfl, rfl, by stored, by stored⟩
  refine .misfitMore (r := ⟨"GNODE", [.rat 2, x, .rat 6, .rat 123456], [], 0, [], []⟩)
    ⟨by simp, _, lay "GNODE", .fixed (n := 4) (k := 0) (by decide +kernel) rfl (by simp),
      by decide +kernel, rfl, .field ?_⟩
  refine .later (x := .sc (.int 2)) (.sc (.int (int 2 (by decide +kernel)))) (.here ?_ rfl)
  rcases h with ⟨rfl, rfl⟩ | ⟨⟨b, rfl⟩, rfl⟩
  · exact .nan
  · exact .inf b

/-- a hierarchy whose second row has an infinity in place of the type -/
example : Misfit (fun _ => none) [] none ⟨"HIERARCH", [.rat 8, .rat 2, .inf true, .rat 1], [], 0,
    [.rat 1, .rat 1, .rat 1, .rat 0], []⟩ .overflowError := by
  have int : ∀ {x : PyF} (n : Int), x.toInt = .ok n → HasInt x n := fun n h => toInt_hasInt h
  refine ⟨by simp, _, lay "HIERARCH", .hierarch (ihs := []) (int 0 (by decide +kernel)),
    by decide +kernel, rfl, .field ?_⟩
  exact .later (x := .sc (.int 8)) (.sc (.int (int 8 (by decide +kernel))))
    (.later (x := .sc (.int 2)) (.sc (.int (int 2 (by decide +kernel)))) (.here (.inf true) rfl))

/-- … or in place of the number of subelements -/
example : Wrong (fun _ => none) [] false ⟨"HIERARCH", [.rat 8, .rat 2, .rat 5, .rat 1], [], 0,
    [.rat 1, .rat 1, .rat 1, .inf false], []⟩ .overflowError := .notIntSub (.inf false rfl)

/-- a hierarchy behind the identification, without number of subelements -/
def noCount : List LRec := [
  ⟨"IDENT", [.rat 1, .rat 5, .rat 3, .rat 0], [], 0, [], []⟩,
  ⟨"HIERARCH", [.rat 8, .rat 1, .rat 5, .rat 1], [], 0, [.rat 1, .rat 1, .rat 0, .nan], []⟩,
  ⟨"IEND", [.rat 0, .rat 0, .rat 0, .rat 0], [], 0, [], []⟩]

/-- C64: it is refused with `ValueError` -/
example (B : Nat) {src : Source} (h : EncodedTo Dec.std (fun _ => false) noCount .valueError src) :
    parseSource Dec.std B none { g := { filetypeid := "T" } } src = .error .valueError := by
  have nv : ∀ {n : String} {x : PyF} {t : List PyF} {p sk v d}, x.ltZero = false →
      NotVoid ⟨n, x :: t, p, sk, v, d⟩ := fun h => ⟨_, _, rfl, h⟩
  have int : ∀ {x : PyF} (n : Int), x.toInt = .ok n → HasInt x n := fun n h => toInt_hasInt h
  refine wrong_record_refused (pl := .top "" "T") (s := 5) (e0 := fun _ => none) (h0 := {})
    (outs := [⟨"IDENT", true, cells [1, 5, 3], []⟩]) (sk := fun _ => false)
    (c := ⟨⟨"HIERARCH", [.rat 8, .rat 1, .rat 5, .rat 1], [], 0,
        [.rat 1, .rat 1, .rat 0, .nan], []⟩,
      [⟨"IDENT", [.rat 1, .rat 5, .rat 3, .rat 0], [], 0, [], []⟩], false, true⟩)
    ?_ (by decide) ⟨_, rfl, .inl ⟨rfl, rfl⟩⟩
    (by intro o ho hn; exfalso; revert o; decide +kernel)
    (fun _ _ _ => ⟨_, rfl, int 5 (by decide +kernel)⟩) trivial (fun _ _ => rfl) clean B h
  refine .ident (by simp) rfl trivial (nv (by decide +kernel)) ?_ ?_
  · exact ⟨_, lay "IDENT", .ident (int 1 (by decide +kernel)) (int 5 (by decide +kernel))
      (int 3 (by decide +kernel)), by decide +kernel, rfl, rfl, rfl, by stored, by stored⟩
  exact .hier (by simp) trivial (nv (by decide +kernel)) (.count (.nan rfl))

/-- an element without type: its first line has two numbers -/
def noType : List LRec := [
  ⟨"IDENT", [.rat 1, .rat 5, .rat 3, .rat 0], [], 0, [], []⟩,
  ⟨"GELMNT1", [.rat 1, .rat 1], [], 8, [.rat 1, .rat 2], [.rat 0, .rat 0]⟩,
  ⟨"IEND", [.rat 0, .rat 0, .rat 0, .rat 0], [], 0, [], []⟩]

/-- C64: it is refused with `IndexError` -/
example (B : Nat) : parseSource Dec.std B none { g := { filetypeid := "T" } }
    (.formatted (text noType)) = .error .indexError := by
  have nv : ∀ {n : String} {x : PyF} {t : List PyF} {p sk v d}, x.ltZero = false →
      NotVoid ⟨n, x :: t, p, sk, v, d⟩ := fun h => ⟨_, _, rfl, h⟩
  have int : ∀ {x : PyF} (n : Int), x.toInt = .ok n → HasInt x n := fun n h => toInt_hasInt h
  refine wrong_record_refused (pl := .top "" "T") (s := 5) (e0 := fun _ => none) (h0 := {})
    (outs := [⟨"IDENT", true, cells [1, 5, 3], []⟩]) (sk := fun _ => false)
    (c := ⟨⟨"GELMNT1", [.rat 1, .rat 1], [], 8, [.rat 1, .rat 2], [.rat 0, .rat 0]⟩,
      [⟨"IDENT", [.rat 1, .rat 5, .rat 3, .rat 0], [], 0, [], []⟩], false, true⟩)
    ?_ (by decide) ⟨_, rfl, .inl ⟨rfl, rfl⟩⟩
    (by intro o ho hn; exfalso; revert o; decide +kernel) (by simp [Stop.Fits]) trivial
    (fun _ _ => rfl) clean B (.stops (.formatted (encodesT (by decide +kernel))) (by decide))
  refine .ident (by simp) rfl trivial (nv (by decide +kernel)) ?_ ?_
  · exact ⟨_, lay "IDENT", .ident (int 1 (by decide +kernel)) (int 5 (by decide +kernel))
      (int 3 (by decide +kernel)), by decide +kernel, rfl, rfl, rfl, by stored, by stored⟩
  exact .wrongFirst (by simp) trivial (nv (by decide +kernel)) (.notInt .element (.missing (by decide)))

/-- a record of which only the name is there -/
def nameOnly (n : String) : List LRec := [
  ⟨"IDENT", [.rat 1, .rat 5, .rat 3, .rat 0], [], 0, [], []⟩,
  ⟨n, [], [], 0, [], []⟩,
  ⟨"IEND", [.rat 0, .rat 0, .rat 0, .rat 0], [], 0, [], []⟩]

/-- C64: it stops the conversion, whether or not there is a table of that name -/
theorem nameOnly_refused {n : String} (h1 : n ≠ "") (h2 : n ≠ "IDENT") :
    Refuses none (fun _ => false) (fun _ => none) none [] (nameOnly n)
      [⟨"IDENT", true, cells [1, 5, 3], []⟩] .indexError
      ⟨⟨n, [], [], 0, [], []⟩, [⟨"IDENT", [.rat 1, .rat 5, .rat 3, .rat 0], [], 0, [], []⟩],
        false, false⟩ := by
  have int : ∀ {x : PyF} (n : Int), x.toInt = .ok n → HasInt x n := fun n h => toInt_hasInt h
  refine .ident (by simp) rfl trivial ⟨_, _, rfl, by decide +kernel⟩ ?_ ?_
  · exact ⟨_, lay "IDENT", .ident (int 1 (by decide +kernel)) (int 5 (by decide +kernel))
      (int 3 (by decide +kernel)), by decide +kernel, rfl, rfl, rfl, by stored, by stored⟩
  exact .stuck (by simpa using fun h : "IDENT" = n => h2 h.symm) trivial (.empty h1 rfl)

example (B : Nat) : parseSource Dec.std B none { g := { filetypeid := "T" } }
    (.formatted (text (nameOnly "GNODE"))) = .error .indexError :=
  wrong_record_refused (pl := .top "" "T") (s := 5) (e0 := fun _ => none) (h0 := {})
    (sk := fun _ => false) (nameOnly_refused (n := "GNODE") (by decide) (by decide)) (by decide)
    ⟨_, rfl, .inl ⟨rfl, rfl⟩⟩ (by intro o ho hn; exfalso; revert o; decide +kernel)
    (by simp [Stop.Fits]) trivial (fun _ _ => rfl) clean B (.stops (.formatted (encodesT (by decide +kernel))) (by decide))

/-- a size of records, a mesh concept: no number, an infinity -/
example : Stuck ⟨"IRECSIZE", [.rat 1, .nan], [], 0, [], []⟩ .valueError ∧
    Stuck ⟨"SCONMESH", [.rat 8, .rat 1, .inf true, .rat 0], [], 0, [], []⟩ .overflowError ∧
    Stuck ⟨"SCONMESH", [.rat 2, .rat 1], [], 0, [], []⟩ .indexError :=
  ⟨.size rfl ⟨_, _, rfl, by decide +kernel⟩ (.nan rfl),
    .mesh rfl ⟨_, _, rfl, by decide +kernel⟩ (.inf true rfl),
    .mesh rfl ⟨_, _, rfl, by decide +kernel⟩ (.missing (by decide))⟩

/-- an element with a type, but no number -/
example : Wrong (fun _ => none) [] true
    ⟨"GELMNT1", [.rat 1, .nan, .rat 15, .rat 0], [], 8, [.rat 1, .rat 2], []⟩ .valueError :=
  .notInt2 .element rfl (toInt_hasInt (n := 15) (by decide +kernel)) (.nan rfl)

/-- a set with infinitely many members, results of a node and of an element without case -/
example : Wrong (fun _ => none) [] true
    ⟨"GSETMEMB", [.inf false, .rat 1, .rat 1, .rat 1], [], 0, [.rat 0, .rat 3], []⟩ .overflowError :=
  .notIntMore (a := [.rat 0]) .set (.inf false rfl)

example : Wrong (fun _ => none) [] false
    ⟨"RVNODDIS", [.rat 8, .nan, .rat 1, .rat 0], [], 0, [.rat 0, .rat 3, .rat 4, .rat 5], []⟩ .valueError :=
  .notIntMore2 (a := [.rat 0]) (.node (by simp)) rfl (toInt_hasInt (n := 8) (by decide +kernel)) (.nan rfl)

example : Wrong (fun _ => none) [] true
    ⟨"GELREF1", [.nan, .rat 4, .rat 0, .rat 0],
      [.recd 8 [.rat 0, .rat 0, .rat 0, .rat 0], .recd 8 [.rat 7, .rat 0, .rat 0, .rat 0]], 8, [], []⟩
      .valueError := .notIntRef (.nan rfl)

/-- a file with two nodes, the number of the second one is to be filled in -/
def nodeText (x : String) : List Char :=
  ("IDENT          1.000E+00       5.000E+00       3.000E+00       0.000E+00\n" ++
   "GNODE          1.000E+00       1.000E+00       6.000E+00       1.234E+03\n" ++
   "GNODE          2.000E+00" ++ x ++ "       6.000E+00       1.234E+03\n" ++
   "IEND           0.000E+00       0.000E+00       0.000E+00       0.000E+00\n").toList

/-- such files read from text -/
example : (["       2.000E+00", "             nan", "             inf"].map fun x =>
      match parseSource Dec.std 3 none { g := { filetypeid := "T" } } (.formatted (nodeText x)) with
      | .ok _ => none
      | .error e => some e) = [none, some .valueError, some .overflowError] := by
  decide +kernel

end Verif.Parse.Demo
