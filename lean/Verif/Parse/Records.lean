import Verif.Parse.Props
/-!
# Properties of single record types: C06, C16 - C21

Element connectivity, per-node references, node and element results, wave references; recognised
names; independence of earlier conversions.  Where the code violates a property, the violation is
shown on a concrete file and the part that holds is proved (`_partial`).
-/

namespace Verif.Parse
open Verif Verif.Seq

/-! ## C06: recognised names -/

/-- the readable record types that are not recognised when a record in front of them is skipped -/
def unrecognised : List String := ["W1MOTION", "W1SFORCE", "W2MDRIFT", "TDLOAD", "WINPUT"]

/-- **C06** (part) Exactly these readable record types are not recognised on unformatted and on
formatted files.  The full claim, that every readable record type is recognised, is false. -/
theorem readable_recognised_partial (n : String) (h : HasTable n ∨ n ∈ ["IEND", "IRECSIZE"]) :
    (n ∈ allowedNamesB ↔ n ∉ unrecognised) ∧ (n ∈ allowedNamesStr ↔ n ∉ unrecognised) := by
  have h1 : ∀ n ∈ layouts.map (·.name) ++ ["IEND", "IRECSIZE"],
      ((n ∈ allowedNamesB ↔ n ∉ unrecognised) ∧ (n ∈ allowedNamesStr ↔ n ∉ unrecognised)) := by
    decide +kernel
  refine h1 n ?_
  rw [List.mem_append]
  rcases h with h | h
  · exact .inl (hasTable_iff.mp h)
  · exact .inr h

/-- **C06** The names recognised on files of the two kinds are the same, except that WISFORCE is
recognised on formatted files only. -/
theorem kinds_recognise (n : String) :
    n ∈ allowedNamesStr ↔ n ∈ allowedNamesB ∨ n = "WISFORCE" := by
  have h1 : ∀ n ∈ allowedNamesStr, n ∈ allowedNamesB ∨ n = "WISFORCE" := by decide +kernel
  have h2 : ∀ n ∈ allowedNamesB, n ∈ allowedNamesStr := by decide +kernel
  exact ⟨h1 n, fun h => h.elim (h2 n) fun h => by rw [h]; decide +kernel⟩

/-- **C06** The readers are those of the record types with a table, IEND and IRECSIZE. -/
theorem readable_iff (n : String) :
    readers n ≠ none ↔ HasTable n ∨ n ∈ ["IEND", "IRECSIZE"] := by
  constructor
  · intro h
    have h1 := readers_mem h
    have h2 : ∀ n ∈ readableNames, n ∈ layouts.map (·.name) ∨ n ∈ ["IEND", "IRECSIZE"] := by
      decide +kernel
    exact (h2 n h1).imp hasTable_iff.mpr id
  · have key : ∀ n ∈ layouts.map (·.name) ++ ["IEND", "IRECSIZE"], (readers n).isSome = true := by
      decide +kernel
    intro h he
    have := key n (by
      rw [List.mem_append]
      exact h.imp hasTable_iff.mp id)
    rw [he] at this
    cases this

namespace Demo

/-- a record that is not read, followed by a readable record -/
def swallow (n : String) : List LRec := [
  ⟨"IDENT", [.rat 1, .rat 5, .rat 3, .rat 0], [], 0, [], []⟩,
  ⟨"GNODE", [.rat 1, .rat 1, .rat 6, .rat 0], [], 0, [], []⟩,
  ⟨"TNODE", [.rat 5, .rat 1, .rat 1, .rat 1], [], 0, [], []⟩,
  ⟨n, [.rat 5, .rat 1, .rat 1, .rat 0], [], 0, [], []⟩,
  ⟨"IEND", [.rat 0, .rat 0, .rat 0, .rat 0], [], 0, [], []⟩]

/-- rows of a table -/
def rowsOf (x : Except Err St) (p : Path) (n : String) : Option (List (List Cell)) :=
  match x with
  | .error _ => none
  | .ok st => (st.h5.tabs (p, n)).map Tab.rows

/-- items of an array -/
def itemsOf (x : Except Err St) (p : Path) (n : String) (k : Nat) : Option (List Cell) :=
  match x with
  | .error _ => none
  | .ok st => ((st.h5.tabs (p, n)).bind fun t => t.arrs[k]?).map Arr.items

/-- does the conversion succeed? -/
def succeeds (x : Except Err St) : Bool :=
  match x with
  | .error _ => false
  | .ok _ => true

/-- a file read as an unformatted file with letter `ft` -/
def conv (ft : String) (f : List LRec) : Except Err St :=
  parseSource Dec.std 3 none { g := { filetypeid := ft } } (.unformatted (75 :: bytes f))

end Demo

/-- **C06** is false: a recognised record type behind a skipped record is read, one that is not
recognised is lost, and the conversion succeeds. -/
theorem readable_swallowed :
    Demo.rowsOf (Demo.conv "T" (Demo.swallow "GCOORD")) ["T5"] "GCOORD" =
      some [[.sc (.int 5), .sc (.flt (.rat 1)), .sc (.flt (.rat 1)), .sc (.flt (.rat 0))]] ∧
    ∀ n ∈ unrecognised, Demo.succeeds (Demo.conv "T" (Demo.swallow n)) = true ∧
      Demo.rowsOf (Demo.conv "T" (Demo.swallow n)) ["T5"] n = none := by
  decide +kernel

namespace Demo

/-- the lines of a formatted file with an element of type 28, which has eight nodes -/
def eightLines : List String := [
  "IDENT          1.000E+00       5.000E+00       3.000E+00       0.000E+00",
  "GNODE          1.000E+00       1.000E+00       6.000E+00       0.000E+00",
  "GELMNT1        1.000E+00       1.000E+00       2.800E+01       0.000E+00",
  "               1.000E+00       2.000E+00       3.000E+00       4.000E+00",
  "               5.000E+00       6.000E+00       7.000E+00       8.000E+00",
  "IEND           0.000E+00       0.000E+00       0.000E+00       0.000E+00"]

/-- the first `n` lines, read as a formatted file with letter `T` -/
def convLines (n : Nat) : Except Err St :=
  parseSource Dec.std 3 none { g := { filetypeid := "T" } }
    (.formatted (T.unlines ((eightLines.take n).map String.toList)))

end Demo

/-- **C76** (beside the claim) A formatted file that ends inside a record is converted too: the
element with eight nodes gets the four on the lines that are there, or none. -/
theorem cut_inside_record :
    (Demo.itemsOf (Demo.convLines 6) ["T5"] "GELMNT1" 0 =
        some ((List.range 8).map fun i => .sc (.int (i + 1))) ∧
      Demo.rowsOf (Demo.convLines 6) ["T5"] "GELMNT1" =
        some [[1, 1, 28, 0, 0, 8].map fun i => .sc (.int i)]) ∧
    (Demo.itemsOf (Demo.convLines 4) ["T5"] "GELMNT1" 0 =
        some ((List.range 4).map fun i => .sc (.int (i + 1))) ∧
      Demo.rowsOf (Demo.convLines 4) ["T5"] "GELMNT1" =
        some [[1, 1, 28, 0, 0, 4].map fun i => .sc (.int i)]) ∧
    Demo.itemsOf (Demo.convLines 3) ["T5"] "GELMNT1" 0 = some [] ∧
      Demo.rowsOf (Demo.convLines 3) ["T5"] "GELMNT1" =
        some [[1, 1, 28, 0, 0, 0].map fun i => .sc (.int i)] := by
  decide +kernel

section
variable {only : Option (List String)} {sk : LRec → Bool} {e0 : Int → Option Int}
  {f : List LRec} {outs : List Added} {names : List String} {pl : Place} {s : Int} {h0 : H5}
  {lev dt : String} {ix : Option (Option Int)} {st : St} {D D' : Dec} {src src' : Source}

/-- if every row of a type has a property, the table of a converted file has it row by row -/
theorem each_row (j : Job none sk e0 f outs names pl s h0 lev dt ix)
    (hclean : Clean pl e0 h0 st) (henc : Encoded D sk f src) (B : Nat)
    {n : String} (hn : n ∈ layouts.map (·.name)) {P : Layout → Tab → Event → List Cell → Prop}
    (hP : ∀ l ∈ layouts, l.name = n → ∀ t ev row, RowOf e0 l t ev row → P l t ev row) :
    ∃ st', parseSource D B none st src = .ok st' ∧
      (((events [] f).filter fun ev => ev.record.name = n) ≠ [] →
        ∃ l t, l ∈ layouts ∧ l.name = n ∧ st'.h5.tabs (pl.path s, n) = some t ∧
          List.Forall₂ (P l t) ((events [] f).filter fun ev => ev.record.name = n) t.rows) := by
  obtain ⟨st', h1, h2⟩ := one_row_per_record j hclean henc B
  refine ⟨st', h1, fun hne => ?_⟩
  obtain ⟨l, hl, rfl⟩ := List.mem_map.mp hn
  obtain ⟨t, h3, _, h4⟩ := h2 l hl hne
  exact ⟨l, t, hl, rfl, h3, h4.imp fun ev row h => hP l hl rfl t ev row h⟩

/-! ## C17: connectivity -/

/-- **C17** Each row of GELMNT1 has the fields of its record and selects the node numbers on the
record, as many as elements of its type have. -/
theorem connectivity (j : Job none sk e0 f outs names pl s h0 lev dt ix)
    (hclean : Clean pl e0 h0 st) (henc : Encoded D sk f src) (B : Nat) :
    ∃ st', parseSource D B none st src = .ok st' ∧
      (((events [] f).filter fun ev => ev.record.name = "GELMNT1") ≠ [] →
        ∃ l t, l ∈ layouts ∧ l.name = "GELMNT1" ∧ st'.h5.tabs (pl.path s, "GELMNT1") = some t ∧
          List.Forall₂ (fun ev row => ∃ a b c d elno ty, ev.record.head = [a, b, c, d] ∧
              HasInt b elno ∧ HasInt c ty ∧ NodeCount ty ev.record.vals.length ∧
              StoredRow l.cols (numbers [a, b, c, d]) (row.take l.cols.length) ∧
              ItemsAt l t row 0 (numbers ev.record.vals))
            ((events [] f).filter fun ev => ev.record.name = "GELMNT1") t.rows) := by
  refine each_row j hclean henc B (by decide +kernel)
    (P := fun l t ev row => ∃ a b c d elno ty, ev.record.head = [a, b, c, d] ∧
              HasInt b elno ∧ HasInt c ty ∧ NodeCount ty ev.record.vals.length ∧
              StoredRow l.cols (numbers [a, b, c, d]) (row.take l.cols.length) ∧
              ItemsAt l t row 0 (numbers ev.record.vals)) ?_
  intro l hl hn t ev row ⟨g1, e, g2, g3, g4, g5⟩
  obtain ⟨a, b, c, d, elno, ty, k1, k2, k3, k4, rfl⟩ := means_gelmnt1 g2 (by simp [g1, hn])
  have harr : 0 < l.arrs.length := by
    have : ∀ l ∈ layouts, l.name = "GELMNT1" → 0 < l.arrs.length := by decide +kernel
    exact this l hl hn
  obtain ⟨cs, arr, q1, q2, q3⟩ := g5 0 l.arrs[0] _ (List.getElem?_eq_getElem harr) rfl
  exact ⟨a, b, c, d, elno, ty, k1, k2, k3, k4, g4, _, cs, arr, List.getElem?_eq_getElem harr, q2,
    q3, q1⟩

example (B : Nat) := connectivity Demo.job Demo.clean Demo.onDisk.1 B

/-- **C17** A GELMNT1 record of another type raises, on any kind of file, wherever it stands in its
block. -/
theorem unsupported_type_raises {σ : Type} (R : Reader σ) (x : σ) (B fuel : Nat) (w : Work)
    (env : Env) {a b c d : PyF} {elno ty : Int} (h1 : HasInt b elno) (h2 : HasInt c ty)
    (h3 : ∀ n, ¬ NodeCount ty n) :
    Prog.run R (loop B gelmnt1Body "GELMNT1" (fuel + 1) w env ("GELMNT1", [a, b, c, d])) x =
      .error .keyError := by
  have hnone : elemNodes ty = none := by
    have key : ∀ p ∈ [((15 : Int), 2), (16, 2), (18, 1), (23, 3), (24, 4), (25, 3), (26, 6),
        ((28 : Int), (8 : Nat))], ty ≠ p.1 := by
      rintro ⟨t, n⟩ hp rfl
      exact h3 n hp
    simp only [List.mem_cons, List.not_mem_nil, or_false, forall_eq_or_imp, forall_eq] at key
    obtain ⟨k1, k2, k3, k4, k5, k6, k7, k8⟩ := key
    simp [elemNodes, k1, k2, k3, k4, k5, k6, k7, k8]
  unfold loop
  rw [if_pos rfl, Prog.run_bind]
  have : gelmnt1Body "GELMNT1" env [a, b, c, d] = .fail .keyError := by
    unfold gelmnt1Body intAt idx int
    simp only [Prog.bind_eq, pyIdx, List.getElem?_cons_succ, List.getElem?_cons_zero, Prog.lift,
      Prog.bind, hasInt_toInt h2, hasInt_toInt h1, look, hnone]
  rw [this]
  rfl

example : ∀ n, ¬ NodeCount 30 n := by
  intro n; unfold NodeCount; simp
example : HasInt (.rat 30) 30 := toInt_hasInt (by decide +kernel)

/-! ## C18: per-node references -/

/-- **C18** Each row of GELREF1 selects from each of the four arrays one value per node of the
element, in file order, if its field is -1, and nothing otherwise. -/
theorem node_references (j : Job none sk e0 f outs names pl s h0 lev dt ix)
    (hclean : Clean pl e0 h0 st) (henc : Encoded D sk f src) (B : Nat) :
    ∃ st', parseSource D B none st src = .ok st' ∧
      (((events [] f).filter fun ev => ev.record.name = "GELREF1") ≠ [] →
        ∃ l t, l ∈ layouts ∧ l.name = "GELREF1" ∧ st'.h5.tabs (pl.path s, "GELREF1") = some t ∧
          List.Forall₂ (fun ev row => ∃ a b c d rec2 x0 x1 x2 x3 geo fix ecc trans elno ty nn,
              ev.record.head = [a, b, c, d] ∧
              ev.record.pre = [.recd 8 rec2, .recd 8 [x0, x1, x2, x3]] ∧
              ev.record.vals = geo ++ fix ++ ecc ++ trans ∧
              HasInt a elno ∧ TypeOf e0 ev.past elno ty ∧ NodeCount ty nn ∧
              (x0 = .rat (-1) → geo.length = nn) ∧ (x0 ≠ .rat (-1) → geo = []) ∧
              (x1 = .rat (-1) → fix.length = nn) ∧ (x1 ≠ .rat (-1) → fix = []) ∧
              (x2 = .rat (-1) → ecc.length = nn) ∧ (x2 ≠ .rat (-1) → ecc = []) ∧
              (x3 = .rat (-1) → trans.length = nn) ∧ (x3 ≠ .rat (-1) → trans = []) ∧
              StoredRow l.cols (numbers ([a, b, c, d] ++ rec2 ++ [x0, x1, x2, x3]))
                (row.take l.cols.length) ∧
              ItemsAt l t row 0 (numbers geo) ∧ ItemsAt l t row 1 (numbers fix) ∧
              ItemsAt l t row 2 (numbers ecc) ∧ ItemsAt l t row 3 (numbers trans))
            ((events [] f).filter fun ev => ev.record.name = "GELREF1") t.rows) := by
  refine each_row j hclean henc B (by decide +kernel)
    (P := fun l t ev row => ∃ a b c d rec2 x0 x1 x2 x3 geo fix ecc trans elno ty nn,
              ev.record.head = [a, b, c, d] ∧
              ev.record.pre = [.recd 8 rec2, .recd 8 [x0, x1, x2, x3]] ∧
              ev.record.vals = geo ++ fix ++ ecc ++ trans ∧
              HasInt a elno ∧ TypeOf e0 ev.past elno ty ∧ NodeCount ty nn ∧
              (x0 = .rat (-1) → geo.length = nn) ∧ (x0 ≠ .rat (-1) → geo = []) ∧
              (x1 = .rat (-1) → fix.length = nn) ∧ (x1 ≠ .rat (-1) → fix = []) ∧
              (x2 = .rat (-1) → ecc.length = nn) ∧ (x2 ≠ .rat (-1) → ecc = []) ∧
              (x3 = .rat (-1) → trans.length = nn) ∧ (x3 ≠ .rat (-1) → trans = []) ∧
              StoredRow l.cols (numbers ([a, b, c, d] ++ rec2 ++ [x0, x1, x2, x3]))
                (row.take l.cols.length) ∧
              ItemsAt l t row 0 (numbers geo) ∧ ItemsAt l t row 1 (numbers fix) ∧
              ItemsAt l t row 2 (numbers ecc) ∧ ItemsAt l t row 3 (numbers trans)) ?_
  intro l hl hn t ev row ⟨g1, e, g2, g3, g4, g5⟩
  obtain ⟨a, b, c, d, rec2, x0, x1, x2, x3, geo, fix, ecc, trans, elno, ty, nn, k1, k2, k3, k4, k5,
    k6, k7, k8, k9, k10, rfl⟩ := means_gelref1 g2 (by simp [g1, hn])
  have harr : 4 = l.arrs.length := by
    have : ∀ l ∈ layouts, l.name = "GELREF1" → 4 = l.arrs.length := by decide +kernel
    exact this l hl hn
  have item : ∀ (k : Nat) (hk : k < 4) (vs : List Val),
      [some (numbers geo), some (numbers fix), some (numbers ecc), some (numbers trans)][k]? =
        some (some vs) → ItemsAt l t row k vs := by
    intro k hk vs hvs
    obtain ⟨cs, arr, q1, q2, q3⟩ := g5 k (l.arrs[k]'(by omega)) vs
      (List.getElem?_eq_getElem (by omega)) hvs
    exact ⟨_, cs, arr, List.getElem?_eq_getElem (by omega), q2, q3, q1⟩
  exact ⟨a, b, c, d, rec2, x0, x1, x2, x3, geo, fix, ecc, trans, elno, ty, nn, k1, k2, k3, k4, k5,
    k6, k7.1, k7.2, k8.1, k8.2, k9.1, k9.2, k10.1, k10.2, g4, item 0 (by omega) _ rfl,
    item 1 (by omega) _ rfl, item 2 (by omega) _ rfl, item 3 (by omega) _ rfl⟩

example (B : Nat) := node_references Demo.job Demo.clean Demo.onDisk.2 B

/-! ## C19: element results -/

/-- **C19** Each row of RVFORCES, RVSTRAIN, RVSTRESS selects `nsp * lenrec * (icompl + 1)` values:
those behind the five fields of its record.  `nsp`, `lenrec`, `icompl` are as last declared. -/
theorem element_results (j : Job none sk e0 f outs names pl s h0 lev dt ix)
    (hclean : Clean pl e0 h0 st) (henc : Encoded D sk f src) (B : Nat)
    {n : String} (hn : n ∈ ["RVFORCES", "RVSTRAIN", "RVSTRESS"]) :
    ∃ st', parseSource D B none st src = .ok st' ∧
      (((events [] f).filter fun ev => ev.record.name = n) ≠ [] →
        ∃ l t, l ∈ layouts ∧ l.name = n ∧ st'.h5.tabs (pl.path s, n) = some t ∧
          List.Forall₂ (fun ev row => ∃ a b c d x res ires iielno ispalt ir icompl nsp lenrec,
              ev.record.head = [a, b, c, d] ∧ ev.record.vals = x :: res ∧
              HasInt b ires ∧ HasInt c iielno ∧ HasInt d ispalt ∧ HasInt x ir ∧
              Latest (DeclNsp ispalt iielno) ev.past nsp ∧ Latest (DeclLen n ir) ev.past lenrec ∧
              Latest (DeclCplx ires) ev.past icompl ∧
              (res.length : Int) = nsp * lenrec * (icompl + 1) ∧
              StoredRow l.cols (numbers [a, b, c, d, x]) (row.take l.cols.length) ∧
              ItemsAt l t row 0 (numbers res))
            ((events [] f).filter fun ev => ev.record.name = n) t.rows) := by
  have hn' : n ∈ layouts.map (·.name) := by
    have : ∀ n ∈ ["RVFORCES", "RVSTRAIN", "RVSTRESS"], n ∈ layouts.map (·.name) := by
      decide +kernel
    exact this n hn
  refine each_row j hclean henc B hn'
    (P := fun l t ev row => ∃ a b c d x res ires iielno ispalt ir icompl nsp lenrec,
              ev.record.head = [a, b, c, d] ∧ ev.record.vals = x :: res ∧
              HasInt b ires ∧ HasInt c iielno ∧ HasInt d ispalt ∧ HasInt x ir ∧
              Latest (DeclNsp ispalt iielno) ev.past nsp ∧ Latest (DeclLen n ir) ev.past lenrec ∧
              Latest (DeclCplx ires) ev.past icompl ∧
              (res.length : Int) = nsp * lenrec * (icompl + 1) ∧
              StoredRow l.cols (numbers [a, b, c, d, x]) (row.take l.cols.length) ∧
              ItemsAt l t row 0 (numbers res)) ?_
  intro l hl hln t ev row ⟨g1, e, g2, g3, g4, g5⟩
  obtain ⟨a, b, c, d, x, i, jj, k, m, cplx, nsp, len, res, k1, k2, k3, k4, k5, k6, k7, k8, k9, k10,
    rfl⟩ := means_rvelm g2 (by rw [g1, hln]; exact hn)
  rw [g1, hln] at k8
  have harr : 0 < l.arrs.length := by
    have : ∀ l ∈ layouts, l.name ∈ ["RVFORCES", "RVSTRAIN", "RVSTRESS"] → 0 < l.arrs.length := by
      decide +kernel
    exact this l hl (by rw [hln]; exact hn)
  obtain ⟨cs, arr, q1, q2, q3⟩ := g5 0 l.arrs[0] _ (List.getElem?_eq_getElem harr) rfl
  exact ⟨a, b, c, d, x, res, i, jj, k, m, cplx, nsp, len, k1, k2, k3, k4, k5, k6, k7, k8, k9, k10,
    g4, _, cs, arr, List.getElem?_eq_getElem harr, q2, q3, q1⟩

example (B : Nat) := element_results Demo.resJob Demo.resClean Demo.resOnDisk B
  (n := "RVSTRESS") (by simp)

/-- **C19** A record without one of its declarations raises, on any kind of file. -/
theorem missing_declaration_raises {σ : Type} (R : Reader σ) {x y : σ} (B fuel : Nat) (w : Work)
    (env : Env) {n : String} {a b c d v : PyF} {ires iielno ispalt ir : Int}
    (hstep : R.step (.floats 1 0) x = .ok ([v], y))
    (h1 : HasInt b ires) (h2 : HasInt c iielno) (h3 : HasInt d ispalt) (h4 : HasInt v ir)
    (h5 : env.nsp (ispalt, iielno) = none ∨ env.lenrec (n, ir) = none ∨ env.rdresref ires = none) :
    Prog.run R (loop B rvelmresBody n (fuel + 1) w env (n, [a, b, c, d])) x =
      .error .keyError := by
  unfold loop
  rw [if_pos rfl, Prog.run_bind]
  unfold rvelmresBody intAt idx int floats
  simp only [Prog.bind_eq, Prog.call, Prog.bind, Prog.run, hstep, pyIdx, List.cons_append,
    List.nil_append, List.getElem?_cons_succ, List.getElem?_cons_zero, Prog.lift,
    hasInt_toInt h1, hasInt_toInt h2, hasInt_toInt h3, hasInt_toInt h4, look]
  cases ha : env.nsp (ispalt, iielno) with
  | none => rfl
  | some _ =>
    cases hb : env.lenrec (n, ir) with
    | none => rfl
    | some _ =>
      cases hc : env.rdresref ires with
      | none => rfl
      | some _ => rw [ha, hb, hc] at h5; simp at h5

/-- the file of the demo without the result points, the components or the result case is refused -/
example : Demo.succeeds (Demo.conv "R" Demo.resFile) = true ∧
    ∀ n ∈ ["RDPOINTS", "RDSTRESS", "RDRESREF"],
      Demo.succeeds (Demo.conv "R" (Demo.resFile.filter fun r => r.name ≠ n)) = false := by
  decide +kernel
/-- a reader in front of the components of a record -/
example : ∃ y, (L.reader fun _ => false).step (.floats 1 0)
      ⟨⟨"RVSTRESS", [.rat 9, .rat 1, .rat 1, .rat 1], [], 0, [.rat 1, .rat 5], []⟩, 0, []⟩ =
    .ok ([.rat 1], y) := ⟨_, rfl⟩

/-! ## C20: node results -/

/-- **C20** (part) Each row of RVNODACC, RVNODDIS, RVNODVEL for a real result case selects the
`NFIELD - 5` values behind the five fields of its record.  For complex result cases the claim is
false (`complex_node_results_cut`): only `(NFIELD - 5) / 2` values are stored. -/
theorem node_results_partial (j : Job none sk e0 f outs names pl s h0 lev dt ix)
    (hclean : Clean pl e0 h0 st) (henc : Encoded D sk f src) (B : Nat)
    {n : String} (hn : n ∈ ["RVNODACC", "RVNODDIS", "RVNODVEL"]) :
    ∃ st', parseSource D B none st src = .ok st' ∧
      (((events [] f).filter fun ev => ev.record.name = n) ≠ [] →
        ∃ l t, l ∈ layouts ∧ l.name = n ∧ st'.h5.tabs (pl.path s, n) = some t ∧
          List.Forall₂ (fun ev row => ∃ a b c d x res nfield ires icompl,
              ev.record.head = [a, b, c, d] ∧ ev.record.vals = x :: res ∧ HasInt a nfield ∧
              HasInt b ires ∧ Latest (DeclCplx ires) ev.past icompl ∧
              (icompl = 0 → (res.length : Int) = nfield - 5) ∧
              (icompl = 1 → (res.length : Int) = (nfield - 5) / 2) ∧
              StoredRow l.cols (numbers [a, b, c, d, x]) (row.take l.cols.length) ∧
              ItemsAt l t row 0 (numbers res))
            ((events [] f).filter fun ev => ev.record.name = n) t.rows) := by
  have hn' : n ∈ layouts.map (·.name) := by
    have : ∀ n ∈ ["RVNODACC", "RVNODDIS", "RVNODVEL"], n ∈ layouts.map (·.name) := by
      decide +kernel
    exact this n hn
  refine each_row j hclean henc B hn'
    (P := fun l t ev row => ∃ a b c d x res nfield ires icompl,
              ev.record.head = [a, b, c, d] ∧ ev.record.vals = x :: res ∧ HasInt a nfield ∧
              HasInt b ires ∧ Latest (DeclCplx ires) ev.past icompl ∧
              (icompl = 0 → (res.length : Int) = nfield - 5) ∧
              (icompl = 1 → (res.length : Int) = (nfield - 5) / 2) ∧
              StoredRow l.cols (numbers [a, b, c, d, x]) (row.take l.cols.length) ∧
              ItemsAt l t row 0 (numbers res)) ?_
  intro l hl hln t ev row ⟨g1, e, g2, g3, g4, g5⟩
  obtain ⟨a, b, c, d, x, m, i, cplx, res, k1, k2, k3, k4, k5, k6, rfl⟩ :=
    means_rvnod g2 (by rw [g1, hln]; exact hn)
  have harr : 0 < l.arrs.length := by
    have : ∀ l ∈ layouts, l.name ∈ ["RVNODACC", "RVNODDIS", "RVNODVEL"] → 0 < l.arrs.length := by
      decide +kernel
    exact this l hl (by rw [hln]; exact hn)
  obtain ⟨cs, arr, q1, q2, q3⟩ := g5 0 l.arrs[0] _ (List.getElem?_eq_getElem harr) rfl
  refine ⟨a, b, c, d, x, res, m, i, cplx, k1, k2, k3, k4, k5, ?_, ?_, g4, _, cs, arr,
    List.getElem?_eq_getElem harr, q2, q3, q1⟩
  · rintro rfl; simpa using k6
  · rintro rfl; exact k6

example (B : Nat) := node_results_partial Demo.resJob Demo.resClean Demo.resOnDisk B
  (n := "RVNODDIS") (by simp)

end

namespace Demo

/-- displacements of a node in result case 1: real (`icompl = 0`) or complex (`icompl = 1`) -/
def nodeResults (icompl : PyF) : List LRec := [
  ⟨"IDENT", [.rat 1, .rat 5, .rat 3, .rat 0], [], 0, [], []⟩,
  ⟨"RDRESREF", [.rat 7, .rat 1, .rat 1, .rat 0], [], 0, [.rat 0, icompl, .rat 0], []⟩,
  ⟨"RVNODDIS", [.rat 7, .rat 1, .rat 1, .rat 0], [], 0, [.rat 0, .rat 3, .rat 4], []⟩,
  ⟨"IEND", [.rat 0, .rat 0, .rat 0, .rat 0], [], 0, [], []⟩]

/-- two wave result references, the first with a direction, the second with a frequency -/
def waveRefs : List LRec := [
  ⟨"IDENT", [.rat 1, .rat 5, .rat 3, .rat 0], [], 0, [], []⟩,
  ⟨"WDRESREF", [.rat 7, .rat 1, .rat 1, .rat 1], [], 0, [.rat 1, .rat 6, .rat 7], []⟩,
  ⟨"WDRESREF", [.rat 7, .rat 2, .rat 1, .rat 1], [], 0, [.rat 2, .rat 8, .rat 9], []⟩,
  ⟨"IEND", [.rat 0, .rat 0, .rat 0, .rat 0], [], 0, [], []⟩]

/-- an element that is described but not defined on the file -/
def strayElement : List LRec := [
  ⟨"IDENT", [.rat 1, .rat 5, .rat 3, .rat 0], [], 0, [], []⟩,
  ⟨"GELREF1", [.rat 1, .rat 4, .rat 0, .rat 0],
    [.recd 8 [.rat 0, .rat 0, .rat 0, .rat 0], .recd 8 [.rat (-1), .rat 9, .rat 0, .rat 0]], 8,
    [.rat 7, .rat 8], [.rat 0, .rat 0]⟩,
  ⟨"IEND", [.rat 0, .rat 0, .rat 0, .rat 0], [], 0, [], []⟩]

end Demo

/-- **C20** is false for complex results: of the two values on the record one is stored (both for
a real result case). -/
theorem complex_node_results_cut :
    Demo.itemsOf (Demo.conv "R" (Demo.nodeResults (.rat 0))) ["R5"] "RVNODDIS" 0 =
      some [.sc (.flt (.rat 3)), .sc (.flt (.rat 4))] ∧
    Demo.itemsOf (Demo.conv "R" (Demo.nodeResults (.rat 1))) ["R5"] "RVNODDIS" 0 =
      some [.sc (.flt (.rat 3))] := by
  decide +kernel

section
variable {only : Option (List String)} {sk : LRec → Bool} {e0 : Int → Option Int}
  {f : List LRec} {outs : List Added} {names : List String} {pl : Place} {s : Int} {h0 : H5}
  {lev dt : String} {ix : Option (Option Int)} {st : St} {D D' : Dec} {src src' : Source}

/-! ## C21: wave references -/

/-- **C21** (part) Each row of WDRESREF selects, for each type of reference on its record, the
pairs on the record.  For types not on the record the claim, that the row selects nothing, is
false (`stale_wave_references`). -/
theorem wave_references_partial (j : Job none sk e0 f outs names pl s h0 lev dt ix)
    (hclean : Clean pl e0 h0 st) (henc : Encoded D sk f src) (B : Nat) :
    ∃ st', parseSource D B none st src = .ok st' ∧
      (((events [] f).filter fun ev => ev.record.name = "WDRESREF") ≠ [] →
        ∃ l t, l ∈ layouts ∧ l.name = "WDRESREF" ∧ st'.h5.tabs (pl.path s, "WDRESREF") = some t ∧
          List.Forall₂ (fun ev row => ∃ a b c d n m ts, ev.record.head = [a, b, c, d] ∧
              HasInt c n ∧ HasInt d m ∧ RefTypes n.toNat m.toNat ev.record.vals ts ∧
              StoredRow l.cols (numbers [a, b, c, d]) (row.take l.cols.length) ∧
              ∀ (k : Nat) (vs : List Val), k < 3 → ((k : Int) + 1, vs) ∈ ts →
                ItemsAt l t row k vs)
            ((events [] f).filter fun ev => ev.record.name = "WDRESREF") t.rows) := by
  refine each_row j hclean henc B (by decide +kernel)
    (P := fun l t ev row => ∃ a b c d n m ts, ev.record.head = [a, b, c, d] ∧
              HasInt c n ∧ HasInt d m ∧ RefTypes n.toNat m.toNat ev.record.vals ts ∧
              StoredRow l.cols (numbers [a, b, c, d]) (row.take l.cols.length) ∧
              ∀ (k : Nat) (vs : List Val), k < 3 → ((k : Int) + 1, vs) ∈ ts →
                ItemsAt l t row k vs) ?_
  intro l hl hn t ev row ⟨g1, e, g2, g3, g4, g5⟩
  obtain ⟨a, b, c, d, n, m, ts, dir, freq, time, k1, k2, k3, k4, k5, k6, k7, rfl⟩ :=
    means_wdresref g2 (by simp [g1, hn])
  have harr : 3 = l.arrs.length := by
    have : ∀ l ∈ layouts, l.name = "WDRESREF" → 3 = l.arrs.length := by decide +kernel
    exact this l hl hn
  have pick : ∀ {k : Int} {o : Option (List Val)} {vs : List Val}, PairsFor k ts o → (k, vs) ∈ ts →
      o = some vs := by
    intro k o vs hp hm
    cases hp with
    | given h1 h2 =>
      rename_i ws
      have hinj : ∀ (ts : List (Int × List Val)), (ts.map Prod.fst).Nodup → (k, ws) ∈ ts →
          (k, vs) ∈ ts → ws = vs := by
        intro ts
        induction ts with
        | nil => simp
        | cons p ts ih =>
          intro hnd ha hb
          simp only [List.map_cons, List.nodup_cons] at hnd
          simp only [List.mem_cons] at ha hb
          rcases ha with ha | ha <;> rcases hb with hb | hb
          · rw [← ha] at hb; simpa using hb.symm
          · exact absurd (List.mem_map.mpr ⟨_, hb, by rw [← ha]⟩) hnd.1
          · exact absurd (List.mem_map.mpr ⟨_, ha, by rw [← hb]⟩) hnd.1
          · exact ih hnd.2 ha hb
      rw [hinj ts h2 h1 hm]
    | absent h1 => exact absurd (List.mem_map.mpr ⟨_, hm, rfl⟩) h1
  refine ⟨a, b, c, d, n, m, ts, k1, k2, k3, k4, g4, fun k vs hk hm => ?_⟩
  have hvs : [dir, freq, time][k]? = some (some vs) := by
    have : k = 0 ∨ k = 1 ∨ k = 2 := by omega
    rcases this with rfl | rfl | rfl
    · exact congrArg some (pick k5 hm)
    · exact congrArg some (pick k6 hm)
    · exact congrArg some (pick k7 hm)
  obtain ⟨cs, arr, q1, q2, q3⟩ := g5 k (l.arrs[k]'(by omega)) vs
    (List.getElem?_eq_getElem (by omega)) hvs
  exact ⟨_, cs, arr, List.getElem?_eq_getElem (by omega), q2, q3, q1⟩

example (B : Nat) := wave_references_partial Demo.resJob Demo.resClean
  Demo.resOnDisk B

/-- **C21** is false: the second record has a frequency only, but its row selects the direction of
the first record as well (columns 4 and 5). -/
theorem stale_wave_references :
    Demo.rowsOf (Demo.conv "G" Demo.waveRefs) ["G5"] "WDRESREF" =
      some [[.sc (.int 7), .sc (.int 1), .sc (.int 1), .sc (.int 1), .sc (.int 0), .sc (.int 1),
          .sc (.int 0), .sc (.int 0), .sc (.int 0), .sc (.int 0)],
        [.sc (.int 7), .sc (.int 2), .sc (.int 1), .sc (.int 1), .sc (.int 0), .sc (.int 1),
          .sc (.int 0), .sc (.int 1), .sc (.int 0), .sc (.int 0)]] := by
  decide +kernel

/-! ## C16: earlier conversions -/

/-- the state in which the conversion of a file opened by the user starts: `reset()`, then the name
prefix and the file letter are set -/
def started (pre ft : String) (st : St) : St :=
  let st' := reset true st
  { st' with g := { st'.g with groupnamePrefix := pre, filetypeid := ft } }

theorem started_clean (pre ft : String) (st : St) :
    Clean (.top pre ft) st.env.elem st.h5 (started pre ft st) :=
  ⟨rfl, rfl, rfl, fun _ => rfl, rfl, rfl, rfl, rfl, rfl, rfl⟩

/-- a job that makes sense on its own makes sense after any other conversions -/
theorem Job.any_history (j : Job only sk (fun _ => none) f outs names pl s h0 lev dt ix)
    (e0 : Int → Option Int) : Job only sk e0 f outs names pl s h0 lev dt ix :=
  { j with accepted := j.accepted.any_history e0 }

/-- **C16** (part) Whatever was left behind by earlier conversions, successful or failed (`st1`,
`st2` are arbitrary): a file that makes sense on its own gives the same output.  For a file that
refers to elements it does not define, the claim is false (`elements_leak`). -/
theorem history_irrelevant_partial {pre ft : String}
    (j : Job only sk (fun _ => none) f outs names (.top pre ft) s h0 lev dt ix)
    (henc : Encoded D sk f src) (B : Nat) (st1 st2 : St) (h1 : st1.h5 = h0) (h2 : st2.h5 = h0) :
    ∃ r1 r2, parseSource D B only (started pre ft st1) src = .ok r1 ∧
      parseSource D B only (started pre ft st2) src = .ok r2 ∧ r1.h5 = r2.h5 := by
  have c1 := started_clean pre ft st1
  have c2 := started_clean pre ft st2
  rw [h1] at c1
  rw [h2] at c2
  obtain ⟨r1, p1, q1⟩ := (j.any_history st1.env.elem).source c1 B henc
  obtain ⟨r2, p2, q2⟩ := (j.any_history st2.env.elem).source c2 B henc
  exact ⟨r1, r2, p1, p2, q1.unique j.accepted.outs_table q2⟩

example (B : Nat) (st : St) (h : st.h5 = {}) := history_irrelevant_partial Demo.job Demo.onDisk.1 B
  st {} h rfl

/-- **C16** is false: a file that refers to element 1 without defining it is refused in a new
session, but converted if element 1 was defined by a file converted before. -/
theorem elements_leak :
    ∃ (src : Source) (earlier : Source) (st : St),
      parseSource Dec.std 3 none (started "" "T" {}) earlier = .ok st ∧
      Demo.succeeds (parseSource Dec.std 3 none (started "X_" "T" {}) src) = false ∧
      Demo.succeeds (parseSource Dec.std 3 none (started "X_" "T" st) src) = true := by
  have key : Demo.succeeds (parseSource Dec.std 3 none (started "" "T" {})
      (.unformatted (75 :: Demo.bytes Demo.file))) = true ∧
    (match parseSource Dec.std 3 none (started "" "T" {})
        (.unformatted (75 :: Demo.bytes Demo.file)) with
      | .error _ => false
      | .ok st => !Demo.succeeds (parseSource Dec.std 3 none (started "X_" "T" {})
            (.unformatted (75 :: Demo.bytes Demo.strayElement))) &&
          Demo.succeeds (parseSource Dec.std 3 none (started "X_" "T" st)
            (.unformatted (75 :: Demo.bytes Demo.strayElement)))) = true := by
    decide +kernel
  refine ⟨.unformatted (75 :: Demo.bytes Demo.strayElement),
    .unformatted (75 :: Demo.bytes Demo.file), ?_⟩
  revert key
  generalize parseSource Dec.std 3 none (started "" "T" {})
        (.unformatted (75 :: Demo.bytes Demo.file)) = x
  intro key
  cases x with
  | error e => cases key.1
  | ok st =>
    refine ⟨st, rfl, ?_⟩
    have := key.2
    simp only [Bool.and_eq_true, Bool.not_eq_true'] at this
    exact this

end

end Verif.Parse
