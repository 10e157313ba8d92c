import Verif.Parse.RefuseFile
import Verif.Parse.Convert
import Verif.Parse.Select
import Verif.Parse.LeftSim
/-!
# Files that cannot be converted: the theorems about `parse_file`
-/

namespace Verif.Parse
open Verif Verif.Seq

section
variable {only : Option (List String)} {sk : LRec → Bool} {e0 : Int → Option Int}

/-! ### files without a superelement type -/

/-- a file without a superelement type, at a record that is not passed over -/
inductive UntypedHead (only : Option (List String)) (sk : LRec → Bool) : List LRec → Prop
  | early {r rest} : HasTable r.name → r.name ≠ "IDENT" → r.name ≠ "HIERARCH" →
      Selected only r.name → NotVoid r → FirstOK r → UntypedHead only sk (r :: rest)
  | zero {r rest a b c d} : r.name = "IDENT" → Selected only r.name →
      NotVoid r → r.head = [a, b, c, d] → HasInt b 0 → UntypedHead only sk (r :: rest)
  | stop {r rest} : Selected only r.name → EndOfFile r → UntypedHead only sk (r :: rest)

theorem Untyped.split {cur : Option String} {f : List LRec} (h : Untyped only sk cur f) :
    ∃ f', PassesTo only sk cur f f' ∧ UntypedHead only sk f' := by
  induction h with
  | early h1 h2 h3 h4 h5 h6 h7 => exact ⟨_, .done h1 h5, .early h2 h3 h4 h5 h6 h7⟩
  | zero h1 h2 h3 h4 h5 h6 => exact ⟨_, .done h1 h3, .zero h2 h3 h4 h5 h6⟩
  | stop h1 h2 h3 => exact ⟨_, .done h1 h2, .stop h2 h3⟩
  | pass h1 _ ih =>
    obtain ⟨f', e1, e2⟩ := ih
    exact ⟨f', .step h1 e1, e2⟩

theorem getPath_untyped {st : St} (h1 : st.g.hasHierarch = false)
    (h2 : isTrue st.g.currentSeltyp = false) : getPath st = .error .nameError := by
  unfold getPath
  simp [h1, h2]

theorem getTable_untyped {st : St} {n : String} (h1 : st.g.hasHierarch = false)
    (h2 : isTrue st.g.currentSeltyp = false) (h3 : st.g.tables n = none) :
    getTable n st = .error .nameError := by
  unfold getTable
  simp only [h3, getPath_untyped h1 h2]
  rfl

theorem reader_block {n : String} (ht : HasTable n) (h1 : n ≠ "IDENT") (h2 : n ≠ "HIERARCH") :
    ∃ body, readers n = some (.block (if n = "SCONMESH" then sconmeshCheck else noCheck) body) := by
  obtain ⟨l, hl, rfl⟩ := ht
  unfold layouts at hl
  simp only [List.mem_cons, List.not_mem_nil, or_false] at hl
  repeat' rcases hl with hl | hl
  all_goals
    first
      | exact absurd rfl h1
      | exact absurd rfl h2
      | exact ⟨_, rfl⟩

theorem setAttributes_untyped {st : St} (h1 : st.g.hasHierarch = false)
    (h2 : isTrue st.g.currentSeltyp = false) : setAttributes st = .error .nameError := by
  unfold setAttributes
  rw [getPath_untyped h1 h2]
  rfl

/-- the loop of `parse_file` at the end of the file -/
theorem stop_run {r : LRec} {rest : List LRec} (h1 : Selected only r.name) (h2 : EndOfFile r)
    {B fuel k : Nat} {st : St} :
    Prog.run (L.reader sk) (parseLoop B only fuel (k + 2) st (some (r.name, r.head))) ⟨r, 0, rest⟩ =
      .ok ({ st with g := { st.g with recordNames := st.g.recordNames ++ ["IEND"] } },
        ⟨r, 0, rest⟩) := by
  obtain ⟨h2, x, t, hx, rfl⟩ := h2
  simp only [parseLoop]
  rw [if_neg (by rw [h2]; decide), selected_eq h1, if_pos rfl, h2]
  have hgp : Prog.run (L.reader sk) (generalParser B fuel st ("IEND", r.head)) ⟨r, 0, rest⟩ =
      .ok (({ st with g := { st.g with recordNames := st.g.recordNames ++ ["IEND"] } }, none),
        ⟨r, 0, rest⟩) := by
    unfold generalParser
    simp only [hx]
    rw [Prog.run_bind_ok run_idx, if_neg (by decide +kernel)]
    rw [show readers "IEND" = some .iend from rfl]
    simp only [runReader]
    rw [Prog.run_bind_ok run_idx, if_pos (by decide +kernel)]
    rfl
  rw [Prog.run_bind_ok hgp]
  rfl

/-! ### files that stop before any table -/

theorem Halts.split {cur : Option String} {f : List LRec} {e : Err} (h : Halts only sk cur f e) :
    ∃ r rest, PassesTo only sk cur f (r :: rest) ∧ Selected only r.name ∧
      (Stuck r e ∨ r.name = "IDENT" ∧ NotVoid r ∧ NoInt r.head 1 e) := by
  induction h with
  | ident h1 h2 h3 h4 h5 => exact ⟨_, _, .done h1 h3, h3, .inr ⟨h2, h4, h5⟩⟩
  | stuck h1 h2 h3 => exact ⟨_, _, .done h1 h2, h2, .inl h3⟩
  | pass h1 _ ih =>
    obtain ⟨r, rest, e1, e2⟩ := ih
    exact ⟨r, rest, .step h1 e1, e2⟩

theorem NoInt.error_ne {l : List PyF} {i : Nat} {e : Err} (h : NoInt l i e) : e ≠ .outOfFuel := by
  cases h <;> simp

theorem Halts.error_ne {cur : Option String} {f : List LRec} {e : Err}
    (h : Halts only sk cur f e) : e ≠ .outOfFuel := by
  obtain ⟨r, rest, -, -, h | h⟩ := h.split
  · exact (stuck_run (sk := fun _ => false) h (B := 0) (fuel := 0) (st := {}) (rest := [])).2.1
  · exact h.2.2.error_ne

theorem halts_run {f : List LRec} {e : Err} (h : Halts only sk none f e) (B fuel : Nat)
    (hfuel : f.length < fuel) {st : St} (h2 : st.g.currentSeltyp = none) :
    Prog.run (L.reader sk) (parseFile B fuel only st) (L.openFile f) = .error e ∧
    fileLeft (L.reader sk) B fuel only st (L.openFile f) = st.left := by
  obtain ⟨r', rest', hpass, hsel, hhead⟩ := h.split
  obtain ⟨r, rest, rfl⟩ := hpass.nonempty
  obtain ⟨k, ns, m, hk, hrun⟩ := passes_run (sk := sk) B fuel rfl fuel (r :: rest) st r rest rfl
    hfuel hfuel hpass
  have hh : Prog.run (L.reader sk) header (L.openFile (r :: rest)) =
      .ok ((r.name, r.head), ⟨r, 0, rest⟩) := by
    rw [header, Prog.run_call]
    simp [L.reader, L.openFile, L.next]
  have g2 : (passed st ns m).g.currentSeltyp = none := h2
  have g4 : (passed st ns m).left = st.left := rfl
  rw [← g4]
  generalize passed st ns m = st1 at hrun g2
  clear g4
  obtain ⟨k, rfl⟩ : ∃ j, k = j + 1 := ⟨k - 1, by omega⟩
  have key : r'.name ≠ "" ∧
      Prog.run (L.reader sk) (generalParser B fuel st1 (r'.name, r'.head)) ⟨r', 0, rest'⟩ =
        .error e ∧
      generalLeft (L.reader sk) B fuel st1 (r'.name, r'.head) ⟨r', 0, rest'⟩ = st1.left := by
    rcases hhead with hs | ⟨n1, n2, n3⟩
    · obtain ⟨c1, -, c2, c3, -⟩ := stuck_run (sk := sk) hs (B := B) (fuel := fuel) (st := st1)
        (rest := rest')
      exact ⟨c1, c2, c3⟩
    · have hrd : readers r'.name = some .ident := by rw [n1]; rfl
      have hr : ∀ st2 : St, st2.g.currentSeltyp = none →
          Prog.run (L.reader sk) (if isTrue st2.g.currentSeltyp then .ret st2
            else Prog.bind (intAt r'.head 1) fun n =>
              .ret { st2 with g := { st2.g with currentSeltyp := some n } }) ⟨r', 0, rest'⟩ =
            .error e := by
        intro st2 q
        rw [q, if_neg (by decide)]
        exact Raises.first (Raises.intAt n3 r') sk 0 rest'
      refine ⟨by rw [n1]; decide, ?_, ?_⟩
      · rw [generalParser_reader n2 hrd]
        show Prog.run _ (identReader _ _) _ = _
        unfold identReader
        exact Prog.run_bind_error (hr _ g2)
      · rw [generalLeft_reader n2 hrd]
        show identLeft _ _ _ _ = _
        unfold identLeft
        rw [hr { st1 with g := { st1.g with recordNames := st1.g.recordNames ++ [r'.name] } } g2]
        rfl
  obtain ⟨c1, c2, c3⟩ := key
  obtain ⟨q3, q4⟩ := parseLoop_error (n := k) c1 hsel c2
  constructor
  · unfold parseFile
    rw [Prog.run_bind_ok hh]
    exact Prog.run_bind_error (hrun.1.trans q3)
  · unfold fileLeft
    rw [hh]
    simp only
    rw [hrun.1.trans q3]
    exact hrun.2.trans (q4.trans c3)

theorem untyped_run {f : List LRec} (h : Untyped only sk none f) (B fuel : Nat)
    (hfuel : f.length < fuel) {st : St} (h1 : st.g.hasHierarch = false)
    (h2 : st.g.currentSeltyp = none) (h3 : ∀ n, st.g.tables n = none) :
    Prog.run (L.reader sk) (parseFile B fuel only st) (L.openFile f) = .error .nameError ∧
    fileLeft (L.reader sk) B fuel only st (L.openFile f) = st.left := by
  obtain ⟨f', hpass, hhead⟩ := h.split
  obtain ⟨r, rest, rfl⟩ := hpass.nonempty
  obtain ⟨r', rest', hf', -⟩ := hpass.end
  obtain ⟨k, ns, m, hk, hrun⟩ := passes_run (sk := sk) B fuel hf' fuel (r :: rest) st r rest rfl
    hfuel hfuel hpass
  have hh : Prog.run (L.reader sk) header (L.openFile (r :: rest)) =
      .ok ((r.name, r.head), ⟨r, 0, rest⟩) := by
    rw [header, Prog.run_call]
    simp [L.reader, L.openFile, L.next]
  have g1 : (passed st ns m).g.hasHierarch = false := h1
  have g2 : (passed st ns m).g.currentSeltyp = none := h2
  have g3 : ∀ n, (passed st ns m).g.tables n = none := h3
  have g4 : (passed st ns m).left = st.left := rfl
  rw [← g4]
  generalize passed st ns m = st1 at hrun g1 g2 g3
  clear g4
  obtain ⟨k, rfl⟩ : ∃ j, k = j + 1 := ⟨k - 1, by omega⟩
  -- the loop raises
  have fails : ∀ {e : Err} {kk : Left},
      Prog.run (L.reader sk) (parseLoop B only fuel (k + 1) st1 (some (r'.name, r'.head)))
        ⟨r', 0, rest'⟩ = .error e →
      parseLoopLeft (L.reader sk) B only fuel (k + 1) st1 (some (r'.name, r'.head)) ⟨r', 0, rest'⟩ =
        kk →
      Prog.run (L.reader sk) (parseFile B fuel only st) (L.openFile (r :: rest)) = .error e ∧
      fileLeft (L.reader sk) B fuel only st (L.openFile (r :: rest)) = kk := by
    intro e kk e1 e2
    constructor
    · unfold parseFile
      rw [Prog.run_bind_ok hh]
      exact Prog.run_bind_error (hrun.1.trans e1)
    · unfold fileLeft
      rw [hh]
      simp only
      rw [hrun.1.trans e1]
      exact hrun.2.trans e2
  cases hhead with
  | @early r2 rest2 e1 e2 e3 e4 e5 e6 =>
    simp only [List.cons.injEq] at hf'
    obtain ⟨rfl, rfl⟩ := hf'
    obtain ⟨body, hrd⟩ := reader_block e1 e2 e3
    have hnt : ∀ ns : List String, getTable r2.name
        { st1 with g := { st1.g with recordNames := ns } } = .error .nameError := fun ns =>
      getTable_untyped (by exact g1) (by simp [g2, isTrue]) (by exact g3 _)
    have q1 : ∀ ns : List String, Prog.run (L.reader sk) (runReader B fuel
        (.block (if r2.name = "SCONMESH" then sconmeshCheck else noCheck) body)
        { st1 with g := { st1.g with recordNames := ns } } (r2.name, r2.head)) ⟨r2, 0, rest2⟩ =
        .error .nameError := by
      intro ns
      show Prog.run _ (blockReader B fuel _ body _ _) _ = _
      unfold blockReader
      rw [Prog.run_bind_ok (Prog.run_lift_ok (sconmeshCheck_ok e6 rfl))]
      apply Prog.run_bind_error
      simp only
      rw [hnt]
      rfl
    obtain ⟨q3, q4⟩ := parseLoop_error (n := k) (hasTable_ne e1).1 e4
      ((generalParser_reader e5 hrd).trans (q1 _))
    refine fails q3 (q4.trans ((generalLeft_reader e5 hrd).trans ?_))
    show blockLeft _ _ _ _ _ _ _ _ = _
    unfold blockLeft
    simp only [sconmeshCheck_ok e6 rfl, hnt]
    rfl
  | @zero r2 rest2 a b c d e1 e2 e3 e4 e5 =>
    simp only [List.cons.injEq] at hf'
    obtain ⟨rfl, rfl⟩ := hf'
    have hrd : readers r2.name = some .ident := by rw [e1]; rfl
    have first : ∀ st2 : St, st2.g.currentSeltyp = none → Reads
        (if isTrue st2.g.currentSeltyp then .ret st2
          else Prog.bind (intAt r2.head 1) fun n =>
            .ret { st2 with g := { st2.g with currentSeltyp := some n } }) r2
        { st2 with g := { st2.g with currentSeltyp := some 0 } } r2 := by
      intro st2 k2
      rw [k2, if_neg (by simp [isTrue]), e4]
      exact Reads.bind (Reads.intAt (x := b) rfl e5 r2) (Reads.ret _ _)
    have second : ∀ st2 : St, st2.g.hasHierarch = false → st2.g.tables r2.name = none →
        getTable r2.name { st2 with g := { st2.g with currentSeltyp := some 0 } } =
          .error .nameError := fun st2 k1 k3 =>
      getTable_untyped (by exact k1) (by simp [isTrue]) (by exact k3)
    have key : ∀ st2 : St, st2.g.hasHierarch = false → st2.g.currentSeltyp = none →
        st2.g.tables r2.name = none →
        Prog.run (L.reader sk) (runReader B fuel .ident st2 (r2.name, r2.head)) ⟨r2, 0, rest2⟩ =
          .error .nameError ∧
        readerLeft (L.reader sk) B fuel .ident st2 (r2.name, r2.head) ⟨r2, 0, rest2⟩ =
          st2.left := by
      intro st2 k1 k2 k3
      constructor
      · show Prog.run _ (identReader st2 (r2.name, r2.head)) _ = _
        unfold identReader
        refine Raises.bind (first st2 k2) (Raises.first ?_) sk 0 rest2
        intro sk o rest
        simp only
        rw [second st2 k1 k3]
        rfl
      · show identLeft _ _ _ _ = _
        unfold identLeft
        obtain ⟨o, ho⟩ := first st2 k2 sk 0 rest2
        rw [ho]
        simp only [second st2 k1 k3]
    obtain ⟨p1, p2⟩ := key { st1 with g := { st1.g with
      recordNames := st1.g.recordNames ++ [r2.name] } } (by exact g1) (by exact g2) (by exact g3 _)
    obtain ⟨q3, q4⟩ := parseLoop_error (n := k) (by rw [e1]; decide) e2
      ((generalParser_reader e3 hrd).trans p1)
    exact fails q3 (q4.trans ((generalLeft_reader e3 hrd).trans p2))
  | @stop r2 rest2 e1 e2 =>
    simp only [List.cons.injEq] at hf'
    obtain ⟨rfl, rfl⟩ := hf'
    obtain ⟨k, rfl⟩ : ∃ j, k = j + 1 := ⟨k - 1, by simp at hk; omega⟩
    constructor
    · unfold parseFile
      rw [Prog.run_bind_ok hh, Prog.run_bind_ok (hrun.1.trans (stop_run e1 e2))]
      rw [setAttributes_untyped (by exact g1) (by simp [g2, isTrue])]
      rfl
    · unfold fileLeft
      rw [hh]
      simp only
      rw [hrun.1.trans (stop_run e1 e2)]
      simp only [attributesLeft]
      rw [getPath_untyped (by exact g1) (by simp [g2, isTrue])]
      rfl

/-- a file with no record that belongs into a table -/
inductive NoTables (only : Option (List String)) (sk : LRec → Bool) :
    Option String → List LRec → Prop
  | stop {cur r rest} : cur ≠ some r.name → Selected only r.name → EndOfFile r →
      NoTables only sk cur (r :: rest)
  | pass {cur cur' r rest} : Passed only sk cur r cur' → NoTables only sk cur' rest →
      NoTables only sk cur (r :: rest)

theorem NoTables.split {cur : Option String} {f : List LRec} (h : NoTables only sk cur f) :
    ∃ r rest, PassesTo only sk cur f (r :: rest) ∧ Selected only r.name ∧ EndOfFile r := by
  induction h with
  | stop h1 h2 h3 => exact ⟨_, _, .done h1 h2, h2, h3⟩
  | pass h1 _ ih =>
    obtain ⟨r, rest, e1, e2, e3⟩ := ih
    exact ⟨r, rest, .step h1 e1, e2, e3⟩

/-- the group of a lower superelement of which no type is known -/
def untypedGroup (pre ft : String) (topSel : Int) (index : Option Int) : Path :=
  [pre ++ ft ++ toString topSel,
    match index with
    | none => ft ++ "None"
    | some 0 => ft ++ "None"
    | some i => ft ++ "None_" ++ toString i]

theorem getPath_lower {pre ft : String} {topSel : Int} {index : Option Int} {hp : Path}
    {hrec : List Cell} {h0 : H5} {st : St}
    (hin : (Place.low pre ft topSel index hp hrec).In h0)
    (hg : GOk (.low pre ft topSel index hp hrec) [] none true st.g)
    (ht : st.h5.tabs (hp, "HIERARCH") = h0.tabs (hp, "HIERARCH")) :
    getPath st = .ok (untypedGroup pre ft topSel index) := by
  obtain ⟨_, t, row, rows, k1, k2, k3⟩ := hin
  obtain ⟨g1, g2, g3, g4, g5, g6, g7, _⟩ := hg
  have hrow : hierarchRow st 0 = .ok row := hierarchRow_zero g7 (ht.trans k1) k2
  unfold getPath untypedGroup
  simp only [g1, g2, g3, g4, g5, g6, if_true, hrow, bind, Except.bind, hField_of k3]
  cases index with
  | none => simp [isTrue, pyStr]
  | some i =>
    by_cases hi : i = 0
    · subst hi; simp [isTrue, pyStr]
    · simp only [isTrue, hi, ne_eq, not_false_eq_true, decide_true, if_true, pyStr]
      congr 3
      rw [← String.toList_inj]
      simp

theorem noTables_run {f : List LRec} (h : NoTables only sk none f) (B fuel : Nat)
    (hfuel : f.length < fuel) {st : St} : ∃ ns m ls, Prog.run (L.reader sk)
      (parseFile B fuel only st) (L.openFile f) =
      Prog.run (L.reader sk) (Prog.lift (setAttributes (passed st ns m))) ls ∧
      fileLeft (L.reader sk) B fuel only st (L.openFile f) = attributesLeft (passed st ns m) := by
  obtain ⟨r', rest', hpass, h1, h2⟩ := h.split
  obtain ⟨r, rest, rfl⟩ := hpass.nonempty
  obtain ⟨k, ns, m, hk, hrun⟩ := passes_run (sk := sk) B fuel rfl fuel (r :: rest) st r rest rfl
    hfuel hfuel hpass
  have hh : Prog.run (L.reader sk) header (L.openFile (r :: rest)) =
      .ok ((r.name, r.head), ⟨r, 0, rest⟩) := by
    rw [header, Prog.run_call]
    simp [L.reader, L.openFile, L.next]
  obtain ⟨k, rfl⟩ : ∃ j, k = j + 2 := ⟨k - 2, by simp at hk; omega⟩
  refine ⟨ns ++ ["IEND"], m, ⟨r', 0, rest'⟩, ?_, ?_⟩
  · unfold parseFile
    rw [Prog.run_bind_ok hh, Prog.run_bind_ok (hrun.1.trans (stop_run h1 h2))]
    rfl
  · unfold fileLeft
    rw [hh]
    simp only
    rw [hrun.1.trans (stop_run h1 h2)]
    rfl

/-! ### the theorems -/

section
variable {D : Dec} {pl : Place} {s : Int} {h0 : H5} {st : St}

/-- a run that raises on the logical file raises on the file -/
theorem source_error {f : List LRec} {e : Err} (he : e ≠ .outOfFuel) (B : Nat)
    (h : ∀ fuel, f.length < fuel →
      Prog.run (L.reader sk) (parseFile B fuel only st) (L.openFile f) = .error e)
    {src : Source} (henc : EncodedTo D sk f e src) : parseSource D B only st src = .error e := by
  have key : ∀ {z k bs}, U.Encodes D sk z f bs → Tells (U.reader D) sk (U.Rel D sk z) e →
      parseSource D B only st (.unformatted (k :: bs)) = .error e := by
    intro z k bs henc he
    have hlen := henc.length_le
    have h1 := h ((k :: bs).length + 2) (by simp; omega)
    have h3 := run_sim_error (U.simulates D sk z) _ (U.rel_open k henc) he h1
    unfold parseSource parseUnformatted
    dsimp only
    rw [h3]
    rfl
  cases henc with
  | ends henc => exact key henc (tells_unformatted D sk he)
  | stops henc hs =>
  cases henc with
  | unformatted henc => exact key henc (tells_other he hs)
  | @formatted z t henc =>
    have hlen := henc.length_le
    have h1 := h (t.length + 2) (by omega)
    have h3 := run_sim_error (T.simulates D sk z) _ (T.rel_open henc) (tells_other he hs) h1
    unfold parseSource parseFormatted
    dsimp only
    rw [h3]
    rfl

theorem Refuses.error_ne {cur : Option String} {past f : List LRec} {outs : List Added} {e : Err}
    {c : Stop} (h : Refuses only sk e0 cur past f outs e c) : e ≠ .outOfFuel := by
  induction h with
  | wrongMore h => exact (wrong_names h).2.2.2.2
  | wrongFirst _ _ _ h => exact (wrong_names h).2.2.2.2
  | misfitMore h => exact (bad_names (b := false) (.inr ⟨by simp, h⟩)).2.2.2.2
  | misfitFirst _ _ _ h h1 h' => exact (bad_names (b := true) (.inr ⟨fun _ => ⟨h, h1⟩, h'⟩)).2.2.2.2
  | hier _ _ _ h => exact h.error_ne.1
  | mesh => decide
  | stuck _ _ h =>
    exact (stuck_run (sk := fun _ => false) h (B := 0) (fuel := 0) (st := {}) (rest := [])).2.1
  | more _ _ _ ih => exact ih
  | first _ _ _ _ _ _ _ ih => exact ih
  | ident _ _ _ _ _ _ ih => exact ih
  | pass _ _ ih => exact ih
  | ends => decide
  | identEnds => decide
  | passEnds => decide

/-- a file with a record that cannot be converted, as read by the logical reader -/
theorem wrong_record_run {f : List LRec} {outs : List Added} {e : Err} {c : Stop}
    (h : Refuses only sk e0 none [] f outs e c) (hs : s ≠ 0) (hgives : GivesType s outs)
    (hallows : pl.Allows s outs) (hfit : c.Fits s) (hin : pl.In h0)
    (hfree : ∀ l ∈ layouts, h0.tabs (pl.path s, l.name) = none) (hclean : Clean pl e0 h0 st)
    (B fuel : Nat) (hfuel : f.length < fuel) :
    Prog.run (L.reader sk) (parseFile B fuel only st) (L.openFile f) = .error e ∧
    ∃ h elem, fileLeft (L.reader sk) B fuel only st (L.openFile f) = ⟨h, elem⟩ ∧
      LeftBehind B c outs e0 h0 (pl.path s) h elem := by
  have hcore := hclean.core hfree
  obtain ⟨r, rest, rfl⟩ : ∃ r rest, f = r :: rest := by
    generalize hcur : (none : Option String) = cur at h
    cases h <;> first | exact ⟨_, _, rfl⟩ | cases hcur
  have henv : EnvInv e0 [] st.env := by rw [hclean.2.1]; exact EnvInv.init e0
  obtain ⟨hrun, hh5, elem, hleft, hbehind⟩ := parse_refuse (p := pl.path s) rfl hs hin hfree B fuel
    fuel [] (r :: rest) outs e c h hfuel
    hfuel fuel [] st r rest rfl hfuel hgives hallows hfit (by intro l _ o ho; simp at ho) hcore henv
  have hh : Prog.run (L.reader sk) header (L.openFile (r :: rest)) =
      .ok ((r.name, r.head), ⟨r, 0, rest⟩) := by
    rw [header, Prog.run_call]
    simp [L.reader, L.openFile, L.next]
  constructor
  · unfold parseFile
    rw [Prog.run_bind_ok hh]
    exact Prog.run_bind_error hrun
  · refine ⟨hh5, elem, ?_, hbehind⟩
    unfold fileLeft
    rw [hh]
    simp only
    rw [hrun]
    exact hleft

/-- **C64** A file on which a record that cannot be converted follows records that can is refused,
with the exception that belongs to the record, whether formatted or not. -/
theorem wrong_record_refused {f : List LRec} {outs : List Added} {e : Err} {c : Stop}
    (h : Refuses only sk e0 none [] f outs e c) (hs : s ≠ 0) (hgives : GivesType s outs)
    (hallows : pl.Allows s outs) (hfit : c.Fits s) (hin : pl.In h0)
    (hfree : ∀ l ∈ layouts, h0.tabs (pl.path s, l.name) = none) (hclean : Clean pl e0 h0 st)
    (B : Nat) {src : Source} (henc : EncodedTo D sk f e src) :
    parseSource D B only st src = .error e :=
  source_error h.error_ne B
    (fun fuel hfuel => (wrong_record_run h hs hgives hallows hfit hin hfree hclean B fuel hfuel).1) henc

/-- two sets of element types that are described alike -/
theorem elem_eq {a b : Int → Option Int} {P : Int → Int → Prop} (ha : ∀ k t, a k = some t ↔ P k t)
    (hb : ∀ k t, b k = some t ↔ P k t) : a = b := by
  funext k
  cases h : a k with
  | some t => exact ((hb k t).mpr ((ha k t).mp h)).symm
  | none =>
    cases h' : b k with
    | none => rfl
    | some t => rw [(ha k t).mpr ((hb k t).mp h')] at h; cases h

/-- **C75** What such a file leaves behind: in the output file the tables of the records in front
of the one that cannot be converted, as far as they were written, and the element types. -/
theorem wrong_record_left {f : List LRec} {outs : List Added} {e : Err} {c : Stop}
    (h : Refuses only sk e0 none [] f outs e c) (hs : s ≠ 0) (hgives : GivesType s outs)
    (hallows : pl.Allows s outs) (hfit : c.Fits s) (hin : pl.In h0)
    (hfree : ∀ l ∈ layouts, h0.tabs (pl.path s, l.name) = none) (hclean : Clean pl e0 h0 st)
    (B : Nat) {src : Source} (henc : EncodedTo D sk f e src) :
    LeftBehind B c outs e0 h0 (pl.path s) (sourceLeft D B only st src).h5
      (sourceLeft D B only st src).elem := by
  refine sourceLeft_of (P := fun k => LeftBehind B c outs e0 h0 (pl.path s) k.h5 k.elem)
    h.error_ne B (fun fuel hfuel => ?_) henc
  obtain ⟨k1, h2, elem2, e2, b2⟩ := wrong_record_run h hs hgives hallows hfit hin hfree hclean B
    fuel hfuel
  rw [e2]
  exact ⟨k1, b2⟩

/-- **C64** A file, of any level, on which a record is met that cannot be read on from before a table
is opened is refused. -/
theorem halts_refused {f : List LRec} {e : Err} (h : Halts only sk none f e)
    (hclean : Clean pl e0 h0 st) (B : Nat) {src : Source} (henc : EncodedTo D sk f e src) :
    parseSource D B only st src = .error e :=
  source_error h.error_ne B (fun fuel hfuel => (halts_run h B fuel hfuel
    hclean.2.2.2.2.1).1) henc

/-- **C75** Such a file leaves nothing behind. -/
theorem halts_left {f : List LRec} {e : Err} (h : Halts only sk none f e)
    (hclean : Clean pl e0 h0 st) (B : Nat) {src : Source} (henc : EncodedTo D sk f e src) :
    sourceLeft D B only st src = ⟨h0, e0⟩ := by
  rw [sourceLeft_eq h.error_ne B (fun fuel hfuel => halts_run h B fuel hfuel
    hclean.2.2.2.2.1) henc]
  unfold St.left
  rw [hclean.1, hclean.2.1]

/-- **C64** A file opened by the user on which no superelement type is given before it is needed
is refused with `NameError`. -/
theorem untyped_refused {f : List LRec} {pre ft : String} (h : Untyped only sk none f)
    (hclean : Clean (.top pre ft) e0 h0 st) (B : Nat) {src : Source} (henc : Encoded D sk f src) :
    parseSource D B only st src = .error .nameError :=
  source_error (by decide) B (fun fuel hfuel => (untyped_run h B fuel hfuel
    hclean.2.2.2.2.2.2.2.2.2 hclean.2.2.2.2.1 hclean.2.2.2.1).1) (.stops henc (by decide))

/-- **C75** Such a file leaves nothing behind. -/
theorem untyped_left {f : List LRec} {pre ft : String} (h : Untyped only sk none f)
    (hclean : Clean (.top pre ft) e0 h0 st) (B : Nat) {src : Source} (henc : Encoded D sk f src) :
    sourceLeft D B only st src = ⟨h0, e0⟩ := by
  rw [sourceLeft_eq (e := .nameError) (by decide) B (fun fuel hfuel => untyped_run h B fuel hfuel
    hclean.2.2.2.2.2.2.2.2.2 hclean.2.2.2.2.1 hclean.2.2.2.1) (.stops henc (by decide))]
  unfold St.left
  rw [hclean.1, hclean.2.1]

theorem untyped_lower_run {f : List LRec} {pre ft : String} {topSel : Int} {index : Option Int}
    {hp : Path} {hrec : List Cell} (h : NoTables only sk none f)
    (hclean : Clean (.low pre ft topSel index hp hrec) e0 h0 st)
    (hin : (Place.low pre ft topSel index hp hrec).In h0)
    (hnew : h0.groups (untypedGroup pre ft topSel index) = none)
    (B fuel : Nat) (hfuel : f.length < fuel) :
    Prog.run (L.reader sk) (parseFile B fuel only st) (L.openFile f) = .error .nodeError ∧
    fileLeft (L.reader sk) B fuel only st (L.openFile f) = ⟨h0, e0⟩ := by
  obtain ⟨ns, m, ls, hrun, hleft⟩ := noTables_run h B fuel hfuel (st := st)
  rw [hrun, hleft]
  obtain ⟨h1, h2, h3, h4, h5, h6, k1, k2, k3, k4, k5, k6⟩ := hclean
  have hp := getPath_lower (st := passed st ns m) hin
    ⟨k1, k2, k3, h5, k4, h6, k5, k6⟩ (by rw [← h1]; rfl)
  have this : (passed st ns m).h5.groups (untypedGroup pre ft topSel index) = none := by
    rw [← hnew, ← h1]; rfl
  constructor
  · unfold setAttributes
    rw [hp]
    simp only [bind, Except.bind, this]
    rfl
  · unfold attributesLeft
    rw [hp]
    simp only [this]
    show (⟨st.h5, st.env.elem⟩ : Left) = _
    rw [h1, h2]

/-- **C64** A lower level file with no record that belongs into a table is refused, as there is no
group for the superelement type `None`. -/
theorem untyped_lower_refused {f : List LRec} {pre ft : String} {topSel : Int} {index : Option Int}
    {hp : Path} {hrec : List Cell} (h : NoTables only sk none f)
    (hclean : Clean (.low pre ft topSel index hp hrec) e0 h0 st)
    (hin : (Place.low pre ft topSel index hp hrec).In h0)
    (hnew : h0.groups (untypedGroup pre ft topSel index) = none)
    (B : Nat) {src : Source} (henc : Encoded D sk f src) :
    parseSource D B only st src = .error .nodeError :=
  source_error (by decide) B
    (fun fuel hfuel => (untyped_lower_run h hclean hin hnew B fuel hfuel).1) (.stops henc (by decide))

/-- **C75** Such a file leaves nothing behind. -/
theorem untyped_lower_left {f : List LRec} {pre ft : String} {topSel : Int} {index : Option Int}
    {hp : Path} {hrec : List Cell} (h : NoTables only sk none f)
    (hclean : Clean (.low pre ft topSel index hp hrec) e0 h0 st)
    (hin : (Place.low pre ft topSel index hp hrec).In h0)
    (hnew : h0.groups (untypedGroup pre ft topSel index) = none)
    (B : Nat) {src : Source} (henc : Encoded D sk f src) :
    sourceLeft D B only st src = ⟨h0, e0⟩ :=
  sourceLeft_eq (e := .nodeError) (by decide) B
    (fun fuel hfuel => untyped_lower_run h hclean hin hnew B fuel hfuel) (.stops henc (by decide))

/-- **C64** On a lower level file a record in front of the identification opens its table in the
group of the superelement type `None`. -/
theorem untyped_lower_table {pre ft n : String} {topSel : Int} {index : Option Int}
    {hp : Path} {hrec : List Cell} (hn : HasTable n)
    (hclean : Clean (.low pre ft topSel index hp hrec) e0 h0 st)
    (hin : (Place.low pre ft topSel index hp hrec).In h0)
    (hfree : h0.tabs (untypedGroup pre ft topSel index, n) = none) :
    ∃ st' t, getTable n st = .ok (st', untypedGroup pre ft topSel index, t) := by
  obtain ⟨h1, h2, h3, h4, h5, h6, k1, k2, k3, k4, k5, k6⟩ := hclean
  have hp := getPath_lower (st := st) hin
    ⟨k1, k2, k3, h5, k4, h6, k5, k6⟩ (by rw [h1])
  unfold getTable
  simp only [h4, hp, bind, Except.bind]
  obtain ⟨l, hl, hln⟩ := hn
  have hd : descriptor n ≠ none := by
    rw [← hln, layouts_descriptor l hl]; simp
  cases hd' : descriptor n with
  | none => exact absurd hd' hd
  | some c =>
    rw [h1, hfree]
    exact ⟨_, _, rfl⟩

end

end

end Verif.Parse
