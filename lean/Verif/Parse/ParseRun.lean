import Verif.Parse.FileRun
/-!
# parse_file follows the specification, continued: the record loop
-/

namespace Verif.Parse
open Verif Verif.Seq

/-- superelement type known after the records `outs` -/
def selOf (s : Int) (outs : List Added) : Option Int := if outs = [] then none else some s

/-- has a hierarchy been read? -/
def hierOf (outs : List Added) : Bool := decide (ofType "HIERARCH" outs ≠ [])

theorem Core.setG {pl : Place} {p : Path} {h0 : H5} {outs : List Added} {sel sel' : Option Int}
    {hier hier' : Bool} {st : St} (h : Core pl p h0 outs sel hier st) {g : G}
    (hg : GOk pl p sel' hier' g) (ht : g.tables = st.g.tables) :
    Core pl p h0 outs sel' hier' { st with g := g } where
  g := hg
  tabs l hl := (h.tabs l hl).congr (by show g.tables _ = _; rw [ht]) rfl
  other := h.other
  groups := h.groups

theorem GOk.names {pl : Place} {p : Path} {sel : Option Int} {hier : Bool} {g : G}
    (h : GOk pl p sel hier g) (ns : List String) :
    GOk pl p sel hier { g with recordNames := ns } := by
  unfold GOk at h ⊢; exact h

theorem GOk.size {pl : Place} {p : Path} {sel : Option Int} {hier : Bool} {g : G}
    (h : GOk pl p sel hier g) (n : Int) :
    GOk pl p sel hier { g with recSize := n } := by
  unfold GOk at h ⊢; exact h

theorem GOk.setSel {pl : Place} {p : Path} {sel : Option Int} {hier : Bool} {g : G}
    (h : GOk pl p sel hier g) (s : Option Int) :
    GOk pl p s hier { g with currentSeltyp := s } := by
  unfold GOk at h ⊢
  cases pl with
  | top pre ft =>
    obtain ⟨h1, h2, h3, h4, h5⟩ := h
    exact ⟨h1, h2, h3, rfl, h5⟩
  | low pre ft t i hp hrec =>
    obtain ⟨h1, h2, h3, h4, h5⟩ := h
    exact ⟨h1, h2, h3, rfl, h5⟩

theorem Core.addName {pl : Place} {p : Path} {h0 : H5} {outs : List Added} {sel : Option Int}
    {hier : Bool} {st : St} (h : Core pl p h0 outs sel hier st) (ns : List String) :
    Core pl p h0 outs sel hier { st with g := { st.g with recordNames := ns } } :=
  h.setG (h.g.names ns) rfl

theorem sconmeshCheck_ok {name : String} {r : LRec} (h : FirstOK r) (hn : r.name = name) :
    (if name = "SCONMESH" then sconmeshCheck else noCheck) r.head = .ok () := by
  split
  · rename_i hs
    obtain ⟨x, n, h1, h2, h3⟩ := h (hn.trans hs)
    unfold sconmeshCheck
    rw [pyIdx_ok.mpr h1]
    simp only [bind, Except.bind, hasInt_toInt h2]
    rw [if_neg (by omega)]
  · rfl

theorem run_header' {sk : LRec → Bool} {c : LRec} {o : Nat} {r' : LRec} {rest : List LRec}
    (h1 : c.pre = []) (h2 : c.vals = []) :
    Prog.run (L.reader sk) header ⟨c, o, r' :: rest⟩ =
      .ok ((r'.name, r'.head), ⟨r', 0, rest⟩) := by
  rw [header, Prog.run_call]
  simp [L.reader, h1, h2, L.next]

section
variable {pl : Place} {p : Path} {h0 : H5} {e0 : Int → Option Int} {s : Int}

/-- a block of records other than HIERARCH and IDENT -/
theorem block_run (hp : p = pl.path s) (hs : s ≠ 0) (hin : pl.In h0) {done : List Added}
    {hier : Bool} {st : St} (hc : Core pl p h0 done (some s) hier st) {past : List LRec}
    (he : EnvInv e0 past st.env) (hitems : ItemsOK done) {r : LRec} {rest : List LRec}
    {o : Added} {new : List Added} {past' : List LRec} {r' : LRec} {rest' : List LRec}
    (ha : Adds e0 past rest.head? true r o) (hb : Block e0 r.name (r :: past) rest new past' (r' :: rest'))
    (hnew : ∀ o ∈ new, o.first = false) (hf : FirstOK r) (hn1 : r.name ≠ "IDENT")
    (hn2 : r.name ≠ "HIERARCH") (B : Nat) {fuel : Nat} (hfuel : rest.length < fuel)
    (sk : LRec → Bool) : ∃ rd, readers r.name = some rd ∧ ∃ st',
      Prog.run (L.reader sk) (runReader B fuel rd st (r.name, r.head)) ⟨r, 0, rest⟩ =
        .ok ((st', some (r'.name, r'.head)), ⟨r', 0, rest'⟩) ∧
      Core pl p h0 (done ++ o :: new) (some s) hier st' ∧ EnvInv e0 past' st'.env ∧
      st'.g.recordNames = st.g.recordNames := by
  have ha' := ha
  obtain ⟨e, l, hm, hl, hln, hon, hof, hr, hi⟩ := ha'
  obtain ⟨body, hbody, _⟩ := means_run hm hn1
  have hrd : readers r.name =
      some (.block (if r.name = "SCONMESH" then sconmeshCheck else noCheck) body) := by
    rcases hbody with h | ⟨h, _⟩
    · exact h
    · exact absurd h hn2
  refine ⟨_, hrd, ?_⟩
  have hblk : Block e0 r.name past (r :: rest) (o :: new) past' (r' :: rest') := .step rfl ha hb
  obtain ⟨st1, hg1, ho1, henv1, hnames1⟩ := getTable_run hc hp hs hin hl
  rw [hln] at hg1
  have hlen := contents_length (hitems l hl)
  have hw0 := WInv.open (l := l) hlen
  have he1 : EnvInv e0 past { st1.env with grid := none } := by rw [henv1]; exact he.regrid none
  obtain ⟨w', env', hloop, hw', he'⟩ := loop_run hblk hn1 hbody hl hln B sk
    (r := r) (rest := rest) rfl rfl (fuel := fuel) (by simp only [List.length_cons]; omega) hw0 he1
  rw [← foldl_first hof hnew] at hw'
  have hcont : contents l (done ++ o :: new) =
      (o :: new).foldl (fun t o => t.add o.first o.cells o.items) (contents l done) := by
    rw [contents_append, ofType_same]
    intro x hx
    rw [hln]
    exact hblk.names x hx
  rw [← hcont] at hw'
  obtain ⟨w2, hw2, htab, _⟩ := hw'.write
  refine ⟨{ st1 with env := env', h5 := st1.h5.put p r.name w2.tab }, ?_, ?_, he', hnames1⟩
  · show Prog.run _ (blockReader B fuel _ body st (r.name, r.head)) _ = _
    unfold blockReader
    rw [Prog.run_bind_ok (Prog.run_lift_ok (sconmeshCheck_ok hf rfl)),
      Prog.run_bind_ok (Prog.run_lift_ok hg1), Prog.run_bind_ok hloop,
      Prog.run_bind_ok (Prog.run_lift_ok hw2)]
    rfl
  · rw [htab, ← hln]
    exact ho1.close hl (by simp) (fun x hx => by rw [hln]; exact hblk.names x hx) env'

theorem hierOf_append {a b : List Added} {o : Added} (h : o.name = "HIERARCH") :
    hierOf (a ++ o :: b) = true := by
  unfold hierOf
  rw [ofType_append]
  simp [ofType, h]

theorem hierOf_other {a b : List Added} {n : String} (h : ∀ o ∈ b, o.name = n)
    (hn : n ≠ "HIERARCH") : hierOf (a ++ b) = hierOf a := by
  unfold hierOf
  rw [ofType_append, ofType_other h hn.symm, List.append_nil]

theorem storedRow_int {cols : List Col} {row : List Val} {cells : List Cell}
    (h : StoredRow cols row cells) {i : Nat} {c : Col} {x : PyF} {n : Int} (hc : cols[i]? = some c)
    (hk : c.kind = .int) (hsh : c.shape = .sc) (hx : row[i]? = some (.sc (.num x)))
    (hf : HasField cells i n) : HasInt x n := by
  obtain ⟨h1, h2, h3⟩ := h
  induction cols generalizing row cells i with
  | nil => simp at hc
  | cons c' cols ih =>
    cases row with
    | nil => simp at h2
    | cons v row =>
      cases cells with
      | nil => simp at h3
      | cons y cells =>
        simp only [List.zip_cons_cons, List.forall₂_cons] at h1
        cases i with
        | zero =>
          simp only [List.getElem?_cons_zero, Option.some.injEq, HasField] at hc hx hf
          subst hc hx hf
          have := h1.1
          rw [hk, hsh] at this
          cases this with
          | sc h => cases h with
            | int h => exact h
        | succ i =>
          simp only [List.getElem?_cons_succ, HasField] at hc hx hf
          exact ih hc hx hf h1.2 (by simpa using h2) (by simpa using h3)

theorem adds_hierarch {past : List LRec} {next : Option LRec} {b : Bool} {r : LRec} {o : Added}
    (ha : Adds e0 past next b r o) (hn : r.name = "HIERARCH") :
    ∃ head a b c d ihs pad, r = ⟨"HIERARCH", head, [], 0, a :: b :: c :: d :: ihs, pad⟩ ∧
      HasInt d ihs.length ∧ ∃ l ∈ layouts, l.name = "HIERARCH" ∧
      StoredRow l.cols (numbers (head ++ [a, b, c, d])) o.cells ∧
      StoredItems l.arrs [some (numbers ihs)] o.items := by
  obtain ⟨e, l, hm, hl, hln, hon, hof, hr, hi⟩ := ha
  cases hm with
  | hierarch h => exact ⟨_, _, _, _, _, _, _, rfl, h, l, hl, hln, hr, hi⟩
  | fixed h1 => simp only at hn; subst hn; simp [fixedTypes] at h1
  | optPresent h1 => simp only at hn; subst hn; simp [optionalTypes] at h1
  | optAbsent h1 => simp only at hn; subst hn; simp [optionalTypes] at h1
  | fixedCut h1 => simp only at hn; subst hn; simp [fixedTypes] at h1
  | optCut h1 => simp only at hn; subst hn; simp [optionalTypes] at h1
  | rdpoints h1 => exact absurd (h1.1.symm.trans hn) (by decide)
  | _ => first
    | (simp only at hn; exact absurd hn (by decide))
    | (simp only at hn; subst hn; simp_all)

/-- a block of HIERARCH records -/
theorem hierarch_run {pre ft : String} (hpl : pl = .top pre ft) (hp : p = pl.path s) (hs : s ≠ 0)
    (hin : pl.In h0) {done : List Added} {sel : Option Int}
    {hier : Bool} {st : St} (hc : Core pl p h0 done sel hier st) {past : List LRec}
    (he : EnvInv e0 past st.env) (hitems : ItemsOK done) {r : LRec} {rest : List LRec}
    {o : Added} {new : List Added} {past' : List LRec} {r' : LRec} {rest' : List LRec}
    (ha : Adds e0 past rest.head? true r o)
    (hb : Block e0 r.name (r :: past) rest new past' (r' :: rest'))
    (hnew : ∀ o ∈ new, o.first = false) (hn : r.name = "HIERARCH") (hsel : HasField o.cells 2 s)
    (B : Nat) {fuel : Nat} (hfuel : rest.length ≤ fuel) (sk : LRec → Bool) : ∃ st',
      Prog.run (L.reader sk) (runReader B fuel .hierarch st (r.name, r.head)) ⟨r, 0, rest⟩ =
        .ok ((st', some (r'.name, r'.head)), ⟨r', 0, rest'⟩) ∧
      Core pl p h0 (done ++ o :: new) (some s) true st' ∧ EnvInv e0 past' st'.env ∧
      st'.g.recordNames = st.g.recordNames := by
  have ha' := ha
  obtain ⟨_, _, _, _, _, hon, hof, _, _⟩ := ha'
  obtain ⟨head, a, b, c, d, ihs, pad, rfl, hd, l, hl, hln, hr, hi⟩ := adds_hierarch ha hn
  have hblk : Block e0 "HIERARCH" past (_ :: rest) (o :: new) past' (r' :: rest') := .step rfl ha hb
  -- the superelement type
  have hlay : l = layouts.head (by decide) := layout_eq hl (List.head_mem _) (by rw [hln]; rfl)
  have hheadlen : head.length = 4 := by
    have := hr.2.1
    rw [hlay] at this
    simp [numbers, layouts] at this
    exact this
  obtain ⟨x0, x1, x2, x3, rfl⟩ : ∃ x0 x1 x2 x3, head = [x0, x1, x2, x3] := by
    match head, hheadlen with
    | [x0, x1, x2, x3], _ => exact ⟨x0, x1, x2, x3, rfl⟩
  have hx2 : HasInt x2 s := by
    refine storedRow_int hr (i := 2) (c := colI "iselty") ?_ rfl rfl rfl hsel
    rw [hlay]; rfl
  -- get_table
  have hc0 : Core pl p h0 done (some s) hier { st with g := { st.g with currentSeltyp := some s } } :=
    hc.setG (hc.g.setSel _) rfl
  obtain ⟨st1, hg1, ho1, henv1, hnames1⟩ := getTable_run hc0 hp hs hin hl
  rw [hln] at hg1
  have hlen := contents_length (hitems l hl)
  have hw0 := WInv.open (l := l) hlen
  obtain ⟨w1, hadd1, hw1⟩ := hw0.add B
    (e := ⟨numbers ([x0, x1, x2, x3] ++ [a, b, c, d]), [some (numbers ihs)]⟩) hr hi
  -- reading
  have hrd1 : Reads (floats 4) (⟨"HIERARCH", [x0, x1, x2, x3], [], 0, a :: b :: c :: d :: ihs, pad⟩)
      [a, b, c, d] ⟨"HIERARCH", [x0, x1, x2, x3], [], 0, ihs, pad⟩ :=
    Reads.floats (a := [a, b, c, d]) (b := ihs) rfl (fun _ => rfl)
  have hrd2 : Reads (hierarchRest [x0, x1, x2, x3] [a, b, c, d])
      ⟨"HIERARCH", [x0, x1, x2, x3], [], 0, ihs, pad⟩
      (emitOf ⟨numbers ([x0, x1, x2, x3] ++ [a, b, c, d]), [some (numbers ihs)]⟩)
      ⟨"HIERARCH", [x0, x1, x2, x3], [], 0, [], pad⟩ := by
    refine Reads.bind (Reads.intAt (x := d) rfl hd _) ?_
    exact Reads.bind (Reads.floatsAll rfl (fun _ => rfl)) (Reads.ret _ _)
  have he1 : EnvInv e0 (⟨"HIERARCH", [x0, x1, x2, x3], [], 0, a :: b :: c :: d :: ihs, pad⟩ :: past)
      st1.env := by
    rw [henv1]; exact he.skip' (plainB rfl)
  obtain ⟨r1, rest1, hr1⟩ := hb.nonempty
  subst hr1
  obtain ⟨w', env', hloop, hw', he'⟩ := loop_run hb (by show "HIERARCH" ≠ "IDENT"; decide) (.inr ⟨rfl, rfl⟩) hl hln B sk rfl rfl
    hfuel hw1 he1
  have hfold : new.foldl (fun t o => t.add false o.cells o.items)
      ((contents l done).fresh.add false o.cells o.items) = contents l (done ++ o :: new) := by
    rw [contents_append, ofType_same]
    · rw [foldl_first hof hnew]; rfl
    · intro x hx
      rw [hln]
      exact hblk.names x hx
  rw [hfold] at hw'
  obtain ⟨w2, hw2, htab, _⟩ := hw'.write
  obtain ⟨row, rows, hrows⟩ : ∃ row rows, (contents l (done ++ o :: new)).rows = row :: rows := by
    have h1 := contents_rows (l := l) (outs := done ++ o :: new)
    cases hrw : (contents l (done ++ o :: new)).rows with
    | nil =>
      rw [hrw, ofType_append] at h1
      simp [ofType, hon, hln] at h1
    | cons row rows => exact ⟨row, rows, rfl⟩
  have hclose : Core pl p h0 (done ++ o :: new) (some s) hier
      { st1 with env := env', h5 := st1.h5.put p "HIERARCH" w2.tab } := by
    rw [htab, ← hln]
    exact ho1.close hl (by simp) (fun x hx => by rw [hln]; exact hblk.names x hx) env'
  let st2 : St := { st1 with
    env := env', h5 := st1.h5.put p "HIERARCH" w2.tab,
    g := { st1.g with hasHierarch := true, attoplevel := true, hierarchTable := some p } }
  have hrow : hierarchRow st2 0 = .ok row := by
    refine hierarchRow_zero (p := p) (t := (contents l (done ++ o :: new)).table l) (rows := rows)
      rfl ?_ hrows
    simp [st2, H5.put, htab]
  refine ⟨{ st2 with g := { st2.g with currentHrec := some row } }, ?_, ?_, he', hnames1⟩
  · show Prog.run _ (hierarchReader B fuel st ("HIERARCH", [x0, x1, x2, x3])) _ = _
    unfold hierarchReader
    obtain ⟨o1, e1⟩ := hrd1 sk 0 (r1 :: rest1)
    rw [Prog.run_bind_ok e1]
    obtain ⟨o2, e2⟩ := Reads.intAt (l := [x0, x1, x2, x3]) (i := 2) (x := x2) rfl hx2
      ⟨"HIERARCH", [x0, x1, x2, x3], [], 0, ihs, pad⟩ sk o1 (r1 :: rest1)
    rw [Prog.run_bind_ok e2]
    simp only
    rw [Prog.run_bind_ok (Prog.run_lift_ok hg1)]
    obtain ⟨o3, e3⟩ := hrd2 sk o2 (r1 :: rest1)
    rw [Prog.run_bind_ok e3, Prog.run_bind_ok (Prog.run_lift_ok hadd1)]
    rw [Prog.run_bind_ok (run_header' rfl rfl)]
    rw [Prog.run_bind_ok hloop, Prog.run_bind_ok (Prog.run_lift_ok hw2)]
    rw [Prog.run_bind_ok (Prog.run_lift_ok hrow)]
    rfl
  · have hg := hclose.g
    refine hclose.setG (g := { st2.g with currentHrec := some row }) ?_ rfl
    subst hpl
    unfold GOk at hg ⊢
    obtain ⟨h1, h2, h3, h4, h5⟩ := hg
    exact ⟨h1, h2, h3, h4, rfl, rfl, fun _ => rfl⟩

theorem adds_ident {past : List LRec} {next : Option LRec} {b : Bool} {r : LRec} {o : Added}
    (ha : Adds e0 past next b r o) (hn : r.name = "IDENT") :
    ∃ a b c d sk pad i j k, r = ⟨"IDENT", [a, b, c, d], [], sk, [], pad⟩ ∧
      HasInt a i ∧ HasInt b j ∧ HasInt c k ∧
      o.cells = [.sc (.int i), .sc (.int j), .sc (.int k)] ∧ o.items = [] := by
  obtain ⟨e, l, hm, hl, hln, hon, hof, hr, hi⟩ := ha
  have hlay : l = ⟨"IDENT", [colI "slevel", colI "seltyp", colI "selmod"], []⟩ :=
    layout_eq hl (by decide +kernel) (by rw [hln]; exact hn)
  subst hlay
  cases hm with
  | ident h1 h2 h3 =>
    refine ⟨_, _, _, _, _, _, _, _, _, rfl, h1, h2, h3, ?_, ?_⟩
    · obtain ⟨g1, g2, g3⟩ := hr
      match ho : o.cells, g3 with
      | [c1, c2, c3], _ =>
        rw [ho] at g1
        simp only [List.zip_cons_cons, List.forall₂_cons] at g1
        obtain ⟨k1, k2, k3, _⟩ := g1
        cases k1 with | sc k1 => cases k2 with | sc k2 => cases k3 with | sc k3 =>
        cases k1; cases k2; cases k3
        rfl
    · exact List.length_eq_zero_iff.mp hi.2.2
  | fixed h1 => simp only at hn; subst hn; simp [fixedTypes] at h1
  | optPresent h1 => simp only at hn; subst hn; simp [optionalTypes] at h1
  | optAbsent h1 => simp only at hn; subst hn; simp [optionalTypes] at h1
  | fixedCut h1 => simp only at hn; subst hn; simp [fixedTypes] at h1
  | optCut h1 => simp only at hn; subst hn; simp [optionalTypes] at h1
  | rdpoints h1 => exact absurd (h1.1.symm.trans hn) (by decide)
  | _ => first
    | (simp only at hn; exact absurd hn (by decide))
    | (simp only at hn; subst hn; simp_all)

/-- an IDENT record -/
theorem ident_run (hp : p = pl.path s) (hs : s ≠ 0) (hin : pl.In h0) {done : List Added}
    {hier : Bool} {st : St} (hc : Core pl p h0 done (selOf s done) hier st) {past : List LRec}
    (he : EnvInv e0 past st.env) {r : LRec} {o : Added}
    {r' : LRec} {rest' : List LRec}
    (ha : Adds e0 past (some r') true r o)
    (hn : r.name = "IDENT") (hsel : done = [] → HasField o.cells 1 s)
    (B fuel : Nat) (sk : LRec → Bool) : ∃ st',
      Prog.run (L.reader sk) (runReader B fuel .ident st (r.name, r.head)) ⟨r, 0, r' :: rest'⟩ =
        .ok ((st', some (r'.name, r'.head)), ⟨r', 0, rest'⟩) ∧
      Core pl p h0 (done ++ [o]) (some s) hier st' ∧ EnvInv e0 (r :: past) st'.env ∧
      st'.g.recordNames = st.g.recordNames := by
  have ha' := ha
  obtain ⟨_, _, _, _, _, hon, hof, _, _⟩ := ha'
  obtain ⟨a, b, c, d, skn, pad, i, j, k, rfl, hi, hj, hk, hcells, hitems⟩ := adds_ident ha hn
  let st0 : St := { st with g := { st.g with currentSeltyp := some s } }
  have hc0 : Core pl p h0 done (some s) hier st0 := hc.setG (hc.g.setSel _) rfl
  let l : Layout := ⟨"IDENT", [colI "slevel", colI "seltyp", colI "selmod"], []⟩
  have hl : l ∈ layouts := by decide +kernel
  obtain ⟨st1, hg1, ho1, henv1, hnames1⟩ := getTable_run hc0 hp hs hin hl
  have hcont : (contents l (done ++ [o])).table l =
      { (contents l done).table l with rows := ((contents l done).table l).rows ++
          [[.sc (.int i), .sc (.int j), .sc (.int k)]] } := by
    rw [contents_append, ofType_same (by simpa using hon)]
    simp only [List.foldl_cons, List.foldl_nil, Acc.table, Acc.add, hcells, hitems]
    simp [limits, l]
  refine ⟨{ st1 with h5 := st1.h5.put p "IDENT" ((contents l (done ++ [o])).table l) }, ?_, ?_, ?_,
    hnames1⟩
  · show Prog.run _ (identReader st ("IDENT", [a, b, c, d])) _ = _
    unfold identReader
    let cr : LRec := ⟨"IDENT", [a, b, c, d], [], skn, [], pad⟩
    obtain ⟨o1, e1⟩ := Reads.intAt (l := [a, b, c, d]) (i := 1) (x := b) rfl hj cr sk 0 (r' :: rest')
    have hfirst : Prog.run (L.reader sk) (if isTrue st.g.currentSeltyp then Prog.ret st
        else Prog.bind (intAt [a, b, c, d] 1) fun n =>
          .ret { st with g := { st.g with currentSeltyp := some n } }) ⟨cr, 0, r' :: rest'⟩ =
        .ok (st0, ⟨cr, (if done = [] then o1 else 0), r' :: rest'⟩) := by
      have hg := hc.g
      by_cases hd : done = []
      · have hst : st.g.currentSeltyp = none := by
          unfold GOk selOf at hg
          rw [if_pos hd] at hg
          cases pl <;> exact hg.2.2.2.1
        have : j = s := by
          have := hsel hd
          rw [hcells] at this
          simpa [HasField] using this
        subst this
        rw [hst, if_neg (by simp [isTrue]), Prog.run_bind_ok e1, if_pos hd]
        rfl
      · have hst : st.g.currentSeltyp = some s := by
          unfold GOk selOf at hg
          rw [if_neg hd] at hg
          cases pl <;> exact hg.2.2.2.1
        rw [if_pos (by simp [hst, isTrue, hs]), if_neg hd, Prog.run_ret]
        congr 2
        show st = { st with g := { st.g with currentSeltyp := some s } }
        rw [← hst]
    rw [Prog.run_bind_ok hfirst]
    rw [Prog.run_bind_ok (Prog.run_lift_ok hg1)]
    obtain ⟨o2, e2⟩ := Reads.intAt (l := [a, b, c, d]) (i := 0) (x := a) rfl hi cr sk
      (if done = [] then o1 else 0) (r' :: rest')
    obtain ⟨o3, e3⟩ := Reads.intAt (l := [a, b, c, d]) (i := 1) (x := b) rfl hj cr sk
      o2 (r' :: rest')
    obtain ⟨o4, e4⟩ := Reads.intAt (l := [a, b, c, d]) (i := 2) (x := c) rfl hk cr sk
      o3 (r' :: rest')
    rw [Prog.run_bind_ok e2, Prog.run_bind_ok e3, Prog.run_bind_ok e4]
    simp only
    rw [Prog.run_bind_ok (run_header' rfl rfl), hcont]
    rfl
  · have := ho1.close hl (new := [o]) (by simp) (by simpa using hon) st1.env
    exact this
  · rw [show (({ st1 with h5 := _ } : St).env) = st.env from henv1]
    exact he.skip' (plainB rfl)

/-! ### the record loop -/

theorem run_idx {sk : LRec → Bool} {x : PyF} {t : List PyF} {ls : LState} :
    Prog.run (L.reader sk) (idx (x :: t) 0) ls = .ok (x, ls) :=
  Prog.run_lift_ok (pyIdx_ok.mpr rfl)

theorem adds_table {past : List LRec} {next : Option LRec} {b : Bool} {r : LRec} {o : Added}
    (ha : Adds e0 past next b r o) : HasTable r.name := by
  obtain ⟨_, l, _, hl, hln, _⟩ := ha
  exact ⟨l, hl, hln⟩

theorem adds_items {past : List LRec} {next : Option LRec} {b : Bool} {r : LRec} {o : Added}
    (ha : Adds e0 past next b r o) : ItemsOK [o] := by
  obtain ⟨e, l, _, hl, hln, hon, _, _, hi⟩ := ha
  intro l' hl' o' ho' hn
  simp only [List.mem_singleton] at ho'
  subst ho'
  have : l' = l := layout_eq hl' hl (by rw [← hn, hon, hln])
  subst this
  exact hi.2.2

theorem ItemsOK.append {a b : List Added} (ha : ItemsOK a) (hb : ItemsOK b) : ItemsOK (a ++ b) := by
  intro l hl o ho
  rw [List.mem_append] at ho
  rcases ho with ho | ho
  · exact ha l hl o ho
  · exact hb l hl o ho

theorem Block.items {nm : String} {past f past' f' : List LRec} {outs : List Added}
    (h : Block e0 nm past f outs past' f') : ItemsOK outs := by
  induction h with
  | done _ => intro l _ o ho; simp at ho
  | step _ ha _ ih => exact (adds_items ha).append ih

theorem adds_name {past : List LRec} {next : Option LRec} {b : Bool} {r : LRec} {o : Added}
    (ha : Adds e0 past next b r o) : o.name = r.name := by
  obtain ⟨_, _, _, _, _, hon, _⟩ := ha
  exact hon

theorem adds_first {past : List LRec} {next : Option LRec} {b : Bool} {r : LRec} {o : Added}
    (ha : Adds e0 past next b r o) : o.first = b := by
  obtain ⟨_, _, _, _, _, _, h, _⟩ := ha
  exact h

theorem Accepts.nonempty {only : Option (List String)} {sk : LRec → Bool} {cur : Option String}
    {past f : List LRec} {outs : List Added} {names : List String}
    (h : Accepts only sk e0 cur past f outs names) : ∃ r rest, f = r :: rest := by
  cases h <;> exact ⟨_, _, rfl⟩

theorem selected_eq {only : Option (List String)} {name : String} (h : Selected only name) :
    selected only name = true := by
  unfold Selected at h
  unfold selected
  cases only with
  | none => rfl
  | some l => simpa using h

theorem not_selected_eq {only : Option (List String)} {name : String} (h : ¬ Selected only name) :
    selected only name = false := by
  unfold Selected at h
  unfold selected
  cases only with
  | none => simp at h
  | some l => simpa using h

/-- a run of records that are not selected -/
theorem Accepts.unsel {only : Option (List String)} {sk : LRec → Bool} {nm : String}
    (hnm : ¬ Selected only nm) (hne : nm ≠ "") {past f : List LRec} {outs : List Added} {names : List String}
    (h : Accepts only sk e0 none past f outs names) (fuel : Nat) (hfuel : f.length ≤ fuel) :
    ∃ r rest r' rest', f = r :: rest ∧ (r' :: rest').length ≤ f.length ∧
      Prog.run (L.reader sk) (skipLoop nm fuel (r.name, r.head)) ⟨r, 0, rest⟩ =
        .ok ((r'.name, r'.head), ⟨r', 0, rest'⟩) ∧
      Accepts only sk e0 none past (r' :: rest') outs names := by
  induction fuel generalizing f with
  | zero =>
    obtain ⟨r, rest, rfl⟩ := h.nonempty
    simp at hfuel
  | succ fuel ih =>
    obtain ⟨r, rest, rfl⟩ := h.nonempty
    by_cases hn : r.name = nm
    · have hun : sk r = true ∧ Accepts only sk e0 none past rest outs names := by
        cases h with
        | stop h1 h2 => rw [← h2.1, hn] at h1; exact absurd h1 hnm
        | eof hm _ => exact absurd (hn.symm.trans hm) (by simpa using hne)
        | first _ _ h => rw [hn] at h; exact absurd h hnm
        | ident _ h => rw [hn] at h; exact absurd h hnm
        | void _ _ h => rw [hn] at h; exact absurd h hnm
        | unselected _ _ _ h1 h2 => exact ⟨h1, h2⟩
        | unread _ _ _ _ _ _ h => rw [hn] at h; exact absurd h hnm
        | recsize h => rw [hn] at h; exact absurd h hnm
        | notEnd h => rw [hn] at h; exact absurd h hnm
      obtain ⟨r1, rest1, r', rest', rfl, e2, e3, e4⟩ := ih hun.2 (by simpa using hfuel)
      refine ⟨r, r1 :: rest1, r', rest', rfl, by simp at e2 ⊢; omega, ?_, e4⟩
      simp only [skipLoop]
      rw [if_pos hn, Prog.run_bind_ok (a := (r1.name, r1.head)) (s' := ⟨r1, 0, rest1⟩)]
      · exact e3
      · rw [skipRest, Prog.run_call]
        simp [L.reader, L.next, hun.1]
    · refine ⟨r, rest, r, rest, rfl, Nat.le_refl _, ?_, h⟩
      simp only [skipLoop]
      rw [if_neg hn]
      rfl

theorem isVoid_of {r : LRec} (h : Void r) : isVoid r = true := by
  cases h with
  | one h => exact h
  | two => rfl

theorem isVoid_zero {r : LRec} (h : r.head.head? = some (.rat 0)) : isVoid r = false := by
  unfold isVoid
  cases hh : r.head with
  | nil => rfl
  | cons x t =>
    rw [hh] at h
    simp only [List.head?_cons, Option.some.injEq] at h
    subst h
    exact (by decide : (PyF.rat 0).ltZero = false)

set_option maxRecDepth 4000 in
/-- the loop of `parse_file` -/
theorem parse_run (hp : p = pl.path s) (hs : s ≠ 0) (hin : pl.In h0)
    {only : Option (List String)} {sk : LRec → Bool} (B fuel : Nat) :
    ∀ (n : Nat) (past f : List LRec) (outs : List Added) (names : List String),
      Accepts only sk e0 none past f outs names → f.length < n → f.length < fuel →
      ∀ (done : List Added) (st : St) (r : LRec) (rest : List LRec), f = r :: rest →
        GivesType s (done ++ outs) → pl.Allows s (done ++ outs) → ItemsOK done →
        Core pl p h0 done (selOf s done) (hierOf done) st → EnvInv e0 past st.env →
        ∃ st' ls, Prog.run (L.reader sk)
            (parseLoop B only fuel n st (some (r.name, r.head))) ⟨r, 0, rest⟩ = .ok (st', ls) ∧
          Core pl p h0 (done ++ outs) (selOf s (done ++ outs)) (hierOf (done ++ outs)) st' ∧
          st'.g.recordNames = st.g.recordNames ++ names ∧
          (only = none →
            EnvInv e0 (((eventsAfter none past f).map Event.record).reverse ++ past) st'.env) := by
  intro n
  induction n with
  | zero => intro past f outs names _ h; omega
  | succ n ih =>
    intro past f outs names hacc hn hfuel done st r rest hf hgives hallows hitems hcore henv
    subst hf
    cases hacc with
    | stop h1 h2 =>
      obtain ⟨h2, x, t, hx, rfl⟩ := h2
      refine ⟨{ st with g := { st.g with recordNames := st.g.recordNames ++ ["IEND"] } },
        ⟨r, 0, rest⟩, ?_, ?_, rfl, fun _ => ?_⟩
      · simp only [parseLoop]
        rw [if_neg (by rw [h2]; decide), h2, selected_eq h1, if_pos rfl]
        have hgp : Prog.run (L.reader sk) (generalParser B fuel st ("IEND", r.head)) ⟨r, 0, rest⟩ =
            .ok (({ st with g := { st.g with recordNames := st.g.recordNames ++ ["IEND"] } }, none),
              ⟨r, 0, rest⟩) := by
          unfold generalParser
          simp only [hx]
          rw [Prog.run_bind_ok run_idx, if_neg (by decide +kernel)]
          rw [show readers "IEND" = some .iend from rfl]
          simp only [runReader]
          rw [Prog.run_bind_ok run_idx, if_pos (by decide +kernel)]
          rfl
        rw [Prog.run_bind_ok hgp]
        cases n with
        | zero => simp at hn
        | succ n => rfl
      · rw [List.append_nil]
        exact hcore.addName _
      · simpa [eventsAfter, h2, hx] using henv
    | eof hm _ =>
      refine ⟨st, ⟨r, 0, []⟩, ?_, by rw [List.append_nil]; exact hcore, by simp, fun _ => ?_⟩
      · simp only [parseLoop]
        rw [if_pos hm]
        rfl
      · rw [eventsAfter_eof hm]
        exact henv
    | @first _ _ _ _ o outs names h1 h2 h3 h4 h5 ha hacc =>
      have htab := adds_table ha
      obtain ⟨new, outs', past', f', rfl, hblk, hnew, hlen, hacc'⟩ := hacc.block htab h2
      obtain ⟨r', rest', rfl, hr'⟩ := hblk.end
      obtain ⟨x, t, hx, hneg⟩ := h4
      have hnames : ∀ y ∈ o :: new, y.name = r.name := by
        intro y hy
        simp only [List.mem_cons] at hy
        rcases hy with rfl | hy
        · exact adds_name ha
        · exact hblk.names y hy
      have hitems' : ItemsOK (done ++ o :: new) :=
        hitems.append ((adds_items ha).append hblk.items)
      let st0 : St := { st with g := { st.g with recordNames := st.g.recordNames ++ [r.name] } }
      have hcore0 : Core pl p h0 done (selOf s done) (hierOf done) st0 := hcore.addName _
      have hsplit : done ++ o :: (new ++ outs') = (done ++ o :: new) ++ outs' := by simp
      rw [hsplit] at hgives hallows ⊢
      -- the reader
      have hrd : ∃ rd, readers r.name = some rd ∧ ∃ st',
          Prog.run (L.reader sk) (runReader B fuel rd st0 (r.name, r.head)) ⟨r, 0, rest⟩ =
            .ok ((st', some (r'.name, r'.head)), ⟨r', 0, rest'⟩) ∧
          Core pl p h0 (done ++ o :: new) (some s) (hierOf (done ++ o :: new)) st' ∧
          EnvInv e0 past' st'.env ∧ st'.g.recordNames = st0.g.recordNames := by
        by_cases hh : r.name = "HIERARCH"
        · cases hplc : pl with
          | low pre ft tp ix hpp hrec =>
            rw [hplc] at hallows
            exact absurd ((adds_name ha).trans hh) (hallows o (by simp))
          | top pre ft =>
            have hsel : HasField o.cells 2 s := by
              rw [hplc] at hallows
              exact hallows o (by simp) ((adds_name ha).trans hh) (adds_first ha)
            obtain ⟨st', e1, e2, e3, e4⟩ := hierarch_run hplc hp hs hin hcore0 henv hitems ha hblk hnew
              hh hsel B (fuel := fuel) (by simp only [List.length_cons] at hfuel; omega) sk
            refine ⟨.hierarch, by rw [hh]; rfl, st', e1, ?_, e3, e4⟩
            rw [hierOf_append ((adds_name ha).trans hh), ← hplc]
            exact e2
        · have hd : done ≠ [] := by
            rintro rfl
            obtain ⟨o', ho', hh'⟩ := hgives
            simp only [List.nil_append, List.cons_append, List.head?_cons, Option.some.injEq] at ho'
            subst ho'
            rcases hh' with hh' | hh'
            · exact h2 ((adds_name ha).symm.trans hh'.1)
            · exact hh ((adds_name ha).symm.trans hh'.1)
          have hsel : selOf s done = some s := by simp [selOf, hd]
          rw [hsel] at hcore0
          obtain ⟨rd, e0, st', e1, e2, e3, e4⟩ := block_run hp hs hin hcore0 henv hitems ha hblk hnew
            h5 h2 hh B (fuel := fuel) (by simp at hfuel; omega) sk
          refine ⟨rd, e0, st', e1, ?_, e3, e4⟩
          rw [hierOf_other hnames hh]
          exact e2
      obtain ⟨rd, hrd, st', e1, e2, e3, e4⟩ := hrd
      have hsel : selOf s (done ++ o :: new) = some s := by simp [selOf]
      rw [← hsel] at e2
      have hlen' : (r' :: rest').length ≤ rest.length := hlen
      simp only [List.length_cons] at hn hfuel hlen'
      obtain ⟨st2, ls, g1, g2, g3, g4⟩ := ih past' (r' :: rest') outs' names hacc'
        (by simp only [List.length_cons]; omega) (by simp only [List.length_cons]; omega)
        (done ++ o :: new) st' r' rest' rfl hgives hallows hitems' e2 e3
      refine ⟨st2, ls, ?_, g2, ?_, fun ho => ?_⟩
      · simp only [parseLoop]
        rw [if_neg (hasTable_ne htab).1, selected_eq h3, if_pos rfl]
        have hgp : Prog.run (L.reader sk) (generalParser B fuel st (r.name, r.head)) ⟨r, 0, rest⟩ =
            .ok ((st', some (r'.name, r'.head)), ⟨r', 0, rest'⟩) := by
          unfold generalParser
          simp only
          rw [hx, Prog.run_bind_ok run_idx, if_neg (by simp [hneg]), hrd, ← hx]
          exact e1
        rw [Prog.run_bind_ok hgp]
        exact g1
      · rw [g3, e4]
        simp [st0]
      · have hv : isVoid r = false := by unfold isVoid; rw [hx]; exact hneg
        rw [eventsAfter_row ha (.inl hv), if_neg h2]
        have := hblk.read h2
        have g4 := g4 ho
        rw [← this] at g4
        simpa using g4
    | @ident _ _ _ _ o outs names h1 h2 h3 ha hacc =>
      obtain ⟨r', rest', rfl⟩ := hacc.nonempty
      obtain ⟨x, t, hx, hneg⟩ := h3
      let st0 : St := { st with g := { st.g with recordNames := st.g.recordNames ++ [r.name] } }
      have hcore0 : Core pl p h0 done (selOf s done) (hierOf done) st0 := hcore.addName _
      have hitems' : ItemsOK (done ++ [o]) := hitems.append (adds_items ha)
      have hsel : done = [] → HasField o.cells 1 s := by
        rintro rfl
        obtain ⟨o', ho', hh'⟩ := hgives
        simp only [List.nil_append, List.head?_cons, Option.some.injEq] at ho'
        subst ho'
        rcases hh' with hh' | hh'
        · exact hh'.2
        · have := (adds_name ha).symm.trans hh'.1
          rw [h1] at this
          exact absurd this (by decide)
      obtain ⟨st', e1, e2, e3, e4⟩ := ident_run hp hs hin hcore0 henv ha h1 hsel B fuel sk
      have hsplit : done ++ o :: outs = (done ++ [o]) ++ outs := by simp
      rw [hsplit] at hgives hallows ⊢
      have hhier : hierOf (done ++ [o]) = hierOf done :=
        hierOf_other (n := "IDENT") (by simpa using (adds_name ha).trans h1) (by decide)
      have hsel' : selOf s (done ++ [o]) = some s := by simp [selOf]
      rw [← hhier, ← hsel'] at e2
      simp only [List.length_cons] at hn hfuel
      obtain ⟨st2, ls, g1, g2, g3, g4⟩ := ih (r :: past) (r' :: rest') outs names hacc
        (by simp only [List.length_cons]; omega) (by simp only [List.length_cons]; omega)
        (done ++ [o]) st' r' rest' rfl hgives hallows hitems' e2 e3
      refine ⟨st2, ls, ?_, g2, ?_, fun ho => ?_⟩
      · simp only [parseLoop]
        rw [if_neg (by rw [h1]; decide), selected_eq h2, if_pos rfl]
        have hgp : Prog.run (L.reader sk) (generalParser B fuel st (r.name, r.head))
            ⟨r, 0, r' :: rest'⟩ = .ok ((st', some (r'.name, r'.head)), ⟨r', 0, rest'⟩) := by
          unfold generalParser
          simp only
          rw [hx, Prog.run_bind_ok run_idx, if_neg (by simp [hneg]),
            show readers r.name = some .ident by rw [h1]; rfl, ← hx]
          exact e1
        rw [Prog.run_bind_ok hgp]
        exact g1
      · rw [g3, e4]
        simp [st0]
      · have hv : isVoid r = false := by unfold isVoid; rw [hx]; exact hneg
        rw [eventsAfter_row ha (.inl hv), if_pos h1]
        simpa using g4 ho
    | @void _ _ _ _ _ _ h1 h2 h3 h4 hacc =>
      obtain ⟨r', rest', rfl⟩ := hacc.nonempty
      simp only [List.length_cons] at hn hfuel
      obtain ⟨st2, ls, g1, g2, g3, g4⟩ := ih past (r' :: rest') outs names hacc
        (by simp only [List.length_cons]; omega) (by simp only [List.length_cons]; omega)
        done st r' rest' rfl hgives hallows hitems hcore henv
      refine ⟨st2, ls, ?_, g2, g3, fun ho => ?_⟩
      rotate_left
      · have hv := isVoid_of h4
        have hend : ¬ (r.name = "IEND" ∧ r.head.head? = some (.rat 0)) := fun h => by
          rw [isVoid_zero h.2] at hv; cases hv
        by_cases ht : HasTable r.name
        · rw [eventsAfter, if_neg hend, if_pos (hasTable_iff.mp ht), if_pos ⟨hv, h1⟩]
          exact g4 ho
        · rw [eventsAfter_skip _ _ _ hend ht]
          exact g4 ho
      simp only [parseLoop]
      rw [if_neg h2, selected_eq h3, if_pos rfl]
      have hgp : Prog.run (L.reader sk) (generalParser B fuel st (r.name, r.head))
          ⟨r, 0, r' :: rest'⟩ = .ok ((st, some (r'.name, r'.head)), ⟨r', 0, rest'⟩) := by
        unfold generalParser
        cases h4 with
        | one k1 k2 =>
          simp only
          rw [Prog.run_bind_ok run_idx, if_pos k1]
          rw [if_neg (by rw [eqInt_iff]; simpa using k2)]
          rw [Prog.run_bind_ok (Prog.run_ret _ _ _), Prog.run_bind_ok (run_header' rfl rfl)]
          rfl
        | @two name t fs skn pad =>
          simp only
          rw [Prog.run_bind_ok run_idx, if_pos (by decide +kernel), if_pos (by decide +kernel)]
          have : Prog.run (L.reader sk) (Prog.bind (floatrec 0) fun _ => .ret ())
              ⟨⟨name, .rat (-5) :: t, [.recd 0 fs], skn, [], pad⟩, 0, r' :: rest'⟩ =
              .ok ((), ⟨⟨name, .rat (-5) :: t, [], skn, [], pad⟩, 1, r' :: rest'⟩) := by
            rw [floatrec, Prog.run_bind, Prog.run_call]
            simp [L.reader]
          rw [Prog.run_bind_ok this, Prog.run_bind_ok (run_header' rfl rfl)]
          rfl
      rw [Prog.run_bind_ok hgp]
      exact g1
    | @unselected _ _ _ _ _ _ h1 h2 h3 h4 hacc =>
      have hacc0 : Accepts only sk e0 none past (r :: rest) outs names :=
        .unselected h1 h2 h3 h4 hacc
      simp only [List.length_cons] at hn hfuel
      obtain ⟨fuel', rfl⟩ : ∃ k, fuel = k + 1 := ⟨fuel - 1, by omega⟩
      obtain ⟨r1, rest1, r', rest', hr, hlen, hrun, hacc'⟩ := hacc.unsel h3 h2 fuel' (by omega)
      subst hr
      simp only [List.length_cons] at hlen hn hfuel
      obtain ⟨st2, ls, g1, g2, g3, g4⟩ := ih past (r' :: rest') outs names hacc'
        (by simp only [List.length_cons]; omega) (by simp only [List.length_cons]; omega)
        done st r' rest' rfl hgives hallows hitems hcore henv
      refine ⟨st2, ls, ?_, g2, g3, fun ho => absurd (by rw [ho]; trivial) h3⟩
      simp only [parseLoop]
      rw [if_neg h2, not_selected_eq h3, if_neg (by simp)]
      rw [Prog.run_bind_ok (a := (r'.name, r'.head)) (s' := ⟨r', 0, rest'⟩)]
      · exact g1
      · simp only [skipLoop]
        rw [if_pos trivial, Prog.run_bind_ok (a := (r1.name, r1.head)) (s' := ⟨r1, 0, rest1⟩)]
        · exact hrun
        · rw [skipRest, Prog.run_call]
          simp [L.reader, L.next, h4]
    | @unread _ _ _ _ _ _ h1 h2 h3 h4 h5 h6 h7 h8 hacc =>
      obtain ⟨x, t, hx, hneg⟩ := h6
      simp only [List.length_cons] at hn hfuel
      obtain ⟨r1, rest1, r', rest', rfl, hlen, hrun, hacc', hev⟩ := hacc.skipped h5 h3 h4 (fuel - 1)
        (by omega)
      simp only [List.length_cons] at hlen hn hfuel
      obtain ⟨st2, ls, g1, g2, g3, g4⟩ := ih past (r' :: rest') outs names hacc'
        (by simp only [List.length_cons]; omega) (by simp only [List.length_cons]; omega)
        done st r' rest' rfl hgives hallows hitems hcore henv
      refine ⟨st2, ls, ?_, g2, g3, fun ho => ?_⟩
      rotate_left
      · rw [eventsAfter_skip _ _ _ (fun h => h3 h.1) h5, hev]
        exact g4 ho
      simp only [parseLoop]
      rw [if_neg h2, selected_eq h7, if_pos rfl]
      have hgp : Prog.run (L.reader sk) (generalParser B fuel st (r.name, r.head))
          ⟨r, 0, r1 :: rest1⟩ = .ok ((st, some (r'.name, r'.head)), ⟨r', 0, rest'⟩) := by
        unfold generalParser
        simp only
        rw [hx, Prog.run_bind_ok run_idx, if_neg (by simp [hneg]), readers_none h5 h3 h4, ← hx]
        simp only
        rw [Prog.run_bind_ok (a := (r'.name, r'.head)) (s' := ⟨r', 0, rest'⟩)]
        · rfl
        · obtain ⟨fuel', rfl⟩ : ∃ k, fuel = k + 1 := ⟨fuel - 1, by omega⟩
          simp only [skipLoop]
          rw [if_pos trivial, Prog.run_bind_ok (a := (r1.name, r1.head)) (s' := ⟨r1, 0, rest1⟩)]
          · exact hrun
          · rw [skipRest, Prog.run_call]
            simp [L.reader, L.next, h8]
      rw [Prog.run_bind_ok hgp]
      exact g1
    | @recsize _ _ _ _ _ names h1 h2 h3 hacc =>
      obtain ⟨r', rest', rfl⟩ := hacc.nonempty
      obtain ⟨k1, k2, k3, x, y, t, m, hx, hy⟩ := h2
      obtain ⟨x', t', hx', hneg⟩ := h3
      rw [hx] at hx'
      simp only [List.cons.injEq] at hx'
      obtain ⟨rfl, rfl⟩ := hx'
      let st0 : St := { st with g := { st.g with
        recordNames := st.g.recordNames ++ [r.name], recSize := m } }
      have hcore0 : Core pl p h0 done (selOf s done) (hierOf done) st0 :=
        hcore.setG ((hcore.g.names (st.g.recordNames ++ [r.name])).size m) rfl
      simp only [List.length_cons] at hn hfuel
      obtain ⟨st2, ls, g1, g2, g3, g4⟩ := ih past (r' :: rest') outs names hacc
        (by simp only [List.length_cons]; omega) (by simp only [List.length_cons]; omega)
        done st0 r' rest' rfl hgives hallows hitems hcore0 henv
      refine ⟨st2, ls, ?_, g2, by rw [g3]; simp [st0], fun ho => ?_⟩
      rotate_left
      · rw [eventsAfter_skip _ _ _ (by rw [k1]; simp) fun ht => (hasTable_ne ht).2.2 k1]
        exact g4 ho
      simp only [parseLoop]
      rw [if_neg (by rw [k1]; decide), selected_eq h1, if_pos rfl]
      have hgp : Prog.run (L.reader sk) (generalParser B fuel st (r.name, r.head))
          ⟨r, 0, r' :: rest'⟩ = .ok ((st0, some (r'.name, r'.head)), ⟨r', 0, rest'⟩) := by
        unfold generalParser
        simp only
        rw [hx, Prog.run_bind_ok run_idx, if_neg (by simp [hneg]),
          show readers r.name = some .irecsize by rw [k1]; rfl]
        simp only [runReader]
        obtain ⟨o1, e1⟩ := Reads.intAt (l := x :: y :: t) (i := 1) (x := y) rfl hy r sk 0
          (r' :: rest')
        rw [Prog.run_bind_ok e1, Prog.run_bind_ok (run_header' k2 k3)]
        rfl
      rw [Prog.run_bind_ok hgp]
      exact g1
    | @notEnd _ _ _ _ _ names h1 h2 hacc =>
      obtain ⟨r', rest', rfl⟩ := hacc.nonempty
      obtain ⟨k1, k2, k3, x, t, hx, hne, hneg⟩ := h2
      let st0 : St := { st with g := { st.g with recordNames := st.g.recordNames ++ [r.name] } }
      have hcore0 : Core pl p h0 done (selOf s done) (hierOf done) st0 := hcore.addName _
      simp only [List.length_cons] at hn hfuel
      obtain ⟨st2, ls, g1, g2, g3, g4⟩ := ih past (r' :: rest') outs names hacc
        (by simp only [List.length_cons]; omega) (by simp only [List.length_cons]; omega)
        done st0 r' rest' rfl hgives hallows hitems hcore0 henv
      refine ⟨st2, ls, ?_, g2, by rw [g3]; simp [st0], fun ho => ?_⟩
      rotate_left
      · rw [eventsAfter_skip _ _ _ (by rw [hx]; simpa using fun _ => hne)
          fun ht => (hasTable_ne ht).2.1 k1]
        exact g4 ho
      simp only [parseLoop]
      rw [if_neg (by rw [k1]; decide), selected_eq h1, if_pos rfl]
      have hgp : Prog.run (L.reader sk) (generalParser B fuel st (r.name, r.head))
          ⟨r, 0, r' :: rest'⟩ = .ok ((st0, some (r'.name, r'.head)), ⟨r', 0, rest'⟩) := by
        unfold generalParser
        simp only
        rw [hx, Prog.run_bind_ok run_idx, if_neg (by simp [hneg]),
          show readers r.name = some .iend by rw [k1]; rfl]
        simp only [runReader]
        rw [Prog.run_bind_ok run_idx, if_neg (by rw [eqInt_iff]; simpa using hne),
          Prog.run_bind_ok (run_header' k2 k3)]
        rfl
      rw [Prog.run_bind_ok hgp]
      exact g1

end

end Verif.Parse
