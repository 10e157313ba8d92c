import Verif.Parse.Refuse
/-!
# Files with an identification or a hierarchy that cannot be stored

The superelement type is there, but the level or the model number, or the number of subelements, is
not an integer, or the row of the hierarchy cannot be stored: the table is made, then the conversion
stops.
-/

namespace Verif.Parse
open Verif Verif.Seq

section
variable {only : Option (List String)} {sk : LRec → Bool} {e0 : Int → Option Int} {pl : Place}
  {h0 : H5} {st : St} {s : Int} {D : Dec}

/-- the records of `BadIdent` -/
def BadStart (s : Int) (e : Err) (r : LRec) : Prop :=
  (∃ x, r.name = "IDENT" ∧ r.head[1]? = some x ∧ HasInt x s ∧
    (NoInt r.head 0 e ∨ ∃ y n, r.head[0]? = some y ∧ HasInt y n ∧ NoInt r.head 2 e)) ∨
  ∃ x, r.head[2]? = some x ∧ HasInt x s ∧ BadRow r e

theorem BadIdent.split {cur : Option String} {f : List LRec} {e : Err} {r : LRec}
    (h : BadIdent only sk cur f s e r) :
    ∃ rest, PassesTo only sk cur f (r :: rest) ∧ Selected only r.name ∧ NotVoid r ∧
      BadStart s e r := by
  induction h with
  | level h1 h2 h3 h4 h5 h6 h7 =>
    exact ⟨_, .done h1 h3, h3, h4, .inl ⟨_, h2, h5, h6, .inl h7⟩⟩
  | model h1 h2 h3 h4 h5 h6 h7 h8 h9 =>
    exact ⟨_, .done h1 h3, h3, h4, .inl ⟨_, h2, h5, h6, .inr ⟨_, _, h7, h8, h9⟩⟩⟩
  | hier h1 h2 h3 h4 h5 h6 => exact ⟨_, .done h1 h2, h2, h3, .inr ⟨_, h4, h5, h6⟩⟩
  | pass h1 _ ih =>
    obtain ⟨rest, e1, e2⟩ := ih
    exact ⟨rest, .step h1 e1, e2⟩

theorem BadIdent.error_ne {cur : Option String} {f : List LRec} {e : Err} {r : LRec}
    (h : BadIdent only sk cur f s e r) : e ≠ .outOfFuel := by
  obtain ⟨_, _, _, _, ⟨_, _, _, _, h | ⟨_, _, _, _, h⟩⟩ | ⟨_, _, _, h⟩⟩ := h.split
  · exact h.error_ne
  · exact h.error_ne
  · exact h.error_ne.1

/-- the table that `get_table` returns is in the output file -/
theorem getTable_there {n : String} {st st' : St} {p : Path} {t : Tab}
    (h : getTable n st = .ok (st', p, t)) : st'.h5.put p n t = st'.h5 := by
  have key : ∀ {h5 : H5}, h5.tabs (p, n) = some t → h5.put p n t = h5 := by
    intro h5 hh
    unfold H5.put
    congr 1
    funext k
    by_cases hk : k = (p, n)
    · rw [hk, hh]; simp
    · simp [hk]
  have create : (do
      let p ← getPath st
      match descriptor n with
      | none => Except.error Err.keyError
      | some cols =>
        match st.h5.tabs (p, n) with
        | some _ => .error .nodeError
        | none =>
          let t : Tab := { cols := cols ++ boundCols (atoms n), arrs := atoms n }
          .ok ({ st with
                  h5 := (mkGroups st.h5 p).put p n t,
                  g := { st.g with tables := upd st.g.tables n p } }, p, t)) = .ok (st', p, t) →
      st'.h5.put p n t = st'.h5 := by
    intro h
    cases hp : getPath st with
    | error e => rw [hp] at h; cases h
    | ok q =>
      rw [hp] at h
      simp only [bind, Except.bind] at h
      split at h
      · cases h
      · split at h
        · cases h
        · simp only [Except.ok.injEq, Prod.mk.injEq] at h
          obtain ⟨rfl, rfl, rfl⟩ := h
          exact key (by simp [H5.put])
  unfold getTable at h
  simp only at h
  split at h
  · exact create h
  · split at h
    · cases h
    · rename_i q _ t' ht'
      split at h
      · exact create h
      · simp only [Except.ok.injEq, Prod.mk.injEq] at h
        obtain ⟨rfl, rfl, rfl⟩ := h
        exact key ht'

/-- how the readers stop at the records of `BadIdent` -/
theorem bad_start_read {e : Err} {r : LRec} (hbad : BadStart s e r) (hv : NotVoid r) :
    ∃ l ∈ layouts, l.name = r.name ∧ ∀ (B fuel : Nat) (rest' : List LRec) (st1 st2 : St) (p : Path),
      st1.g.currentSeltyp = none →
      getTable r.name { st1 with g := { st1.g with
        recordNames := st1.g.recordNames ++ [r.name], currentSeltyp := some s } } =
          .ok (st2, p, (contents l []).table l) →
      Prog.run (L.reader sk) (generalParser B fuel st1 (r.name, r.head)) ⟨r, 0, rest'⟩ = .error e ∧
      generalLeft (L.reader sk) B fuel st1 (r.name, r.head) ⟨r, 0, rest'⟩ =
        ⟨st2.h5, st1.env.elem⟩ := by
  rcases hbad with ⟨x, hn, hx, hxs, hbad⟩ | ⟨x, hx, hxs, hbad⟩
  · refine ⟨⟨"IDENT", [colI "slevel", colI "seltyp", colI "selmod"], []⟩, by decide +kernel,
      hn.symm, fun B fuel rest' st1 st2 p g2 hg' => ?_⟩
    obtain ⟨o1, e1⟩ := Reads.intAt hx hxs r sk 0 rest'
    have hfirst : ∀ st3 : St, st3.g.currentSeltyp = none →
        Prog.run (L.reader sk) (if isTrue st3.g.currentSeltyp then .ret st3
          else Prog.bind (intAt r.head 1) fun n =>
            .ret { st3 with g := { st3.g with currentSeltyp := some n } }) ⟨r, 0, rest'⟩ =
          .ok ({ st3 with g := { st3.g with currentSeltyp := some s } }, ⟨r, o1, rest'⟩) := by
      intro st3 q
      rw [q, if_neg (by decide), Prog.run_bind_ok e1]
      rfl
    have hints : ∀ {α : Type} (o : Nat) (g : Int → Int → Int → Prog α),
        Prog.run (L.reader sk) (Prog.bind (intAt r.head 0) fun x =>
          Prog.bind (intAt r.head 1) fun y =>
          Prog.bind (intAt r.head 2) fun z => g x y z) ⟨r, o, rest'⟩ = .error e := by
      intro α o g
      rcases hbad with h | ⟨y, n, h1, h2, h3⟩
      · exact Raises.first (Raises.intAt h r) sk o rest'
      · obtain ⟨o2, e2⟩ := Reads.intAt h1 h2 r sk o rest'
        obtain ⟨o3, e3⟩ := Reads.intAt hx hxs r sk o2 rest'
        rw [Prog.run_bind_ok e2, Prog.run_bind_ok e3]
        exact Raises.first (Raises.intAt h3 r) sk o3 rest'
    have hrd : readers r.name = some .ident := by rw [hn]; rfl
    constructor
    · rw [generalParser_reader hv hrd]
      show Prog.run _ (identReader _ _) _ = _
      unfold identReader
      rw [Prog.run_bind_ok (hfirst
        { st1 with g := { st1.g with recordNames := st1.g.recordNames ++ [r.name] } } g2)]
      rw [Prog.run_bind_ok (Prog.run_lift_ok hg')]
      exact hints _ _
    · rw [generalLeft_reader hv hrd]
      show identLeft _ _ _ _ = _
      unfold identLeft
      rw [hfirst { st1 with g := { st1.g with recordNames := st1.g.recordNames ++ [r.name] } } g2]
      dsimp only
      rw [hg']
      dsimp only
      rw [hints]
  · obtain ⟨l, hl, hname⟩ : ∃ l ∈ layouts, l.name = "HIERARCH" := by decide +kernel
    refine ⟨l, hl, hname.trans hbad.name.symm, fun B fuel rest' st1 st2 p g2 hg' => ?_⟩
    have := bad_row_read (sk := sk) hbad hv hx hxs hl (hname.trans hbad.name.symm)
      (WInv.open (l := l) (contents_length (outs := []) (by simp))) B fuel rest' st1 st2 p hg'
    rwa [getTable_there hg'] at this

theorem bad_ident_run {f : List LRec} {e : Err} {r : LRec} (h : BadIdent only sk none f s e r)
    (hs : s ≠ 0) (hin : pl.In h0) (hfree : ∀ l ∈ layouts, h0.tabs (pl.path s, l.name) = none)
    (hclean : Clean pl e0 h0 st) (B fuel : Nat) (hfuel : f.length < fuel) :
    Prog.run (L.reader sk) (parseFile B fuel only st) (L.openFile f) = .error e ∧
    ∃ h elem, fileLeft (L.reader sk) B fuel only st (L.openFile f) = ⟨h, elem⟩ ∧
      LeftBehind B ⟨r, [], false, true⟩ [] e0 h0 (pl.path s) h elem := by
  obtain ⟨rest', hpass, hsel, hv, hbad⟩ := h.split
  obtain ⟨r1, rest, rfl⟩ := hpass.nonempty
  obtain ⟨k, ns, m, hk, hrun⟩ := passes_run (sk := sk) B fuel rfl fuel (r1 :: rest) st r1 rest rfl
    hfuel hfuel hpass
  have hh : Prog.run (L.reader sk) header (L.openFile (r1 :: rest)) =
      .ok ((r1.name, r1.head), ⟨r1, 0, rest⟩) := by
    rw [header, Prog.run_call]
    simp [L.reader, L.openFile, L.next]
  have hn : r.name = "IDENT" ∨ r.name = "HIERARCH" := by
    rcases hbad with ⟨_, hn, _⟩ | ⟨_, _, _, hb⟩
    · exact .inl hn
    · exact .inr hb.name
  have hcore := hclean.core hfree
  have hcore' : Core pl (pl.path s) h0 [] none false (passed st ns m) :=
    hcore.setG ((hcore.g.names ns).size m) rfl
  have henv : (passed st ns m).env = { elem := e0 } := hclean.2.1
  have g2 : (passed st ns m).g.currentSeltyp = none := hclean.2.2.2.2.1
  generalize passed st ns m = st1 at hrun hcore' henv g2
  obtain ⟨k, rfl⟩ : ∃ j, k = j + 1 := ⟨k - 1, by omega⟩
  have hcoreN := hcore'.addName (st1.g.recordNames ++ [r.name])
  have hcoreS : Core pl (pl.path s) h0 [] (some s) false { st1 with g := { st1.g with
      recordNames := st1.g.recordNames ++ [r.name], currentSeltyp := some s } } :=
    hcoreN.setG (hcoreN.g.setSel _) rfl
  obtain ⟨l, hl, hln, hread⟩ := bad_start_read (sk := sk) hbad hv
  obtain ⟨st2, hg, ho, henv2, -⟩ := getTable_run hcoreS rfl hs hin hl
  have hthere := getTable_there hg
  obtain ⟨c2, c3⟩ := hread B fuel rest' st1 st2 _ g2 (hln ▸ hg)
  rw [henv] at c3
  obtain ⟨q3, q4⟩ := parseLoop_error (n := k) (by rcases hn with hn | hn <;> rw [hn] <;> decide)
    hsel c2
  constructor
  · unfold parseFile
    rw [Prog.run_bind_ok hh]
    exact Prog.run_bind_error (hrun.1.trans q3)
  · refine ⟨st2.h5, e0, ?_, ?_⟩
    · unfold fileLeft
      rw [hh]
      simp only
      rw [hrun.1.trans q3]
      exact hrun.2.trans (q4.trans c3)
    · have := ho.leaves (new := []) (B := B) (c := ⟨r, [], false, true⟩) (n := 0) (e0 := e0)
        (elem := e0) hl (by simp) hfree (.inl ⟨rfl, hln.symm⟩) rfl (fun k t => by
          rw [typeOf_skip (by rcases hn with hn | hn <;> rw [hn] <;> decide)]
          exact (show EnvInv e0 [] { elem := e0 } from EnvInv.init e0).elem_iff k t)
      rw [show (contents l ([] ++ List.take 0 [])).table l = (contents l []).table l from rfl,
        hthere] at this
      exact this

/-- **C64** A file whose identification has a superelement type, but no integer for level or model
number, or whose hierarchy has no number of subelements or cannot be stored, is refused. -/
theorem bad_ident_refused {f : List LRec} {e : Err} {r : LRec} (h : BadIdent only sk none f s e r)
    (hs : s ≠ 0) (hin : pl.In h0) (hfree : ∀ l ∈ layouts, h0.tabs (pl.path s, l.name) = none)
    (hclean : Clean pl e0 h0 st) (B : Nat) {src : Source} (henc : EncodedTo D sk f e src) :
    parseSource D B only st src = .error e :=
  source_error h.error_ne B
    (fun fuel hfuel => (bad_ident_run h hs hin hfree hclean B fuel hfuel).1) henc

/-- **C75** Such a file leaves its group with an empty table behind. -/
theorem bad_ident_left {f : List LRec} {e : Err} {r : LRec} (h : BadIdent only sk none f s e r)
    (hs : s ≠ 0) (hin : pl.In h0) (hfree : ∀ l ∈ layouts, h0.tabs (pl.path s, l.name) = none)
    (hclean : Clean pl e0 h0 st) (B : Nat) {src : Source} (henc : EncodedTo D sk f e src) :
    LeftBehind B ⟨r, [], false, true⟩ [] e0 h0 (pl.path s) (sourceLeft D B only st src).h5
      (sourceLeft D B only st src).elem := by
  refine sourceLeft_of
    (P := fun k => LeftBehind B ⟨r, [], false, true⟩ [] e0 h0 (pl.path s) k.h5 k.elem)
    h.error_ne B (fun fuel hfuel => ?_) henc
  obtain ⟨k1, h2, elem2, e2, b2⟩ := bad_ident_run h hs hin hfree hclean B fuel hfuel
  rw [e2]
  exact ⟨k1, b2⟩

end
end Verif.Parse
