import Verif.Parse.BadIdent
import Verif.Conv.Props
/-!
# `sif2hdf5` on files that cannot be converted
-/

namespace Verif.Conv
open Verif Verif.Seq Verif.Parse

/-- what a file that cannot be converted leaves behind: nothing, or the records `outs` in front of
the one it stops at, in group `p` -/
inductive Remains where
  | nothing
  | stopped (c : Stop) (outs : List Added) (p : Path)

/-- `h'` is the output file afterwards and `elem` the known element types; `h` and `e0` were those
before -/
def Remains.Left (B : Nat) (e0 : Int → Option Int) (h h' : H5) (elem : Int → Option Int) :
    Remains → Prop
  | .nothing => h' = h ∧ elem = e0
  | .stopped c outs p => LeftBehind B c outs e0 h p h' elem

/-- the file `src` cannot be converted at the place `pl` of the output file `h`, the exception
is `e`, and `r` remains; `e0`: the element types of earlier files -/
inductive BadFile (D : Dec) (only : Option (List String)) (e0 : Int → Option Int) (h : H5)
    (src : Source) : Place → Err → Remains → Prop
  /-- a wrong record -/
  | wrong {pl sk f outs s e c} : EncodedTo D sk f e src →
      Refuses only sk e0 none [] f outs e c →
      s ≠ 0 → GivesType s outs → pl.Allows s outs → c.Fits s → pl.In h →
      (∀ l ∈ layouts, h.tabs (pl.path s, l.name) = none) →
      BadFile D only e0 h src pl e (.stopped c outs (pl.path s))
  /-- a record that is stopped at before any table is opened -/
  | halts {pl sk f e} : EncodedTo D sk f e src → Halts only sk none f e →
      BadFile D only e0 h src pl e .nothing
  /-- an identification with a superelement type, but without level or model number, or a hierarchy
  with one that cannot be stored -/
  | ident {pl sk f s e r} : EncodedTo D sk f e src → BadIdent only sk none f s e r → s ≠ 0 →
      pl.In h → (∀ l ∈ layouts, h.tabs (pl.path s, l.name) = none) →
      BadFile D only e0 h src pl e (.stopped ⟨r, [], false, true⟩ [] (pl.path s))
  /-- no superelement type on the file given by the user -/
  | untyped {pre ft sk f} : Encoded D sk f src → Untyped only sk none f →
      BadFile D only e0 h src (.top pre ft) .nameError .nothing
  /-- nothing on a lower level file -/
  | empty {pre ft topSel idx hp hrec sk f} : Encoded D sk f src → NoTables only sk none f →
      (Place.low pre ft topSel idx hp hrec).In h →
      h.groups (untypedGroup pre ft topSel idx) = none →
      BadFile D only e0 h src (.low pre ft topSel idx hp hrec) .nodeError .nothing

/-- a conversion that raises: the exception, the messages printed before, the output file before the
file that cannot be converted was read, the records of the files read before (the most recent
first), and what remains of that file -/
structure Failure where
  error : Err
  messages : List Str
  reached : H5
  read : List LRec
  remains : Remains

/-- As `LowerFiles`, but one of the files cannot be converted. -/
inductive LowerFails (D : Dec) (only : Option (List String)) (disk : Str → Option Bytes)
    (dir fp ext : Str) (formatted : Bool) (pre ft : String) (topSel : Int) (hp : Path)
    (all : List (List Cell)) : List (List Cell) → H5 → Failure → Prop
  | skip {row rows h F} : Unwanted ext row →
      LowerFails D only disk dir fp ext formatted pre ft topSel hp all rows h F →
      LowerFails D only disk dir fp ext formatted pre ft topSel hp all (row :: rows) h F
  | missing {row rows h F name r} : Wanted fp ext row name r → disk (dir ++ name) = none →
      LowerFails D only disk dir fp ext formatted pre ft topSel hp all rows h F →
      LowerFails D only disk dir fp ext formatted pre ft topSel hp all (row :: rows) h
        { F with messages := ("file not found: ".toList ++ name) :: F.messages }
  | file {row rows h F name} {k : Nat} {b : Bytes} {hrec : List Cell} {idx : Option Int}
      {sk f outs names s lev dt ix h1} :
      Wanted fp ext row name (k + 1) → disk (dir ++ name) = some b → all[k]? = some hrec →
      IndexOf ft hrec idx →
      Encoded D sk f (sourceOf formatted b) →
      Job only sk (fun _ => none) f outs names (.low pre ft topSel idx hp hrec) s h lev dt ix →
      Converted outs names (.low pre ft topSel idx hp hrec) s h lev dt ix h1 →
      LowerFails D only disk dir fp ext formatted pre ft topSel hp all rows h1 F →
      LowerFails D only disk dir fp ext formatted pre ft topSel hp all (row :: rows) h
        { F with read := F.read ++ ((events [] f).map Event.record).reverse }
  | bad {row rows h e r name} {k : Nat} {b : Bytes} {hrec : List Cell} {idx : Option Int} :
      Wanted fp ext row name (k + 1) → disk (dir ++ name) = some b → all[k]? = some hrec →
      IndexOf ft hrec idx →
      (∀ e0, BadFile D only e0 h (sourceOf formatted b) (.low pre ft topSel idx hp hrec) e r) →
      (∀ row ∈ rows, Unwanted ext row ∨ ∃ name r, Wanted fp ext row name r) →
      LowerFails D only disk dir fp ext formatted pre ft topSel hp all (row :: rows) h
        ⟨e, [], h, [], r⟩

/-- As `Conversion`, but the file or one of its lower level files cannot be converted; `e0`: the
element types of earlier files. -/
inductive ConversionFails (D : Dec) (only : Option (List String)) (e0 : Int → Option Int)
    (disk : Str → Option Bytes) (dir fp : Str) (l : Char) (ext : Str) (pre : Str) (b : Bytes) :
    H5 → Failure → Prop
  | file {h0 e r} :
      BadFile D only e0 h0 (sourceOf (b.head? != some 75) b)
        (.top (String.ofList pre) (String.ofList [l])) e r →
      ConversionFails D only e0 disk dir fp l ext pre b h0 ⟨e, [], h0, [], r⟩
  | lower {sk f outs names s h0 lev dt ix h1 t F} :
      Encoded D sk f (sourceOf (b.head? != some 75) b) →
      Job only sk (fun _ => none) f outs names (.top (String.ofList pre) (String.ofList [l])) s h0
        lev dt ix →
      Converted outs names (.top (String.ofList pre) (String.ofList [l])) s h0 lev dt ix h1 →
      ofType "HIERARCH" outs ≠ [] →
      h1.tabs ([String.ofList pre ++ String.ofList [l] ++ toString s], "HIERARCH") = some t →
      LowerFails D only disk dir fp ext (b.head? != some 75) (String.ofList pre) (String.ofList [l])
        s [String.ofList pre ++ String.ofList [l] ++ toString s] t.rows t.rows.tail h1 F →
      ConversionFails D only e0 disk dir fp l ext pre b h0
        { F with read := F.read ++ ((events [] f).map Event.record).reverse }

/-- `h'` is the output file after the failure and `elem` are the known element types, if `e0` were
those before the call -/
def Failure.Leaves (F : Failure) (B : Nat) (only : Option (List String)) (e0 : Int → Option Int)
    (h' : H5) (elem : Int → Option Int) : Prop :=
  ∃ e1, (only = none → ∀ n t, e1 n = some t ↔ TypeOf e0 F.read n t) ∧
    F.remains.Left B e1 F.reached h' elem

section
variable {D : Dec} {only : Option (List String)} {disk : Str → Option Bytes} {dir fp ext : Str}
  {formatted : Bool} {pre ft : String} {topSel : Int} {hp : Path} {all : List (List Cell)}

theorem BadFile.run {e0 : Int → Option Int} {h : H5} {src : Source} {pl : Place} {e : Err}
    {r : Remains} (hb : BadFile D only e0 h src pl e r) {st : St} (hc : Clean pl e0 h st) (B : Nat) :
    parseSource D B only st src = .error e ∧
      r.Left B e0 h (sourceLeft D B only st src).h5 (sourceLeft D B only st src).elem := by
  cases hb with
  | wrong h1 h2 h3 h4 h5 h5' h6 h7 =>
    exact ⟨wrong_record_refused h2 h3 h4 h5 h5' h6 h7 hc B h1,
      wrong_record_left h2 h3 h4 h5 h5' h6 h7 hc B h1⟩
  | halts h1 h2 =>
    refine ⟨halts_refused h2 hc B h1, ?_⟩
    rw [halts_left h2 hc B h1]
    exact ⟨rfl, rfl⟩
  | ident h1 h2 h3 h4 h5 =>
    exact ⟨bad_ident_refused h2 h3 h4 h5 hc B h1, bad_ident_left h2 h3 h4 h5 hc B h1⟩
  | untyped h1 h2 =>
    refine ⟨untyped_refused h2 hc B h1, ?_⟩
    rw [untyped_left h2 hc B h1]
    exact ⟨rfl, rfl⟩
  | empty h1 h2 h3 h4 =>
    refine ⟨untyped_lower_refused h2 hc h3 h4 B h1, ?_⟩
    rw [untyped_lower_left h2 hc h3 h4 B h1]
    exact ⟨rfl, rfl⟩

theorem typeOf_nil {e0 : Int → Option Int} (n t : Int) : TypeOf e0 [] n t ↔ e0 n = some t := by
  constructor
  · rintro (h | ⟨_, h⟩)
    · cases h
    · exact h
  · exact fun h => .inr ⟨fun r hr => by simp at hr, h⟩

/-- the types known after more records -/
theorem typeOf_append {e0 e1 : Int → Option Int} {p q : List LRec}
    (h1 : ∀ n t, e1 n = some t ↔ TypeOf e0 p n t) (n t : Int) :
    TypeOf e1 q n t ↔ TypeOf e0 (q ++ p) n t := by
  induction q with
  | nil =>
    rw [List.nil_append, ← h1 n t]
    exact typeOf_nil n t
  | cons r q ih =>
    have one : ∀ {e : Int → Option Int} {l : List LRec}, TypeOf e (r :: l) n t ↔
        DeclType n r t ∨ (∀ a, ¬ DeclType n r a) ∧ TypeOf e l n t := by
      intro e l
      constructor
      · rintro (h | ⟨h, h'⟩)
        · cases h with
          | here h => exact .inl h
          | earlier h h2 => exact .inr ⟨h, .inl h2⟩
        · exact .inr ⟨h r (by simp), .inr ⟨fun x hx => h x (by simp [hx]), h'⟩⟩
      · rintro (h | ⟨h, h2 | ⟨h2, h3⟩⟩)
        · exact .inl (.here h)
        · exact .inl (.earlier h h2)
        · refine .inr ⟨fun x hx => ?_, h3⟩
          rcases List.mem_cons.mp hx with rfl | hx
          · exact h
          · exact h2 x hx
    rw [List.cons_append, one, one, ih]

theorem candidates_skip {l : Char} {row : List Cell} {rows : List (List Cell)}
    {files : List (Str × Int)} (h1 : candidates ⟨fp, l, ext⟩ rows = .ok files)
    (hu : Unwanted ext row) : candidates ⟨fp, l, ext⟩ (row :: rows) = .ok files := by
  unfold candidates
  dsimp only
  cases hu with
  | results e hf hn =>
    rw [if_pos ((resultsExt_iff _).mpr e), hField_level hf]
    simp only [bind, Except.bind, if_neg hn, h1]
  | input e hf hn =>
    rw [if_neg (mt (resultsExt_iff _).mp e), hField_indsel hf]
    simp only [bind, Except.bind, if_neg hn, h1]

theorem candidates_wanted {l : Char} {row : List Cell} {rows : List (List Cell)} {name : Str}
    {r : Int} {files : List (Str × Int)} (h1 : candidates ⟨fp, l, ext⟩ rows = .ok files)
    (hw : Wanted fp ext row name r) :
    candidates ⟨fp, l, ext⟩ (row :: rows) = .ok ((name, r) :: files) := by
  unfold candidates
  dsimp only
  cases hw with
  | results e f4 f2 f1 =>
    rw [if_pos ((resultsExt_iff _).mpr e), hField_level f4]
    simp only [bind, Except.bind, if_pos, hField_of f2, hField_ihref f1, h1]
    simp
  | input e f4 f2 f1 =>
    rw [if_neg (mt (resultsExt_iff _).mp e), hField_indsel f4]
    simp only [bind, Except.bind, if_pos, hField_of f2, hField_ihref f1, h1]
    simp

theorem candidates_ok {l : Char} {rows : List (List Cell)}
    (h : ∀ row ∈ rows, Unwanted ext row ∨ ∃ name r, Wanted fp ext row name r) :
    ∃ files, candidates ⟨fp, l, ext⟩ rows = .ok files := by
  induction rows with
  | nil => exact ⟨[], rfl⟩
  | cons row rows ih =>
    obtain ⟨files, h1⟩ := ih fun r hr => h r (by simp [hr])
    rcases h row (by simp) with hu | ⟨name, r, hw⟩
    · exact ⟨_, candidates_skip h1 hu⟩
    · exact ⟨_, candidates_wanted h1 hw⟩

theorem lowerFails_run {B : Nat} {l : Char} {rows : List (List Cell)} {h : H5} {F : Failure}
    (hl : LowerFails D only disk dir fp ext formatted pre ft topSel hp all rows h F) :
    ∃ files, candidates ⟨fp, l, ext⟩ rows = .ok files ∧
      ∀ st, LowState pre ft hp all h st →
        readLower D B only disk dir formatted files st = (.error F.error, F.messages) ∧
        F.Leaves B only st.env.elem (lowerLeft D B only disk dir formatted files st).h5
          (lowerLeft D B only disk dir formatted files st).elem := by
  induction hl with
  | @skip row rows h F hu _ ih =>
    obtain ⟨files, h1, h2⟩ := ih
    exact ⟨files, candidates_skip h1 hu, h2⟩
  | @missing row rows h F name r hw hd _ ih =>
    obtain ⟨files, h1, h2⟩ := ih
    refine ⟨(name, r) :: files, candidates_wanted h1 hw, fun st hs => ?_⟩
    unfold readLower lowerLeft
    simp only [hd, (h2 st hs).1]
    exact ⟨trivial, (h2 st hs).2⟩
  | @file row rows h F name k b hrec idx sk f outs names s lev dt ix hm hw hd hk hi henc j c _ ih =>
    obtain ⟨files, h1, h2⟩ := ih
    refine ⟨(name, (k : Int) + 1) :: files, candidates_wanted h1 hw, fun st hs => ?_⟩
    obtain ⟨st1, q1, q2⟩ := lower_clean (topSel := topSel) hs hk hi
    obtain ⟨st2, q3, q4, q5, q6⟩ := (j.any_history st.env.elem).sourceState q2 B henc
    have hst2 : st2.h5 = hm := q4.unique j.accepted.outs_table c
    have hg : GOk (.low pre ft topSel idx hp hrec) _ _ _ st2.g := q5
    unfold GOk at hg
    obtain ⟨g1, g2, _, _, g5, _, g7, _⟩ := hg
    obtain ⟨t, ht⟩ := hs.rows
    obtain ⟨h3, e1, h4, h5⟩ := h2 st2 ⟨hst2, g1, g2, g5, g7, t, by rw [low_keeps j c, ht.1], ht.2⟩
    unfold readLower lowerLeft
    simp only [hd, q1, q3, h3]
    refine ⟨trivial, e1, fun ho n t => ?_, h5⟩
    rw [h4 ho n t]
    exact typeOf_append (fun n t => (q6 ho).elem_iff n t) n t
  | @bad row rows h e r name k b hrec idx hw hd hk hi hb hr =>
    obtain ⟨files, h1⟩ := candidates_ok (l := l) hr
    refine ⟨(name, (k : Int) + 1) :: files, candidates_wanted h1 hw, fun st hs => ?_⟩
    obtain ⟨st1, q1, q2⟩ := lower_clean (topSel := topSel) hs hk hi
    obtain ⟨h2, h3⟩ := (hb _).run q2 B
    unfold readLower lowerLeft
    simp only [hd, q1, h2]
    exact ⟨trivial, st.env.elem, fun _ n t => (typeOf_nil n t).symm, h3⟩

theorem parseAll_fails {B : Nat} {l : Char} {gpre : Str} {b : Bytes} {h0 : H5} {st : St}
    {F : Failure} (hc : ConversionFails D only st.env.elem disk dir fp l ext gpre b h0 F) :
    let st0 := { reset true st with
      g := { (reset true st).g with groupnamePrefix := String.ofList gpre }, h5 := h0 }
    parseAll D B only disk dir ⟨fp, l, ext⟩ (b.head? != some 75) b st0 = (.error F.error, F.messages) ∧
      F.Leaves B only st.env.elem
        (allLeft D B only disk dir ⟨fp, l, ext⟩ (b.head? != some 75) b st0).h5
        (allLeft D B only disk dir ⟨fp, l, ext⟩ (b.head? != some 75) b st0).elem := by
  have clean : Clean (.top (String.ofList gpre) (String.ofList [l])) st.env.elem h0
      { reset true st with
        g := { (reset true st).g with
          groupnamePrefix := String.ofList gpre, filetypeid := String.ofList [l] },
        h5 := h0 } := ⟨rfl, rfl, rfl, fun _ => rfl, rfl, rfl, rfl, rfl, rfl, rfl⟩
  intro st0
  cases hc with
  | file hb =>
    obtain ⟨h2, h3⟩ := hb.run clean B
    unfold parseAll allLeft
    simp only [st0, h2]
    exact ⟨trivial, st.env.elem, fun _ n t => (typeOf_nil n t).symm, h3⟩
  | @lower sk f outs names s _ lev dt ix h1 t F henc j c hn ht hl =>
    obtain ⟨st1, q1, q2, q3, q4⟩ := (j.any_history st.env.elem).sourceState clean B henc
    unfold GOk at q3
    have hho : hierOf outs = true := by simp [hierOf, hn]
    rw [hho] at q3
    obtain ⟨g1, g2, _, _, g5, _, g7⟩ := q3
    have hst : st1.h5 = h1 := q2.unique j.accepted.outs_table c
    obtain ⟨files, h3, h4⟩ := lowerFails_run (B := B) (l := l) hl
    obtain ⟨h5, e1, h6, h7⟩ := h4 st1 ⟨hst, g1, g2, g5, g7 rfl, t, ht, rfl⟩
    have hrows : hierarchTail st1 = .ok t.rows.tail := by
      unfold hierarchTail
      rw [g7 rfl]
      simp only [hst, Place.path, ht, List.drop_one]
    unfold parseAll allLeft
    simp only [st0, q1, lowerNames, bind, Except.bind, g5, if_true, hrows, h3, h5]
    refine ⟨trivial, e1, fun ho n t => ?_, h7⟩
    rw [h6 ho n t]
    exact typeOf_append (fun n t => (q4 ho).elem_iff n t) n t

end

section
variable {D : Dec} {B : Nat} {o : Options} {w : World}

/-- **C64**, **C75** `sif2hdf5` on a file that cannot be converted, or with a lower level file that
cannot, raises the exception of the first such file; no file but the output file is touched and only
the names of the lower level files missing before that file are printed.  The output file stays open
under its name and holds the files in front of that file and the records in front of the one that
is wrong, as far as written; the element types of the records read are kept. -/
theorem refused_file {name dir fname fp no ext pre gpre given : Str} {l : Char} {b : Bytes}
    {h0 : H5} {F : Failure}
    (hp : PathOf (w.fullPath name) dir fname) (hn : SesamName fname fp l no ext)
    (hsin : ext.getLast? ≠ some 'n' ∧ ext.getLast? ≠ some 'N')
    (hb : w.disk (w.fullPath name) = some b)
    (hpre : gpre = if o.usefileprefix then pre ++ fp else pre)
    (hmem : o.inMemory = false) (happ : o.append = true → ∃ n, n ≠ [] ∧ o.hdf5name = some n)
    (hgiven : GivenName o fname given) (hbefore : Before w o.append given h0)
    (hc : ConversionFails D o.only w.st.env.elem w.disk dir fp l ext gpre b h0 F) :
    ∃ w' h', sif2hdf5 D B o (.name name) (.one pre) w = (.error F.error, w') ∧
      w'.out (w.fullPath given) = some (.left h') ∧
      F.Leaves B o.only w.st.env.elem h' w'.st.env.elem ∧
      (∀ p, p ≠ w.fullPath given → w'.out p = w.out p) ∧
      w'.disk = w.disk ∧ w'.cwd = w.cwd ∧ w'.memory = w.memory ∧ w'.leaked = given :: w.leaked ∧
      w'.reading = w.reading ∧ w'.printed = w.printed ++ F.messages := by
  have hsp := splitPath_eq hp.2.1 hp.2.2
  rw [← hp.1] at hsp
  have hm : convMatch fname = some ⟨fp, l, ext⟩ :=
    (names_agree (filename := fname) (dir := []) ⟨rfl, .inl rfl, hp.2.2⟩).1 _
      (sifname_parts (dir := []) ⟨rfl, .inl rfl, hp.2.2⟩ hn)
  have hext : IsExt ext := by obtain ⟨⟨_, _, _, _, _, _, _, h⟩, _⟩ := hn; exact h
  have hns : ¬ upper ext = ['S', 'I', 'N'] := by rw [upper_sin hext]; tauto
  have hno : ¬ (o.outName = none ∧ o.append = true) := by
    rintro ⟨h1, h2⟩
    obtain ⟨n, hn1, hn2⟩ := happ h2
    rw [outName_some hn2 hn1] at h1
    cases h1
  obtain ⟨q1, q2⟩ := parseAll_fails (B := B) hc
  rw [single_eq]
  unfold convertFile
  rw [if_neg hno]
  simp only [hsp, hm, if_neg hns, hb, hmem, Bool.false_eq_true, if_false, hgiven.eq, ← hpre,
    hbefore.open, q1]
  exact ⟨_, _, rfl, if_pos rfl, q2, fun p hp' => by simp [hp'], rfl, rfl, rfl, rfl, rfl, rfl⟩

/-- **C64**, **C75** In memory a file that cannot be converted raises as well; its name stays in
use. -/
theorem refused_in_memory {name dir fname fp no ext pre gpre stem e3 : Str} {l : Char} {b : Bytes}
    {F : Failure}
    (hp : PathOf (w.fullPath name) dir fname) (hn : SesamName fname fp l no ext)
    (hsin : ext.getLast? ≠ some 'n' ∧ ext.getLast? ≠ some 'N')
    (hb : w.disk (w.fullPath name) = some b)
    (hpre : gpre = if o.usefileprefix then pre ++ fp else pre)
    (hmem : o.inMemory = true) (happ : o.append = true → ∃ n, n ≠ [] ∧ o.hdf5name = some n)
    (hstem : fname = stem ++ e3) (h3 : e3.length = 3)
    (hfree : stem ++ "h5".toList ∉ w.memory ++ w.leaked ++ w.reading)
    (hc : ConversionFails D o.only w.st.env.elem w.disk dir fp l ext gpre b {} F) :
    ∃ w' h', sif2hdf5 D B o (.name name) (.one pre) w = (.error F.error, w') ∧
      F.Leaves B o.only w.st.env.elem h' w'.st.env.elem ∧
      w'.out = w.out ∧ w'.disk = w.disk ∧ w'.cwd = w.cwd ∧
      w'.memory = (stem ++ "h5".toList) :: w.memory ∧ w'.leaked = w.leaked ∧
      w'.reading = w.reading ∧ w'.printed = w.printed ++ F.messages := by
  have hsp := splitPath_eq hp.2.1 hp.2.2
  rw [← hp.1] at hsp
  have hm : convMatch fname = some ⟨fp, l, ext⟩ :=
    (names_agree (filename := fname) (dir := []) ⟨rfl, .inl rfl, hp.2.2⟩).1 _
      (sifname_parts (dir := []) ⟨rfl, .inl rfl, hp.2.2⟩ hn)
  have hext : IsExt ext := by obtain ⟨⟨_, _, _, _, _, _, _, h⟩, _⟩ := hn; exact h
  have hns : ¬ upper ext = ['S', 'I', 'N'] := by rw [upper_sin hext]; tauto
  have hno : ¬ (o.outName = none ∧ o.append = true) := by
    rintro ⟨h1, h2⟩
    obtain ⟨n, hn1, hn2⟩ := happ h2
    rw [outName_some hn2 hn1] at h1
    cases h1
  have hauto : fname.dropLast.dropLast.dropLast ++ ['h', '5'] = stem ++ "h5".toList := by
    rw [hstem, dropLast3 h3]; rfl
  obtain ⟨q1, q2⟩ := parseAll_fails (B := B) hc
  rw [single_eq]
  unfold convertFile
  rw [if_neg hno]
  simp only [hsp, hm, if_neg hns, hb, hmem, if_true, ← hpre, hauto]
  rw [if_neg (by simpa [World.inUse, or_assoc] using hfree)]
  simp only [q1]
  exact ⟨_, _, rfl, q2, rfl, rfl, rfl, rfl, rfl, rfl, rfl⟩

end

end Verif.Conv
