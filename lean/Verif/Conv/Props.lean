import Verif.Conv.Spec
import Verif.Conv.NameProps
/-!
# Properties of `sif2hdf5` (C23, C24)
-/

namespace Verif.Conv
open Verif Verif.Seq Verif.Parse

section
variable {D : Dec} {only : Option (List String)} {disk : Str → Option Bytes} {dir fp ext : Str}
  {formatted : Bool} {pre ft : String} {topSel : Int} {hp : Path} {all : List (List Cell)}

theorem hField_ihref {row : List Cell} {n : Int} (h : HasField row 1 n) :
    hField row "ihref" = .ok n := by
  unfold HasField at h
  match row, h with
  | _ :: _ :: _, h =>
    simp at h
    subst h
    rfl

theorem hField_indsel {row : List Cell} {n : Int} (h : HasField row 3 n) :
    hField row "indsel" = .ok n := by
  unfold HasField at h
  match row, h with
  | _ :: _ :: _ :: _ :: _, h =>
    simp at h
    subst h
    rfl

theorem resultsExt_iff (ext : Str) :
    (ext = ['S', 'I', 'F'] ∨ ext = ['S', 'I', 'U']) ↔ ResultsExt ext := Iff.rfl

/-- the state before a lower level file is read -/
structure LowState (pre ft : String) (hp : Path) (all : List (List Cell)) (h : H5) (st : St) :
    Prop where
  h5 : st.h5 = h
  prefix_eq : st.g.groupnamePrefix = pre
  letter : st.g.filetypeid = ft
  hier : st.g.hasHierarch = true
  table : st.g.hierarchTable = some hp
  rows : ∃ t, h.tabs (hp, "HIERARCH") = some t ∧ t.rows = all

theorem lower_clean {h : H5} {st : St} (hs : LowState pre ft hp all h st) {k : Nat}
    {hrec : List Cell} {idx : Option Int} (hk : all[k]? = some hrec) (hi : IndexOf ft hrec idx) :
    ∃ st1, setCurrentIhref ((k : Int) + 1) (reset false st) = .ok st1 ∧
      Clean (.low pre ft topSel idx hp hrec) st.env.elem h st1 := by
  obtain ⟨t, ht1, ht2⟩ := hs.rows
  have hrow : ∀ st' : St, st'.g.hierarchTable = some hp → st'.h5 = h →
      hierarchRow st' ((k : Int) + 1 - 1) = .ok hrec := by
    intro st' e1 e2
    unfold hierarchRow
    simp only [e1, e2, ht1]
    have e : (k : Int) + 1 - 1 = k := by omega
    rw [e]
    have h1 : ¬ ((k : Int) < 0) := by omega
    simp only [h1, if_false, Int.toNat_natCast, ht2, hk]
  have hhier : (reset false st).g.hasHierarch = true := by simp [reset, hs.hier]
  have hft : (reset false st).g.filetypeid = ft := by simp [reset, hs.letter]
  have htab : (reset false st).g.hierarchTable = some hp := by simp [reset, hs.table]
  unfold setCurrentIhref
  dsimp only
  rw [if_pos hhier, hrow]
  rotate_left
  · exact htab
  · exact hs.h5
  simp only [bind, Except.bind]
  cases hi with
  | @results n h1 h2 =>
    rw [if_pos (hft.trans h1), hField_indsel h2]
    refine ⟨_, rfl, hs.h5, rfl, rfl, fun _ => rfl, rfl, rfl, hs.prefix_eq, hft, rfl, hhier, htab, rfl⟩
  | other h1 =>
    rw [if_neg (fun e => h1 (hft.symm.trans e))]
    refine ⟨_, rfl, hs.h5, rfl, rfl, fun _ => rfl, rfl, rfl, hs.prefix_eq, hft, rfl, hhier, htab, rfl⟩

theorem low_keeps {sk : LRec → Bool} {e0 : Int → Option Int} {f : List LRec} {outs : List Added}
    {names : List String} {idx : Option Int} {hrec : List Cell} {s : Int} {h h1 : H5}
    {lev dt : String} {ix : Option (Option Int)}
    (j : Job only sk e0 f outs names (.low pre ft topSel idx hp hrec) s h lev dt ix)
    (c : Converted outs names (.low pre ft topSel idx hp hrec) s h lev dt ix h1) :
    h1.tabs (hp, "HIERARCH") = h.tabs (hp, "HIERARCH") := by
  refine c.tables.2 _ (.inr ?_)
  have := j.allows
  unfold Place.Allows at this
  unfold ofType
  rw [List.filter_eq_nil_iff]
  intro o ho
  simpa using this o ho

theorem lowerFiles_run {B : Nat} {l : Char} {rows : List (List Cell)} {h h' : H5} {ms : List Str}
    (hl : LowerFiles D only disk dir fp ext formatted pre ft topSel hp all rows h h' ms) :
    ∃ files, candidates ⟨fp, l, ext⟩ rows = .ok files ∧
      ∀ st, LowState pre ft hp all h st →
        ∃ st', readLower D B only disk dir formatted files st = (.ok st', ms) ∧ st'.h5 = h' := by
  induction hl with
  | nil => exact ⟨[], rfl, fun st hs => ⟨st, rfl, hs.h5⟩⟩
  | @skip row rows h h' ms hu _ ih =>
    obtain ⟨files, h1, h2⟩ := ih
    refine ⟨files, ?_, h2⟩
    unfold candidates
    dsimp only
    cases hu with
    | results e hf hn =>
      rw [if_pos ((resultsExt_iff _).mpr e), hField_level hf]
      simp only [bind, Except.bind, if_neg hn, h1]
    | input e hf hn =>
      rw [if_neg (mt (resultsExt_iff _).mp e), hField_indsel hf]
      simp only [bind, Except.bind, if_neg hn, h1]
  | @missing row rows h h' ms name r hw hd _ ih =>
    obtain ⟨files, h1, h2⟩ := ih
    refine ⟨(name, r) :: files, ?_, ?_⟩
    · unfold candidates
      dsimp only
      cases hw with
      | results e f4 f2 f1 =>
        rw [if_pos ((resultsExt_iff _).mpr e), hField_level f4]
        simp only [bind, Except.bind, if_pos, hField_of f2, hField_ihref f1, h1]
        simp
      | input e f4 f2 f1 =>
        rw [if_neg (mt (resultsExt_iff _).mp e), hField_indsel f4]
        simp only [bind, Except.bind, if_pos, hField_of f2, hField_ihref f1, h1]
        simp
    · intro st hs
      obtain ⟨st', h3, h4⟩ := h2 st hs
      refine ⟨st', ?_, h4⟩
      unfold readLower
      simp only [hd, h3]
  | @file row rows h h' ms name k b hrec idx sk f outs names s lev dt ix hm hw hd hk hi henc j c _ ih =>
    obtain ⟨files, h1, h2⟩ := ih
    refine ⟨(name, (k : Int) + 1) :: files, ?_, ?_⟩
    · unfold candidates
      dsimp only
      generalize hr : ((k : Int) + 1) = r at hw
      cases hw with
      | results e f4 f2 f1 =>
        rw [if_pos ((resultsExt_iff _).mpr e), hField_level f4]
        simp only [bind, Except.bind, if_pos, hField_of f2, hField_ihref f1, h1]
        simp
      | input e f4 f2 f1 =>
        rw [if_neg (mt (resultsExt_iff _).mp e), hField_indsel f4]
        simp only [bind, Except.bind, if_pos, hField_of f2, hField_ihref f1, h1]
        simp
    · intro st hs
      obtain ⟨st1, q1, q2⟩ := lower_clean (topSel := topSel) hs hk hi
      obtain ⟨st2, q3, q4, q5, _⟩ := (j.any_history st.env.elem).sourceState q2 B henc
      have hst2 : st2.h5 = hm := q4.unique j.accepted.outs_table c
      have hg : GOk (.low pre ft topSel idx hp hrec) _ _ _ st2.g := q5
      unfold GOk at hg
      obtain ⟨g1, g2, _, _, g5, _, g7, _⟩ := hg
      obtain ⟨t, ht⟩ := hs.rows
      obtain ⟨st', h3, h4⟩ := h2 st2 ⟨hst2, g1, g2, g5, g7, t, by rw [low_keeps j c, ht.1], ht.2⟩
      refine ⟨st', ?_, h4⟩
      unfold readLower
      simp only [hd, q1, q3, h3]

/-- parsing of a file and its lower level files -/
theorem parseAll_run {B : Nat} {l : Char} {gpre : Str} {b : Bytes} {h0 h2 : H5} {ms : List Str}
    (hc : Conversion D only disk dir fp l ext gpre b h0 h2 ms) (st : St) :
    ∃ st', parseAll D B only disk dir ⟨fp, l, ext⟩ (b.head? != some 75) b
        { reset true st with g := { (reset true st).g with groupnamePrefix := String.ofList gpre },
                             h5 := h0 } = (.ok st', ms) ∧ st'.h5 = h2 := by
  have clean : Clean (.top (String.ofList gpre) (String.ofList [l])) st.env.elem h0
      { reset true st with
        g := { (reset true st).g with
          groupnamePrefix := String.ofList gpre, filetypeid := String.ofList [l] },
        h5 := h0 } := ⟨rfl, rfl, rfl, fun _ => rfl, rfl, rfl, rfl, rfl, rfl, rfl⟩
  cases hc with
  | alone henc j c hn =>
    obtain ⟨st1, q1, q2, q3, _⟩ := (j.any_history st.env.elem).sourceState clean B henc
    unfold GOk at q3
    have hh : st1.g.hasHierarch = false := by rw [q3.2.2.2.2.1]; simp [hierOf, hn]
    refine ⟨st1, ?_, q2.unique j.accepted.outs_table c⟩
    unfold parseAll
    simp only [q1, hh, Bool.false_eq_true, if_false]
  | @hierarchy sk f outs names s _ lev dt ix h1 _ _ t henc j c hn ht hl =>
    obtain ⟨st1, q1, q2, q3, _⟩ := (j.any_history st.env.elem).sourceState clean B henc
    unfold GOk at q3
    have hho : hierOf outs = true := by simp [hierOf, hn]
    rw [hho] at q3
    obtain ⟨g1, g2, _, _, g5, _, g7⟩ := q3
    have hst : st1.h5 = h1 := q2.unique j.accepted.outs_table c
    obtain ⟨files, h3, h4⟩ := lowerFiles_run (B := B) (l := l) hl
    obtain ⟨st', h5, h6⟩ := h4 st1 ⟨hst, g1, g2, g5, g7 rfl, t, ht, rfl⟩
    refine ⟨st', ?_, h6⟩
    have hrows : hierarchTail st1 = .ok t.rows.tail := by
      unfold hierarchTail
      rw [g7 rfl]
      simp only [hst, Place.path, ht, List.drop_one]
    unfold parseAll
    simp only [q1, lowerNames, bind, Except.bind, g5, if_true, hrows, h3, h5]

end

section
variable {D : Dec} {B : Nat} {o : Options} {w : World}

theorem single_eq (n p : Str) : sif2hdf5 D B o (.name n) (.one p) w = convertFile D B o n p w := rfl
theorem listed_eq (n : Str) (ps : List Str) :
    sif2hdf5 D B o (.name n) (.many ps) w = convertListed o n w := rfl

theorem outName_none {o : Options} (h : o.hdf5name = none ∨ o.hdf5name = some []) :
    o.outName = none := by
  unfold Options.outName
  rcases h with h | h <;> rw [h]

theorem outName_some {o : Options} {n : Str} (h : o.hdf5name = some n) (hn : n ≠ []) :
    o.outName = some n := by
  unfold Options.outName
  rw [h]
  cases n with
  | nil => exact absurd rfl hn
  | cons c r => rfl

theorem dropLast3 {stem ext : Str} (h : ext.length = 3) :
    (stem ++ ext).dropLast.dropLast.dropLast = stem := by
  match ext, h with
  | [a, b, c], _ => simp

theorem GivenName.eq {o : Options} {fname given : Str} (h : GivenName o fname given) :
    o.outName.getD (fname.dropLast.dropLast.dropLast ++ ['h', '5']) = given := by
  rcases h with ⟨h1, h2⟩ | ⟨h1, stem, e, h2, h3, h4⟩
  · rw [outName_some h2 h1]; rfl
  · rw [outName_none h1, h4, h2, dropLast3 h3]; rfl

theorem Before.open {w : World} {append : Bool} {given : Str} {h0 : H5}
    (h : Before w append given h0) : openOutput w given append = .ok h0 := by
  obtain ⟨h1, h2, h3⟩ := h
  unfold openOutput World.inUse
  have hc : ¬ (w.reading.contains given || (!append && (w.memory.contains given ||
      w.leaked.contains given || w.reading.contains given))) = true := by
    cases append <;> simp_all
  rw [if_neg hc]
  split at h3
  · simp_all
  · rename_i he
    simp only [he]
    rw [if_neg (by simpa using h3.1)]
    cases append <;> simp_all
  · rename_i he
    simp only [he]
    rw [if_pos h3.1, h3.2]

theorem closeOutput_closed (found : Option OutFile) (h : H5) : Closed found h (closeOutput found h) := by
  constructor
  · rintro h1 rfl; rfl
  · intro h1
    unfold closeOutput
    split
    · rename_i x; exact absurd rfl (h1 x)
    · rfl

theorem upper_sin {ext : Str} (h : IsExt ext) : upper ext = ['S', 'I', 'N'] ↔
    ext.getLast? = some 'n' ∨ ext.getLast? = some 'N' := by
  obtain ⟨x, y, z, rfl, h⟩ := h
  simp only [List.mem_cons, List.not_mem_nil, or_false] at h
  rcases h with ⟨h1, h2, h3⟩ | ⟨h1, h2, h3⟩
  · rcases h1 with rfl | rfl <;> rcases h2 with rfl | rfl <;>
      rcases h3 with rfl | rfl | rfl | rfl | rfl | rfl <;> decide
  · rcases h1 with rfl | rfl <;> rcases h2 with rfl | rfl <;> rcases h3 with rfl | rfl <;> decide

/-- **C23** A SESAM file is converted together with the lower level files of its hierarchy: the
output file holds afterwards what `Conversion` says, all other files are as before, and the
messages printed are those for missing lower level files. -/
theorem hierarchy_converted {name dir fname fp no ext pre gpre given : Str} {l : Char} {b : Bytes}
    {h0 h2 : H5} {ms : List Str}
    (hp : PathOf (w.fullPath name) dir fname) (hn : SesamName fname fp l no ext)
    (hsin : ext.getLast? ≠ some 'n' ∧ ext.getLast? ≠ some 'N')
    (hb : w.disk (w.fullPath name) = some b)
    (hpre : gpre = if o.usefileprefix then pre ++ fp else pre)
    (hmem : o.inMemory = false) (happ : o.append = true → ∃ n, n ≠ [] ∧ o.hdf5name = some n)
    (hgiven : GivenName o fname given) (hbefore : Before w o.append given h0)
    (hc : Conversion D o.only w.disk dir fp l ext gpre b h0 h2 ms) :
    ∃ w' f, sif2hdf5 D B o (.name name) (.one pre) w = (.ok (.path (w.fullPath given)), w') ∧
      w'.out (w.fullPath given) = some f ∧ Closed (w.out (w.fullPath given)) h2 f ∧
      (∀ p, p ≠ w.fullPath given → w'.out p = w.out p) ∧
      w'.disk = w.disk ∧ w'.cwd = w.cwd ∧ w'.memory = w.memory ∧ w'.leaked = w.leaked ∧
      w'.reading = w.reading ∧ w'.printed = w.printed ++ ms := by
  have hsp := splitPath_eq hp.2.1 hp.2.2
  rw [← hp.1] at hsp
  have hm : convMatch fname = some ⟨fp, l, ext⟩ :=
    (names_agree (filename := fname) (dir := []) ⟨rfl, .inl rfl, hp.2.2⟩).1 _
      (sifname_parts (dir := []) ⟨rfl, .inl rfl, hp.2.2⟩ hn)
  have hext : IsExt ext := by obtain ⟨⟨_, _, _, _, _, _, _, h⟩, _⟩ := hn; exact h
  have hns : ¬ upper ext = ['S', 'I', 'N'] := by rw [upper_sin hext]; tauto
  have hno : ¬ (o.outName = none ∧ o.append = true) := by
    rintro ⟨h1, h2⟩
    obtain ⟨n, hn1, hn2⟩ := happ h2
    rw [outName_some hn2 hn1] at h1
    cases h1
  obtain ⟨st', q1, q2⟩ := parseAll_run (B := B) hc w.st
  rw [single_eq]
  unfold convertFile
  rw [if_neg hno]
  simp only [hsp, hm, if_neg hns, hb, hmem, Bool.false_eq_true, if_false, hgiven.eq, ← hpre,
    hbefore.open, q1]
  exact ⟨_, closeOutput (w.out (w.fullPath given)) h2, rfl, by simp [q2], closeOutput_closed _ _,
    fun p hp' => by simp [hp'], rfl, rfl, rfl, rfl, rfl, rfl⟩

/-- **C23, in memory** (as `open_sif` does) -/
theorem hierarchy_in_memory {name dir fname fp no ext pre gpre stem e3 : Str} {l : Char} {b : Bytes}
    {h2 : H5} {ms : List Str}
    (hp : PathOf (w.fullPath name) dir fname) (hn : SesamName fname fp l no ext)
    (hsin : ext.getLast? ≠ some 'n' ∧ ext.getLast? ≠ some 'N')
    (hb : w.disk (w.fullPath name) = some b)
    (hpre : gpre = if o.usefileprefix then pre ++ fp else pre)
    (hmem : o.inMemory = true) (happ : o.append = false)
    (hstem : fname = stem ++ e3) (he3 : e3.length = 3)
    (hfree : stem ++ "h5".toList ∉ w.memory ++ w.leaked ++ w.reading)
    (hc : Conversion D o.only w.disk dir fp l ext gpre b {} h2 ms) :
    ∃ w', sif2hdf5 D B o (.name name) (.one pre) w =
        (.ok (.memory (stem ++ "h5".toList) h2), w') ∧
      w'.out = w.out ∧ w'.disk = w.disk ∧ w'.cwd = w.cwd ∧
      w'.memory = (stem ++ "h5".toList) :: w.memory ∧ w'.leaked = w.leaked ∧
      w'.reading = w.reading ∧ w'.printed = w.printed ++ ms := by
  have hsp := splitPath_eq hp.2.1 hp.2.2
  rw [← hp.1] at hsp
  have hm : convMatch fname = some ⟨fp, l, ext⟩ :=
    (names_agree (filename := fname) (dir := []) ⟨rfl, .inl rfl, hp.2.2⟩).1 _
      (sifname_parts (dir := []) ⟨rfl, .inl rfl, hp.2.2⟩ hn)
  have hext : IsExt ext := by obtain ⟨⟨_, _, _, _, _, _, _, h⟩, _⟩ := hn; exact h
  have hns : ¬ upper ext = ['S', 'I', 'N'] := by rw [upper_sin hext]; tauto
  have hno : ¬ (o.outName = none ∧ o.append = true) := by simp [happ]
  have hname : fname.dropLast.dropLast.dropLast ++ ['h', '5'] = stem ++ "h5".toList := by
    rw [hstem, dropLast3 he3]; rfl
  obtain ⟨st', q1, q2⟩ := parseAll_run (B := B) hc w.st
  rw [single_eq]
  unfold convertFile
  rw [if_neg hno]
  simp only [hsp, hm, if_neg hns, hb, hmem, if_true, hname, ← hpre]
  rw [if_neg (by simpa [World.inUse, or_assoc] using hfree)]
  simp only [q1]
  subst q2
  exact ⟨_, rfl, rfl, rfl, rfl, rfl, rfl, rfl, rfl⟩

/-- **C24** appending without an output name raises `ValueError`; nothing is read, written or
changed -/
theorem append_needs_name (h1 : o.hdf5name = none ∨ o.hdf5name = some []) (h2 : o.append = true)
    (name : Str) (pre : PrefixArg) :
    sif2hdf5 D B o (.name name) pre w = (.error .valueError, w) := by
  cases pre with
  | one p =>
    rw [single_eq]
    unfold convertFile
    rw [if_pos ⟨outName_none h1, h2⟩]
  | many ps =>
    rw [listed_eq]
    unfold convertListed
    rw [if_pos ⟨outName_none h1, h2⟩]

/-- **C24** a sequence of names cannot be converted in memory: `TypeError`, nothing is changed -/
theorem sequence_in_memory (h : o.inMemory = true) (names : List Str) (pre : PrefixArg) :
    sif2hdf5 D B o (.names names) pre w = (.error .typeError, w) := by
  unfold sif2hdf5
  dsimp only
  rw [if_pos h]

/-- **C24** an argument that is neither a string nor a list or tuple: `TypeError`, nothing is
changed -/
theorem bad_argument (pre : PrefixArg) : sif2hdf5 D B o .other pre w = (.error .typeError, w) := rfl

/-- **C24** names that are not SESAM file names, and `.SIN` files, raise `ValueError`; nothing is
read, written or changed -/
theorem bad_name {name dir fname : Str} {pre : PrefixArg}
    (hp : PathOf (w.fullPath name) dir fname)
    (h : (∀ fp l no sep ext, ¬ Splits fname fp l no sep ext) ∨
      ∃ fp l no ext, SesamName fname fp l no ext ∧
        (ext.getLast? = some 'n' ∨ ext.getLast? = some 'N')) :
    sif2hdf5 D B o (.name name) pre w = (.error .valueError, w) := by
  have hsp := splitPath_eq hp.2.1 hp.2.2
  rw [← hp.1] at hsp
  have hm : convMatch fname = none ∨
      ∃ info, convMatch fname = some info ∧ upper info.ext = ['S', 'I', 'N'] := by
    rcases h with h | ⟨fp, l, no, ext, hn, hx⟩
    · exact .inl ((names_agree (filename := fname) (dir := []) ⟨rfl, .inl rfl, hp.2.2⟩).2
          ((sifname_raises (filename := fname) (dir := []) ⟨rfl, .inl rfl, hp.2.2⟩).1.mpr
            fun _ _ _ _ _ hs => absurd hs (h _ _ _ _ _)))
    · have hext : IsExt ext := by obtain ⟨⟨_, _, _, _, _, _, _, h⟩, _⟩ := hn; exact h
      exact .inr ⟨⟨fp, l, ext⟩, (names_agree (filename := fname) (dir := []) ⟨rfl, .inl rfl, hp.2.2⟩).1 _
          (sifname_parts (dir := []) ⟨rfl, .inl rfl, hp.2.2⟩ hn), (upper_sin hext).mpr hx⟩
  cases pre with
  | one p =>
    rw [single_eq]
    unfold convertFile
    dsimp only
    split
    · rfl
    rcases hm with hm | ⟨info, hm, hx⟩
    · simp only [hsp, hm]
    · simp only [hsp, hm, if_pos hx]
  | many ps =>
    rw [listed_eq]
    unfold convertListed
    dsimp only
    split
    · rfl
    rcases hm with hm | ⟨info, hm, hx⟩
    · simp only [hsp, hm]
    · simp only [hsp, hm, if_pos hx]

/-- **C24** a file that does not exist raises `FileNotFoundError` and nothing is written -/
theorem missing_file {name dir fname fp no ext pre : Str} {l : Char}
    (hp : PathOf (w.fullPath name) dir fname) (hn : SesamName fname fp l no ext)
    (hsin : ext.getLast? ≠ some 'n' ∧ ext.getLast? ≠ some 'N')
    (happ : o.append = true → ∃ n, n ≠ [] ∧ o.hdf5name = some n)
    (hb : w.disk (w.fullPath name) = none) :
    ∃ st, sif2hdf5 D B o (.name name) (.one pre) w = (.error .fileNotFound, { w with st := st }) := by
  have hsp := splitPath_eq hp.2.1 hp.2.2
  rw [← hp.1] at hsp
  have hm : convMatch fname = some ⟨fp, l, ext⟩ :=
    (names_agree (filename := fname) (dir := []) ⟨rfl, .inl rfl, hp.2.2⟩).1 _
      (sifname_parts (dir := []) ⟨rfl, .inl rfl, hp.2.2⟩ hn)
  have hext : IsExt ext := by obtain ⟨⟨_, _, _, _, _, _, _, h⟩, _⟩ := hn; exact h
  have hns : ¬ upper ext = ['S', 'I', 'N'] := by rw [upper_sin hext]; tauto
  have hno : ¬ (o.outName = none ∧ o.append = true) := by
    rintro ⟨h1, h2⟩
    obtain ⟨n, hn1, hn2⟩ := happ h2
    rw [outName_some hn2 hn1] at h1
    cases h1
  rw [single_eq]
  unfold convertFile
  rw [if_neg hno]
  simp only [hsp, hm, if_neg hns, hb]
  exact ⟨_, rfl⟩

/-- **C24** A list as `prefix` of a single file always raises: `TypeError`, before anything is read
or written, if the prefix of the file name is used. -/
theorem listed_prefix {name dir fname fp no ext : Str} {l : Char} {ps : List Str}
    (hp : PathOf (w.fullPath name) dir fname) (hn : SesamName fname fp l no ext)
    (hsin : ext.getLast? ≠ some 'n' ∧ ext.getLast? ≠ some 'N')
    (happ : o.append = true → ∃ n, n ≠ [] ∧ o.hdf5name = some n) (hu : o.usefileprefix = true) :
    ∃ st, sif2hdf5 D B o (.name name) (.many ps) w = (.error .typeError, { w with st := st }) := by
  have hsp := splitPath_eq hp.2.1 hp.2.2
  rw [← hp.1] at hsp
  have hm : convMatch fname = some ⟨fp, l, ext⟩ :=
    (names_agree (filename := fname) (dir := []) ⟨rfl, .inl rfl, hp.2.2⟩).1 _
      (sifname_parts (dir := []) ⟨rfl, .inl rfl, hp.2.2⟩ hn)
  have hext : IsExt ext := by obtain ⟨⟨_, _, _, _, _, _, _, h⟩, _⟩ := hn; exact h
  have hns : ¬ upper ext = ['S', 'I', 'N'] := by rw [upper_sin hext]; tauto
  have hno : ¬ (o.outName = none ∧ o.append = true) := by
    rintro ⟨h1, h2⟩
    obtain ⟨n, hn1, hn2⟩ := happ h2
    rw [outName_some hn2 hn1] at h1
    cases h1
  rw [listed_eq]
  unfold convertListed
  rw [if_neg hno]
  simp only [hsp, hm, if_neg hns, hu, if_true]
  exact ⟨_, rfl⟩

/-- **C24** If the prefix of the file name is not used, a list as `prefix` of a single file raises
`TypeError` when the first group is to be named: the output file is left open, and empty unless the
call appends. -/
theorem listed_prefix_late {name dir fname fp no ext given : Str} {l : Char} {ps : List Str} {b : Bytes}
    {h0 : H5}
    (hp : PathOf (w.fullPath name) dir fname) (hn : SesamName fname fp l no ext)
    (hsin : ext.getLast? ≠ some 'n' ∧ ext.getLast? ≠ some 'N')
    (hb : w.disk (w.fullPath name) = some b) (hu : o.usefileprefix = false)
    (hmem : o.inMemory = false) (happ : o.append = true → ∃ n, n ≠ [] ∧ o.hdf5name = some n)
    (hgiven : GivenName o fname given) (hbefore : Before w o.append given h0) :
    ∃ w', sif2hdf5 D B o (.name name) (.many ps) w = (.error .typeError, w') ∧
      w'.out (w.fullPath given) = some (.left h0) ∧
      (∀ p, p ≠ w.fullPath given → w'.out p = w.out p) ∧
      w'.disk = w.disk ∧ w'.cwd = w.cwd ∧ w'.memory = w.memory ∧ w'.leaked = given :: w.leaked ∧
      w'.reading = w.reading ∧ w'.printed = w.printed ∧ w'.st.env.elem = w.st.env.elem := by
  have hsp := splitPath_eq hp.2.1 hp.2.2
  rw [← hp.1] at hsp
  have hm : convMatch fname = some ⟨fp, l, ext⟩ :=
    (names_agree (filename := fname) (dir := []) ⟨rfl, .inl rfl, hp.2.2⟩).1 _
      (sifname_parts (dir := []) ⟨rfl, .inl rfl, hp.2.2⟩ hn)
  have hext : IsExt ext := by obtain ⟨⟨_, _, _, _, _, _, _, h⟩, _⟩ := hn; exact h
  have hns : ¬ upper ext = ['S', 'I', 'N'] := by rw [upper_sin hext]; tauto
  have hno : ¬ (o.outName = none ∧ o.append = true) := by
    rintro ⟨h1, h2⟩
    obtain ⟨n, hn1, hn2⟩ := happ h2
    rw [outName_some hn2 hn1] at h1
    cases h1
  rw [listed_eq]
  unfold convertListed
  rw [if_neg hno]
  simp only [hsp, hm, if_neg hns, hu, hb, hmem, Bool.false_eq_true, if_false, hgiven.eq,
    hbefore.open]
  exact ⟨_, rfl, by simp, fun p hp' => by simp [hp'], rfl, rfl, rfl, rfl, rfl, rfl, rfl⟩

/-- **C24** Whatever happens, a call with a file name changes no file but the output file, and
none at all in memory. -/
theorem only_output_written {name dir fname : Str} {pre : PrefixArg}
    (hp : PathOf (w.fullPath name) dir fname) :
    let w' := (sif2hdf5 D B o (.name name) pre w).2
    w'.disk = w.disk ∧ w'.cwd = w.cwd ∧ w'.reading = w.reading ∧
    ∀ p, w'.out p ≠ w.out p → o.inMemory = false ∧ OutputName o w fname p := by
  have hsp := splitPath_eq hp.2.1 hp.2.2
  rw [← hp.1] at hsp
  have hout : ∀ info, convMatch fname = some info → OutputName o w fname
      (w.fullPath (o.outName.getD (fname.dropLast.dropLast.dropLast ++ ['h', '5']))) := by
    intro info hm
    rw [convMatch_eq] at hm
    have hlen : 3 ≤ fname.length := by
      cases hs : sifMatch fname with
      | none => rw [hs] at hm; cases hm
      | some m =>
        obtain ⟨⟨sep, -, h, rest, he, -, -, -, -, x, y, z, hx, -⟩, -⟩ := (sifMatch_iff _ _).mp hs
        rw [he, hx]
        simp
        omega
    refine ⟨_, ?_, rfl⟩
    unfold Options.outName
    split
    · rename_i c r hn
      exact .inl ⟨by simp, hn⟩
    · rename_i hn
      refine .inr ⟨?_, fname.take (fname.length - 3), fname.drop (fname.length - 3),
        (List.take_append_drop _ _).symm, by simp; omega, ?_⟩
      · cases ho : o.hdf5name with
        | none => exact .inl rfl
        | some n =>
          cases n with
          | nil => exact .inr rfl
          | cons c r => exact absurd ho (hn c r)
      · have : fname = fname.take (fname.length - 3) ++ fname.drop (fname.length - 3) :=
          (List.take_append_drop _ _).symm
        conv_lhs => rw [this]
        rw [dropLast3 (by simp; omega)]
        rfl
  dsimp only
  cases pre with
  | one pre =>
    rw [single_eq]
    unfold convertFile
    split
    · exact ⟨rfl, rfl, rfl, fun p h => absurd rfl h⟩
    simp only [hsp]
    split
    · exact ⟨rfl, rfl, rfl, fun p h => absurd rfl h⟩
    rename_i info hm
    replace hout := hout info hm
    split
    · exact ⟨rfl, rfl, rfl, fun p h => absurd rfl h⟩
    split
    · exact ⟨rfl, rfl, rfl, fun p h => absurd rfl h⟩
    split
    · split
      · exact ⟨rfl, rfl, rfl, fun p h => absurd rfl h⟩
      split
      · exact ⟨rfl, rfl, rfl, fun p h => absurd rfl h⟩
      · exact ⟨rfl, rfl, rfl, fun p h => absurd rfl h⟩
    rename_i hmem
    generalize w.fullPath (o.outName.getD (fname.dropLast.dropLast.dropLast ++ ['h', '5'])) = out at hout ⊢
    split
    · exact ⟨rfl, rfl, rfl, fun p h => absurd rfl h⟩
    split
    · refine ⟨rfl, rfl, rfl, fun p h => ⟨by simpa using hmem, ?_⟩⟩
      by_cases hpo : p = out
      · rw [hpo]; exact hout
      · exact absurd (by simp [hpo]) h
    · refine ⟨rfl, rfl, rfl, fun p h => ⟨by simpa using hmem, ?_⟩⟩
      by_cases hpo : p = out
      · rw [hpo]; exact hout
      · exact absurd (by simp [hpo]) h
  | many ps =>
    rw [listed_eq]
    unfold convertListed
    split
    · exact ⟨rfl, rfl, rfl, fun p h => absurd rfl h⟩
    simp only [hsp]
    split
    · exact ⟨rfl, rfl, rfl, fun p h => absurd rfl h⟩
    rename_i info hm
    replace hout := hout info hm
    split
    · exact ⟨rfl, rfl, rfl, fun p h => absurd rfl h⟩
    split
    · exact ⟨rfl, rfl, rfl, fun p h => absurd rfl h⟩
    split
    · exact ⟨rfl, rfl, rfl, fun p h => absurd rfl h⟩
    split
    · split
      · exact ⟨rfl, rfl, rfl, fun p h => absurd rfl h⟩
      · exact ⟨rfl, rfl, rfl, fun p h => absurd rfl h⟩
    rename_i hmem
    generalize w.fullPath (o.outName.getD (fname.dropLast.dropLast.dropLast ++ ['h', '5'])) = out at hout ⊢
    split
    · exact ⟨rfl, rfl, rfl, fun p h => absurd rfl h⟩
    · refine ⟨rfl, rfl, rfl, fun p h => ⟨by simpa using hmem, ?_⟩⟩
      by_cases hpo : p = out
      · rw [hpo]; exact hout
      · exact absurd (by simp [hpo]) h

/-- the call for one name of a sequence -/
abbrev single (D : Dec) (B : Nat) (o : Options) (n p : Str) (w : World) :=
  sif2hdf5 D B o (.name n) (.one p) w

theorem convertEach_oneByOne : ∀ (l : List (Str × Str)) (w : World),
    OneByOne (single D B) (l.map fun x => (o, x.1, x.2)) w
      (convertEach D B o l w).1 (convertEach D B o l w).2
  | [], w => .nil
  | (n, p) :: more, w => by
    unfold convertEach
    cases h : convertFile D B o n p w with
    | mk r w' =>
      cases r with
      | ok r => exact .cons h (convertEach_oneByOne more w')
      | error e => exact .raises h

/-- the prefixes for the files of a sequence -/
inductive Prefixes (names : List Str) : PrefixArg → List Str → Prop
  | same {p : Str} : Prefixes names (.one p) (List.replicate names.length p)
  | empty : Prefixes names (.many []) (List.replicate names.length [])
  | each {ps : List Str} : ps ≠ [] → Prefixes names (.many ps) ps

/-- **C24** A sequence with an output name: one call for each file (with its prefix), all with that
output name, the first with the given `append`, the others appending; the first exception ends the
calls and is raised.  (`zip`: if `prefix` is a list shorter than the sequence, the remaining files
are dropped.) -/
theorem sequence_one_file {n : Str} {ns : List Str} {out : Str} {pre : PrefixArg} {ps : List Str}
    (hmem : o.inMemory = false) (hname : o.hdf5name = some out) (hne : out ≠ [])
    (hps : Prefixes (n :: ns) pre ps) :
    ∃ p ps', ps = p :: ps' ∧
    OneByOne (single D B)
      ((o, n, p) :: (ns.zip ps').map fun x => ({ o with append := true }, x.1, x.2)) w
      (sif2hdf5 D B o (.names (n :: ns)) pre w).1 (sif2hdf5 D B o (.names (n :: ns)) pre w).2 := by
  have key : ∀ p ps', prefixList (n :: ns) pre = p :: ps' →
      OneByOne (single D B)
      ((o, n, p) :: (ns.zip ps').map fun x => ({ o with append := true }, x.1, x.2)) w
      (sif2hdf5 D B o (.names (n :: ns)) pre w).1 (sif2hdf5 D B o (.names (n :: ns)) pre w).2 := by
    intro p ps' hp
    have e : sif2hdf5 D B o (.names (n :: ns)) pre w =
        match convertFile D B o n p w with
        | (.ok _, w') => convertEach D B { o with append := true } (ns.zip ps') w'
        | (.error e, w') => (.error e, w') := by
      unfold sif2hdf5
      dsimp only
      rw [if_neg (by simp [hmem]), outName_some hname hne, hp]
      rfl
    rw [e]
    cases h : convertFile D B o n p w with
    | mk r w' =>
      cases r with
      | ok r => exact .cons h (convertEach_oneByOne _ w')
      | error e => exact .raises h
  cases hps with
  | @same p =>
    exact ⟨p, List.replicate ns.length p, rfl, key _ _ (by simp [prefixList, List.map_const'])⟩
  | empty =>
    exact ⟨[], List.replicate ns.length [], rfl, key _ _ (by simp [prefixList, List.map_const'])⟩
  | each h =>
    cases ps with
    | nil => exact absurd rfl h
    | cons p ps => exact ⟨p, ps, rfl, key _ _ rfl⟩

/-- **C24** A sequence without output name: one call for each file, each with its own output. -/
theorem sequence_own_files {ns : List Str} {pre : PrefixArg} {ps : List Str}
    (hmem : o.inMemory = false) (hname : o.hdf5name = none ∨ o.hdf5name = some [])
    (hps : Prefixes ns pre ps) :
    OneByOne (single D B) ((ns.zip ps).map fun x => (o, x.1, x.2)) w
      (sif2hdf5 D B o (.names ns) pre w).1 (sif2hdf5 D B o (.names ns) pre w).2 := by
  have e : sif2hdf5 D B o (.names ns) pre w = convertEach D B o (ns.zip ps) w := by
    have hp : prefixList ns pre = ps := by
      cases hps with
      | same => simp [prefixList, List.map_const']
      | empty => simp [prefixList, List.map_const']
      | each h =>
        cases ps with
        | nil => exact absurd rfl h
        | cons p ps => rfl
    unfold sif2hdf5
    dsimp only
    rw [if_neg (by simp [hmem]), outName_none hname, hp]
  rw [e]
  exact convertEach_oneByOne _ w

end

end Verif.Conv
