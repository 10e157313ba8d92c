import Verif.Session.Closing
import Verif.Conv.Refuse
/-!
# Names that stay in use after a conversion that raised (property theorems)
-/

namespace Verif.Session
open Verif Verif.Seq Verif.Parse Verif.Conv Verif.Data Verif.Data.Life Verif.Data.Load

/-! ### files that were left open stay open -/

section
variable {D : Dec} {B : Nat}

theorem convertFile_leaked {o : Options} {m p : Str} {w : Conv.World} {n : Str}
    (hn : n ∈ w.leaked) : n ∈ (convertFile D B o m p w).2.leaked := by
  unfold convertFile
  split
  · exact hn
  dsimp only
  split
  · exact hn
  split
  · exact hn
  split
  · exact hn
  split
  · split
    · exact hn
    · split <;> exact hn
  split
  · exact hn
  split
  · exact List.mem_cons_of_mem _ hn
  · exact hn

theorem convertListed_leaked {o : Options} {m : Str} {w : Conv.World} {n : Str}
    (hn : n ∈ w.leaked) : n ∈ (convertListed o m w).2.leaked := by
  unfold convertListed
  split
  · exact hn
  dsimp only
  split
  · exact hn
  split
  · exact hn
  split
  · exact hn
  split
  · exact hn
  split
  · split <;> exact hn
  split
  · exact hn
  · exact List.mem_cons_of_mem _ hn

theorem convertEach_leaked {o : Options} {n : Str} :
    ∀ (l : List (Str × Str)) {w : Conv.World}, n ∈ w.leaked → n ∈ (convertEach D B o l w).2.leaked
  | [], _, hn => hn
  | (m, p) :: more, w, hn => by
    have h := convertFile_leaked (D := D) (B := B) (o := o) (m := m) (p := p) hn
    unfold convertEach
    split
    · rename_i hc
      rw [hc] at h
      exact convertEach_leaked more h
    · rename_i hc
      rw [hc] at h
      exact h

theorem sif2hdf5_leaked {o : Options} {arg : SifArg} {pre : PrefixArg} {w : Conv.World} {n : Str}
    (hn : n ∈ w.leaked) : n ∈ (sif2hdf5 D B o arg pre w).2.leaked := by
  unfold sif2hdf5
  split
  · split
    · exact convertFile_leaked hn
    · exact convertListed_leaked hn
  · exact hn
  · split
    · exact hn
    split
    · split
      · rename_i m ms p ps _
        have h := convertFile_leaked (D := D) (B := B) (o := o) (m := m) (p := p) hn
        split
        · rename_i hc
          rw [hc] at h
          exact convertEach_leaked _ h
        · rename_i hc
          rw [hc] at h
          exact h
      · exact hn
    · exact convertEach_leaked _ hn

end

section
variable {K V : Type} [Field K] [LinearOrder K] {iter : H5 → List (String × List String)} {pi : K}
  {num : PyF → K} {cplx : PyF → PyF → V} {D : Dec} {B : Nat} {s : State}

/-- the name is in use by a file that nothing can close -/
def Stuck (s : State) (n : Str) : Prop :=
  n ∈ s.conv.leaked ∨ n ∈ s.conv.memory ∧ isOpen s s.life (.memory n) = false

theorem Stuck.used {n : Str} (h : Stuck s n) : n ∈ s.conv.memory ++ s.conv.leaked := by
  rcases h with h | h
  · exact List.mem_append_right _ h
  · exact List.mem_append_left _ h.1

theorem Stuck.opened {n : Str} (h : Stuck s n) (i : Inv s) {name : Origin} {x : H5}
    (hne : name ≠ .memory n) : Stuck (openTables iter pi num cplx s name x).1 n := by
  obtain ⟨e1, e2, gs, e3⟩ := openTables_life (iter := iter) (pi := pi) (num := num) (cplx := cplx) s
    name x
  rcases h with h | ⟨h1, h2⟩
  · left
    rw [e1]
    exact h
  · right
    rw [e1]
    refine ⟨h1, ?_⟩
    rw [Bool.eq_false_iff] at h2 ⊢
    intro h3
    refine h2 ?_
    obtain ⟨k, y, h4, h5⟩ := (isOpen_iff _ _ _).mp h3
    rw [e2] at h4
    rw [e3, handles_openFile] at h5
    rcases get_snoc_inv h4 with h4 | ⟨-, e⟩
    · have hk := (List.getElem?_eq_some_iff.mp h4).1
      rw [i.len] at hk
      rw [List.getElem?_append_left hk] at h5
      exact (isOpen_iff _ _ _).mpr ⟨k, y, h4, h5⟩
    · injection e with e
      exact absurd e.symm hne

theorem Stuck.closed {n : Str} (h : Stuck s n) {w : Life.World}
    (hmono : ∀ k : Nat, w.handles[k]? = some true → s.life.handles[k]? = some true) :
    Stuck (afterClose s w) n := by
  rcases h with h | ⟨h1, h2⟩
  · exact .inl h
  · refine .inr ⟨?_, ?_⟩
    · show n ∈ s.conv.memory.filter _
      rw [List.mem_filter]
      exact ⟨h1, by rw [h2]; rfl⟩
    · rw [Bool.eq_false_iff] at h2 ⊢
      intro h3
      obtain ⟨k, y, h4, h5⟩ := (isOpen_iff _ _ _).mp h3
      exact h2 ((isOpen_iff _ _ _).mpr ⟨k, y, h4, hmono k h5⟩)

theorem Stuck.step {n : Str} (h : Stuck s n) (i : Inv s) {s' : State}
    (hs : Step iter pi num cplx D B s s') : Stuck s' n := by
  cases hs with
  | openHdf5 _ filename =>
    unfold openHdf5
    split
    · exact h.opened i (by simp)
    · split
      · exact h
      · exact h.opened i (by simp)
    · exact h
  | openSif _ filename =>
    have hw := convertFile_world (D := D) (B := B) { inMemory := true } filename [] s.conv
    have hl : ∀ m, m ∈ s.conv.leaked →
        m ∈ (convertFile D B { inMemory := true } filename [] s.conv).2.leaked :=
      fun m hm => convertFile_leaked hm
    have ic : Inv { s with conv := (convertFile D B { inMemory := true } filename [] s.conv).2 } := by
      refine i.conv hw.1 ?_ ?_ (hw.2.2.1.trans i.reading)
      · rcases hw.2.2.2 with ⟨e, -⟩ | ⟨-, n, hn, e, -⟩ <;> rw [e]
        · exact i.nodup
        · exact List.nodup_cons.mpr ⟨hn, i.nodup⟩
      · intro m hm
        rcases hw.2.2.2 with ⟨e, -⟩ | ⟨-, n, hn, e, -⟩ <;> rw [e]
        · exact hm
        · exact List.mem_cons_of_mem _ hm
    have hs : Stuck { s with conv := (convertFile D B { inMemory := true } filename [] s.conv).2 }
        n := by
      rcases h with h | ⟨h1, h2⟩
      · exact .inl (hl n h)
      · refine .inr ⟨?_, h2⟩
        rcases hw.2.2.2 with ⟨e, -⟩ | ⟨-, n, hn, e, -⟩
        · show _ ∈ World.memory _
          rw [e]; exact h1
        · show _ ∈ World.memory _
          rw [e]; exact List.mem_cons_of_mem _ h1
    have hname : ∀ m x, (convertFile D B { inMemory := true } filename [] s.conv).1 =
        .ok (.memory m x) → m ∉ s.conv.memory ++ s.conv.leaked := by
      intro m x he
      unfold convertFile at he
      rw [if_neg (by simp)] at he
      dsimp only at he
      split at he
      · cases he
      split at he
      · cases he
      split at he
      · cases he
      rw [if_pos rfl] at he
      split at he
      · cases he
      rename_i hu
      split at he
      · cases he
      · injection he with he
        injection he with he
        rw [← he]
        unfold World.inUse at hu
        intro hm
        apply hu
        rcases List.mem_append.mp hm with hm | hm <;> simp [hm]
    show Stuck (openSif iter pi num cplx D B s filename).1 n
    unfold openSif
    rw [single_eq]
    cases hr : convertFile D B { inMemory := true } filename [] s.conv with
    | mk r cw =>
      rw [hr] at hs ic hname
      cases r with
      | error e => exact hs
      | ok r =>
        cases r with
        | none => exact hs
        | path p => exact hs
        | memory m x =>
          dsimp only at hs ic ⊢
          cases hp : parseSifname filename with
          | error e => exact hs
          | ok info =>
            dsimp only
            have := hs.opened (iter := iter) (pi := pi) (num := num) (cplx := cplx) (x := x) ic
              (name := .memory m) (by
                intro e
                injection e with e
                exact hname m x rfl (e ▸ h.used))
            split
            · rename_i he
              rw [he] at this
              exact this
            · rename_i he
              rw [he] at this
              exact this
  | convert o _ arg pre =>
    have hw := sif2hdf5_world (D := D) (B := B) (o := { o with inMemory := false }) rfl arg pre
      { s.conv with reading := openPaths s }
    rcases h with h | ⟨h1, h2⟩
    · exact .inl (sif2hdf5_leaked (w := { s.conv with reading := openPaths s }) h)
    · refine .inr ⟨?_, h2⟩
      show n ∈ (sif2hdf5 ..).2.memory
      rw [hw.2.2.1]
      exact h1
  | elsewhere _ dir disk => exact h
  | closeFile _ f => exact h.closed (closeFile_handles _ _).2
  | closeData _ d => exact h.closed (closeData_handles _ _).2
  | closeAll _ order ho =>
    refine h.closed ?_
    rcases closeAll_cases (inv_reachable i.life) ho with ⟨-, e⟩ | ⟨f, -, e⟩ <;> rw [e]
    · exact fun _ h => h
    · exact (closeFile_handles _ _).2

theorem Stuck.steps {n : Str} (h : Stuck s n) (hr : Reachable iter pi num cplx D B s) {s' : State}
    (hs : Steps iter pi num cplx D B s s') : Stuck s' n := by
  induction hs with
  | refl => exact h
  | snoc h1 h2 ih => exact ih.step (inv_of (reach_steps hr h1)) h2

/-! ### properties -/

/-- **C75** If `open_sif` raises because the file cannot be converted, no object changes, and from
then on, whatever is called and however the files change, `open_sif` raises `ValueError` for every
file of the same name. -/
theorem open_sif_never_again (hs : Reachable iter pi num cplx D B s)
    {filename dir fname fp no ext stem e3 : Str} {l : Char} {b : Bytes} {F : Failure}
    (hp : PathOf (s.conv.fullPath filename) dir fname) (hn : SesamName fname fp l no ext)
    (hsin : ext.getLast? ≠ some 'n' ∧ ext.getLast? ≠ some 'N')
    (hb : s.conv.disk (s.conv.fullPath filename) = some b)
    (hstem : fname = stem ++ e3) (h3 : e3.length = 3)
    (hfree : stem ++ "h5".toList ∉ s.conv.memory ++ s.conv.leaked)
    (hc : ConversionFails D none s.conv.st.env.elem s.conv.disk dir fp l ext fp b {} F) :
    ∃ s', openSif iter pi num cplx D B s filename = (s', .error F.error) ∧ s'.life = s.life ∧
      s'.store = s.store ∧ s'.conv.out = s.conv.out ∧
      s'.conv.printed = s.conv.printed ++ F.messages ∧
      ∀ s'', Steps iter pi num cplx D B s' s'' → ∀ {filename dir fname fp no ext e3 l b},
        PathOf (s''.conv.fullPath filename) dir fname → SesamName fname fp l no ext →
        fname = stem ++ e3 → e3.length = 3 →
        s''.conv.disk (s''.conv.fullPath filename) = some b →
        ∃ s3, openSif iter pi num cplx D B s'' filename = (s3, .error .valueError) ∧
          s3.life = s''.life ∧ s3.conv.out = s''.conv.out := by
  have i := inv_of hs
  obtain ⟨w', h', e1, e2, e3', e4, e5, e6, e7, e8, e9⟩ := refused_in_memory (B := B) (w := s.conv)
    (o := { inMemory := true }) (pre := []) hp hn hsin hb (gpre := fp) rfl rfl (by simp) hstem h3
    (by rw [i.reading, List.append_nil]; exact hfree) hc
  have hopen : openSif iter pi num cplx D B s filename = ({ s with conv := w' }, .error F.error) := by
    unfold openSif
    rw [e1]
  refine ⟨_, hopen, rfl, rfl, e3', e9, ?_⟩
  have hr : Reachable iter pi num cplx D B { s with conv := w' } := by
    have := Reachable.step hs (.openSif s filename)
    rw [hopen] at this
    exact this
  have hst : Stuck { s with conv := w' } (stem ++ "h5".toList) := by
    refine .inr ⟨by show _ ∈ w'.memory; rw [e6]; simp, ?_⟩
    rw [Bool.eq_false_iff]
    intro h
    obtain ⟨k, x, h1, h2⟩ := (isOpen_iff _ _ _).mp h
    exact hfree (List.mem_append_left _ (i.mem k _ x h1 h2))
  intro s'' hss filename dir fname fp no ext e3 l b hp hn hstem h3 hb
  obtain ⟨s3, q1, q2, -, -, q3, -⟩ := used_name_refused (iter := iter) (pi := pi) (num := num)
    (cplx := cplx) (D := D) (B := B) (hst.steps hr hss).used hp hn hstem h3 hb
  exact ⟨s3, q1, q2, q3⟩

/-- **C75** If `sif2hdf5` raises because the file cannot be converted, its output file, given by a
name in the current directory, stays open under that name: from then on `open_sif` raises
`ValueError` for every SESAM file of that name. -/
theorem failed_conversion_blocks (hs : Reachable iter pi num cplx D B s) {o : Options}
    {filename dir fname fp no ext stem upre gpre : Str} {l : Char} {b : Bytes} {F : Failure} {h0 : H5}
    (hp : PathOf (s.conv.fullPath filename) dir fname) (hn : SesamName fname fp l no ext)
    (hsin : ext.getLast? ≠ some 'n' ∧ ext.getLast? ≠ some 'N')
    (hb : s.conv.disk (s.conv.fullPath filename) = some b)
    (hpre : gpre = if o.usefileprefix then upre ++ fp else upre)
    (happ : o.append = true → ∃ n, n ≠ [] ∧ o.hdf5name = some n)
    (hgiven : GivenName o fname (stem ++ "h5".toList))
    (hclosed : ∀ p ∈ [stem ++ "h5".toList, s.conv.fullPath (stem ++ "h5".toList)],
      isOpen s s.life (.disk p) = false)
    (hbefore : Before s.conv o.append (stem ++ "h5".toList) h0)
    (hc : ConversionFails D o.only s.conv.st.env.elem s.conv.disk dir fp l ext gpre b h0 F) :
    ∃ s' h', convert D B o s (.name filename) (.one upre) = (s', .error F.error) ∧
      s'.life = s.life ∧ s'.store = s.store ∧
      s'.conv.out (s.conv.fullPath (stem ++ "h5".toList)) = some (.left h') ∧
      F.Leaves B o.only s.conv.st.env.elem h' s'.conv.st.env.elem ∧
      (∀ p, p ≠ s.conv.fullPath (stem ++ "h5".toList) → s'.conv.out p = s.conv.out p) ∧
      s'.conv.printed = s.conv.printed ++ F.messages ∧
      ∀ s'', Steps iter pi num cplx D B s' s'' → ∀ {filename dir fname fp no ext e3 l b},
        PathOf (s''.conv.fullPath filename) dir fname → SesamName fname fp l no ext →
        fname = stem ++ e3 → e3.length = 3 →
        s''.conv.disk (s''.conv.fullPath filename) = some b →
        ∃ s3, openSif iter pi num cplx D B s'' filename = (s3, .error .valueError) ∧
          s3.life = s''.life ∧ s3.conv.out = s''.conv.out := by
  obtain ⟨w', h', e1, e2, e3, e4, e5, e6, e7, e8, e9, e10⟩ := refused_file (B := B)
    (w := { s.conv with reading := openPaths s }) (o := { o with inMemory := false }) (pre := upre)
    hp hn hsin hb hpre rfl happ hgiven
    (before_session hbefore (hclosed _ (by simp)) (hclosed _ (by simp))) hc
  have hconv : convert D B o s (.name filename) (.one upre) =
      ({ s with conv := { w' with reading := [] } }, .error F.error) := by
    unfold convert
    rw [e1]
  refine ⟨_, h', hconv, rfl, rfl, e2, e3, e4, e10, ?_⟩
  have hr : Reachable iter pi num cplx D B { s with conv := { w' with reading := [] } } := by
    have := Reachable.step hs (.convert o s (.name filename) (.one upre))
    rw [hconv] at this
    exact this
  have hst : Stuck { s with conv := { w' with reading := [] } } (stem ++ "h5".toList) := by
    left
    show _ ∈ w'.leaked
    rw [e8]
    exact List.mem_cons_self
  intro s'' hss filename dir fname fp no ext e3 l b hp hn hstem h3 hb
  obtain ⟨s3, q1, q2, -, -, q3, -⟩ := used_name_refused (iter := iter) (pi := pi) (num := num)
    (cplx := cplx) (D := D) (B := B) (hst.steps hr hss).used hp hn hstem h3 hb
  exact ⟨s3, q1, q2, q3⟩

end
end Verif.Session
