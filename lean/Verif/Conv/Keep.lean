import Verif.Conv.Demo
import Verif.Parse.LeftKeep
/-!
# Appending keeps what is in the output file (property theorems)
-/

namespace Verif.Conv
open Verif Verif.Seq Verif.Parse

/-! ## specification -/

/-- `h` is in the output file -/
inductive Contains : OutFile → H5 → Prop
  | h5 {h} : Contains (.h5 h) h
  | left {h} : Contains (.left h) h

/-- every output file is still there, with the tables and groups it had; what was left open stays
open -/
def AllKept (before after : Str → Option OutFile) : Prop :=
  ∀ p f h, before p = some f → Contains f h →
    ∃ f' h', after p = some f' ∧ Contains f' h' ∧ Keeps h h' ∧
      ((∃ h, f = .left h) → ∃ h', f' = .left h')

/-! ## proof -/

theorem Contains.exists (f : OutFile) : ∃ h, Contains f h := by
  cases f with
  | h5 h => exact ⟨h, .h5⟩
  | left h => exact ⟨h, .left⟩

theorem Contains.unique {f : OutFile} {h h' : H5} (a : Contains f h) (b : Contains f h') : h = h' := by
  cases a <;> cases b <;> rfl

theorem AllKept.refl (a : Str → Option OutFile) : AllKept a a := fun _ f h hf hc =>
  ⟨f, h, hf, hc, .refl h, id⟩

theorem AllKept.trans {a b c : Str → Option OutFile} (h1 : AllKept a b) (h2 : AllKept b c) :
    AllKept a c := by
  intro p f h hf hc
  obtain ⟨f1, x1, e1, c1, k1, l1⟩ := h1 p f h hf hc
  obtain ⟨f2, x2, e2, c2, k2, l2⟩ := h2 p f1 x1 e1 c1
  exact ⟨f2, x2, e2, c2, k1.trans k2, fun h => l2 (l1 h)⟩

theorem kept_reset {h0 : H5} {st : St} (h : Keeps h0 st.h5) (t : Bool) : KInv h0 (reset t st) :=
  ⟨h, fun n p hn => by cases hn⟩

theorem kept_ihref {h0 : H5} {st st' : St} {i : Int} (k : KInv h0 st)
    (h : setCurrentIhref i st = .ok st') : KInv h0 st' := by
  unfold setCurrentIhref at h
  simp only [bind, Except.bind] at h
  split at h
  · split at h
    · cases h
    · split at h
      · split at h
        · cases h
        · cases h; exact ⟨k.keeps, k.new⟩
      · cases h; exact ⟨k.keeps, k.new⟩
  · cases h; exact ⟨k.keeps, k.new⟩

theorem kept_letter {h0 : H5} {st : St} (k : KInv h0 st) (l : String) :
    KInv h0 { st with g := { st.g with filetypeid := l } } := ⟨k.keeps, k.new⟩

theorem kept_opened (h0 : H5) (st : St) (x : String) :
    KInv h0 { reset true st with
      g := { (reset true st).g with groupnamePrefix := x }, h5 := h0 } :=
  ⟨.refl _, fun n p hn => by cases hn⟩

section
variable {D : Dec} {B : Nat} {only : Option (List String)} {disk : Str → Option Bytes} {dir : Str}
  {formatted : Bool} {h0 : H5}

theorem readLower_keeps : ∀ (l : List (Str × Int)) {st st' : St} {ms : List Str},
    Keeps h0 st.h5 → readLower D B only disk dir formatted l st = (.ok st', ms) → Keeps h0 st'.h5
  | [], st, st', ms, i, h => by
    unfold readLower at h
    cases h
    exact i
  | (n, ih) :: more, st, st', ms, i, h => by
    unfold readLower at h
    split at h
    · split at h
      · cases h
      rename_i hs
      split at h
      · cases h
      rename_i hp
      exact readLower_keeps more (parseSource_keeps (kept_ihref (kept_reset i false) hs) hp).keeps h
    · dsimp only at h
      rw [Prod.mk.injEq] at h
      exact readLower_keeps more i (Prod.ext h.1 rfl)

theorem lowerLeft_keeps : ∀ (l : List (Str × Int)) {st : St}, Keeps h0 st.h5 →
    Keeps h0 (lowerLeft D B only disk dir formatted l st).h5
  | [], st, i => by unfold lowerLeft; exact i
  | (n, ih) :: more, st, i => by
    unfold lowerLeft
    split
    · split
      · exact i
      rename_i hs
      have k := kept_ihref (kept_reset i false) hs
      split
      · exact sourceLeft_keeps k
      · rename_i hp
        exact lowerLeft_keeps more (parseSource_keeps k hp).keeps
    · exact lowerLeft_keeps more i

theorem parseAll_keeps {info : NameInfo} {bytes : Bytes} {st st' : St} {ms : List Str}
    (i : KInv h0 st) (h : parseAll D B only disk dir info formatted bytes st = (.ok st', ms)) :
    Keeps h0 st'.h5 := by
  unfold parseAll at h
  dsimp only at h
  split at h
  · cases h
  rename_i hp
  have k := parseSource_keeps (kept_letter i _) hp
  split at h
  · split at h
    · cases h
    · exact readLower_keeps _ k.keeps h
  · cases h; exact k.keeps

theorem allLeft_keeps {info : NameInfo} {bytes : Bytes} {st : St} (i : KInv h0 st) :
    Keeps h0 (allLeft D B only disk dir info formatted bytes st).h5 := by
  unfold allLeft
  dsimp only
  split
  · exact sourceLeft_keeps (kept_letter i _)
  rename_i hp
  have k := parseSource_keeps (kept_letter i _) hp
  split
  · split
    · exact k.keeps
    · exact lowerLeft_keeps _ k.keeps
  · exact k.keeps

/-- the output file, opened to be appended to, holds what it held -/
theorem openOutput_contains {w : World} {given : Str} {h : H5} {f : OutFile}
    (ho : openOutput w given true = .ok h) (hf : w.out (w.fullPath given) = some f) :
    Contains f h := by
  unfold openOutput at ho
  split at ho
  · cases ho
  rw [hf] at ho
  cases f with
  | h5 h1 =>
    dsimp only at ho
    split at ho
    · cases ho
    · cases ho; exact .h5
  | left h1 => cases ho; exact .left

theorem allKept_set {w : World} {given : Str} {h h' : H5} {g : OutFile}
    (ho : openOutput w given true = .ok h) (hk : Keeps h h') (hg : Contains g h')
    (hl : (∃ x, w.out (w.fullPath given) = some (.left x)) → ∃ x, g = .left x) :
    AllKept w.out (fun p => if p = w.fullPath given then some g else w.out p) := by
  intro p f x hf hc
  by_cases hp : p = w.fullPath given
  · subst hp
    have : x = h := hc.unique (openOutput_contains ho hf)
    subst this
    exact ⟨g, h', if_pos rfl, hg, hk, fun ⟨y, hy⟩ => hl ⟨y, by rw [hf, hy]⟩⟩
  · exact ⟨f, x, (if_neg hp).trans hf, hc, .refl x, id⟩

theorem convertFile_keeps {o : Options} (happ : o.append = true) (n p : Str) (w : World) :
    AllKept w.out (convertFile D B o n p w).2.out := by
  have same := AllKept.refl w.out
  unfold convertFile
  split
  · exact same
  dsimp only
  split
  · exact same
  split
  · exact same
  split
  · exact same
  split
  · split
    · exact same
    · split <;> exact same
  rw [happ]
  split
  · exact same
  rename_i h0 ho
  split
  · exact allKept_set ho (allLeft_keeps (kept_opened _ _ _)) .left fun _ => ⟨_, rfl⟩
  · rename_i st ms hr
    refine allKept_set ho (parseAll_keeps (kept_opened _ _ _) hr) (g := closeOutput _ st.h5) ?_ ?_
    · unfold closeOutput
      split
      · exact .left
      · exact .h5
    · rintro ⟨x, hx⟩
      rw [hx]
      exact ⟨_, rfl⟩

theorem convertListed_keeps {o : Options} (happ : o.append = true) (n : Str) (w : World) :
    AllKept w.out (convertListed o n w).2.out := by
  have same := AllKept.refl w.out
  unfold convertListed
  split
  · exact same
  dsimp only
  split
  · exact same
  split
  · exact same
  split
  · exact same
  split
  · exact same
  split
  · split <;> exact same
  rw [happ]
  split
  · exact same
  · rename_i ho
    exact allKept_set ho (.refl _) .left fun _ => ⟨_, rfl⟩

theorem convertEach_keeps {o : Options} (happ : o.append = true) :
    ∀ (l : List (Str × Str)) (w : World), AllKept w.out (convertEach D B o l w).2.out
  | [], w => .refl _
  | (n, p) :: more, w => by
    have h := convertFile_keeps (D := D) (B := B) happ n p w
    unfold convertEach
    split
    · rename_i hc
      rw [hc] at h
      exact h.trans (convertEach_keeps happ more _)
    · rename_i hc
      rw [hc] at h
      exact h

/-! ## properties -/

/-- **C74** `sif2hdf5` with `mode='a'`, for any arguments and whatever the files hold, whether it
returns or raises: every table and group that was in an output file is in it afterwards, and the
tables are the same. -/
theorem append_keeps {o : Options} (happ : o.append = true) (arg : SifArg) (pre : PrefixArg)
    (w : World) : AllKept w.out (sif2hdf5 D B o arg pre w).2.out := by
  unfold sif2hdf5
  split
  · split
    · exact convertFile_keeps happ _ _ _
    · exact convertListed_keeps happ _ _
  · exact .refl _
  · split
    · exact .refl _
    split
    · split
      · rename_i n ns p ps _
        have h := convertFile_keeps (D := D) (B := B) happ n p w
        split
        · rename_i hc
          rw [hc] at h
          exact h.trans (convertEach_keeps rfl _ _)
        · rename_i hc
          rw [hc] at h
          exact h
      · exact .refl _
    · exact convertEach_keeps happ _ _

/-- **C74** Several files into one HDF5 file: what the conversion of the first leaves is kept, with
or without `mode='a'`, whether the others can be converted or not. -/
theorem first_file_kept {o : Options} {n : Str} {ns : List Str} {p : Str} {w w1 : World} {r : Result}
    (hname : ∃ x, x ≠ [] ∧ o.hdf5name = some x) (hmem : o.inMemory = false)
    (h1 : sif2hdf5 D B o (.name n) (.one p) w = (.ok r, w1)) :
    AllKept w1.out (sif2hdf5 D B o (.names (n :: ns)) (.one p) w).2.out ∧
    ∀ ps, AllKept w1.out (sif2hdf5 D B o (.names (n :: ns)) (.many (p :: ps)) w).2.out := by
  obtain ⟨x, hx, hn⟩ := hname
  have ho := outName_some hn hx
  rw [single_eq] at h1
  constructor
  · unfold sif2hdf5
    simp only [hmem, ho, prefixList, List.map_cons, h1, Bool.false_eq_true, if_false]
    exact convertEach_keeps rfl _ _
  · intro ps
    unfold sif2hdf5
    simp only [hmem, ho, prefixList, h1, Bool.false_eq_true, if_false]
    exact convertEach_keeps rfl _ _

end

/-! ## cases -/

namespace Demo

/-- a file with one table -/
def kept : H5 :=
  { groups := fun p => if p = ["T3"] then some {} else none
    tabs := fun k => if k = (["T3"], "GCOORD") then some { cols := [], arrs := [] } else none }

/-- after an attempt to add `T9.FEM` the table is there, whatever is on the disk -/
example (disk : Str → Option Bytes) :
    ∃ f h, (sif2hdf5 Dec.std 10000 { hdf5name := some "a.h5".toList, append := true }
        (.name "T9.FEM".toList) (.one [])
        { disk := disk, out := fun p => if p = "/a.h5".toList then some (.h5 kept) else none }).2.out
          "/a.h5".toList = some f ∧ Contains f h ∧
      h.tabs (["T3"], "GCOORD") = some { cols := [], arrs := [] } := by
  obtain ⟨f, h, h1, h2, h3, -⟩ := append_keeps (D := Dec.std) (B := 10000)
    (o := { hdf5name := some "a.h5".toList, append := true }) rfl (.name "T9.FEM".toList) (.one [])
    { disk := disk, out := fun p => if p = "/a.h5".toList then some (.h5 kept) else none }
    "/a.h5".toList (.h5 kept) kept
    (by dsimp only; exact if_pos rfl) .h5
  exact ⟨f, h, h1, h2, h3.tables _ _ rfl⟩

/-- `T9.FEM`, then a file that does not exist, into one HDF5 file: what was read is kept -/
example : ∃ f h, (sif2hdf5 Dec.std 10000 { hdf5name := some "a.h5".toList }
      (.names ["T9.FEM".toList, "T8.FEM".toList]) (.one []) world).2.out "/m/a.h5".toList = some f ∧
    Contains f h ∧
    h.tabs (["T9", "T5"], "GNODE") =
      some ((contents (Parse.Demo.lay "GNODE") Parse.Demo.outs).table (Parse.Demo.lay "GNODE")) := by
  obtain ⟨h2, hc, hg⟩ := conversion
  obtain ⟨w', f, k1, k2, k3, -⟩ := hierarchy_converted (B := 10000)
    (o := { hdf5name := some "a.h5".toList }) (w := world)
    (name := "T9.FEM".toList) (dir := "/m/".toList) (pre := []) (gpre := [])
    (given := "a.h5".toList) (no := "9".toList) ⟨rfl, .inr ⟨"/m".toList, rfl⟩, by decide⟩ topName
    (by decide) (by decide +kernel) rfl rfl (by simp) (.inl ⟨by decide, rfl⟩)
    ⟨by decide, fun _ => ⟨by decide, by decide⟩, rfl⟩ hc
  rw [k3.closed fun _ h => by cases h] at k2
  obtain ⟨f', h', e1, e2, e3, -⟩ := (first_file_kept (ns := ["T8.FEM".toList])
    ⟨"a.h5".toList, by decide, rfl⟩ rfl k1).1 _ _ _ k2 .h5
  exact ⟨f', h', e1, e2, e3.tables _ _ hg⟩

end Demo
end Verif.Conv
