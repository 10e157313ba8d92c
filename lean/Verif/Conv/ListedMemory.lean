import Verif.Conv.Paths
/-!
# A list as prefix of a single file: in memory, and with names that are in use
-/

namespace Verif.Conv
open Verif Verif.Seq Verif.Parse

section
variable {D : Dec} {B : Nat} {o : Options} {w : World}

/-- **C24** A list as `prefix` of a single file that is converted in memory, without the prefix of
the file name: `TypeError`, and the name of the file in memory remains taken. -/
theorem listed_prefix_memory {name dir fname fp no ext stem e3 : Str} {l : Char} {ps : List Str}
    {b : Bytes} (hp : PathOf (w.fullPath name) dir fname) (hn : SesamName fname fp l no ext)
    (hsin : ext.getLast? ≠ some 'n' ∧ ext.getLast? ≠ some 'N')
    (hb : w.disk (w.fullPath name) = some b) (hu : o.usefileprefix = false)
    (hmem : o.inMemory = true) (happ : o.append = true → ∃ n, n ≠ [] ∧ o.hdf5name = some n)
    (hstem : fname = stem ++ e3) (h3 : e3.length = 3)
    (hfree : stem ++ "h5".toList ∉ w.memory ++ w.leaked ++ w.reading) :
    ∃ st, sif2hdf5 D B o (.name name) (.many ps) w =
        (.error .typeError, { w with st := st, memory := (stem ++ "h5".toList) :: w.memory }) ∧
      st.env.elem = w.st.env.elem := by
  have hsp := splitPath_eq hp.2.1 hp.2.2
  rw [← hp.1] at hsp
  have hm : convMatch fname = some ⟨fp, l, ext⟩ :=
    (names_agree (filename := fname) (dir := []) ⟨rfl, .inl rfl, hp.2.2⟩).1 _
      (sifname_parts (dir := []) ⟨rfl, .inl rfl, hp.2.2⟩ hn)
  have hext : IsExt ext := by obtain ⟨⟨_, _, _, _, _, _, _, h⟩, _⟩ := hn; exact h
  have hns : ¬ upper ext = ['S', 'I', 'N'] := by rw [upper_sin hext]; tauto
  have hno : ¬ (o.outName = none ∧ o.append = true) := by
    rintro ⟨h1, h2⟩
    obtain ⟨n, hn1, hn2⟩ := happ h2
    rw [outName_some hn2 hn1] at h1
    cases h1
  have hd : fname.dropLast.dropLast.dropLast = stem := by rw [hstem, dropLast3 h3]
  have hi : ¬ w.inUse (stem ++ ['h', '5']) = true := by
    intro h
    apply hfree
    simpa [World.inUse, or_assoc] using h
  rw [listed_eq]
  unfold convertListed
  rw [if_neg hno]
  simp only [hsp, hm, if_neg hns, hu, hb, hmem, Bool.false_eq_true, if_false, if_true, hd]
  rw [if_neg hi]
  exact ⟨_, rfl, rfl⟩

/-- **C24** The same while an HDF5 file is open under this name: `ValueError`, nothing changes. -/
theorem listed_prefix_taken {name dir fname fp no ext stem e3 : Str} {l : Char} {ps : List Str}
    {b : Bytes} (hp : PathOf (w.fullPath name) dir fname) (hn : SesamName fname fp l no ext)
    (hsin : ext.getLast? ≠ some 'n' ∧ ext.getLast? ≠ some 'N')
    (hb : w.disk (w.fullPath name) = some b) (hu : o.usefileprefix = false)
    (hmem : o.inMemory = true) (happ : o.append = true → ∃ n, n ≠ [] ∧ o.hdf5name = some n)
    (hstem : fname = stem ++ e3) (h3 : e3.length = 3)
    (htaken : stem ++ "h5".toList ∈ w.memory ++ w.leaked ++ w.reading) :
    ∃ st, sif2hdf5 D B o (.name name) (.many ps) w = (.error .valueError, { w with st := st }) ∧
      st.env.elem = w.st.env.elem := by
  have hsp := splitPath_eq hp.2.1 hp.2.2
  rw [← hp.1] at hsp
  have hm : convMatch fname = some ⟨fp, l, ext⟩ :=
    (names_agree (filename := fname) (dir := []) ⟨rfl, .inl rfl, hp.2.2⟩).1 _
      (sifname_parts (dir := []) ⟨rfl, .inl rfl, hp.2.2⟩ hn)
  have hext : IsExt ext := by obtain ⟨⟨_, _, _, _, _, _, _, h⟩, _⟩ := hn; exact h
  have hns : ¬ upper ext = ['S', 'I', 'N'] := by rw [upper_sin hext]; tauto
  have hno : ¬ (o.outName = none ∧ o.append = true) := by
    rintro ⟨h1, h2⟩
    obtain ⟨n, hn1, hn2⟩ := happ h2
    rw [outName_some hn2 hn1] at h1
    cases h1
  have hd : fname.dropLast.dropLast.dropLast = stem := by rw [hstem, dropLast3 h3]
  have hi : w.inUse (stem ++ ['h', '5']) = true := by
    simpa [World.inUse, or_assoc] using htaken
  rw [listed_eq]
  unfold convertListed
  rw [if_neg hno]
  simp only [hsp, hm, if_neg hns, hu, hb, hmem, Bool.false_eq_true, if_false, if_true, hd]
  rw [if_pos hi]
  exact ⟨_, rfl, rfl⟩

end

namespace Demo

example := listed_prefix_memory (D := Dec.std) (B := 10000)
  (o := { inMemory := true, usefileprefix := false })
  (w := world) (name := "T9.FEM".toList) (dir := "/m/".toList)
  (ps := ["A".toList]) (stem := "T9.".toList) (e3 := "FEM".toList) (no := "9".toList)
  (b := 75 :: Parse.Demo.bytes topFile)
  ⟨rfl, .inr ⟨"/m".toList, rfl⟩, by decide⟩ topName (by decide) (by decide +kernel) rfl rfl (by simp)
  rfl rfl (by simp [world])

example := listed_prefix_taken (D := Dec.std) (B := 10000)
  (o := { inMemory := true, usefileprefix := false })
  (w := { world with memory := ["T9.h5".toList] }) (name := "T9.FEM".toList) (dir := "/m/".toList)
  (ps := ["A".toList]) (stem := "T9.".toList) (e3 := "FEM".toList) (no := "9".toList)
  (b := 75 :: Parse.Demo.bytes topFile)
  ⟨rfl, .inr ⟨"/m".toList, rfl⟩, by decide⟩ topName (by decide) (by decide +kernel) rfl rfl (by simp)
  rfl rfl (by simp)

end Demo
end Verif.Conv
