import Verif.Conv.Demo
import Verif.Conv.History
/-!
# Concrete cases of the theorems about calls that convert nothing
-/

namespace Verif.Conv.Cases
open Verif Verif.Seq Verif.Parse Verif.Conv Verif.Conv.Demo

/-- a results file that is not there -/
example : ∃ st, sif2hdf5 Dec.std 10000 {} (.name "rig-A_R12H3.siu".toList) (.one "p".toList) world =
    (.error .fileNotFound, { world with st := st }) :=
  missing_file (dir := "/m/".toList) (fname := "rig-A_R12H3.siu".toList)
    ⟨by decide +kernel, .inr ⟨"/m".toList, rfl⟩, by decide⟩ demoName (by decide)
    (fun h => absurd h (by decide)) (by decide +kernel)

/-- a `.SIN` file, and a name with no superelement number -/
example (pre : PrefixArg) : sif2hdf5 Dec.std 10000 {} (.name "R1.SIN".toList) pre world =
    (.error .valueError, world) :=
  bad_name (dir := "/m/".toList) (fname := "R1.SIN".toList)
    ⟨by decide +kernel, .inr ⟨"/m".toList, rfl⟩, by decide⟩
    (.inr ⟨[], 'R', "1".toList, "SIN".toList, ⟨⟨[], [], rfl, by simp, by unfold FileLetter; decide,
      ⟨'1', [], rfl, by decide, by simp⟩, .inl rfl, 'S', 'I', 'N', rfl, by decide⟩,
      fun e he h => by
        obtain ⟨a, b, c, rfl, -⟩ := he
        simp at h⟩, .inr rfl⟩)
example (pre : PrefixArg) : sif2hdf5 Dec.std 10000 {} (.name "readme".toList) pre world =
    (.error .valueError, world) :=
  bad_name (dir := "/m/".toList) (fname := "readme".toList)
    ⟨by decide +kernel, .inr ⟨"/m".toList, rfl⟩, by decide⟩
    (.inl fun fp l no sep ext h => by
      have := (sifname_raises (filename := "readme".toList) (dir := []) (name := "readme".toList)
        ⟨rfl, .inl rfl, by decide⟩).1.mp (by decide +kernel) fp l no sep ext h
      obtain ⟨h', rest, e, -⟩ := h
      have hm : sep ∈ "readme".toList := by rw [e]; simp
      rw [this] at hm
      exact absurd hm (by decide))

example (pre : PrefixArg) := append_needs_name (D := Dec.std) (B := 1) (w := world)
  (o := { append := true, hdf5name := some [] }) (.inr rfl) rfl "T9.FEM".toList pre
example (pre : PrefixArg) := sequence_in_memory (D := Dec.std) (B := 1) (w := world)
  (o := { inMemory := true }) rfl ["T9.FEM".toList] pre
example (pre : PrefixArg) := only_output_written (D := Dec.std) (B := 1) (w := world) (o := {})
  (name := "T9.FEM".toList) (dir := "/m/".toList) (fname := "T9.FEM".toList) (pre := pre)
  ⟨by decide +kernel, .inr ⟨"/m".toList, rfl⟩, by decide⟩
example := names_agree (filename := "runs/rig-A_R12H3.siu".toList) (dir := "runs/".toList)
  (name := "rig-A_R12H3.siu".toList) ⟨rfl, .inr ⟨"runs".toList, rfl⟩, by decide⟩
/-- what earlier conversions left behind -/
def left : St :=
  { g := { currentSeltyp := some 3, hasHierarch := true, hierarchTable := some ["T3"],
           recordNames := ["IDENT"], attoplevel := true },
    env := { rdresref := fun _ => some 1 } }

/-- a session with other state left behind by earlier conversions -/
example (arg : SifArg) (pre : PrefixArg) := history_is_elements Dec.std 10000 {} arg pre
  (w := { world with st := left }) (w' := world)
  ⟨rfl, rfl, rfl, rfl, rfl, rfl, rfl, rfl⟩

end Verif.Conv.Cases
