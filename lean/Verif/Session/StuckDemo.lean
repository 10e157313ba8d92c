import Verif.Session.Incomplete
import Verif.Session.Demo
import Verif.Conv.RefuseDemo
/-!
# Sessions with a file that cannot be converted, used to show that the hypotheses of the theorems
can be met
-/

namespace Verif.Session.Demo
open Verif Verif.Seq Verif.Parse Verif.Conv Verif.Conv.Demo Verif.Data Verif.Data.Life Verif.Data.Load

/-- a session in the directory of a `T5.FEM` with an element of an unsupported type -/
def badStart : State :=
  { conv := { cwd := "/m".toList ++ ['/'], disk := badWorld.disk } }

theorem badReach : Reachable iter (3 : Rat) Load.HydroDemo.num Load.HydroDemo.cplx Dec.std 10000 badStart :=
  .start "/m".toList badWorld.disk fun _ => none

/-- `open_sif` raises KeyError; when the file has been corrected it raises ValueError -/
example : ∃ s1 s3, openSif iter (3 : Rat) Load.HydroDemo.num Load.HydroDemo.cplx Dec.std 10000 badStart "T5.FEM".toList =
      (s1, .error .keyError) ∧
    openSif iter (3 : Rat) Load.HydroDemo.num Load.HydroDemo.cplx Dec.std 10000
      { s1 with conv := { s1.conv with cwd := "/m".toList ++ ['/'], disk := disk } }
      "T5.FEM".toList = (s3, .error .valueError) := by
  obtain ⟨s1, k1, -, -, -, -, k2⟩ := open_sif_never_again (b := 75 :: Parse.Demo.bytes badElement)
    badReach
    (filename := "T5.FEM".toList) (dir := "/m/".toList) (no := "5".toList) (stem := "T5.".toList)
    (e3 := "FEM".toList) ⟨rfl, .inr ⟨"/m".toList, rfl⟩, by decide⟩ lowName (by decide)
    (by decide +kernel) rfl rfl (by decide) (.file (bad {} (fun _ => rfl) _))
  obtain ⟨s3, k3, -⟩ := k2 _ (.snoc (.refl _) (.elsewhere s1 "/m".toList disk))
    (filename := "T5.FEM".toList) (e3 := "FEM".toList)
    (b := 75 :: Parse.Demo.bytes Parse.Demo.file)
    ⟨rfl, .inr ⟨"/m".toList, rfl⟩, by decide⟩ lowName rfl rfl
    (show disk "/m/T5.FEM".toList = _ by decide +kernel)
  exact ⟨s1, s3, k1, k3⟩

/-- the same after `sif2hdf5` has raised, which wrote to `T5.h5` -/
example : ∃ s1 s3, convert Dec.std 10000 {} badStart (.name "T5.FEM".toList) (.one []) =
      (s1, .error .keyError) ∧ (∃ h, s1.conv.out "/m/T5.h5".toList = some (.left h)) ∧
    openSif iter (3 : Rat) Load.HydroDemo.num Load.HydroDemo.cplx Dec.std 10000
      { s1 with conv := { s1.conv with cwd := "/m".toList ++ ['/'], disk := disk } }
      "T5.FEM".toList = (s3, .error .valueError) := by
  obtain ⟨s1, h1, k1, -, -, k4, -, -, -, k2⟩ := failed_conversion_blocks (h0 := {})
    (b := 75 :: Parse.Demo.bytes badElement)
    badReach (o := {}) (upre := []) (gpre := [])
    (filename := "T5.FEM".toList) (dir := "/m/".toList) (no := "5".toList) (stem := "T5.".toList)
    ⟨rfl, .inr ⟨"/m".toList, rfl⟩, by decide⟩ lowName (by decide)
    (by decide +kernel) rfl (by simp) (.inr ⟨.inl rfl, "T5.".toList, "FEM".toList, rfl, rfl, rfl⟩)
    (by decide) ⟨by decide, fun _ => ⟨by decide, by decide⟩, rfl⟩ (.file (bad {} (fun _ => rfl) _))
  obtain ⟨s3, k3, -⟩ := k2 _ (.snoc (.refl _) (.elsewhere s1 "/m".toList disk))
    (filename := "T5.FEM".toList) (e3 := "FEM".toList)
    (b := 75 :: Parse.Demo.bytes Parse.Demo.file)
    ⟨rfl, .inr ⟨"/m".toList, rfl⟩, by decide⟩ lowName rfl rfl
    (show disk "/m/T5.FEM".toList = _ by decide +kernel)
  exact ⟨s1, s3, k1, ⟨h1, k4⟩, k3⟩

/-- the only group of `T5.h5` -/
theorem left_enumerated {h : H5} {elem : Int → Option Int}
    (hl : LeftBehind 10000 badStop badOuts (fun _ => none) {} ["T5"] h elem) :
    Enumerates h (iter h) := by
  have h5 : h.groups ["T5"] = some {} := hl.groups ["T5"] (List.prefix_refl _) (by simp)
  have hno : ∀ q, ¬ q <+: ["T5"] ∨ q = [] → h.groups q = none := hl.rest
  have hi : iter h = [("T5", [])] := by
    unfold iter
    rw [hno ["T9"] (.inl (by decide)), h5]
    rfl
  rw [hi]
  refine ⟨fun n => ?_, by simp, ?_, by decide⟩
  · constructor
    · intro hm
      simp only [List.map_cons, List.map_nil, List.mem_singleton] at hm
      exact ⟨{}, hm ▸ h5⟩
    · rintro ⟨a, ha⟩
      by_contra hne
      simp only [List.map_cons, List.map_nil, List.mem_singleton] at hne
      rw [hno [n] (.inl (by
        rintro ⟨t, ht⟩
        simp only [List.cons_append, List.nil_append, List.cons.injEq] at ht
        exact hne ht.1))] at ha
      cases ha
  · intro p hp
    simp only [List.mem_singleton] at hp
    subst hp
    refine ⟨by simp, fun m => ⟨by simp, ?_⟩⟩
    rintro ⟨a, ha⟩
    rw [hno ["T5", m] (.inl (by
      rintro ⟨t, ht⟩
      simp at ht))] at ha
    cases ha

/-- after that `T5.h5` cannot be opened -/
example : ∃ s1 s2, convert Dec.std 10000 {} badStart (.name "T5.FEM".toList) (.one []) =
      (s1, .error .keyError) ∧
    openHdf5 iter (3 : Rat) Load.HydroDemo.num Load.HydroDemo.cplx s1 "/m/T5.h5".toList =
      (s2, .error .attributeError) := by
  obtain ⟨s1, h1, k1, k2, ⟨e1, k3, k4⟩, k5⟩ := open_after_failure (D := Dec.std) (B := 10000)
    (iter := iter) (pi := (3 : Rat)) (num := Load.HydroDemo.num) (cplx := Load.HydroDemo.cplx)
    (s := badStart) (h0 := {}) (hdf5 := "/m/T5.h5".toList) (given := "T5.h5".toList)
    (b := 75 :: Parse.Demo.bytes badElement) (o := {}) (upre := []) (gpre := [])
    (filename := "T5.FEM".toList) (dir := "/m/".toList) (no := "5".toList)
    ⟨rfl, .inr ⟨"/m".toList, rfl⟩, by decide⟩ lowName (by decide)
    (by decide +kernel) rfl (by simp) (.inr ⟨.inl rfl, "T5.".toList, "FEM".toList, rfl, rfl, rfl⟩)
    (by decide) ⟨by decide, fun _ => ⟨by decide, by decide⟩, rfl⟩ (.file (bad {} (fun _ => rfl) _))
    rfl rfl rfl
  have he : e1 = fun _ => none := by
    funext n
    cases hx : e1 n with
    | none => rfl
    | some t =>
      have := (k3 rfl n t).mp hx
      rcases this with e | ⟨-, e⟩ <;> cases e
  subst he
  obtain ⟨s2, e, m1, -, m2, -⟩ := k5 (left_enumerated k4)
  rw [m2 (by decide) (by intro n a ha; cases ha)] at m1
  exact ⟨s1, s2, k1, m1⟩

end Verif.Session.Demo
