import Verif.Session.StuckDemo
import Verif.Session.WholeDemo
import Verif.Session.Closing
import Verif.Session.PrintProps
/-!
# Concrete cases, theorem by theorem
-/

namespace Verif.Session.Demo
open Verif Verif.Seq
open Verif.Parse hiding num
open Verif.Conv Verif.Conv.Demo Verif.Data Verif.Data.Life Verif.Data.Load
open Verif.Data.Load.HydroDemo (num cplx)

/-- the top level superelement, after a conversion that could not be done and with the working
directory changed; closing it closes its File -/
example : ∃ s' d h2, openSif iter (3 : Rat) num cplx Dec.std 10000 start "T9.FEM".toList = (s', .ok d) ∧
    IsObject { (convert Dec.std 10000 {} s' (.name "none".toList) (.one [])).1 with
      conv := { (convert Dec.std 10000 {} s' (.name "none".toList) (.one [])).1.conv with
        cwd := "/x".toList ++ ['/'], disk := disk } } 0 d .top h2 ["T9"] ∧
    ∃ g lst, items s'.life g = .ok lst ∧ d ∈ lst.map (·.2) ∧ closeData s' d = closeFile s' g ∧
      items (convert Dec.std 10000 {} s' (.name "none".toList) (.one [])).1.life g = .ok lst := by
  obtain ⟨h1, h2, F, hi, tab, ht, hr⟩ := two
  obtain ⟨s', d, q1, -, q2⟩ := open_sif_object reach F (stem := "T9.".toList)
    (e3 := "FEM".toList) rfl rfl (by decide) hi (by decide +kernel) F.class_top
  have r' : Reachable iter (3 : Rat) num cplx Dec.std 10000 s' := by
    have := Reachable.step reach (.openSif start "T9.FEM".toList)
    rw [q1] at this
    exact this
  refine ⟨s', d, h2, q1, object_stays r' q2 (.elsewhere "/x".toList disk (.convert {}
    (.name "none".toList) (.one []) .refl)), ?_⟩
  obtain ⟨g, lst, k1, k2, k3⟩ := close_object_closes_file r' (d := d) (by
    obtain ⟨key, o, hk, -⟩ := q2.isOpen
    unfold dataOpen
    rw [hk])
  exact ⟨g, lst, k1, k2, k3, (spared_open r' k1
    (.convert {} (.name "none".toList) (.one []) .refl)).1⟩

/-- HDF5 files written by earlier sessions: a first level superelement, an empty file, and one whose
group has got no attributes -/
def oneGroup (a : Attrs) : H5 := { groups := fun p => if p = ["T5"] then some a else none }

def out (p : Str) : Option H5 :=
  if p = "/m/a.h5".toList then
    some (oneGroup { datatype := some "STRUCTURAL", level := some "FIRSTLEVEL" })
  else if p = "/m/empty.h5".toList then some {}
  else if p = "/m/bad.h5".toList then some (oneGroup {})
  else none

def later : State := { conv := { cwd := "/m".toList ++ ['/'], disk := disk,
                                 out := fun p => (out p).map .h5 } }

theorem later_reach : Reachable iter (3 : Rat) num cplx Dec.std 10000 later :=
  .start "/m".toList disk out

theorem enum_group (a : Attrs) : Enumerates (oneGroup a) (iter (oneGroup a)) where
  groups := fun n => by
    have : iter (oneGroup a) = [("T5", [])] := by simp [iter, oneGroup]
    rw [this]
    simp [oneGroup]
  nodup := by simp [iter, oneGroup]
  subs := by simp [iter, oneGroup]
  slash := by
    have : iter (oneGroup a) = [("T5", [])] := by simp [iter, oneGroup]
    rw [this]
    decide

theorem proper_group : Proper (3 : Rat) num cplx
    (oneGroup { datatype := some "STRUCTURAL", level := some "FIRSTLEVEL" }) where
  groups := fun n a h => by
    have : n = "T5" := by
      by_contra hn
      simp [oneGroup, hn] at h
    subst this
    exact ⟨_, .first (a := { datatype := some "STRUCTURAL", level := some "FIRSTLEVEL" })
      (by simp [oneGroup]) rfl rfl⟩
  subs := fun n m a h => by simp [oneGroup] at h

/-- opened by its relative name -/
example : ∃ s' d, openHdf5 iter (3 : Rat) num cplx later "a.h5".toList = (s', .ok 0) ∧
    getItem s'.life 0 "T5" = .ok d := by
  obtain ⟨s', k1, k2, -⟩ := open_hdf5_holds later_reach (filename := "a.h5".toList)
    (h := oneGroup { datatype := some "STRUCTURAL", level := some "FIRSTLEVEL" })
    (by rw [show later.conv.fullPath "a.h5".toList = "/m/a.h5".toList by decide +kernel]; rfl)
    proper_group (enum_group _)
  obtain ⟨d, hd, -⟩ := k2.top "T5" .first (.first
    (a := { datatype := some "STRUCTURAL", level := some "FIRSTLEVEL" }) (by simp [oneGroup]) rfl rfl)
  exact ⟨s', d, k1, hd⟩

/-- a File with nothing in it prints nothing -/
example : ∃ s', openHdf5 iter (3 : Rat) num cplx later "empty.h5".toList = (s', .ok 0) ∧
    fileRepr s' 0 = .ok "" ∧ fileStr s' 0 = .ok "" := by
  obtain ⟨s', k1, k2, -⟩ := open_hdf5_holds later_reach (filename := "empty.h5".toList) (h := {})
    (by rw [show later.conv.fullPath "empty.h5".toList = "/m/empty.h5".toList by decide +kernel]
        show Option.map _ (out "/m/empty.h5".toList) = _
        unfold out
        rw [if_neg (by decide), if_pos rfl]
        rfl)
    proper_empty ⟨fun n => by simp [iter], by simp [iter], by simp [iter], by simp [iter]⟩
  refine ⟨s', k1, file_repr_none k2 ?_ ?_⟩
  · rintro n c (⟨h, -⟩ | ⟨h, -⟩ | ⟨h, -⟩) <;> cases h
  · rintro n m c (⟨h, -⟩ | ⟨h, -⟩) <;> cases h

/-- a group without attributes -/
example : ∃ s', openHdf5 iter (3 : Rat) num cplx later "bad.h5".toList = (s', .error .attributeError) := by
  obtain ⟨s', e, k1, k2, -⟩ := open_hdf5_incomplete (iter := iter) (pi := (3 : Rat)) (num := num)
    (cplx := cplx) (s := later) (filename := "bad.h5".toList) (h := oneGroup {})
    (.inl (by
      rw [show later.conv.fullPath "bad.h5".toList = "/m/bad.h5".toList by decide +kernel]
      show Option.map _ (out "/m/bad.h5".toList) = _
      unfold out
      rw [if_neg (by decide), if_neg (by decide), if_pos rfl]
      rfl)) (enum_group _) (.inl ⟨"T5", {}, by simp [oneGroup], rfl⟩)
  rw [k2 (by
    intro n a ha hd
    have : a = {} := by
      unfold oneGroup at ha
      dsimp only at ha
      split at ha
      · exact (Option.some.inj ha).symm
      · cases ha
    exact absurd (congrArg Attrs.datatype this) hd)] at k1
  exact ⟨s', k1⟩

/-- after a conversion that raised: as long as the HDF5 file is open under its absolute name it
cannot be opened -/
example : ∃ s1 h1, convert Dec.std 10000 {} badStart (.name "T5.FEM".toList) (.one []) =
      (s1, .error .keyError) ∧ s1.conv.out "/m/T5.h5".toList = some (.left h1) ∧
    ("/m/T5.h5".toList ∈ s1.conv.leaked →
      openHdf5 iter (3 : Rat) num cplx s1 "/m/T5.h5".toList = (s1, .error .valueError)) := by
  obtain ⟨s1, h1, k1, -, -, k4, -⟩ := failed_conversion_blocks (h0 := {})
    (b := 75 :: Parse.Demo.bytes badElement)
    badReach (o := {}) (upre := []) (gpre := [])
    (filename := "T5.FEM".toList) (dir := "/m/".toList) (no := "5".toList) (stem := "T5.".toList)
    ⟨rfl, .inr ⟨"/m".toList, rfl⟩, by decide⟩ lowName (by decide)
    (by decide +kernel) rfl (by simp) (.inr ⟨.inl rfl, "T5.".toList, "FEM".toList, rfl, rfl, rfl⟩)
    (by decide) ⟨by decide, fun _ => ⟨by decide, by decide⟩, rfl⟩ (.file (bad {} (fun _ => rfl) _))
  have r1 := Reachable.step badReach (.convert {} badStart (.name "T5.FEM".toList) (.one []))
  rw [k1] at r1
  have hfull : s1.conv.fullPath "/m/T5.h5".toList = "/m/T5.h5".toList := rfl
  exact ⟨s1, h1, k1, k4, (open_hdf5_left r1 (filename := "/m/T5.h5".toList) (h := h1) k4).1⟩

end Verif.Session.Demo
