import Verif.Data.DemoMesh
import Verif.Data.StrucProps
/-!
# Sections and thicknesses of elements (C51), names
-/

namespace Verif.Data
open Verif
open Verif.Seq (Str)

variable {K α : Type}

/-- the row of a geometry number: the last one with that number -/
def LastRow (rows : List (Int × α)) (g : Int) (x : α) : Prop :=
  ∃ a b, rows = a ++ (g, x) :: b ∧ ∀ q ∈ b, q.1 ≠ g

/-- the geometry numbers of the elements at the positions `es` -/
def Geometries (geos : List Int) (es : List Nat) (gs : List Int) : Prop :=
  List.Forall₂ (fun i g => geos[i]? = some g) es gs

theorem dictIndex_lastRow {rows : List (Int × α)} {g : Int} {x : α} (h : LastRow rows g x) :
    ∃ i : Nat, dictIndex (rows.map Prod.fst) g = .ok i ∧ rows[i]? = some (g, x) := by
  obtain ⟨a, b, rfl, hb⟩ := h
  refine ⟨a.length, dictIndex_ok ?_ ?_, ?_⟩
  · rw [List.getElem?_map, List.getElem?_append_right (Nat.le_refl _)]; simp
  · intro j hj
    rw [List.getElem?_map] at hj
    by_contra hlt
    rw [List.getElem?_append_right (by omega)] at hj
    obtain ⟨k, hk⟩ : ∃ k, j - a.length = k + 1 := ⟨j - a.length - 1, by omega⟩
    rw [hk, List.getElem?_cons_succ, Option.map_eq_some_iff] at hj
    obtain ⟨q, hq, e⟩ := hj
    exact hb q (List.mem_of_getElem? hq) e
  · rw [List.getElem?_append_right (Nat.le_refl _)]; simp

theorem pyIdx_nat {l : List α} {i : Nat} {x : α} (h : l[i]? = some x) : pyIdx l i = .ok x := by
  unfold pyIdx
  rw [h]

/-- **C51** (beams): the section of each selected beam, in the order of the elements: the property
record with the geometry number of the element. -/
theorem sections_found {d : Struc K} {m : Mesh K} (hd : Holds d m) (hv : Valid m) {sets : SetsArg}
    (hs : NoSets sets ∨ HoldsSets d m) {es : List Nat} (hc : Chosen m sets (some "beam") es)
    {geos : List Int} (hg : d.gelref1 = some geos) {rows : List (Int × List K)} (hr : d.gbeamg = some rows)
    {gs : List Int} (hgs : Geometries geos es gs) {out : List (List K)}
    (ho : List.Forall₂ (LastRow rows) gs out) :
    getSectionProperties d sets = .ok (gs.zip out) := by
  unfold getSectionProperties need
  rw [hd.isOpen, hg, hr]
  simp only [if_true, bind_ok]
  rw [elementIndices_ok hd hv hs hc, bind_ok, npTake_nat hgs, bind_ok]
  apply mapM_ok_iff.mpr
  clear hgs
  induction ho with
  | nil => exact .nil
  | cons h _ ih =>
    refine .cons ?_ ih
    obtain ⟨i, h1, h2⟩ := dictIndex_lastRow h
    rw [h1, bind_ok]
    exact pyIdx_nat h2

/-- **C51** (shells) -/
theorem thicknesses_found {d : Struc K} {m : Mesh K} (hd : Holds d m) (hv : Valid m) {sets : SetsArg}
    (hs : NoSets sets ∨ HoldsSets d m) {es : List Nat} (hc : Chosen m sets (some "shell") es)
    {geos : List Int} (hg : d.gelref1 = some geos) {rows : List (Int × K)} (hr : d.gelth = some rows)
    {gs : List Int} (hgs : Geometries geos es gs) {out : List K}
    (ho : List.Forall₂ (LastRow rows) gs out) :
    getShellThicknesses d sets = .ok out := by
  unfold getShellThicknesses need
  rw [hd.isOpen, hg, hr]
  simp only [if_true, bind_ok]
  rw [elementIndices_ok hd hv hs hc, bind_ok, npTake_nat hgs, bind_ok]
  apply mapM_ok_iff.mpr
  clear hgs
  induction ho with
  | nil => exact .nil
  | cons h _ ih =>
    refine .cons ?_ ih
    obtain ⟨i, h1, h2⟩ := dictIndex_lastRow h
    rw [h1, bind_ok]
    exact pyIdx_nat (by rw [List.getElem?_map, h2]; rfl)

/-- of a list of numbers, each known or not, the unknown one fails -/
theorem lookup_fails {rows : List (Int × α)} {β : Type} {f : Int × α → β} {gs : List Int} {g : Int}
    (hg : g ∈ gs) (hno : ∀ q ∈ rows, q.1 ≠ g) :
    (gs.mapM fun g => dictIndex (rows.map Prod.fst) g >>= fun i => pyIdx (rows.map f) i)
      = .error .keyError := by
  have hno' : g ∉ rows.map Prod.fst := by
    intro h
    obtain ⟨q, hq, e⟩ := List.mem_map.mp h
    exact hno q hq e
  apply mapM_error
  · intro g' _
    by_cases h : g' ∈ rows.map Prod.fst
    · left
      have : ∃ x, LastRow rows g' x := by
        clear hno hno'
        induction rows with
        | nil => simp at h
        | cons q rows ih =>
          by_cases h' : g' ∈ rows.map Prod.fst
          · obtain ⟨x, a, b, e, hb⟩ := ih h'
            exact ⟨x, q :: a, b, by rw [e]; rfl, hb⟩
          · rcases List.mem_cons.mp h with rfl | h2
            · exact ⟨q.2, [], rows, rfl, fun p hp e => h' (List.mem_map.mpr ⟨p, hp, e⟩)⟩
            · exact absurd h2 h'
      obtain ⟨x, hx⟩ := this
      obtain ⟨i, h1, h2⟩ := dictIndex_lastRow hx
      rw [h1, bind_ok]
      exact ⟨_, pyIdx_nat (by rw [List.getElem?_map, h2]; rfl)⟩
    · right
      rw [dictIndex_error h]; rfl
  · exact ⟨g, hg, by rw [dictIndex_error hno']; rfl⟩

/-- **C51** (beams): a selected beam whose geometry number has no property record: `KeyError`. -/
theorem section_missing {d : Struc K} {m : Mesh K} (hd : Holds d m) (hv : Valid m) {sets : SetsArg}
    (hs : NoSets sets ∨ HoldsSets d m) {es : List Nat} (hc : Chosen m sets (some "beam") es)
    {geos : List Int} (hg : d.gelref1 = some geos) {rows : List (Int × List K)} (hr : d.gbeamg = some rows)
    {gs : List Int} (hgs : Geometries geos es gs) {g : Int} (hin : g ∈ gs) (hno : ∀ q ∈ rows, q.1 ≠ g) :
    getSectionProperties d sets = .error .keyError := by
  unfold getSectionProperties need
  rw [hd.isOpen, hg, hr]
  simp only [if_true, bind_ok]
  rw [elementIndices_ok hd hv hs hc, bind_ok, npTake_nat hgs, bind_ok]
  have := lookup_fails (f := id) hin hno
  rw [List.map_id] at this
  exact this

/-- **C51** (shells) -/
theorem thickness_missing {d : Struc K} {m : Mesh K} (hd : Holds d m) (hv : Valid m) {sets : SetsArg}
    (hs : NoSets sets ∨ HoldsSets d m) {es : List Nat} (hc : Chosen m sets (some "shell") es)
    {geos : List Int} (hg : d.gelref1 = some geos) {rows : List (Int × K)} (hr : d.gelth = some rows)
    {gs : List Int} (hgs : Geometries geos es gs) {g : Int} (hin : g ∈ gs) (hno : ∀ q ∈ rows, q.1 ≠ g) :
    getShellThicknesses d sets = .error .keyError := by
  unfold getShellThicknesses need
  rw [hd.isOpen, hg, hr]
  simp only [if_true, bind_ok]
  rw [elementIndices_ok hd hv hs hc, bind_ok, npTake_nat hgs, bind_ok]
  exact lookup_fails hin hno

/-! ## an example: the beams have geometry 7, one shell has geometry 5 -/

namespace Demo

def sectObject : Struc Int :=
  { object with
    gelref1 := some [7, 5, 6, 7]
    gbeamg := some [(7, [1, 1]), (5, [2, 2]), (7, [3, 3])]
    gelth := some [(5, 20), (4, 10)] }

theorem sectHolds : Holds sectObject mesh := ⟨holds.isOpen, holds.nodes, holds.coords, holds.elems⟩
theorem sectSets : HoldsSets sectObject mesh := ⟨holdsSets.names, holdsSets.sets⟩

theorem last7 : LastRow [(7, [1, 1]), (5, [2, 2]), (7, [(3 : Int), 3])] 7 [3, 3] :=
  ⟨[(7, [1, 1]), (5, [2, 2])], [], rfl, by simp⟩

/-- all beams -/
example := sections_found sectHolds valid (.inl (.inl rfl)) chosenBeam (geos := [7, 5, 6, 7]) rfl rfl
  (gs := [7, 7]) (.cons rfl (.cons rfl .nil)) (.cons last7 (.cons last7 .nil))
example : getSectionProperties sectObject .none = .ok [(7, [3, 3]), (7, [3, 3])] := rfl

/-- the shell of set `A` -/
example := thicknesses_found sectHolds valid (.inr sectSets) chosenShellA (geos := [7, 5, 6, 7]) rfl rfl
  (gs := [5]) (.cons rfl .nil) (out := [20]) (.cons ⟨[], [(4, 10)], rfl, by decide⟩ .nil)
example : getShellThicknesses sectObject (.one nameA) = .ok [20] := rfl

/-- no section record for geometry 7 -/
example := section_missing (d := { sectObject with gbeamg := some [(5, [2, 2])] })
  ⟨holds.isOpen, holds.nodes, holds.coords, holds.elems⟩ valid (.inl (.inl rfl)) chosenBeam
  (geos := [7, 5, 6, 7]) rfl rfl (gs := [7, 7]) (.cons rfl (.cons rfl .nil)) (g := 7) (by simp) (by simp)

/-- no thickness record for geometry 5 -/
example : getShellThicknesses { sectObject with gelth := some [(7, 20), (4, 10)] } (.one nameA) =
    .error .keyError :=
  thickness_missing (d := { sectObject with gelth := some [(7, 20), (4, 10)] })
    ⟨holds.isOpen, holds.nodes, holds.coords, holds.elems⟩ valid
    (.inr ⟨holdsSets.names, holdsSets.sets⟩) chosenShellA (geos := [7, 5, 6, 7]) rfl rfl (gs := [5])
    (.cons rfl .nil) (g := 5) (by simp) (by simp)

end Demo
end Verif.Data
