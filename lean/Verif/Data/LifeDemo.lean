import Verif.Data.LifeClosed
/-!
# A session with two files (cases for C25, C26, C54)
-/

namespace Verif.Data.Life.Demo
open Verif Verif.Data Verif.Data.Life

/-- a hierarchy: top level superelement 5 with an intermediate and two first level ones -/
def hierarchy : List GroupDesc :=
  [{ name := "ABT5", datatype := "STRUCTURAL", level := "TOPLEVEL",
     subs := [("T1", "FIRSTLEVEL"), ("T2", "INTERLEVEL"), ("Q9", "UNKNOWN"), ("T3", "FIRSTLEVEL")] }]

/-- hydrodynamic results beside a single superelement -/
def results : List GroupDesc :=
  [{ name := "G1", datatype := "HYDRODYNAMIC", level := "FIRSTLEVEL" },
   { name := "R1", datatype := "STRUCTURAL", level := "FIRSTLEVEL" }]

theorem hierarchy_subs : SubListing "ABT5"
    [("T1", "FIRSTLEVEL"), ("T2", "INTERLEVEL"), ("Q9", "UNKNOWN"), ("T3", "FIRSTLEVEL")]
    [{ name := "ABT5" ++ "/" ++ "T1", cls := .first, parent := some "ABT5" },
     { name := "ABT5" ++ "/" ++ "T2", cls := .inter, parent := some "ABT5" },
     { name := "ABT5" ++ "/" ++ "T3", cls := .first, parent := some "ABT5" }] :=
  .first (.inter (.other (by decide) (by decide) (.first .nil)))

theorem hierarchy_listing : Listing hierarchy
    [{ name := "ABT5", cls := .top },
     { name := "ABT5/T1", cls := .first, parent := some "ABT5" },
     { name := "ABT5/T2", cls := .inter, parent := some "ABT5" },
     { name := "ABT5/T3", cls := .first, parent := some "ABT5" }] := by
  have h := Listing.group (g := hierarchy[0]) (.top rfl rfl) hierarchy_subs .nil
  have e1 : "ABT5" ++ "/" ++ "T1" = "ABT5/T1" := by decide +kernel
  have e2 : "ABT5" ++ "/" ++ "T2" = "ABT5/T2" := by decide +kernel
  have e3 : "ABT5" ++ "/" ++ "T3" = "ABT5/T3" := by decide +kernel
  rw [e1, e2, e3] at h
  exact h

theorem results_listing : Listing results
    [{ name := "G1", cls := .hydro }, { name := "R1", cls := .first }] :=
  Listing.group (g := results[0]) (es := []) (.hydro rfl rfl) .nil
    (Listing.group (g := results[1]) (es := []) (.first rfl rfl) .nil .nil)

def w1 : World := (openFile {} hierarchy).1
def w2 : World := (openFile w1 results).1
def session : World := (openSif w2 results "R1").1

theorem session_reachable : Reachable session :=
  .snoc (.snoc (.snoc (.refl _) (.openFile _ _)) (.openFile _ _)) (.openSif _ _ _)

theorem first_items : items session 0 =
    .ok [("ABT5", 0), ("ABT5/T1", 1), ("ABT5/T2", 2), ("ABT5/T3", 3)] := by decide +kernel

example : items session 1 = .ok [("G1", 4), ("R1", 5)] := by decide +kernel
example : (openSif w2 results "R1").2 = .ok 7 := by decide +kernel
example : session.registry = [0, 1, 2] := by decide +kernel

-- looking up
example := open_holds_partial {} hierarchy_listing
example := open_holds_partial w1 results_listing
example := open_sif_holds w2 results_listing (by decide) (e := { name := "R1", cls := .first })
  (by simp) rfl
example := open_sif_key_error w2 results_listing (by decide) (name := "R2") (by decide)
example := lookups first_items (by decide)
example : getItem session 0 "ABT5/T2" = .ok 2 ∧ getItem session 0 "T2" = .error .keyError ∧
    get session 0 "T2" = .ok none ∧ contains session 0 "ABT5" = .ok true ∧
    iterate session 0 = .error .typeError := by decide +kernel

-- closing a child object closes the File and all its objects, and no others
example : closeData session 2 = closeFile session 0 := by decide +kernel
example := closed_forever session_reachable first_items (.refl _)
example := closed_getters (K := Rat) session_reachable first_items
  (Or.inr ⟨("ABT5/T2", 2), by decide, .refl _⟩) (p := ("ABT5", 0)) (by decide)
example := close_via_data session_reachable (d := 3) (by decide +kernel)
example := others_unaffected (f := 0) (g := 1) session_reachable (by decide) (l := [("G1", 4), ("R1", 5)])
  (by decide +kernel)
example : getItem (closeFile session 0) 0 "ABT5" = .error .closedFile ∧
    dataOpen (closeFile session 0) 3 = false ∧ dataOpen (closeFile session 0) 4 = true ∧
    (closeFile session 0).handles = [false, true, true] := by decide +kernel
example := close_data_idempotent (w := closeFile session 0) (d := 2) (by decide +kernel)

-- closing all
example : closeAll session [1, 0, 2] = (closeFile session 1, .error .runtimeError) := by decide +kernel
example := close_all_raises session_reachable (by decide +kernel) (order := [1, 0, 2])
  (by decide +kernel)
example := close_all_none (w := {}) (order := []) (.refl _) rfl (by decide)

/-- **`close_all_files` does not do what it says** (C26): with one open file it raises. -/
theorem close_all_not : ¬ ∀ (w : World) (order : List Nat), Reachable w → order.Perm w.registry →
    (closeAll w order).2 = .ok () := by
  intro h
  have := h w1 [0] (.snoc (.refl _) (.openFile _ _)) (by decide +kernel)
  revert this
  decide +kernel

example : ∃ w', Calls 3 session w' ∧ w'.registry = [] :=
  ⟨_, .call (order := [1, 0, 2]) (by decide +kernel) (.call (order := [0, 2]) (by decide +kernel)
    (.call (order := [2]) (by decide +kernel) (.none _))), by decide +kernel⟩

-- groups of unknown class
def unknown : GroupDesc := { name := "X1", datatype := "UNKNOWN", level := "FIRSTLEVEL" }

theorem unknown_noClass : NoClass unknown := ⟨by decide, fun h => absurd h (by decide)⟩

example := open_unbound {} [] unknown_noClass
example := open_alias {} (pre := [results[0]]) (g0 := results[1]) results_listing unknown_noClass rfl
example : items (openFile {} (results ++ [unknown])).1 0 = .ok [("G1", 0), ("R1", 1), ("X1", 1)] := by
  decide +kernel
example := open_hydro_fails {} (rest := []) (e := .noSuchRecord)
  (g := { name := "G2", datatype := "HYDRODYNAMIC", level := "FIRSTLEVEL",
          hydroInit := .error .noSuchRecord }) results_listing rfl rfl

/-- **The mapping is not injective on groups of other data types** (C54): the File gives the data
object of one group under the name of another. -/
theorem alias_not : ¬ ∀ (w : World) (gs : List GroupDesc) (l : List (String × Nat)),
    (gs.map (·.name)).Nodup → items (openFile w gs).1 w.files.length = .ok l →
    (l.map (·.2)).Nodup := by
  intro h
  have := h {} (results ++ [unknown]) _ (by decide) (by decide +kernel :
    items (openFile {} (results ++ [unknown])).1 0 = .ok [("G1", 0), ("R1", 1), ("X1", 1)])
  revert this
  decide

end Verif.Data.Life.Demo
