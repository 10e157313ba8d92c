import Verif.Parse.StoreLemmas
/-!
# The tables created by the parser are the specified ones
-/

namespace Verif.Parse
open Verif Verif.Seq

theorem layouts_descriptor : ∀ l ∈ layouts, descriptor l.name = some l.cols := by
  decide +kernel

theorem layouts_atoms : ∀ l ∈ layouts, atoms l.name = l.arrs := by decide +kernel

theorem layouts_empty : ∀ l ∈ layouts, ∀ a ∈ l.arrs, a.items = [] := by decide +kernel

theorem layouts_bounds : ∀ l ∈ layouts, boundCols l.arrs = limitCols l.arrs := by decide +kernel

theorem layouts_unique : ∀ l ∈ layouts, ∀ l' ∈ layouts, l.name = l'.name →
    l.cols = l'.cols ∧ l.arrs = l'.arrs := by
  intro l hl l' hl' h
  have h1 := layouts_descriptor l hl
  have h2 := layouts_descriptor l' hl'
  have h3 := layouts_atoms l hl
  have h4 := layouts_atoms l' hl'
  rw [h] at h1 h3
  rw [h1] at h2
  exact ⟨by simpa using h2, h3.symm.trans h4⟩

theorem layout_eq {l l' : Layout} (h : l ∈ layouts) (h' : l' ∈ layouts) (hn : l.name = l'.name) :
    l = l' := by
  obtain ⟨h1, h2⟩ := layouts_unique l h l' h' hn
  cases l; cases l'; simp_all

theorem hasTable_iff {name : String} : HasTable name ↔ name ∈ layouts.map (·.name) := by
  simp [HasTable]

theorem readers_mem {name : String} (h : readers name ≠ none) : name ∈ readableNames := by
  unfold readers at h
  split at h
  · rename_i h1; exact List.mem_append_left _ (List.mem_append_left _ (List.mem_append_left _ h1))
  split at h
  · rename_i h1; exact List.mem_append_left _ (List.mem_append_left _ (List.mem_append_right _ h1))
  split at h
  · rename_i h1; exact List.mem_append_left _ (List.mem_append_right _ h1)
  split at h
  all_goals first | (exact absurd rfl h) | decide +kernel

/-- every reader except two has a table -/
theorem readers_none {name : String} (h : ¬ HasTable name) (h1 : name ≠ "IEND")
    (h2 : name ≠ "IRECSIZE") : readers name = none := by
  by_contra hc
  have hm := readers_mem hc
  have : ∀ n ∈ readableNames, n = "IEND" ∨ n = "IRECSIZE" ∨ n ∈ layouts.map (·.name) := by
    decide +kernel
  rw [hasTable_iff] at h
  rcases this name hm with h' | h' | h'
  · exact h1 h'
  · exact h2 h'
  · exact h h'

/-- every table has a reader -/
theorem readers_some {name : String} (h : HasTable name) : (readers name).isSome := by
  rw [hasTable_iff] at h
  have : ∀ n ∈ layouts.map (·.name), (readers n).isSome := by decide +kernel
  exact this name h

theorem hasTable_ne {name : String} (h : HasTable name) :
    name ≠ "" ∧ name ≠ "IEND" ∧ name ≠ "IRECSIZE" := by
  rw [hasTable_iff] at h
  have : ∀ n ∈ layouts.map (·.name), n ≠ "" ∧ n ≠ "IEND" ∧ n ≠ "IRECSIZE" := by decide +kernel
  exact this name h

/-! ### get_table -/

/-- the contents of a table before its first record -/
def Acc.start (l : Layout) : Acc :=
  { arrs := l.arrs.map fun _ => [], last := l.arrs.map fun _ => (0, 0) }

theorem start_table {l : Layout} (h : l ∈ layouts) :
    (Acc.start l).table l = { cols := l.cols ++ limitCols l.arrs, arrs := l.arrs } := by
  have he := layouts_empty l h
  have : List.zipWith (fun (a : Arr) items => { a with items := items }) l.arrs
      (l.arrs.map fun _ => ([] : List Cell)) = l.arrs := by
    generalize l.arrs = as at he
    induction as with
    | nil => rfl
    | cons a as ih =>
      have ha : a.items = [] := he a (by simp)
      simp only [List.map_cons, List.zipWith_cons_cons]
      rw [ih fun b hb => he b (by simp [hb])]
      cases a
      simp_all
  simp only [Acc.table, Acc.start, this]

end Verif.Parse
