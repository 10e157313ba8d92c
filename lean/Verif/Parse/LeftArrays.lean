import Verif.Parse.Left
import Verif.Parse.StoreLemmas
import Verif.Parse.Reads
/-!
# What is in a table when its lists cannot be written

The rows of a block are written before the lists of its records, and the lists one after the other.
-/

namespace Verif.Parse
open Verif Verif.Seq

theorem write_stored {v : Vl} {a : Arr} {cs : List Cell}
    (h : List.Forall₂ (Stored a.kind a.shape) v.data cs) :
    ∃ v', v.write a = .ok (v', { a with items := a.items ++ cs }) := by
  unfold Vl.write
  by_cases hd : v.data = []
  · rw [if_pos hd]
    rw [hd] at h
    cases h
    exact ⟨v, by simp⟩
  · rw [if_neg hd]
    have : appendItems a v.data = .ok { a with items := a.items ++ cs } := by
      unfold appendItems
      rw [mapM_of_forall₂ (m := cs)]
      · rfl
      · refine h.imp fun x y hxy => ?_
        have hv := storeVal_of hxy
        split
        · rename_i n l heq
          rw [heq] at hxy hv
          cases hxy
          rw [if_pos rfl, heq]
          exact hv
        · exact hv
    rw [this]
    exact ⟨_, rfl⟩

/-- **C75** (beside the claim) If a list of a table holds a value that cannot be stored, the rows of
the block and the lists in front of it are in the output, this list and those behind it are as they
were before the block.  `done` are the lists in front, as buffered values, arrays and cells. -/
theorem arrays_left {w : Work} {done : List (Vl × Arr × List Cell)} {v : Vl} {a : Arr} {vs : List Vl}
    {as : List Arr} {e : Err}
    (hdone : ∀ d ∈ done, List.Forall₂ (Stored d.2.1.kind d.2.1.shape) d.1.data d.2.2)
    (hv : w.vls = done.map (·.1) ++ v :: vs) (ha : w.tab.arrs = done.map (·.2.1) ++ a :: as)
    (hbad : v.write a = .error e) :
    w.write = .error e ∧
    w.writeLeft = { w.tab with
      rows := w.tab.rows ++ w.recs
      arrs := done.map (fun d => { d.2.1 with items := d.2.1.items ++ d.2.2 }) ++ a :: as } := by
  have key : ∀ done : List (Vl × Arr × List Cell),
      (∀ d ∈ done, List.Forall₂ (Stored d.2.1.kind d.2.1.shape) d.1.data d.2.2) →
      writeVls (done.map (·.1) ++ v :: vs) (done.map (·.2.1) ++ a :: as) = .error e ∧
      writeVlsLeft (done.map (·.1) ++ v :: vs) (done.map (·.2.1) ++ a :: as) =
        done.map (fun d => { d.2.1 with items := d.2.1.items ++ d.2.2 }) ++ a :: as := by
    intro done
    induction done with
    | nil =>
      intro _
      simp only [List.map_nil, List.nil_append, writeVls, writeVlsLeft, hbad]
      exact ⟨rfl, trivial⟩
    | cons d done ih =>
      intro hd
      obtain ⟨v', h1⟩ := write_stored (hd d (by simp))
      obtain ⟨h2, h3⟩ := ih fun x hx => hd x (by simp [hx])
      simp only [List.map_cons, List.cons_append, writeVls, writeVlsLeft, h1, h2, h3]
      exact ⟨rfl, trivial⟩
  obtain ⟨h1, h2⟩ := key done hdone
  refine ⟨?_, ?_⟩
  · rw [Work.write, hv, ha, h1]
    rfl
  · rw [Work.writeLeft, hv, ha, h2]

namespace Demo

/-- two elements of GELREF1 in the buffer: the second list of the second one holds a `nan` -/
def refsWork : Work :=
  { tab := { cols := [colI "geono_start"], rows := [[.sc (.int 0)]],
             arrs := [{ arrI "geono" with items := [.sc (.int 7)] }, arrI "fixno", arrI "eccno"] }
    recs := [[.sc (.int 1)]]
    vls := [{ data := [.sc (.num (.rat 8)), .sc (.num (.rat 9))], startindex := 1 },
            { data := [.sc (.num (.rat 1)), .sc (.num .nan)], startindex := 0 },
            { data := [.sc (.num (.rat 3))], startindex := 0 }] }

/-- the hypotheses of `arrays_left` are met -/
example : refsWork.write = .error .valueError ∧ refsWork.writeLeft =
    { cols := [colI "geono_start"], rows := [[.sc (.int 0)], [.sc (.int 1)]],
      arrs := [{ arrI "geono" with items := [.sc (.int 7), .sc (.int 8), .sc (.int 9)] },
        arrI "fixno", arrI "eccno"] } :=
  arrays_left (w := refsWork)
    (done := [({ data := [.sc (.num (.rat 8)), .sc (.num (.rat 9))], startindex := 1 },
      { arrI "geono" with items := [.sc (.int 7)] }, [.sc (.int 8), .sc (.int 9)])])
    (by
      intro d hd
      obtain rfl := List.mem_singleton.mp hd
      exact .cons (.sc (.int (toInt_hasInt (by decide +kernel)))) (.cons (.sc (.int (toInt_hasInt (by decide +kernel)))) .nil))
    rfl rfl rfl

end Demo

end Verif.Parse
