import Verif.Data.ElemDemo
/-!
# Complex element results: a concrete case for C50
-/

namespace Verif.Data.ComplexDemo
open Verif Verif.Data Verif.Data.Demo

/-- complex result cases of run 1 -/
def cxRefs : List ResRef := [⟨7, 1, 1, 1⟩, ⟨8, 2, 1, 0⟩]

/-- 18 complex values from `100 n`, with imaginary parts -1, -2, … -/
def cxForces (n : Nat) : List (Rat × Rat) := (List.range 18).map fun i => (100 * n + i, -(i + 1))

def cxForce (ires : Int) (elem n : Nat) : ElemRec (Rat × Rat) := ⟨ires, elem, 15, cxForces n⟩

def cxRecs : List (ElemRec (Rat × Rat)) := [cxForce 7 1 1, cxForce 7 4 2, cxForce 8 1 3]

def cxData : List Rat := (cxForces 1 ++ cxForces 2 ++ cxForces 3).flatMap storedComplex

def cxObject : Struc Rat :=
  { elemObject with
    rdresref := some cxRefs
    rvforces := some ([⟨7, 1, 15, 0, 36⟩, ⟨7, 4, 15, 36, 72⟩, ⟨8, 1, 15, 72, 108⟩], cxData) }

theorem cxHoldsRes : HoldsElemRes cxObject "beamforce" "beam" storedComplex cxRecs := by
  refine ⟨_, _, .beamforce, ?_⟩
  have h : ∀ a b : Nat, a ≤ b → b ≤ 108 → ∀ l : List (Rat × Rat),
      (cxData.drop a).take (b - a) = l.flatMap storedComplex →
      Part cxData a b (l.flatMap storedComplex) :=
    fun a b hab hb l hl => ⟨a, b, rfl, rfl, hab, hb, hl⟩
  exact .cons ⟨rfl, rfl, rfl, h 0 36 (by decide) (by decide) _ (by decide +kernel)⟩ <|
    .cons ⟨rfl, rfl, rfl, h 36 72 (by decide) (by decide) _ (by decide +kernel)⟩ <|
    .cons ⟨rfl, rfl, rfl, h 72 108 (by decide) (by decide) _ (by decide +kernel)⟩ .nil

theorem cx_wanted (c : Int) : (∃ r, Wanted cxRefs 1 .all r ∧ r.ires = c) ↔ c = 7 := by
  constructor
  · rintro ⟨r, ⟨h1, h2, _⟩, rfl⟩
    simp only [cxRefs, List.mem_cons, List.not_mem_nil, or_false] at h1
    rcases h1 with rfl | rfl <;> simp_all
  · rintro rfl
    exact ⟨⟨7, 1, 1, 1⟩, ⟨by simp [cxRefs], rfl, .inl rfl⟩, rfl⟩

theorem cxConcerns (ires : Int) (e n : Nat) :
    Concerns cxRefs 1 .all [0, 3] (cxForce ires e n) ↔ ires = 7 ∧ (e = 1 ∨ e = 4) := by
  unfold Concerns
  rw [show (cxForce ires e n).ires = ires from rfl, cx_wanted]
  simp [cxForce]

/-- C50: complex forces of two beams in the complex result case of the run -/
example := element_results_complex_partial (d := cxObject)
  ⟨rfl, elemHolds.nodes, elemHolds.coords, elemHolds.elems⟩ elemValid (.inl (.inl rfl)) elemChosen
  (l := [⟨101, 15, [1, 5]⟩, ⟨104, 15, [5, 3]⟩]) (.cons rfl (.cons rfl .nil)) (by simp) (dims := [6])
  (by intro e he; simp only [List.mem_cons, List.not_mem_nil, or_false] at he; rcases he with rfl | rfl <;> rfl)
  (by intro e he; simp only [List.mem_cons, List.not_mem_nil, or_false] at he; rcases he with rfl | rfl <;> rfl)
  cxHoldsRes (refs := cxRefs) rfl (run := 1) (rescases := .all) (flag := 1) (by decide)
  (by
    rintro r ⟨h1, h2, _⟩
    simp only [cxRefs, List.mem_cons, List.not_mem_nil, or_false] at h1
    rcases h1 with rfl | rfl
    · rfl
    · exact absurd h2 (by decide))
  (cs := [7]) ⟨by decide, fun c => by rw [cx_wanted]; simp⟩ (by simp)
  (css := [[cxForce 7 1 1, cxForce 7 4 2]])
  (by refine .keep ?_ <| .keep ?_ <| .drop ?_ .nil <;> rw [cxConcerns] <;> decide) rfl
  (by
    intro c hc
    rw [List.mem_singleton.mp hc]
    exact .cons ⟨rfl, rfl, _, rfl, rfl⟩ <| .cons ⟨rfl, rfl, _, rfl, rfl⟩ .nil) (0 : Rat)

/-- … computed: the forces at the two ends of the first beam -/
example : (match getElementResults (0 : Rat) cxObject "beamforce" "nodes" 1 .all .none with
    | .ok (.complex a) => some (a.shape, a.data.take 8)
    | _ => none) = some ([4, 6], [(100, -1), (101, -2), (102, -3), (103, -4), (104, -5), (105, -6),
      (112, -13), (113, -14)]) := by decide +kernel

end Verif.Data.ComplexDemo
