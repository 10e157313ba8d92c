import Verif.Calc.Props
/-!
# Concrete cases of the theorems about stress calculations
-/

namespace Verif.Calc
open Verif

/-- two points -/
example := (principal2d_pointwise [[3, 0, 2], [7, 0, 0, 9]]).1 (by
  intro p hp
  rcases List.mem_cons.mp hp with rfl | hp
  · decide
  rcases List.mem_cons.mp hp with rfl | hp
  · decide
  · cases hp)
/-- the second point has two components -/
example : principal2d [[3, 0, 2], [7, 0]] = .error .indexError :=
  (principal2d_pointwise _).2 ⟨[7, 0], by simp, by decide⟩

/-- a solver that returns the eigenvalues of the tensor of (3, 0, 2) in increasing order: the result
is that of `principal2d`, (4, -1) -/
example : principalThickPt (fun _ => (-1, 0, 4)) [3, 0, 2, 0, 0] = principal2dPt [3, 0, 2] :=
  principalThick_no_shear _ 3 0 2 [] [] (by
    intro x
    rw [Matrix.det_fin_three]
    simp
    ring)

/-- with transverse shear: the tensor of (1, 1, 0, 1, 0), the eigenvalue of smallest magnitude,
`(1 - √5)/2`, is removed -/
example := principalThick_general
  (fun _ => (1, (1 + Real.sqrt 5) / 2, (1 - Real.sqrt 5) / 2)) 1 1 0 1 0 [] (by
    intro x
    have h5 : Real.sqrt 5 ^ 2 = 5 := Real.sq_sqrt (by norm_num)
    rw [Matrix.det_fin_three]
    simp
    ring_nf
    rw [h5]
    ring)

example : vonmises2dPt [1, 2] = .error .indexError := vonmises2d_short _ (by decide)
example (eig : Matrix (Fin 3) (Fin 3) ℝ → ℝ × ℝ × ℝ) :
    principalThickPt eig [1, 2, 3, 4] = .error .indexError := principalThick_short eig _ (by decide)

/-- two rows -/
example := absmaxRows_spec [[1, -3, 2], [5]] (by
  intro r hr
  rcases List.mem_cons.mp hr with rfl | hr
  · simp
  rcases List.mem_cons.mp hr with rfl | hr
  · simp
  · cases hr)

/-- elements 10 (nodes 1, 2, 3) and 11 (nodes 2, 4, 3): node 3 of element 11 is at the end -/
example := findOne_spec [3, 6] [10, 11] [1, 2, 3, 2, 4, 3] 11 3 1 6 rfl (by
  intro e h
  rcases e with _ | _ | e
  · exact absurd h (by decide)
  · rfl
  · simp at h) rfl
example : findOne [3, 6] [10, 11] [1, 2, 3, 2, 4, 3] 11 3 = .ok 5 :=
  findOne_in_element _ _ _ _ _ 1 3 6 rfl (by
    intro e h
    rcases e with _ | _ | e
    · exact absurd h (by decide)
    · rfl
    · simp at h) rfl 5 (by decide) (by decide) rfl (by
    intro j h1 h2 h3
    have : j = 3 ∨ j = 4 ∨ j = 5 := by omega
    rcases this with rfl | rfl | rfl
    · exact absurd h3 (by decide)
    · exact absurd h3 (by decide)
    · rfl)
/-- no element 12; element 10 twice -/
example : findOne [3, 6] [10, 11] [1, 2, 3, 2, 4, 3] 12 3 = .error .valueError :=
  findOne_element_error _ _ _ _ _ (.inl fun e h => by
    rcases e with _ | _ | e
    · exact absurd h (by decide)
    · exact absurd h (by decide)
    · simp at h)
example : findOne [3, 6] [10, 10] [1, 2, 3, 2, 4, 3] 10 3 = .error .valueError :=
  findOne_element_error _ _ _ _ _ (.inr ⟨0, 1, by decide, rfl, rfl⟩)

end Verif.Calc
