import Verif.Calc.Model
import Mathlib.LinearAlgebra.Matrix.Notation
import Mathlib.Tactic.Ring
import Mathlib.Tactic.NormNum
import Mathlib.Tactic.Linarith
import Mathlib.Tactic.FieldSimp
import Mathlib.Tactic.LinearCombination
import Mathlib.Tactic.Positivity

/-!
# Properties of the stress calculations: C38, C39, C40, C41, C42
-/

namespace Verif.Calc
open Verif

/-! ## Specification vocabulary (independent of the model) -/

/-- `x` is an eigenvalue of the symmetric matrix `[[a, c], [c, b]]` -/
def IsEig2 (a b c x : ℝ) : Prop :=
  ∃ u v : ℝ, (u ≠ 0 ∨ v ≠ 0) ∧ a * u + c * v = x * u ∧ c * u + b * v = x * v

/-- the eigenvalues (with multiplicity, any order) of a 3x3 matrix -/
def EigenTriple (S : Matrix (Fin 3) (Fin 3) ℝ) (t : ℝ × ℝ × ℝ) : Prop :=
  ∀ x : ℝ, (x • (1 : Matrix (Fin 3) (Fin 3) ℝ) - S).det = (x - t.1) * (x - t.2.1) * (x - t.2.2)

/-! ## helper lemmas -/

theorem isEig2_iff (a b c x : ℝ) : IsEig2 a b c x ↔ (a - x) * (b - x) = c ^ 2 := by
  constructor
  · rintro ⟨u, v, hne, h1, h2⟩
    have e1 : (a - x) * u = - c * v := by linarith
    have e2 : (b - x) * v = - c * u := by linarith
    rcases hne with hu | hv
    · have : ((a - x) * (b - x) - c ^ 2) * u = 0 := by
        calc ((a - x) * (b - x) - c ^ 2) * u
            = (b - x) * ((a - x) * u) - c ^ 2 * u := by ring
          _ = -c * ((b - x) * v) - c ^ 2 * u := by rw [e1]; ring
          _ = 0 := by rw [e2]; ring
      have := (mul_eq_zero.mp this).resolve_right hu
      linarith
    · have : ((a - x) * (b - x) - c ^ 2) * v = 0 := by
        calc ((a - x) * (b - x) - c ^ 2) * v
            = (a - x) * ((b - x) * v) - c ^ 2 * v := by ring
          _ = -c * ((a - x) * u) - c ^ 2 * v := by rw [e2]; ring
          _ = 0 := by rw [e1]; ring
      have := (mul_eq_zero.mp this).resolve_right hv
      linarith
  · intro h
    by_cases hc : c = 0
    · subst hc
      have : (a - x) * (b - x) = 0 := by rw [h]; ring
      rcases mul_eq_zero.mp this with h0 | h0
      · exact ⟨1, 0, Or.inl one_ne_zero, by linarith, by ring⟩
      · exact ⟨0, 1, Or.inr one_ne_zero, by ring, by linarith⟩
    · exact ⟨c, x - a, Or.inl hc, by ring, by linarith⟩

/-! ## C38 -/

/-- **C38.** For every stress triple (and any further components, which are ignored)
`principal2d` succeeds with `P1 ≥ P2`, and a real number is an eigenvalue of the plane stress
tensor exactly if it is `P1` or `P2`; with their sum and product this determines them with
multiplicity. -/
theorem principal2d_eigenvalues (sxx syy txy : ℝ) (more : List ℝ) :
    ∃ p1 p2, principal2dPt (sxx :: syy :: txy :: more) = .ok (p1, p2) ∧ p2 ≤ p1 ∧
      (∀ x, IsEig2 sxx syy txy x ↔ x = p1 ∨ x = p2) ∧
      p1 + p2 = sxx + syy ∧ p1 * p2 = sxx * syy - txy ^ 2 := by
  set r := Real.sqrt ((sxx - syy) ^ 2 + 4 * txy ^ 2) with hr
  have hr0 : 0 ≤ r := Real.sqrt_nonneg _
  have hr2 : r ^ 2 = (sxx - syy) ^ 2 + 4 * txy ^ 2 := Real.sq_sqrt (by positivity)
  refine ⟨(sxx + syy) / 2 + 0.5 * r, (sxx + syy) / 2 - 0.5 * r, rfl, by linarith, ?_, by ring, ?_⟩
  · intro x
    rw [isEig2_iff]
    have key : (sxx - x) * (syy - x) - txy ^ 2 =
        (x - ((sxx + syy) / 2 + 0.5 * r)) * (x - ((sxx + syy) / 2 - 0.5 * r)) := by
      ring_nf; rw [hr2]; ring
    constructor
    · intro h
      have h0 : (x - ((sxx + syy) / 2 + 0.5 * r)) * (x - ((sxx + syy) / 2 - 0.5 * r)) = 0 := by
        rw [← key, h]; ring
      rcases mul_eq_zero.mp h0 with h1 | h1
      · left; linarith
      · right; linarith
    · rintro (h | h) <;> rw [← sub_eq_zero, key, h] <;> ring
  · ring_nf; rw [hr2]; ring

/-- **C38** (array form and error): one pair per point in order; a last axis with fewer than
three entries raises IndexError. -/
theorem principal2d_pointwise (arr : List (List ℝ)) :
    ((∀ p ∈ arr, 3 ≤ p.length) →
      ∃ out, principal2d arr = .ok out ∧ out.length = arr.length ∧
        ∀ i (h : i < arr.length) (h' : i < out.length), principal2dPt arr[i] = .ok out[i]) ∧
    ((∃ p ∈ arr, p.length < 3) → principal2d arr = .error .indexError) := by
  constructor
  · intro h
    induction arr with
    | nil => exact ⟨[], rfl, rfl, fun i h => absurd h (by simp)⟩
    | cons p ps ih =>
      obtain ⟨out, ho, hl, hi⟩ := ih (fun q hq => h q (List.mem_cons_of_mem _ hq))
      have hp := h p List.mem_cons_self
      match p, hp with
      | sxx :: syy :: txy :: more, _ =>
        obtain ⟨p1, p2, he, -⟩ := principal2d_eigenvalues sxx syy txy more
        refine ⟨(p1, p2) :: out, ?_, by simp [hl], ?_⟩
        · simp only [principal2d] at ho ⊢
          rw [List.mapM_cons, he, bind_ok, ho]; rfl
        · intro i h1 h2
          cases i with
          | zero => exact he
          | succ i => exact hi i (by simpa using h1) (by simpa using h2)
  · rintro ⟨p, hp, hl⟩
    induction arr with
    | nil => cases hp
    | cons q qs ih =>
      simp only [principal2d, List.mapM_cons]
      rcases List.mem_cons.mp hp with rfl | hp'
      · match p, hl with
        | [], _ => rfl
        | [_], _ => rfl
        | [_, _], _ => rfl
      · match q with
        | [] => rfl
        | [_] => rfl
        | [_, _] => rfl
        | sxx :: syy :: txy :: more =>
          obtain ⟨p1, p2, he, -⟩ := principal2d_eigenvalues sxx syy txy more
          have := ih hp'
          simp only [principal2d] at this
          rw [he, bind_ok, this]; rfl

/-- non-trivial instance: stress (3, 0, 2) has principal stresses 4 and -1 -/
example : principal2dPt [3, 0, 2] = .ok (4, -1) := by
  have : Real.sqrt ((3 - 0) ^ 2 + 4 * 2 ^ 2) = 5 := by
    rw [show ((3 : ℝ) - 0) ^ 2 + 4 * 2 ^ 2 = 5 ^ 2 by norm_num]
    exact Real.sqrt_sq (by norm_num)
  simp only [principal2dPt, this]
  norm_num

/-! ## C39 -/

/-- **C39.** `vonmises2d` agrees with the principal stresses of `principal2d`. -/
theorem vonmises2d_principal (sxx syy txy : ℝ) (more : List ℝ) :
    ∃ p1 p2 v, principal2dPt (sxx :: syy :: txy :: more) = .ok (p1, p2) ∧
      vonmises2dPt (sxx :: syy :: txy :: more) = .ok v ∧ 0 ≤ v ∧
      v ^ 2 = p1 ^ 2 - p1 * p2 + p2 ^ 2 := by
  obtain ⟨p1, p2, hp, -, -, hs, hm⟩ := principal2d_eigenvalues sxx syy txy more
  refine ⟨p1, p2, _, hp, rfl, Real.sqrt_nonneg _, ?_⟩
  rw [Real.sq_sqrt (by nlinarith [sq_nonneg (sxx - syy), sq_nonneg (sxx + syy), sq_nonneg txy])]
  have : p1 ^ 2 - p1 * p2 + p2 ^ 2 = (p1 + p2) ^ 2 - 3 * (p1 * p2) := by ring
  rw [this, hs, hm]; ring

/-- **C39.** zero exactly for zero stress -/
theorem vonmises2d_zero_iff (sxx syy txy : ℝ) (more : List ℝ) :
    vonmises2dPt (sxx :: syy :: txy :: more) = .ok 0 ↔ sxx = 0 ∧ syy = 0 ∧ txy = 0 := by
  simp only [vonmises2dPt, Except.ok.injEq]
  have hnn : 0 ≤ sxx ^ 2 + syy ^ 2 - sxx * syy + 3 * txy ^ 2 := by
    nlinarith [sq_nonneg (sxx - syy), sq_nonneg (sxx + syy), sq_nonneg txy]
  rw [Real.sqrt_eq_zero hnn]
  constructor
  · intro h
    have h1 : txy ^ 2 = 0 := by nlinarith [sq_nonneg (sxx - syy), sq_nonneg (sxx + syy), sq_nonneg txy]
    have h2 : (sxx - syy) ^ 2 = 0 := by
      nlinarith [sq_nonneg (sxx - syy), sq_nonneg (sxx + syy), sq_nonneg txy]
    have h3 : (sxx + syy) ^ 2 = 0 := by
      nlinarith [sq_nonneg (sxx - syy), sq_nonneg (sxx + syy), sq_nonneg txy]
    have h1' : txy = 0 := by simpa using h1
    have h2' : sxx - syy = 0 := by simpa using h2
    have h3' : sxx + syy = 0 := by simpa using h3
    exact ⟨by linarith, by linarith, h1'⟩
  · rintro ⟨rfl, rfl, rfl⟩; ring

/-- **C39.** absolutely homogeneous -/
theorem vonmises2d_scale (k sxx syy txy : ℝ) (more more' : List ℝ) :
    ∃ v, vonmises2dPt (sxx :: syy :: txy :: more) = .ok v ∧
      vonmises2dPt (k * sxx :: k * syy :: k * txy :: more') = .ok (|k| * v) := by
  refine ⟨_, rfl, ?_⟩
  simp only [vonmises2dPt, Except.ok.injEq]
  rw [show (k * sxx) ^ 2 + (k * syy) ^ 2 - k * sxx * (k * syy) + 3 * (k * txy) ^ 2
      = k ^ 2 * (sxx ^ 2 + syy ^ 2 - sxx * syy + 3 * txy ^ 2) by ring,
    Real.sqrt_mul (sq_nonneg k), Real.sqrt_sq_eq_abs]

/-- **C39.** the sign of the shear stress does not matter -/
theorem vonmises2d_shear_sign (sxx syy txy : ℝ) (more more' : List ℝ) :
    vonmises2dPt (sxx :: syy :: -txy :: more) = vonmises2dPt (sxx :: syy :: txy :: more') := by
  simp [vonmises2dPt]

/-- uniaxial and pure shear stress states as concrete instances -/
example : vonmises2dPt [7, 0, 0] = .ok 7 := by
  simp only [vonmises2dPt, Except.ok.injEq]
  rw [show (7 : ℝ) ^ 2 + 0 ^ 2 - 7 * 0 + 3 * 0 ^ 2 = 7 ^ 2 by norm_num]
  exact Real.sqrt_sq (by norm_num)

/-! ## C40 -/

/-- **C40.** In general: for any order in which the solver returns the eigenvalues, the two
returned values together with the removed one are the eigenvalues with multiplicity, the removed
one has smallest magnitude, and `P1 ≥ P2`. -/
theorem principalThick_general (eig : Matrix (Fin 3) (Fin 3) ℝ → ℝ × ℝ × ℝ)
    (sxx syy txy txz tyz : ℝ) (more : List ℝ)
    (heig : EigenTriple !![sxx, txy, txz; txy, syy, tyz; txz, tyz, 0]
      (eig !![sxx, txy, txz; txy, syy, tyz; txz, tyz, 0])) :
    ∃ p1 p2 r, principalThickPt eig (sxx :: syy :: txy :: txz :: tyz :: more) = .ok (p1, p2) ∧
      p2 ≤ p1 ∧ |r| ≤ |p1| ∧ |r| ≤ |p2| ∧
      EigenTriple !![sxx, txy, txz; txy, syy, tyz; txz, tyz, 0] (p1, p2, r) := by
  simp only [principalThickPt, stressTensor]
  generalize eig !![sxx, txy, txz; txy, syy, tyz; txz, tyz, 0] = t at heig ⊢
  obtain ⟨a, b, c⟩ := t
  have tri : ∀ x : ℝ, (x • (1 : Matrix (Fin 3) (Fin 3) ℝ) -
      !![sxx, txy, txz; txy, syy, tyz; txz, tyz, 0]).det = (x - a) * (x - b) * (x - c) := heig
  simp only
  have mk : ∀ q1 q2 r : ℝ, |r| ≤ |q1| → |r| ≤ |q2| →
      (∀ x : ℝ, (x - a) * (x - b) * (x - c) = (x - q1) * (x - q2) * (x - r)) →
      ∃ p1 p2 r', (Except.ok (max q1 q2, min q1 q2) : Except Err (ℝ × ℝ)) = .ok (p1, p2) ∧
        p2 ≤ p1 ∧ |r'| ≤ |p1| ∧ |r'| ≤ |p2| ∧
        EigenTriple !![sxx, txy, txz; txy, syy, tyz; txz, tyz, 0] (p1, p2, r') := by
    intro q1 q2 r h1 h2 hx
    refine ⟨max q1 q2, min q1 q2, r, rfl, min_le_max, ?_, ?_, ?_⟩
    · rcases max_choice q1 q2 with h | h <;> rw [h] <;> assumption
    · rcases min_choice q1 q2 with h | h <;> rw [h] <;> assumption
    · intro x
      rw [tri x, hx x]
      rcases le_total q1 q2 with h | h
      · simp only [max_eq_right h, min_eq_left h]; ring
      · simp only [max_eq_left h, min_eq_right h]
  unfold argminAbs3
  split
  · next h => exact mk b c a h.1 h.2 (fun x => by ring)
  · next h =>
    split
    · next h' =>
      refine mk a c b ?_ h' (fun x => by ring)
      by_contra hab
      exact h ⟨by linarith, by linarith⟩
    · next h' =>
      refine mk a b c ?_ (by linarith) (fun x => by ring)
      by_contra hac
      exact h ⟨by linarith, by linarith⟩

/-- **C40.** Without transverse shear the thick shell result is the plane one, for every solver. -/
theorem principalThick_no_shear (eig : Matrix (Fin 3) (Fin 3) ℝ → ℝ × ℝ × ℝ)
    (sxx syy txy : ℝ) (more more' : List ℝ)
    (heig : EigenTriple !![sxx, txy, 0; txy, syy, 0; 0, 0, 0]
      (eig !![sxx, txy, 0; txy, syy, 0; 0, 0, 0])) :
    principalThickPt eig (sxx :: syy :: txy :: 0 :: 0 :: more)
      = principal2dPt (sxx :: syy :: txy :: more') := by
  obtain ⟨p1, p2, r, hp, hle, hr1, hr2, ht⟩ :=
    principalThick_general eig sxx syy txy 0 0 more heig
  obtain ⟨q1, q2, hq, hqle, -, hs, hm⟩ := principal2d_eigenvalues sxx syy txy more'
  rw [hp, hq]
  have hdet : ∀ x : ℝ, (x • (1 : Matrix (Fin 3) (Fin 3) ℝ) -
      !![sxx, txy, 0; txy, syy, 0; 0, 0, 0]).det = x * ((x - sxx) * (x - syy) - txy ^ 2) := by
    intro x
    rw [Matrix.det_fin_three]
    simp
    ring
  have hpoly : ∀ x : ℝ, (x - p1) * (x - p2) * (x - r) = x * ((x - q1) * (x - q2)) := by
    intro x
    have h1 := ht x
    rw [hdet] at h1
    simp only at h1
    rw [← h1]
    have : (x - q1) * (x - q2) = (x - sxx) * (x - syy) - txy ^ 2 := by
      have : (x - q1) * (x - q2) = x ^ 2 - (q1 + q2) * x + q1 * q2 := by ring
      rw [this, hs, hm]; ring
    rw [this]
  have hr : r = 0 := by
    have h0 := hpoly 0
    have h0' : p1 * p2 * r = 0 := by linarith
    rcases mul_eq_zero.mp h0' with h | h
    · rcases mul_eq_zero.mp h with h | h
      · rw [h] at hr1; simpa using hr1
      · rw [h] at hr2; simpa using hr2
    · exact h
  subst hr
  -- now both pairs are the roots of the same quadratic
  have e1 := hpoly 1
  have e2 := hpoly 2
  have sum_eq : p1 + p2 = q1 + q2 := by linarith
  have prod_eq : p1 * p2 = q1 * q2 := by linarith
  have dsq : (p1 - p2) ^ 2 = (q1 - q2) ^ 2 := by
    have : (p1 - p2) ^ 2 = (p1 + p2) ^ 2 - 4 * (p1 * p2) := by ring
    rw [this, sum_eq, prod_eq]; ring
  have d_eq : p1 - p2 = q1 - q2 := by
    have h1 : 0 ≤ p1 - p2 := by linarith
    have h2 : 0 ≤ q1 - q2 := by linarith
    exact (sq_eq_sq₀ h1 h2).mp dsq
  have : p1 = q1 := by linarith
  have : p2 = q2 := by linarith
  simp [*]

/-- an eigenvalue triple exists for the instance `sxx = 3, syy = 0, txy = 2` without shear, so the
hypothesis of `principalThick_no_shear` is satisfiable: eigenvalues 4, -1, 0 in any order -/
example : EigenTriple !![3, 2, 0; 2, 0, 0; 0, 0, 0] (-1, 0, 4) := by
  intro x
  rw [Matrix.det_fin_three]
  simp
  ring

/-- with transverse shear: the tensor of (1, 1, 0, 1, 0) has eigenvalues 1 and the roots of
`x^2 - x - 1`; hypotheses of `principalThick_general` are satisfiable -/
example : EigenTriple !![1, 0, 1; 0, 1, 0; 1, 0, 0]
    (1, (1 + Real.sqrt 5) / 2, (1 - Real.sqrt 5) / 2) := by
  intro x
  have h5 : Real.sqrt 5 ^ 2 = 5 := Real.sq_sqrt (by norm_num)
  rw [Matrix.det_fin_three]
  simp
  ring_nf
  rw [h5]
  ring

/-- **C40**: the result may depend on the order of the solver when two eigenvalues have equal
magnitude: for the tensor with eigenvalues 1, -1, 5 both (5, -1) and (5, 1) can be returned. -/
theorem principalThick_tie_order :
    ∃ (eig eig' : Matrix (Fin 3) (Fin 3) ℝ → ℝ × ℝ × ℝ) (p : List ℝ),
      (∃ sxx syy txy txz tyz, p = [sxx, syy, txy, txz, tyz] ∧
        EigenTriple !![sxx, txy, txz; txy, syy, tyz; txz, tyz, 0]
          (eig !![sxx, txy, txz; txy, syy, tyz; txz, tyz, 0]) ∧
        EigenTriple !![sxx, txy, txz; txy, syy, tyz; txz, tyz, 0]
          (eig' !![sxx, txy, txz; txy, syy, tyz; txz, tyz, 0])) ∧
      principalThickPt eig p ≠ principalThickPt eig' p := by
  refine ⟨fun _ => (1, -1, 5), fun _ => (-1, 1, 5), [5, 0, 0, 0, 1],
    ⟨5, 0, 0, 0, 1, rfl, ?_, ?_⟩, ?_⟩
  · intro x; rw [Matrix.det_fin_three]; simp; ring
  · intro x; rw [Matrix.det_fin_three]; simp; ring
  · simp [principalThickPt, argminAbs3, delete3]
    norm_num

/-! ## C41 -/

theorem foldl_max_spec (xs : List ℝ) (x : ℝ) :
    xs.foldl max x ∈ x :: xs ∧ ∀ y ∈ x :: xs, y ≤ xs.foldl max x := by
  induction xs generalizing x with
  | nil => simp
  | cons z zs ih =>
    obtain ⟨h1, h2⟩ := ih (max x z)
    simp only [List.foldl_cons]
    constructor
    · rcases List.mem_cons.mp h1 with h | h
      · rw [h]; rcases max_choice x z with h' | h' <;> simp [h']
      · simp [h]
    · intro y hy
      have hm := h2 (max x z) List.mem_cons_self
      rcases List.mem_cons.mp hy with rfl | hy
      · exact le_trans (le_max_left _ _) hm
      · rcases List.mem_cons.mp hy with rfl | hy
        · exact le_trans (le_max_right _ _) hm
        · exact h2 y (List.mem_cons_of_mem _ hy)

theorem foldl_min_spec (xs : List ℝ) (x : ℝ) :
    xs.foldl min x ∈ x :: xs ∧ ∀ y ∈ x :: xs, xs.foldl min x ≤ y := by
  induction xs generalizing x with
  | nil => simp
  | cons z zs ih =>
    obtain ⟨h1, h2⟩ := ih (min x z)
    simp only [List.foldl_cons]
    constructor
    · rcases List.mem_cons.mp h1 with h | h
      · rw [h]; rcases min_choice x z with h' | h' <;> simp [h']
      · simp [h]
    · intro y hy
      have hm := h2 (min x z) List.mem_cons_self
      rcases List.mem_cons.mp hy with rfl | hy
      · exact le_trans hm (min_le_left _ _)
      · rcases List.mem_cons.mp hy with rfl | hy
        · exact le_trans hm (min_le_right _ _)
        · exact h2 y (List.mem_cons_of_mem _ hy)

/-- **C41.** `absmax` of a non-empty array is an element of it, no element has larger
magnitude, and if both `v` and `-v` have that magnitude the nonnegative one is returned; an empty
array raises ValueError. -/
theorem absmax_spec (a : List ℝ) :
    (a = [] → absmax a = .error .valueError) ∧
    (a ≠ [] → ∃ v, absmax a = .ok v ∧ v ∈ a ∧ (∀ y ∈ a, |y| ≤ |v|) ∧ (-v ∈ a → 0 ≤ v)) := by
  constructor
  · rintro rfl; rfl
  · intro hne
    match a, hne with
    | x :: xs, _ =>
      obtain ⟨hM, hMle⟩ := foldl_max_spec xs x
      obtain ⟨hm, hmle⟩ := foldl_min_spec xs x
      refine ⟨_, rfl, ?_, ?_, ?_⟩
      · split <;> assumption
      · intro y hy
        have h1 := hMle y hy
        have h2 := hmle y hy
        split
        · next h => rw [abs_le]; constructor <;> cases abs_cases (xs.foldl min x) <;> linarith
        · next h => rw [abs_le]; constructor <;> cases abs_cases (xs.foldl max x) <;> linarith
      · intro hneg
        split
        · next h => rw [if_pos h] at hneg; have := hMle _ hneg; linarith
        · next h => have := hMle _ hM; have := hmle _ hM; linarith

/-- **C41** along an axis: every row is treated on its own -/
theorem absmaxRows_spec (a : List (List ℝ)) (h : ∀ r ∈ a, r ≠ []) :
    ∃ out, absmaxRows a = .ok out ∧ out.length = a.length ∧
      ∀ i (h1 : i < a.length) (h2 : i < out.length), absmax a[i] = .ok out[i] := by
  induction a with
  | nil => exact ⟨[], rfl, rfl, fun i h => absurd h (by simp)⟩
  | cons r rs ih =>
    obtain ⟨out, ho, hl, hi⟩ := ih (fun q hq => h q (List.mem_cons_of_mem _ hq))
    obtain ⟨v, hv, -⟩ := (absmax_spec r).2 (h r List.mem_cons_self)
    refine ⟨v :: out, ?_, by simp [hl], ?_⟩
    · simp only [absmaxRows] at ho ⊢
      rw [List.mapM_cons, hv, bind_ok, ho]; rfl
    · intro i h1 h2
      cases i with
      | zero => exact hv
      | succ i => exact hi i (by simpa using h1) (by simpa using h2)

example : absmax [1, -3, 2, 3] = .ok 3 := by
  simp [absmax, amax, amin]; norm_num
example : absmax [1, -3, 2] = .ok (-3) := by
  simp [absmax, amax, amin]; norm_num

/-! ## C42 -/

theorem mem_whereEq (v : Int) (xs : List Int) (i j : Nat) :
    j ∈ whereEq v i xs ↔ i ≤ j ∧ xs[j - i]? = some v := by
  induction xs generalizing i with
  | nil => simp [whereEq]
  | cons x xs ih =>
    have hsub : i + 1 ≤ j → j - i = (j - (i + 1)) + 1 := by omega
    by_cases hx : x = v
    · simp only [whereEq, if_pos hx, List.mem_cons, ih]
      constructor
      · rintro (rfl | ⟨h1, h2⟩)
        · simp [hx]
        · rw [hsub h1]; exact ⟨by omega, by simpa using h2⟩
      · rintro ⟨h1, h2⟩
        by_cases hij : j = i
        · exact Or.inl hij
        · right; rw [hsub (by omega)] at h2; exact ⟨by omega, by simpa using h2⟩
    · simp only [whereEq, if_neg hx, ih]
      constructor
      · rintro ⟨h1, h2⟩
        rw [hsub h1]; exact ⟨by omega, by simpa using h2⟩
      · rintro ⟨h1, h2⟩
        by_cases hij : j = i
        · subst hij; simp at h2; exact absurd h2 hx
        · rw [hsub (by omega)] at h2; exact ⟨by omega, by simpa using h2⟩

theorem whereEq_sorted (v : Int) (xs : List Int) (i : Nat) :
    (whereEq v i xs).Pairwise (· < ·) := by
  induction xs generalizing i with
  | nil => exact List.Pairwise.nil
  | cons x xs ih =>
    by_cases hx : x = v
    · simp only [whereEq, if_pos hx]
      refine List.Pairwise.cons ?_ (ih (i + 1))
      intro j hj
      have := ((mem_whereEq v xs (i + 1) j).mp hj).1
      omega
    · simp only [whereEq, if_neg hx]; exact ih (i + 1)

/-- for a strictly decreasing non-empty list `argmin` is the last index -/
theorem argmin_decreasing (l : List Int) (hne : l ≠ []) (hd : l.Pairwise (· > ·)) :
    argmin l = .ok (l.length - 1) := by
  induction l with
  | nil => exact absurd rfl hne
  | cons x xs ih =>
    cases xs with
    | nil => rfl
    | cons y ys =>
      rw [List.pairwise_cons] at hd
      have ih' := ih (by simp) hd.2
      simp only [argmin, ih', bind_ok]
      have hlt : (y :: ys).length - 1 < (y :: ys).length := by simp
      rw [List.getElem?_eq_getElem hlt]
      have := hd.1 _ (List.getElem_mem hlt)
      simp only
      rw [if_neg (by omega)]
      simp

/-- positions in ascending order whose distance to `off` is positive form a prefix -/
theorem filter_prefix (off : Int) (l : List Nat) (hs : l.Pairwise (· < ·)) :
    ∃ pre suf, l = pre ++ suf ∧ (∀ j ∈ pre, (j : Int) < off) ∧ (∀ j ∈ suf, off ≤ (j : Int)) ∧
      (l.map (fun (j : Nat) => off - (j : Int))).filter (fun d => decide (0 < d))
        = pre.map (fun (j : Nat) => off - (j : Int)) := by
  induction l with
  | nil => exact ⟨[], [], rfl, by simp, by simp, rfl⟩
  | cons x xs ih =>
    rw [List.pairwise_cons] at hs
    obtain ⟨pre, suf, he, hp, hsu, hf⟩ := ih hs.2
    by_cases hx : (x : Int) < off
    · refine ⟨x :: pre, suf, by simp [he], ?_, hsu, ?_⟩
      · intro j hj; rcases List.mem_cons.mp hj with rfl | hj
        · exact hx
        · exact hp j hj
      · rw [List.map_cons, List.filter_cons_of_pos (by simp; omega), hf]; rfl
    · have hall : ∀ j ∈ x :: xs, off ≤ (j : Int) := by
        intro j hj; rcases List.mem_cons.mp hj with rfl | hj
        · omega
        · have := hs.1 j hj; omega
      refine ⟨[], x :: xs, rfl, by simp, hall, ?_⟩
      rw [List.map_nil, List.filter_eq_nil_iff]
      intro d hd
      obtain ⟨j, hj, rfl⟩ := List.mem_map.mp hd
      have := hall j hj
      simp; omega

/-- **C42** in full: if the element number occurs exactly once, at `e`, and `off` is its end
offset, the result is the largest position before `off` that holds the node number, and
ValueError if there is none. -/
theorem findOne_spec (offset elemnumb nodenumb : List Int) (elno nodeno : Int) (e : Nat)
    (off : Int) (he : elemnumb[e]? = some elno)
    (hu : ∀ e', elemnumb[e']? = some elno → e' = e) (ho : offset[e]? = some off) :
    (∀ j, findOne offset elemnumb nodenumb elno nodeno = .ok j ↔
      (nodenumb[j]? = some nodeno ∧ (j : Int) < off ∧
        ∀ j' : Nat, nodenumb[j']? = some nodeno → (j' : Int) < off → j' ≤ j)) ∧
    ((∀ j : Nat, nodenumb[j]? = some nodeno → off ≤ (j : Int)) →
      findOne offset elemnumb nodenumb elno nodeno = .error .valueError) := by
  have hw : whereEq elno 0 elemnumb = [e] := by
    have hmem : ∀ j, j ∈ whereEq elno 0 elemnumb ↔ j = e := by
      intro j; rw [mem_whereEq]; simp only [Nat.zero_le, true_and, Nat.sub_zero]
      exact ⟨hu j, fun h => h ▸ he⟩
    have hs := whereEq_sorted elno elemnumb 0
    match hl : whereEq elno 0 elemnumb, hs with
    | [], _ => have := (hmem e).mpr rfl; rw [hl] at this; cases this
    | [a], _ =>
      have := (hmem a).mp (by rw [hl]; simp); simp [this]
    | a :: b :: rest, hs =>
      have h1 := (hmem a).mp (by rw [hl]; simp)
      have h2 := (hmem b).mp (by rw [hl]; simp)
      rw [List.pairwise_cons] at hs
      have := hs.1 b (by simp)
      omega
  have hoi : pyIdx offset e = .ok off := by
    simp [pyIdx, ho]
  obtain ⟨pre, suf, hn, hp, hsu, hf⟩ :=
    filter_prefix off (whereEq nodeno 0 nodenumb) (whereEq_sorted _ _ _)
  have hmem : ∀ j, j ∈ pre ++ suf ↔ nodenumb[j]? = some nodeno := by
    intro j; rw [← hn, mem_whereEq]; simp
  have hps : (pre ++ suf).Pairwise (· < ·) := hn ▸ whereEq_sorted _ _ _
  have hpp : pre.Pairwise (· < ·) := (List.pairwise_append.mp hps).1
  simp only [findOne, hw, bind_ok, hoi, hf]
  cases hpc : pre with
  | nil =>
    constructor
    · intro j
      constructor
      · intro h; cases h
      · rintro ⟨h1, h2, -⟩
        have := (hmem j).mpr h1
        rw [hpc] at this
        have := hsu j (by simpa using this)
        omega
    · intro _; rfl
  | cons p ps =>
    rw [← hpc]
    have hne : pre ≠ [] := by simp [hpc]
    have hdec : (pre.map (fun (j : Nat) => off - (j : Int))).Pairwise (· > ·) := by
      rw [List.pairwise_map]
      exact hpp.imp (fun {a b} h => by simp only [gt_iff_lt]; omega)
    rw [argmin_decreasing _ (by simpa using hne) hdec, bind_ok, List.length_map, hn]
    have hlen : pre.length - 1 < pre.length := by
      have : 0 < pre.length := List.length_pos_iff.mpr hne
      omega
    have hidx : pyIdx (pre ++ suf) (pre.length - 1) = .ok (pre.getLast hne) := by
      have : (pre ++ suf)[pre.length - 1]? = some (pre.getLast hne) := by
        rw [List.getElem?_append_left hlen, List.getLast_eq_getElem,
          List.getElem?_eq_getElem hlen]
      simp only [pyIdx]
      simp [this]
    rw [hidx]
    have hlast : ∀ j ∈ pre, j ≤ pre.getLast hne := by
      intro j hj
      obtain ⟨i, hi, rfl⟩ := List.getElem_of_mem hj
      rw [List.getLast_eq_getElem]
      by_cases h : i = pre.length - 1
      · simp [h]
      · have := List.pairwise_iff_getElem.mp hpp i (pre.length - 1) hi hlen (by omega)
        omega
    have hlm : pre.getLast hne ∈ pre := List.getLast_mem hne
    constructor
    · intro j
      constructor
      · intro h
        injection h with h
        subst h
        refine ⟨(hmem _).mp (List.mem_append_left _ hlm), hp _ hlm, ?_⟩
        intro j' h1 h2
        rcases List.mem_append.mp ((hmem j').mpr h1) with h | h
        · exact hlast j' h
        · have := hsu j' h; omega
      · rintro ⟨h1, h2, h3⟩
        have hjp : j ∈ pre := by
          rcases List.mem_append.mp ((hmem j).mpr h1) with h | h
          · exact h
          · have := hsu j h; omega
        have := h3 _ ((hmem _).mp (List.mem_append_left _ hlm)) (hp _ hlm)
        have := hlast j hjp
        rw [show pre.getLast hne = j by omega]
    · intro hnone
      have := hnone _ ((hmem _).mp (List.mem_append_left _ hlm))
      have := hp _ hlm
      omega

/-- **C42.** element not found, or found more than once: ValueError -/
theorem findOne_element_error (offset elemnumb nodenumb : List Int) (elno nodeno : Int)
    (h : (∀ e : Nat, elemnumb[e]? ≠ some elno) ∨
      (∃ e e' : Nat, e ≠ e' ∧ elemnumb[e]? = some elno ∧ elemnumb[e']? = some elno)) :
    findOne offset elemnumb nodenumb elno nodeno = .error .valueError := by
  have hmem : ∀ j, j ∈ whereEq elno 0 elemnumb ↔ elemnumb[j]? = some elno := by
    intro j; rw [mem_whereEq]; simp
  simp only [findOne]
  match hl : whereEq elno 0 elemnumb with
  | [] => rfl
  | _ :: _ :: _ => rfl
  | [a] =>
    exfalso
    have h1 : ∀ j, elemnumb[j]? = some elno ↔ j = a := by
      intro j; rw [← hmem, hl]; simp
    rcases h with h | ⟨e, e', hne, h2, h3⟩
    · exact h a ((h1 a).mpr rfl)
    · rw [h1] at h2 h3; omega

/-- **C42.** the documented use: the arrays come from a mesh without duplicated element numbers,
element `e` owns positions `lo ≤ j < off` and the wanted node occurs once among them: then the
position returned is that one, inside the element. -/
theorem findOne_in_element (offset elemnumb nodenumb : List Int) (elno nodeno : Int) (e : Nat)
    (lo : Nat) (off : Int) (he : elemnumb[e]? = some elno)
    (hu : ∀ e', elemnumb[e']? = some elno → e' = e) (ho : offset[e]? = some off)
    (j : Nat) (hlo : lo ≤ j) (hj : (j : Int) < off) (hn : nodenumb[j]? = some nodeno)
    (honce : ∀ j' : Nat, lo ≤ j' → (j' : Int) < off → nodenumb[j']? = some nodeno → j' = j) :
    findOne offset elemnumb nodenumb elno nodeno = .ok j := by
  rw [(findOne_spec offset elemnumb nodenumb elno nodeno e off he hu ho).1]
  refine ⟨hn, hj, fun j' h1 h2 => ?_⟩
  by_cases h : lo ≤ j'
  · exact le_of_eq (honce j' h h2 h1)
  · omega

/-- **C39, C40, C42** array forms: all points, or all pairs, are handled one by one in order -/
theorem vonmises2d_pointwise (arr : List (List ℝ)) (out : List ℝ) :
    vonmises2d arr = .ok out ↔ List.Forall₂ (fun p v => vonmises2dPt p = .ok v) arr out :=
  mapM_ok_iff

theorem principalThick_pointwise (eig : Matrix (Fin 3) (Fin 3) ℝ → ℝ × ℝ × ℝ)
    (arr : List (List ℝ)) (out : List (ℝ × ℝ)) :
    principalThick eig arr = .ok out ↔
      List.Forall₂ (fun p v => principalThickPt eig p = .ok v) arr out :=
  mapM_ok_iff

theorem findElemresIndices_pairwise (pairs : List (Int × Int))
    (offset elemnumb nodenumb : List Int) (out : List Nat) :
    findElemresIndices pairs offset elemnumb nodenumb = .ok out ↔
      List.Forall₂ (fun p j => findOne offset elemnumb nodenumb p.1 p.2 = .ok j) pairs out :=
  mapM_ok_iff

/-- fewer than three (von Mises) or five (thick shell) components: IndexError -/
theorem vonmises2d_short (p : List ℝ) (h : p.length < 3) :
    vonmises2dPt p = .error .indexError := by
  match p, h with
  | [], _ => rfl
  | [_], _ => rfl
  | [_, _], _ => rfl

/-- **C39** the function for thick shells always raises -/
theorem thickshell_raises (arr : List (List ℝ)) : vonmisesThickshell arr = .error .notImplemented := rfl

theorem principalThick_short (eig : Matrix (Fin 3) (Fin 3) ℝ → ℝ × ℝ × ℝ) (p : List ℝ)
    (h : p.length < 5) : principalThickPt eig p = .error .indexError := by
  match p, h with
  | [], _ => rfl
  | [_], _ => rfl
  | [_, _], _ => rfl
  | [_, _, _], _ => rfl
  | [_, _, _, _], _ => rfl

/-- two triangles sharing an edge; node 2 of the second element is at position 3 -/
example : findElemresIndices [(10, 2), (11, 2), (11, 4)] [3, 6] [10, 11] [1, 2, 3, 2, 4, 3]
    = .ok [1, 3, 4] := by decide

/-- **C42** is false without the hypothesis that the node belongs to the element: a position of
an *earlier* element is returned silently. -/
theorem findOne_wrong_element :
    findOne [3, 6] [10, 11] [1, 2, 3, 2, 4, 3] 11 1 = .ok 0 := by decide

end Verif.Calc
