import Verif.Data.ElemSpec
import Mathlib.Tactic.Module
import Mathlib.Tactic.Abel
import Mathlib.Tactic.FieldSimp
import Mathlib.Tactic.LinearCombination
import Mathlib.Tactic.IntervalCases
/-!
# Extrapolation and decomposition (C43, C44)
-/

namespace Verif.Data
open Verif

variable {K V : Type} [Field K] [AddCommGroup V] [Module K V]

theorem sumTo_two (f : Nat → V) : sumTo 2 f = f 0 + f 1 := by
  simp [sumTo, List.range_succ]
theorem sumTo_three (f : Nat → V) : sumTo 3 f = f 0 + f 1 + f 2 := by
  simp [sumTo, List.range_succ, add_assoc]
theorem sumTo_four (f : Nat → V) : sumTo 4 f = f 0 + f 1 + f 2 + f 3 := by
  simp [sumTo, List.range_succ, add_assoc]
theorem sumTo_six (f : Nat → V) : sumTo 6 f = f 0 + f 1 + f 2 + f 3 + f 4 + f 5 := by
  simp [sumTo, List.range_succ, add_assoc]
theorem sumTo_ten (f : Nat → V) :
    sumTo 10 f = f 0 + f 1 + f 2 + f 3 + f 4 + f 5 + f 6 + f 7 + f 8 + f 9 := by
  simp [sumTo, List.range_succ, add_assoc]

/-! ## the weights -/

local macro "quadw" h:term : tactic => `(tactic|
  first
  | ring1
  | linear_combination ((1 : K) / 3) * $h
  | linear_combination (-(1 : K) / 3) * $h
  | linear_combination ((1 : K) / 12) * $h
  | linear_combination (-(1 : K) / 12) * $h)

variable [CharZero K]

/-- a row of the extrapolation for quadrilaterals -/
theorem quad_weights {s3 : K} (h : s3 * s3 = 3) {i : Nat} {q : K × K}
    (hq : (quadNodes (K := K))[i]? = some q) (c0 c1 c2 c3 : V) (w : Nat → V)
    (hw : ∀ p q', (quadPoints (s3 / 3))[p]? = some q' → w p = bilinear c0 c1 c2 c3 q') :
    (sumTo 4 fun p => at2 (xquad s3) i p • w p) = bilinear c0 c1 c2 c3 q := by
  rw [sumTo_four, hw 0 _ rfl, hw 1 _ rfl, hw 2 _ rfl, hw 3 _ rfl]
  have key : ∀ x0 x1 x2 x3 : K, x0 + x1 + x2 + x3 = 1 →
      (-x0 + x1 - x2 + x3) * (s3 / 3) = q.1 → (-x0 - x1 + x2 + x3) * (s3 / 3) = q.2 →
      (x0 - x1 - x2 + x3) * (1 / 3) = q.1 * q.2 →
      x0 • bilinear c0 c1 c2 c3 (-(s3 / 3), -(s3 / 3)) + x1 • bilinear c0 c1 c2 c3 (s3 / 3, -(s3 / 3))
        + x2 • bilinear c0 c1 c2 c3 (-(s3 / 3), s3 / 3) + x3 • bilinear c0 c1 c2 c3 (s3 / 3, s3 / 3)
        = bilinear c0 c1 c2 c3 q := by
    intro x0 x1 x2 x3 e0 e1 e2 e3
    have e3' : (x0 - x1 - x2 + x3) * (s3 / 3 * (s3 / 3)) = q.1 * q.2 := by
      rw [← e3]; linear_combination ((x0 - x1 - x2 + x3) / 9) * h
    have : bilinear c0 c1 c2 c3 q = (x0 + x1 + x2 + x3) • c0 +
        ((-x0 + x1 - x2 + x3) * (s3 / 3)) • c1 + ((-x0 - x1 + x2 + x3) * (s3 / 3)) • c2 +
        ((x0 - x1 - x2 + x3) * (s3 / 3 * (s3 / 3))) • c3 := by
      rw [e0, e1, e2, e3']; unfold bilinear; rw [one_smul]
    rw [this]
    unfold bilinear
    module
  match i, hq with
  | 0, hq => cases hq; apply key <;> simp only [at2, xquad, List.map_cons, List.map_nil, List.getD_cons_zero, List.getD_cons_succ] <;> quadw h
  | 1, hq => cases hq; apply key <;> simp only [at2, xquad, List.map_cons, List.map_nil, List.getD_cons_zero, List.getD_cons_succ] <;> quadw h
  | 2, hq => cases hq; apply key <;> simp only [at2, xquad, List.map_cons, List.map_nil, List.getD_cons_zero, List.getD_cons_succ] <;> quadw h
  | 3, hq => cases hq; apply key <;> simp only [at2, xquad, List.map_cons, List.map_nil, List.getD_cons_zero, List.getD_cons_succ] <;> quadw h
  | 4, hq => cases hq; apply key <;> simp only [at2, xquad, List.map_cons, List.map_nil, List.getD_cons_zero, List.getD_cons_succ] <;> quadw h
  | 5, hq => cases hq; apply key <;> simp only [at2, xquad, List.map_cons, List.map_nil, List.getD_cons_zero, List.getD_cons_succ] <;> quadw h
  | 6, hq => cases hq; apply key <;> simp only [at2, xquad, List.map_cons, List.map_nil, List.getD_cons_zero, List.getD_cons_succ] <;> quadw h
  | 7, hq => cases hq; apply key <;> simp only [at2, xquad, List.map_cons, List.map_nil, List.getD_cons_zero, List.getD_cons_succ] <;> quadw h
  | _ + 8, hq => simp [quadNodes] at hq

/-- a row of the extrapolation for triangles -/
theorem tri_weights {i : Nat} {q : K × K × K} (hq : (triNodes (K := K))[i]? = some q)
    (c0 c1 c2 : V) (w : Nat → V)
    (hw : ∀ p q', (triPoints (K := K))[p]? = some q' → w p = linear3 c0 c1 c2 q') :
    (sumTo 3 fun p => at2 (xtri (K := K)) i p • w p) = linear3 c0 c1 c2 q := by
  rw [sumTo_three, hw 0 _ rfl, hw 1 _ rfl, hw 2 _ rfl]
  match i, hq with
  | 0, hq => cases hq; simp only [at2, xtri, List.getD_cons_zero, List.getD_cons_succ, linear3]; module
  | 1, hq => cases hq; simp only [at2, xtri, List.getD_cons_zero, List.getD_cons_succ, linear3]; module
  | 2, hq => cases hq; simp only [at2, xtri, List.getD_cons_zero, List.getD_cons_succ, linear3]; module
  | 3, hq => cases hq; simp only [at2, xtri, List.getD_cons_zero, List.getD_cons_succ, linear3]; module
  | 4, hq => cases hq; simp only [at2, xtri, List.getD_cons_zero, List.getD_cons_succ, linear3]; module
  | 5, hq => cases hq; simp only [at2, xtri, List.getD_cons_zero, List.getD_cons_succ, linear3]; module
  | _ + 6, hq => simp [triNodes] at hq

/-- through the thickness -/
theorem toSurface_linear {s3 : K} (h : s3 * s3 = 3) {d : Nat → Nat → Nat → V} {p c : Nat} (hc : c < 3)
    {A B : V} (h0 : d 0 p c = A - (s3 / 3) • B) (h1 : d 1 p c = A + (s3 / 3) • B) :
    toSurface s3 d 0 p c = A - B ∧ toSurface s3 d 1 p c = A + B := by
  have hs : s3 ≠ 0 := by rintro rfl; simp at h
  unfold toSurface
  simp only [if_pos hc, h0, h1]
  have e : A + (s3 / 3) • B - (A - (s3 / 3) • B) = (2 * (s3 / 3)) • B := by module
  rw [if_true, if_neg (by decide), e, smul_smul, smul_smul]
  have e1 : (-1 + s3 / 3) / (2 * (s3 / 3)) * (2 * (s3 / 3)) = -1 + s3 / 3 := by field_simp
  have e2 : (1 + s3 / 3) / (2 * (s3 / 3)) * (2 * (s3 / 3)) = 1 + s3 / 3 := by field_simp
  rw [e1, e2]
  constructor <;> module

omit [CharZero K] in
theorem at1_of {d : List V} {j : Nat} {v : V} (h : d[j]? = some v) : at1 d j = v := by
  unfold at1
  rw [List.getD_eq_getElem?_getD, h]
  rfl

/-- the decomposition at a point -/
theorem decomposeThick_spec (e : Nat → Nat → Nat → V) (p : Nat) :
    (∀ c, c < 3 → decomposeThick K e p c = (1 / 2 : K) • (e 0 p c + e 1 p c) ∧
      decomposeThick K e p (3 + c) = (1 / 2 : K) • (e 1 p c - e 0 p c)) ∧
    (∀ j, j < 2 → decomposeThick K e p (6 + j) = (3 / 2 : K) • e 0 p (3 + j)) := by
  constructor
  · intro c hc
    unfold decomposeThick
    rw [sumTo_ten, sumTo_ten]
    interval_cases c <;> constructor <;>
      simp only [at2, xDecompThick, List.getD_cons_zero, List.getD_cons_succ, Nat.reduceAdd, Nat.reduceDiv,
        Nat.reduceMod] <;> module
  · intro j hj
    unfold decomposeThick
    rw [sumTo_ten]
    interval_cases j <;>
      simp only [at2, xDecompThick, List.getD_cons_zero, List.getD_cons_succ, Nat.reduceAdd, Nat.reduceDiv,
        Nat.reduceMod] <;> module

/-- the rows of one side after the other -/
theorem two_sides {α : Type} (m : Nat) (f : Nat → Nat → α) {c : Nat} (hc : c < m) :
    ((List.range 2).flatMap fun s => (List.range m).map fun c => f s c)[c]? = some (f 0 c) ∧
    ((List.range 2).flatMap fun s => (List.range m).map fun c => f s c)[m + c]? = some (f 1 c) := by
  have e : ((List.range 2).flatMap fun s => (List.range m).map fun c => f s c)
      = (List.range m).map (f 0) ++ (List.range m).map (f 1) := by
    simp [List.range_succ]
  rw [e]
  constructor
  · rw [List.getElem?_append_left (by simpa using hc)]
    simp [hc]
  · rw [List.getElem?_append_right (by simp)]
    simp [hc]

theorem two_sides_length {α : Type} (m : Nat) (f : Nat → Nat → α) :
    ((List.range 2).flatMap fun s => (List.range m).map fun c => f s c).length = 2 * m := by
  simp [List.range_succ]
  omega

/-- second order shells, general stresses -/
theorem thick_general {P : Type} {s3 : K} (h : s3 * s3 = 3) {n : Nat} {x : List (List K)}
    {pts nodes : List P} {Lin : (P → V) → Prop} (hn : pts.length = n) (hx : x.length = nodes.length)
    (hW : ∀ f, Lin f → ∀ i q, nodes[i]? = some q → ∀ w : Nat → V,
      (∀ p q', pts[p]? = some q' → w p = f q') → (sumTo n fun p => at2 x i p • w p) = f q)
    (hsum : ∀ i, (sumTo n fun p => at2 x i p • (0 : V)) = 0)
    (hadd : ∀ f g, Lin f → Lin g → Lin (fun q => f q - g q) ∧ Lin (fun q => f q + g q))
    {d : List V} (hd : d.length = 2 * n * 5) {A B : Nat → P → V}
    (hA : ∀ c, c < 3 → Lin (A c)) (hB : ∀ c, c < 3 → Lin (B c))
    (h0 : ∀ p q c, pts[p]? = some q → c < 3 → d[5 * p + c]? = some (A c q - (s3 / 3) • B c q))
    (h1 : ∀ p q c, pts[p]? = some q → c < 3 → d[5 * (n + p) + c]? = some (A c q + (s3 / 3) • B c q)) :
    ∃ rows, processThick s3 n x "generalstress" "nodes" d = .ok (some ⟨[2, 5], rows⟩) ∧
      List.Forall₂ (fun q r => r.length = 10 ∧
        (∀ c, c < 3 → r[c]? = some (A c q - B c q) ∧ r[5 + c]? = some (A c q + B c q)) ∧
        ∀ c, 3 ≤ c → c < 5 → r[c]? = some 0 ∧ r[5 + c]? = some 0) nodes rows := by
  unfold processThick
  rw [if_pos hd]
  dsimp only
  rw [if_neg (by decide), if_pos rfl, if_neg (by decide)]
  simp only [if_true]
  refine ⟨_, rfl, ?_⟩
  rw [hx]
  rw [List.forall₂_iff_get]
  refine ⟨by simp, fun i hi hi' => ?_⟩
  simp only [List.get_eq_getElem, List.getElem_map, List.getElem_range]
  have hq : nodes[i]? = some nodes[i] := List.getElem?_eq_getElem hi
  refine ⟨two_sides_length 5 _, fun c hc => ?_, fun c hc hc' => ?_⟩
  · have hp : ∀ p q, pts[p]? = some q → toSurface s3 (fun s p c => at1 d ((s * n + p) * 5 + c)) 0 p c
        = A c q - B c q ∧ toSurface s3 (fun s p c => at1 d ((s * n + p) * 5 + c)) 1 p c = A c q + B c q := by
      intro p q hpq
      apply toSurface_linear h hc
      · have := h0 p q c hpq hc
        exact at1_of (by rw [← this]; congr 1; omega)
      · have := h1 p q c hpq hc
        exact at1_of (by rw [← this]; congr 1; ring)
    obtain ⟨e1, e2⟩ := hadd _ _ (hA c hc) (hB c hc)
    constructor
    · rw [(two_sides 5 _ (by omega)).1]
      simp only [if_pos hc]
      rw [hW _ e1 i _ hq _ (fun p q hpq => (hp p q hpq).1)]
    · rw [(two_sides 5 _ (by omega)).2]
      simp only [if_pos hc]
      rw [hW _ e2 i _ hq _ (fun p q hpq => (hp p q hpq).2)]
  · rw [(two_sides 5 _ hc').1, (two_sides 5 _ hc').2]
    simp only [if_neg (Nat.not_lt.mpr hc)]
    rw [hsum]
    exact ⟨rfl, rfl⟩

/-- second order shells, membrane and bending stresses -/
theorem thick_decomposed {P : Type} {s3 : K} (h : s3 * s3 = 3) {n : Nat} {x : List (List K)}
    {pts nodes : List P} {Lin : (P → V) → Prop} (hn : pts.length = n) (hx : x.length = nodes.length)
    (hW : ∀ f, Lin f → ∀ i q, nodes[i]? = some q → ∀ w : Nat → V,
      (∀ p q', pts[p]? = some q' → w p = f q') → (sumTo n fun p => at2 x i p • w p) = f q)
    (hsmul : ∀ (k : K) f, Lin f → Lin (fun q => k • f q))
    {d : List V} (hd : d.length = 2 * n * 5) {A B T : Nat → P → V}
    (hA : ∀ c, c < 3 → Lin (A c)) (hB : ∀ c, c < 3 → Lin (B c)) (hT : ∀ j, j < 2 → Lin (T j))
    (h0 : ∀ p q c, pts[p]? = some q → c < 3 → d[5 * p + c]? = some (A c q - (s3 / 3) • B c q))
    (h1 : ∀ p q c, pts[p]? = some q → c < 3 → d[5 * (n + p) + c]? = some (A c q + (s3 / 3) • B c q))
    (h2 : ∀ p q j, pts[p]? = some q → j < 2 → d[5 * p + (3 + j)]? = some (T j q)) :
    ∃ rows, processThick s3 n x "decomposedstress" "nodes" d = .ok (some ⟨[8], rows⟩) ∧
      List.Forall₂ (fun q r => r.length = 8 ∧
        (∀ c, c < 3 → r[c]? = some (A c q) ∧ r[3 + c]? = some (B c q)) ∧
        ∀ j, j < 2 → r[6 + j]? = some ((3 / 2 : K) • T j q)) nodes rows := by
  unfold processThick
  rw [if_pos hd]
  dsimp only
  rw [if_neg (by decide), if_pos rfl, if_pos rfl]
  refine ⟨_, rfl, ?_⟩
  rw [hx]
  rw [List.forall₂_iff_get]
  refine ⟨by simp, fun i hi hi' => ?_⟩
  simp only [List.get_eq_getElem, List.getElem_map, List.getElem_range]
  have hq : nodes[i]? = some nodes[i] := List.getElem?_eq_getElem hi
  have hk : ∀ k, k < 8 → ∀ g : Nat → V, ((List.range 8).map g)[k]? = some (g k) := by
    intro k hk g
    simp [hk]
  refine ⟨by simp, fun c hc => ?_, fun j hj => ?_⟩
  · have hp : ∀ p q, pts[p]? = some q → toSurface s3 (fun s p c => at1 d ((s * n + p) * 5 + c)) 0 p c
        = A c q - B c q ∧ toSurface s3 (fun s p c => at1 d ((s * n + p) * 5 + c)) 1 p c = A c q + B c q := by
      intro p q hpq
      apply toSurface_linear h hc
      · have := h0 p q c hpq hc
        exact at1_of (by rw [← this]; congr 1; omega)
      · have := h1 p q c hpq hc
        exact at1_of (by rw [← this]; congr 1; ring)
    rw [hk _ (by omega), hk _ (by omega)]
    constructor
    · rw [hW _ (hA c hc) i _ hq]
      intro p q hpq
      rw [((decomposeThick_spec _ p).1 c hc).1, (hp p q hpq).1, (hp p q hpq).2]
      module
    · rw [hW _ (hB c hc) i _ hq]
      intro p q hpq
      rw [((decomposeThick_spec _ p).1 c hc).2, (hp p q hpq).1, (hp p q hpq).2]
      module
  · rw [hk _ (by omega), hW _ (hsmul (3 / 2) _ (hT j hj)) i _ hq]
    intro p q hpq
    rw [(decomposeThick_spec _ p).2 j hj]
    unfold toSurface
    rw [if_neg (by omega)]
    congr 1
    exact at1_of (by rw [← h2 p q j hpq hj]; congr 1; omega)

theorem quad_combine {f g : K × K → V} (hf : IsBilinear f) (hg : IsBilinear g) (k l : K) :
    IsBilinear fun q => k • f q + l • g q := by
  obtain ⟨a0, a1, a2, a3, ha⟩ := hf
  obtain ⟨b0, b1, b2, b3, hb⟩ := hg
  refine ⟨k • a0 + l • b0, k • a1 + l • b1, k • a2 + l • b2, k • a3 + l • b3, fun q => ?_⟩
  show k • f q + l • g q = _
  rw [ha, hb]
  unfold bilinear
  module

theorem tri_combine {f g : K × K × K → V} (hf : IsLinear3 f) (hg : IsLinear3 g) (k l : K) :
    IsLinear3 fun q => k • f q + l • g q := by
  obtain ⟨a0, a1, a2, ha⟩ := hf
  obtain ⟨b0, b1, b2, hb⟩ := hg
  refine ⟨k • a0 + l • b0, k • a1 + l • b1, k • a2 + l • b2, fun q => ?_⟩
  show k • f q + l • g q = _
  rw [ha, hb]
  unfold linear3
  module

omit [CharZero K] in
theorem combine_add_sub {P : Type} {Lin : (P → V) → Prop}
    (hc : ∀ f g, Lin f → Lin g → ∀ k l : K, Lin fun q => k • f q + l • g q) (f g : P → V)
    (hf : Lin f) (hg : Lin g) : Lin (fun q => f q - g q) ∧ Lin (fun q => f q + g q) := by
  have e1 := hc f g hf hg 1 (-1)
  have e2 := hc f g hf hg 1 1
  simp only [one_smul, neg_smul, ← sub_eq_add_neg] at e1 e2
  exact ⟨e1, e2⟩

omit [CharZero K] in
theorem combine_smul {P : Type} {Lin : (P → V) → Prop}
    (hc : ∀ f g, Lin f → Lin g → ∀ k l : K, Lin fun q => k • f q + l • g q) (k : K) (f : P → V)
    (hf : Lin f) : Lin (fun q => k • f q) := by
  have e1 := hc f f hf hf k 0
  simp only [zero_smul, add_zero] at e1
  exact e1

/-- **C43** (8-node quadrilaterals): general stresses that vary bilinearly over the element and
linearly through the thickness are exact at the nodes on both surfaces. -/
theorem quad_stress_exact {s3 : K} (h : s3 * s3 = 3) {d : List V} (hd : d.length = 40)
    {A B : Nat → K × K → V} (hA : ∀ c, c < 3 → IsBilinear (A c)) (hB : ∀ c, c < 3 → IsBilinear (B c))
    (h0 : ∀ p q c, (quadPoints (s3 / 3))[p]? = some q → c < 3 →
      d[5 * p + c]? = some (A c q - (s3 / 3) • B c q))
    (h1 : ∀ p q c, (quadPoints (s3 / 3))[p]? = some q → c < 3 →
      d[5 * (4 + p) + c]? = some (A c q + (s3 / 3) • B c q)) :
    ∃ rows, processElem s3 28 "generalstress" "nodes" d = .ok (some ⟨[2, 5], rows⟩) ∧
      List.Forall₂ (fun q r => r.length = 10 ∧
        (∀ c, c < 3 → r[c]? = some (A c q - B c q) ∧ r[5 + c]? = some (A c q + B c q)) ∧
        ∀ c, 3 ≤ c → c < 5 → r[c]? = some 0 ∧ r[5 + c]? = some 0) quadNodes rows := by
  refine thick_general (Lin := IsBilinear) h (pts := quadPoints (s3 / 3)) rfl rfl ?_ ?_
    (combine_add_sub fun f g hf hg k l => quad_combine hf hg k l) hd hA hB h0 h1
  · rintro f ⟨a0, a1, a2, a3, ha⟩ i q hq w hw
    rw [ha]
    exact quad_weights h hq a0 a1 a2 a3 w fun p q' hp => by rw [hw p q' hp, ha]
  · intro i
    simp [sumTo]

/-- **C43, C44** (8-node quadrilaterals): membrane and bending stresses of such fields, and one and a
half times the transverse shear stresses of the lower side. -/
theorem quad_decomposed_exact {s3 : K} (h : s3 * s3 = 3) {d : List V} (hd : d.length = 40)
    {A B T : Nat → K × K → V} (hA : ∀ c, c < 3 → IsBilinear (A c)) (hB : ∀ c, c < 3 → IsBilinear (B c))
    (hT : ∀ j, j < 2 → IsBilinear (T j))
    (h0 : ∀ p q c, (quadPoints (s3 / 3))[p]? = some q → c < 3 →
      d[5 * p + c]? = some (A c q - (s3 / 3) • B c q))
    (h1 : ∀ p q c, (quadPoints (s3 / 3))[p]? = some q → c < 3 →
      d[5 * (4 + p) + c]? = some (A c q + (s3 / 3) • B c q))
    (h2 : ∀ p q j, (quadPoints (s3 / 3))[p]? = some q → j < 2 → d[5 * p + (3 + j)]? = some (T j q)) :
    ∃ rows, processElem s3 28 "decomposedstress" "nodes" d = .ok (some ⟨[8], rows⟩) ∧
      List.Forall₂ (fun q r => r.length = 8 ∧
        (∀ c, c < 3 → r[c]? = some (A c q) ∧ r[3 + c]? = some (B c q)) ∧
        ∀ j, j < 2 → r[6 + j]? = some ((3 / 2 : K) • T j q)) quadNodes rows := by
  refine thick_decomposed (Lin := IsBilinear) h (pts := quadPoints (s3 / 3)) rfl rfl ?_
    (combine_smul fun f g hf hg k l => quad_combine hf hg k l) hd hA hB hT h0 h1 h2
  rintro f ⟨a0, a1, a2, a3, ha⟩ i q hq w hw
  rw [ha]
  exact quad_weights h hq a0 a1 a2 a3 w fun p q' hp => by rw [hw p q' hp, ha]

/-- **C43** (6-node triangles) -/
theorem tri_stress_exact {s3 : K} (h : s3 * s3 = 3) {d : List V} (hd : d.length = 30)
    {A B : Nat → K × K × K → V} (hA : ∀ c, c < 3 → IsLinear3 (A c)) (hB : ∀ c, c < 3 → IsLinear3 (B c))
    (h0 : ∀ p q c, triPoints[p]? = some q → c < 3 → d[5 * p + c]? = some (A c q - (s3 / 3) • B c q))
    (h1 : ∀ p q c, triPoints[p]? = some q → c < 3 →
      d[5 * (3 + p) + c]? = some (A c q + (s3 / 3) • B c q)) :
    ∃ rows, processElem s3 26 "generalstress" "nodes" d = .ok (some ⟨[2, 5], rows⟩) ∧
      List.Forall₂ (fun q r => r.length = 10 ∧
        (∀ c, c < 3 → r[c]? = some (A c q - B c q) ∧ r[5 + c]? = some (A c q + B c q)) ∧
        ∀ c, 3 ≤ c → c < 5 → r[c]? = some 0 ∧ r[5 + c]? = some 0) triNodes rows := by
  refine thick_general (Lin := IsLinear3) h (pts := triPoints) rfl rfl ?_ ?_
    (combine_add_sub fun f g hf hg k l => tri_combine hf hg k l) hd hA hB h0 h1
  · rintro f ⟨a0, a1, a2, ha⟩ i q hq w hw
    rw [ha]
    exact tri_weights hq a0 a1 a2 w fun p q' hp => by rw [hw p q' hp, ha]
  · intro i
    simp [sumTo]

/-- **C43, C44** (6-node triangles) -/
theorem tri_decomposed_exact {s3 : K} (h : s3 * s3 = 3) {d : List V} (hd : d.length = 30)
    {A B T : Nat → K × K × K → V} (hA : ∀ c, c < 3 → IsLinear3 (A c)) (hB : ∀ c, c < 3 → IsLinear3 (B c))
    (hT : ∀ j, j < 2 → IsLinear3 (T j))
    (h0 : ∀ p q c, triPoints[p]? = some q → c < 3 → d[5 * p + c]? = some (A c q - (s3 / 3) • B c q))
    (h1 : ∀ p q c, triPoints[p]? = some q → c < 3 →
      d[5 * (3 + p) + c]? = some (A c q + (s3 / 3) • B c q))
    (h2 : ∀ p q j, triPoints[p]? = some q → j < 2 → d[5 * p + (3 + j)]? = some (T j q)) :
    ∃ rows, processElem s3 26 "decomposedstress" "nodes" d = .ok (some ⟨[8], rows⟩) ∧
      List.Forall₂ (fun q r => r.length = 8 ∧
        (∀ c, c < 3 → r[c]? = some (A c q) ∧ r[3 + c]? = some (B c q)) ∧
        ∀ j, j < 2 → r[6 + j]? = some ((3 / 2 : K) • T j q)) triNodes rows := by
  refine thick_decomposed (Lin := IsLinear3) h (pts := triPoints) rfl rfl ?_
    (combine_smul fun f g hf hg k l => tri_combine hf hg k l) hd hA hB hT h0 h1 h2
  rintro f ⟨a0, a1, a2, ha⟩ i q hq w hw
  rw [ha]
  exact tri_weights hq a0 a1 a2 w fun p q' hp => by rw [hw p q' hp, ha]

/-- **C43** (3-node beams): forces that vary linearly along the beam are exact at the nodes. -/
theorem beam_force_exact {s3 : K} (h : s3 * s3 = 3) {restype : String} {d : List V} (hd : d.length = 12)
    {a b : Nat → V} (hf : ∀ p x k, (beamPoints (s3 / 3))[p]? = some x → k < 6 →
      d[6 * p + k]? = some (a k + x • b k)) :
    ∃ rows, processElem s3 23 restype "nodes" d = .ok (some ⟨[6], rows⟩) ∧
      List.Forall₂ (fun (x : K) r => r.length = 6 ∧ ∀ k, k < 6 → r[k]? = some (a k + x • b k))
        beamNodes rows := by
  unfold processElem process23
  rw [if_neg (by decide), if_pos rfl, if_pos hd, if_pos rfl]
  refine ⟨_, rfl, ?_⟩
  have key : ∀ (x : K) i, (beamNodes (K := K))[i]? = some x → ∀ k, k < 6 →
      (sumTo 2 fun p => at2 (xbm3 s3) i p • at1 d (6 * p + k)) = a k + x • b k := by
    intro x i hi k hk
    rw [sumTo_two, at1_of (hf 0 _ k rfl hk), at1_of (hf 1 _ k rfl hk)]
    have : ∀ x0 x1 : K, x0 + x1 = 1 → (x1 - x0) * (s3 / 3) = x →
        x0 • (a k + (-(s3 / 3)) • b k) + x1 • (a k + (s3 / 3) • b k) = a k + x • b k := by
      intro x0 x1 e0 e1
      have : a k + x • b k = (x0 + x1) • a k + ((x1 - x0) * (s3 / 3)) • b k := by
        rw [e0, e1, one_smul]
      rw [this]
      module
    apply this
    · match i, hi with
      | 0, hi => simp only [at2, xbm3, List.map_cons, List.map_nil, List.getD_cons_zero, List.getD_cons_succ]; ring1
      | 1, hi => simp only [at2, xbm3, List.map_cons, List.map_nil, List.getD_cons_zero, List.getD_cons_succ]; ring1
      | 2, hi => simp only [at2, xbm3, List.map_cons, List.map_nil, List.getD_cons_zero, List.getD_cons_succ]; ring1
      | _ + 3, hi => simp [beamNodes] at hi
    · match i, hi with
      | 0, hi =>
        cases hi
        simp only [at2, xbm3, List.map_cons, List.map_nil, List.getD_cons_zero, List.getD_cons_succ]
        quadw h
      | 1, hi =>
        cases hi
        simp only [at2, xbm3, List.map_cons, List.map_nil, List.getD_cons_zero, List.getD_cons_succ]
        quadw h
      | 2, hi =>
        cases hi
        simp only [at2, xbm3, List.map_cons, List.map_nil, List.getD_cons_zero, List.getD_cons_succ]
        quadw h
      | _ + 3, hi => simp [beamNodes] at hi
  rw [List.forall₂_iff_get]
  refine ⟨by simp [beamNodes], fun i hi hi' => ?_⟩
  simp only [List.get_eq_getElem, List.getElem_map, List.getElem_range]
  refine ⟨by simp, fun k hk => ?_⟩
  rw [← key _ i (List.getElem?_eq_getElem hi) k hk]
  simp [hk]

/-! ## membrane and bending (C44) -/

theorem decomposeThin_spec (r : List V) {c : Nat} (hc : c < 3) :
    (sumTo 6 fun q => at2 (xDecompThin (K := K)) c q • at1 r q) = (1 / 2 : K) • (at1 r c + at1 r (3 + c)) ∧
    (sumTo 6 fun q => at2 (xDecompThin (K := K)) (3 + c) q • at1 r q)
      = (1 / 2 : K) • (at1 r (3 + c) - at1 r c) := by
  rw [sumTo_six, sumTo_six]
  interval_cases c <;> constructor <;>
    simp only [at2, xDecompThin, List.getD_cons_zero, List.getD_cons_succ, Nat.reduceAdd] <;> module

theorem sumTo_add (n : Nat) (f g : Nat → V) : (sumTo n fun p => f p + g p) = sumTo n f + sumTo n g := by
  unfold sumTo
  induction n with
  | zero => simp
  | succ n ih =>
    rw [List.range_succ, List.map_append, List.map_append, List.map_append, List.sum_append, List.sum_append,
      List.sum_append, ih]
    simp only [List.map_cons, List.map_nil, List.sum_cons, List.sum_nil, add_zero]
    abel

theorem sumTo_sub (n : Nat) (f g : Nat → V) : (sumTo n fun p => f p - g p) = sumTo n f - sumTo n g := by
  unfold sumTo
  induction n with
  | zero => simp
  | succ n ih =>
    rw [List.range_succ, List.map_append, List.map_append, List.map_append, List.sum_append, List.sum_append,
      List.sum_append, ih]
    simp only [List.map_cons, List.map_nil, List.sum_cons, List.sum_nil, add_zero]
    abel

theorem thin_recombines {npts : Nat} {idx : List Nat} {d : List V} {b : Block V}
    (hb : processThin K npts idx "generalstress" d = .ok (some b)) :
    b.dims = [2, 3] ∧ ∃ rows, processThin K npts idx "decomposedstress" d = .ok (some ⟨[6], rows⟩) ∧
      List.Forall₂ (fun g r => Recombines 3 g r) b.rows rows := by
  unfold processThin at hb ⊢
  split at hb
  case isTrue hd =>
    rw [if_neg (by decide)] at hb
    cases hb
    rw [if_pos hd, if_pos rfl]
    refine ⟨rfl, _, rfl, ?_⟩
    rw [List.forall₂_iff_get]
    refine ⟨by simp [decomposeThin], fun i hi hi' => ?_⟩
    unfold decomposeThin
    simp only [List.get_eq_getElem, List.getElem_map, List.getElem_range]
    intro c hc
    generalize hg : (List.flatMap _ _ : List V) = g
    have h2 := two_sides 3 (fun s c => at1 d (3 * idx.getD (2 * i + s) 0 + c)) hc
    rw [hg] at h2
    obtain ⟨e1, e2⟩ := decomposeThin_spec (K := K) g hc
    refine ⟨_, _, by rw [List.getElem?_map, List.getElem?_range (by omega)]; rfl,
      by rw [List.getElem?_map, List.getElem?_range (by omega)]; rfl, ?_, ?_⟩
    · beta_reduce
      rw [e1, e2, at1_of h2.1, at1_of h2.2, h2.2]
      congr 1
      module
    · beta_reduce
      rw [e1, e2, at1_of h2.1, at1_of h2.2, h2.1]
      congr 1
      module
  case isFalse => cases hb

theorem thick_recombines {s3 : K} {n : Nat} {x : List (List K)} {d : List V} {b : Block V}
    (hb : processThick s3 n x "generalstress" "nodes" d = .ok (some b)) :
    b.dims = [2, 5] ∧ ∃ rows, processThick s3 n x "decomposedstress" "nodes" d = .ok (some ⟨[8], rows⟩) ∧
      List.Forall₂ (fun g r => Recombines 5 g r) b.rows rows := by
  unfold processThick at hb ⊢
  split at hb
  case isTrue hd =>
    dsimp only at hb
    rw [if_neg (by decide), if_pos rfl, if_neg (by decide)] at hb
    cases hb
    rw [if_pos hd]
    dsimp only
    rw [if_neg (by decide), if_pos rfl, if_pos rfl]
    refine ⟨rfl, _, rfl, ?_⟩
    rw [List.forall₂_iff_get]
    refine ⟨by simp, fun i hi hi' => ?_⟩
    simp only [List.get_eq_getElem, List.getElem_map, List.getElem_range, if_true]
    intro c hc
    refine ⟨_, _, by rw [List.getElem?_map, List.getElem?_range (by omega)]; rfl,
      by rw [List.getElem?_map, List.getElem?_range (by omega)]; rfl, ?_, ?_⟩
    · rw [(two_sides 5 _ (by omega)).2, ← sumTo_add]
      simp only [if_pos hc]
      congr 2
      funext p
      rw [((decomposeThick_spec _ p).1 c hc).1, ((decomposeThick_spec _ p).1 c hc).2]
      module
    · rw [(two_sides 5 _ (by omega)).1, ← sumTo_sub]
      simp only [if_pos hc]
      congr 2
      funext p
      rw [((decomposeThick_spec _ p).1 c hc).1, ((decomposeThick_spec _ p).1 c hc).2]
      module
  case isFalse => cases hb

/-- **C44**: for every shell element type and any stresses, at every node: membrane plus bending is
the general stress on the upper surface, membrane minus bending on the lower.  `m` is the number of
components on each surface: the upper surface begins at `m`. -/
theorem decomposition_recombines {s3 : K} {eltyp : Int} {m : Nat}
    (ht : (eltyp = 24 ∨ eltyp = 25) ∧ m = 3 ∨ (eltyp = 26 ∨ eltyp = 28) ∧ m = 5) {d : List V} {b : Block V}
    (hb : processElem s3 eltyp "generalstress" "nodes" d = .ok (some b)) :
    b.dims = [2, m] ∧ ∃ k rows, processElem s3 eltyp "decomposedstress" "nodes" d = .ok (some ⟨[k], rows⟩) ∧
      List.Forall₂ (fun g r => Recombines m g r) b.rows rows := by
  rcases ht with ⟨rfl | rfl, rfl⟩ | ⟨rfl | rfl, rfl⟩
  · obtain ⟨e, rows, h⟩ := thin_recombines (K := K) (npts := 10) hb
    exact ⟨e, _, rows, h⟩
  · obtain ⟨e, rows, h⟩ := thin_recombines (K := K) (npts := 8) hb
    exact ⟨e, _, rows, h⟩
  · obtain ⟨e, rows, h⟩ := thick_recombines hb
    exact ⟨e, _, rows, h⟩
  · obtain ⟨e, rows, h⟩ := thick_recombines hb
    exact ⟨e, _, rows, h⟩

end Verif.Data
