import Verif.Py
import Mathlib.Data.Rat.Floor
import Mathlib.Algebra.Order.Floor.Ring
import Mathlib.Algebra.Order.Field.Power
import Mathlib.Algebra.Order.Round
import Mathlib.Tactic.Linarith
import Mathlib.Tactic.Ring
import Mathlib.Tactic.Positivity
import Mathlib.Tactic.NormNum
/-!
# Rounding

numpy and HDF5 round a Python float to `float32` when it is stored in a `Float32` or
`Complex64` column: to the nearest number with a significand of 24 bits, halfway cases to the one
whose last bit is 0, numbers that are too large to infinity.  Python rounds a decimal numeral in the
same way to a double, with a significand of 53 bits.
-/

namespace Verif

/-! ### model -/

/-- nearest integer, halfway cases to the even one -/
def roundEven (a : Rat) : Int :=
  if 2 * (a - a.floor) < 1 then a.floor
  else if 1 < 2 * (a - a.floor) then a.floor + 1
  else if a.floor % 2 = 0 then a.floor else a.floor + 1

/-- the power of two in `a`: `2^e ≤ a < 2^(e+1)` -/
def binade (a : Rat) : Int :=
  let e : Int := (a.num.natAbs.log2 : Int) - (a.den.log2 : Int)
  if a < (2 : Rat) ^ e then e - 1 else e

/-- a format of binary numbers: bits of the significand, smallest exponent, largest exponent -/
structure Fmt where
  bits : Nat
  low : Int
  high : Nat
  some : 1 ≤ bits

/-- exponent of the last bit of the numbers around `a` -/
def lastBit (F : Fmt) (a : Rat) : Int := max (binade a - F.bits + 1) F.low

/-- rounding to a format (IEEE 754, to nearest, ties to even) -/
def PyF.round (F : Fmt) : PyF → PyF
  | .rat q =>
    let u : Rat := (2 : Rat) ^ lastBit F |q|
    let y : Rat := roundEven (q / u) * u
    if |y| < 2 ^ F.high then .rat y else .inf (decide (q < 0))
  | x => x

/-- `float32` -/
def binary32 : Fmt := ⟨24, -149, 128, by decide⟩

/-- double, the type of Python's floats -/
def binary64 : Fmt := ⟨53, -1074, 1024, by decide⟩

/-- `np.float32(x)` -/
def PyF.single (x : PyF) : PyF := x.round binary32

/-- the double nearest to an exact number -/
def PyF.double (x : PyF) : PyF := x.round binary64

/-! ### specification -/

/-- a number with a significand of `F.bits` bits and at least the smallest exponent -/
def Fmt.Has (F : Fmt) (y : Rat) : Prop :=
  ∃ (m e : Int), |m| < 2 ^ F.bits ∧ F.low ≤ e ∧ y = m * 2 ^ e

/-- `y` is the number nearest to `q`; of two, the one with last bit 0 -/
def Nearest (F : Fmt) (q y : Rat) : Prop :=
  F.Has y ∧ ∀ z, F.Has z → z ≠ y →
    |q - y| < |q - z| ∨ |q - y| = |q - z| ∧ ∃ k : Int, y = 2 * k * |z - y|

/-- rounding -/
inductive Rounds (F : Fmt) : PyF → PyF → Prop
  | nan : Rounds F .nan .nan
  | inf (b : Bool) : Rounds F (.inf b) (.inf b)
  | near {q y} : Nearest F q y → |y| < 2 ^ F.high → Rounds F (.rat q) (.rat y)
  | large {q y} : Nearest F q y → 2 ^ F.high ≤ |y| → Rounds F (.rat q) (.inf (decide (q < 0)))

example : PyF.single (.rat (1/2)) = .rat (1/2) := by decide +kernel
example : PyF.single (.rat (1/10)) = .rat (13421773 / 134217728) := by decide +kernel
example : PyF.single (.rat 16777217) = .rat 16777216 := by decide +kernel
example : PyF.single (.rat 16777219) = .rat 16777220 := by decide +kernel
example : PyF.single (.rat (-(10 ^ 39 : Rat))) = .inf true := by decide +kernel
example : PyF.single (.rat (1 / 10 ^ 50)) = .rat 0 := by decide +kernel

example : PyF.double (.rat (1/10)) = .rat (3602879701896397 / 36028797018963968) := by
  decide +kernel
example : PyF.double (.rat 16777217) = .rat 16777217 := by decide +kernel

/-! ### lemmas -/

theorem roundEven_spec (a : Rat) :
    |a - roundEven a| < 1 / 2 ∨ |a - roundEven a| = 1 / 2 ∧ ∃ k : Int, roundEven a = 2 * k := by
  have h1 : ((a.floor : Int) : Rat) ≤ a := Rat.floor_le a
  have h2 : a < ((a.floor : Int) : Rat) + 1 := by
    have := Rat.lt_floor_add_one a
    push_cast at this
    exact this
  unfold roundEven
  split_ifs with g1 g2 g3
  · left
    rw [abs_of_nonneg (by linarith)]
    linarith
  · left
    push_cast
    rw [abs_of_nonpos (by linarith)]
    linarith
  · right
    refine ⟨?_, a.floor / 2, by omega⟩
    rw [abs_of_nonneg (by linarith)]
    linarith
  · right
    refine ⟨?_, (a.floor + 1) / 2, by omega⟩
    push_cast
    rw [abs_of_nonpos (by linarith)]
    linarith

theorem binade_spec {a : Rat} (ha : 0 < a) : (2 : Rat) ^ binade a ≤ a ∧ a < 2 ^ (binade a + 1) := by
  have hn : a.num.natAbs ≠ 0 := by
    have := Rat.num_pos.mpr ha
    omega
  have hd : a.den ≠ 0 := a.den_nz
  have n1 := Nat.log2_self_le hn
  have n2 : a.num.natAbs < 2 ^ (a.num.natAbs.log2 + 1) := Nat.lt_log2_self
  have d1 := Nat.log2_self_le hd
  have d2 : a.den < 2 ^ (a.den.log2 + 1) := Nat.lt_log2_self
  set l := a.num.natAbs.log2 with hl
  set k := a.den.log2 with hk
  have ea : a * a.den = (a.num.natAbs : Rat) := by
    rw [Rat.mul_den_eq_num]
    have : (a.num.natAbs : Int) = a.num := Int.natAbs_of_nonneg (Rat.num_pos.mpr ha).le
    rw [← Int.cast_natCast, this]
  have n1' : (2 : Rat) ^ l ≤ a * a.den := by rw [ea]; exact_mod_cast n1
  have n2' : a * a.den < (2 : Rat) ^ (l + 1) := by rw [ea]; exact_mod_cast n2
  have d1' : (2 : Rat) ^ k ≤ a.den := by exact_mod_cast d1
  have d2' : (a.den : Rat) < (2 : Rat) ^ (k + 1) := by exact_mod_cast d2
  have two : (2 : Rat) ≠ 0 := by norm_num
  have pk : (0 : Rat) < 2 ^ k := by positivity
  have e1 : (2 : Rat) ^ ((l : Int) - k) = 2 ^ l / 2 ^ k := by
    rw [zpow_sub₀ two, zpow_natCast, zpow_natCast]
  have upper : a < (2 : Rat) ^ ((l : Int) - k + 1) := by
    rw [zpow_add_one₀ two, e1, div_mul_eq_mul_div, lt_div_iff₀ pk]
    calc a * 2 ^ k ≤ a * a.den := by gcongr
      _ < 2 ^ (l + 1) := n2'
      _ = 2 ^ l * 2 := by ring
  have lower : (2 : Rat) ^ ((l : Int) - k - 1) ≤ a := by
    rw [zpow_sub_one₀ two, e1, ← div_eq_mul_inv, div_div, div_le_iff₀ (by positivity)]
    calc (2 : Rat) ^ l ≤ a * a.den := n1'
      _ ≤ a * 2 ^ (k + 1) := by gcongr
      _ = a * (2 ^ k * 2) := by ring
  unfold binade
  simp only [← hl, ← hk]
  split
  · rename_i h
    refine ⟨lower, ?_⟩
    rw [sub_add_cancel]
    exact h
  · rename_i h
    exact ⟨not_lt.mp h, upper⟩

/-- the numbers around `q` -/
theorem nearest (F : Fmt) (q : Rat) :
    Nearest F q (roundEven (q / 2 ^ lastBit F |q|) * 2 ^ lastBit F |q|) := by
  have two : (2 : Rat) ≠ 0 := by norm_num
  set u : Rat := 2 ^ lastBit F |q| with hu
  have up : 0 < u := by rw [hu]; positivity
  have hbits : (2 : Int) ^ F.bits = 2 * 2 ^ (F.bits - 1) := by
    rw [← pow_succ', Nat.sub_add_cancel F.some]
  set r := roundEven (q / u) with hr
  have spec := roundEven_spec (q / u)
  rw [← hr] at spec
  have hdist : |q - r * u| = |q / u - r| * u := by
    rw [← abs_of_pos up, ← abs_mul, abs_of_pos up]
    congr 1
    field_simp
  have hhalf : |q / u - r| ≤ 1 / 2 := by
    rcases spec with h | h
    · exact h.le
    · exact h.1.le
  have hb : |q| < 2 ^ F.bits * u := by
    rcases eq_or_ne q 0 with rfl | hq
    · rw [abs_zero]; positivity
    · have h1 := (binade_spec (abs_pos.mpr hq)).2
      refine h1.trans_le ?_
      rw [hu]
      have : (2 : Rat) ^ F.bits * 2 ^ lastBit F |q| = 2 ^ (F.bits + lastBit F |q|) := by
        rw [zpow_add₀ two, zpow_natCast]
      rw [this]
      refine zpow_le_zpow_right₀ (by norm_num) ?_
      unfold lastBit
      have := le_max_left (binade |q| - F.bits + 1) F.low
      omega
  have half : ∀ j : Int, |q - r * u| ≤ |q - j * u| := by
    intro j
    rcases eq_or_ne j r with rfl | hj
    · exact le_rfl
    · have h1 : |q - j * u| = |q / u - j| * u := by
        rw [← abs_of_pos up, ← abs_mul, abs_of_pos up]
        congr 1
        field_simp
      rw [hdist, h1]
      have h2 : (1 : Rat) ≤ |(j : Rat) - r| := by
        have : (1 : Int) ≤ |j - r| := Int.one_le_abs (sub_ne_zero.mpr hj)
        exact_mod_cast this
      have h3 : |(j : Rat) - r| ≤ |q / u - r| + |q / u - j| := by
        have := abs_sub_le (j : Rat) (q / u) r
        rw [abs_sub_comm (j : Rat) (q / u)] at this
        linarith
      have : |q / u - r| ≤ |q / u - j| := by linarith
      gcongr
  constructor
  · have hr24 : |r| ≤ 2 ^ F.bits := by
      have h1 : |q / u| < 2 ^ F.bits := by
        rw [abs_div, abs_of_pos up, div_lt_iff₀ up]
        exact hb
      have h2 : |(r : Rat)| < 2 ^ F.bits + 1 := by
        have h3 : |(r : Rat)| ≤ |q / u| + |q / u - r| := by
          have := abs_sub_abs_le_abs_sub (r : Rat) (q / u)
          rw [abs_sub_comm (r : Rat)] at this
          linarith
        linarith
      have h3 : |r| < 2 ^ F.bits + 1 := by exact_mod_cast h2
      omega
    have hlast : F.low ≤ lastBit F |q| := le_max_right _ _
    rcases hr24.lt_or_eq with h | h
    · exact ⟨r, _, h, hlast, rfl⟩
    · obtain ⟨k, hk⟩ : ∃ k, r = 2 * k := by
        rcases abs_choice r with h' | h'
        · exact ⟨2 ^ (F.bits - 1), by omega⟩
        · exact ⟨-2 ^ (F.bits - 1), by omega⟩
      refine ⟨k, lastBit F |q| + 1, ?_, by omega, ?_⟩
      · have hp : (0 : Int) < 2 ^ (F.bits - 1) := by positivity
        rw [hk, abs_mul, abs_two] at h
        omega
      · rw [zpow_add_one₀ two, ← hu, hk]
        push_cast
        ring
  · rintro z ⟨m, e, hm, he, rfl⟩ hne
    by_cases hle : lastBit F |q| ≤ e
    · obtain ⟨i, hi⟩ := Int.le.dest hle
      have hz : (m : Rat) * 2 ^ e = ((m * 2 ^ i : Int) : Rat) * u := by
        rw [← hi, zpow_add₀ two, ← hu, zpow_natCast]
        push_cast
        ring
      rw [hz] at hne ⊢
      set j : Int := m * 2 ^ i
      have hjr : j ≠ r := fun h => hne (by rw [h])
      rcases (half j).lt_or_eq with h | h
      · exact .inl h
      · refine .inr ⟨h, ?_⟩
        have h1 : |q - j * u| = |q / u - j| * u := by
          rw [← abs_of_pos up, ← abs_mul, abs_of_pos up]
          congr 1
          field_simp
        have h2 : (1 : Rat) ≤ |(j : Rat) - r| := by
          have : (1 : Int) ≤ |j - r| := Int.one_le_abs (sub_ne_zero.mpr hjr)
          exact_mod_cast this
        have h3 : |(j : Rat) - r| ≤ |q / u - r| + |q / u - j| := by
          have := abs_sub_le (j : Rat) (q / u) r
          rw [abs_sub_comm (j : Rat) (q / u)] at this
          linarith
        have h4 : |q / u - r| = |q / u - j| := by
          rw [hdist, h1] at h
          exact mul_right_cancel₀ up.ne' h
        rcases spec with hs | ⟨hs, k, hk⟩
        · linarith
        · refine ⟨k, ?_⟩
          have h5 : |(j : Rat) - r| = 1 := by linarith
          have h6 : |(j : Rat) * u - r * u| = u := by
            rw [← sub_mul, abs_mul, h5, abs_of_pos up, one_mul]
          rw [h6, hk]
          push_cast
          ring
    · left
      rcases eq_or_ne q 0 with rfl | hq
      · have hr0 : r = 0 := by rw [hr]; rw [zero_div]; decide +kernel
        rw [hr0] at hne ⊢
        rw [Int.cast_zero, zero_mul] at hne ⊢
        rw [sub_zero, abs_zero, zero_sub, abs_neg]
        exact abs_pos.mpr hne
      · have hbin := (binade_spec (abs_pos.mpr hq)).1
        have hlb : lastBit F |q| = binade |q| - F.bits + 1 := by
          unfold lastBit at hle ⊢
          rcases le_total (binade |q| - F.bits + 1) F.low with h | h
          · rw [max_eq_right h] at hle
            omega
          · exact max_eq_left h
        have hP : (2 : Rat) ^ binade |q| = 2 ^ (F.bits - 1) * u := by
          have : binade |q| = (F.bits - 1 : Nat) + lastBit F |q| := by
            have := F.some
            omega
          rw [this, zpow_add₀ two, zpow_natCast, ← hu]
        have hz : |(m : Rat) * 2 ^ e| < 2 ^ binade |q| := by
          have hm' : |(m : Rat)| < 2 ^ F.bits := by exact_mod_cast hm
          have pe : (0 : Rat) < 2 ^ e := by positivity
          rw [abs_mul, abs_of_pos pe]
          calc |(m : Rat)| * 2 ^ e < 2 ^ F.bits * 2 ^ e := by gcongr
            _ = 2 ^ (F.bits + e) := by rw [zpow_add₀ two, zpow_natCast]
            _ ≤ 2 ^ binade |q| := zpow_le_zpow_right₀ (by norm_num) (by omega)
        have hsign : ∃ s : Int, (s = 2 ^ (F.bits - 1) ∨ s = -2 ^ (F.bits - 1)) ∧ |q - s * u| = |q| - 2 ^ binade |q| := by
          rcases le_total 0 q with h | h
          · refine ⟨2 ^ (F.bits - 1), .inl rfl, ?_⟩
            rw [hP]
            push_cast
            rw [abs_of_nonneg h] at hbin hP ⊢
            rw [abs_of_nonneg (by linarith)]
          · refine ⟨-2 ^ (F.bits - 1), .inr rfl, ?_⟩
            rw [hP]
            push_cast
            rw [abs_of_nonpos h] at hbin hP ⊢
            rw [abs_of_nonpos (by linarith)]
            ring
        obtain ⟨s, -, hs⟩ := hsign
        have h1 := half s
        have h2 := abs_sub_abs_le_abs_sub q ((m : Rat) * 2 ^ e)
        linarith

/-- `round` rounds. -/
theorem round_rounds (F : Fmt) (x : PyF) : Rounds F x (x.round F) := by
  cases x with
  | nan => exact .nan
  | inf b => exact .inf b
  | rat q =>
    unfold PyF.round
    dsimp only
    split
    · exact .near (nearest F q) ‹_›
    · exact .large (nearest F q) (not_lt.mp ‹_›)

theorem Nearest.unique {F : Fmt} {q y z : Rat} (hy : Nearest F q y) (hz : Nearest F q z) : y = z := by
  by_contra hne
  have d : 0 < |z - y| := abs_pos.mpr (sub_ne_zero.mpr (Ne.symm hne))
  rcases hy.2 z hz.1 (Ne.symm hne) with h1 | ⟨h1, k, hk⟩
  · rcases hz.2 y hy.1 hne with h2 | ⟨h2, -⟩
    · exact absurd (h1.trans h2) (lt_irrefl _)
    · rw [h2] at h1; exact absurd h1 (lt_irrefl _)
  · rcases hz.2 y hy.1 hne with h2 | ⟨h2, j, hj⟩
    · rw [h1] at h2; exact absurd h2 (lt_irrefl _)
    · rw [abs_sub_comm y z] at hj
      have e : z - y = 2 * ((j : Rat) - k) * |z - y| := by
        rw [mul_sub, sub_mul, ← hj, ← hk]
      have : |z - y| = |2 * ((j : Rat) - k)| * |z - y| := by
        conv_lhs => rw [e]
        rw [abs_mul, abs_abs]
      have h3 : |2 * ((j : Rat) - k)| = 1 := by
        have := mul_right_cancel₀ d.ne' ((one_mul _).trans this)
        exact this.symm
      have h4 : |2 * (j - k)| = 1 := by exact_mod_cast h3
      rcases abs_choice (2 * (j - k)) with h5 | h5 <;> omega

/-- rounding is a function -/
theorem Rounds.eq {F : Fmt} {x y : PyF} (h : Rounds F x y) : y = x.round F := by
  have h' := round_rounds F x
  cases h with
  | nan => rfl
  | inf => rfl
  | near h1 h2 =>
    generalize PyF.round F _ = z at h'
    cases h' with
    | near g1 _ => rw [h1.unique g1]
    | large g1 g2 => rw [← h1.unique g1] at g2; exact absurd g2 (not_le.mpr h2)
  | large h1 h2 =>
    generalize PyF.round F _ = z at h'
    cases h' with
    | near g1 g2 => rw [← h1.unique g1] at g2; exact absurd h2 (not_le.mpr g2)
    | large g1 _ => rfl

theorem rounds_of {F : Fmt} {x y : PyF} (h : x.round F = y) : Rounds F x y := h ▸ round_rounds F x

/-- numbers of the format are kept -/
theorem round_exact {F : Fmt} {q : Rat} (h : F.Has q) (hq : |q| < 2 ^ F.high) :
    PyF.round F (.rat q) = .rat q := by
  refine (Rounds.eq (.near ⟨h, fun z _ hne => .inl ?_⟩ hq)).symm
  rw [sub_self, abs_zero]
  exact abs_pos.mpr (sub_ne_zero.mpr (Ne.symm hne))

theorem rounds_has {F : Fmt} {x y : PyF} (h : Rounds F x y) :
    (∃ q, y = .rat q ∧ F.Has q ∧ |q| < 2 ^ F.high) ∨ y = .nan ∨ ∃ b, y = .inf b := by
  cases h with
  | nan => exact .inr (.inl rfl)
  | inf b => exact .inr (.inr ⟨b, rfl⟩)
  | near h1 h2 => exact .inl ⟨_, rfl, h1.1, h2⟩
  | large => exact .inr (.inr ⟨_, rfl⟩)

/-- rounding again changes nothing -/
theorem round_idem (F : Fmt) (x : PyF) : (x.round F).round F = x.round F := by
  rcases rounds_has (round_rounds F x) with ⟨q, e, h1, h2⟩ | e | ⟨b, e⟩
  · rw [e]; exact round_exact h1 h2
  · rw [e]; rfl
  · rw [e]; rfl

/-- whole numbers up to 2^24 are kept -/
theorem single_int {n : Int} (h : |n| ≤ 2 ^ 24) : PyF.single (.rat n) = .rat n := by
  have hq : |((n : Int) : Rat)| < 2 ^ 128 := by
    have : |((n : Int) : Rat)| ≤ 2 ^ 24 := by exact_mod_cast h
    refine this.trans_lt ?_
    norm_num
  refine round_exact (F := binary32) ?_ hq
  rcases h.lt_or_eq with h | h
  · exact ⟨n, 0, h, by decide, by simp⟩
  · obtain ⟨k, hk⟩ : ∃ k, n = 2 * k := by
      rcases abs_choice n with h' | h'
      · exact ⟨2 ^ 23, by omega⟩
      · exact ⟨-2 ^ 23, by omega⟩
    refine ⟨k, 1, ?_, by decide, ?_⟩
    · rw [hk, abs_mul, abs_two] at h
      show |k| < 2 ^ 24
      omega
    · rw [hk]
      push_cast
      ring

end Verif
