import Verif.Seq.StreamLemmas
import Mathlib.Tactic.FieldSimp
import Mathlib.Tactic.IntervalCases
/-!
# Numbers of SESAM files: bit patterns and numerals

What four bytes of an unformatted file and a field of a formatted file mean, and that the numbers
of an unformatted file are kept when they are stored.
-/

namespace Verif.Seq
open Verif

/-! ### specification -/

/-- number of the bytes, the first is the least significant -/
def bytesLE (b0 b1 b2 b3 : UInt8) : Nat :=
  b0.toNat + 2 ^ 8 * b1.toNat + 2 ^ 16 * b2.toNat + 2 ^ 24 * b3.toNat

/-- meaning of a bit pattern of IEEE 754 binary32: sign, 8 bits of exponent, 23 bits of fraction -/
inductive Bits32 : Bool → Nat → Nat → PyF → Prop
  | nan {neg m} : m ≠ 0 → Bits32 neg 255 m .nan
  | inf {neg} : Bits32 neg 255 0 (.inf neg)
  | normal {neg e m} : 0 < e → e < 255 →
      Bits32 neg e m (.rat ((if neg then -1 else 1) * (1 + m / 2 ^ 23) * (2 : Rat) ^ ((e : Int) - 127)))
  | subnormal {neg m} :
      Bits32 neg 0 m (.rat ((if neg then -1 else 1) * (m / 2 ^ 23) * (2 : Rat) ^ (-126 : Int)))

/-- the decimal number of a sequence of digits -/
inductive Digits : Str → Nat → Prop
  | nil : Digits [] 0
  | snoc {t n c} (d : Nat) : Digits t n → d < 10 → c = Char.ofNat (48 + d) →
      Digits (t ++ [c]) (10 * n + d)

/-- an optional sign -/
inductive Sign : Str → Bool → Prop
  | none : Sign [] false
  | plus : Sign ['+'] false
  | minus : Sign ['-'] true

/-- an exponent -/
inductive Expo : Str → Int → Prop
  | none : Expo [] 0
  | some {c s t neg n} : c = 'e' ∨ c = 'E' → Sign s neg → Digits t n → t ≠ [] →
      Expo (c :: (s ++ t)) (if neg then -n else n)

/-- digits with an optional decimal point, at least one digit -/
inductive Mantissa : Str → Rat → Prop
  | whole {t n} : Digits t n → t ≠ [] → Mantissa t n
  | point {t n u m} : Digits t n → Digits u m → t ++ u ≠ [] →
      Mantissa (t ++ '.' :: u) (n + m / 10 ^ u.length)

/-- a numeral and its exact value -/
inductive Numeral : Str → Rat → Prop
  | mk {s neg t q u e} : Sign s neg → Mantissa t q → Expo u e →
      Numeral (s ++ t ++ u) ((if neg then -1 else 1) * q * (10 : Rat) ^ e)

/-! ### bit patterns -/

theorem f32le_bits (b0 b1 b2 b3 : UInt8) (neg : Bool) (e m : Nat) (he : e < 2 ^ 8) (hm : m < 2 ^ 23)
    (h : bytesLE b0 b1 b2 b3 = (if neg then 2 ^ 31 else 0) + 2 ^ 23 * e + m) :
    Bits32 neg e m (f32le b0 b1 b2 b3) := by
  unfold bytesLE at h
  have hn : b0.toNat + 256 * b1.toNat + 65536 * b2.toNat + 16777216 * b3.toNat =
      (if neg then 2147483648 else 0) + 8388608 * e + m := by
    rw [show (if neg then 2147483648 else 0 : Nat) = if neg then 2 ^ 31 else 0 by cases neg <;> rfl]
    omega
  unfold f32le
  simp only
  rw [hn]
  have h1 : decide (2147483648 ≤ (if neg = true then 2147483648 else 0) + 8388608 * e + m) = neg := by
    cases neg <;> simp <;> omega
  have h2 : ((if neg = true then 2147483648 else 0) + 8388608 * e + m) / 8388608 % 256 = e := by
    cases neg <;> simp <;> omega
  have h3 : ((if neg = true then 2147483648 else 0) + 8388608 * e + m) % 8388608 = m := by
    cases neg <;> simp <;> omega
  rw [h1, h2, h3]
  by_cases e255 : e = 255
  · subst e255
    by_cases m0 : m = 0
    · subst m0; simpa using Bits32.inf
    · simpa [m0] using Bits32.nan m0
  · rw [if_neg e255]
    by_cases e0 : e = 0
    · subst e0
      have := Bits32.subnormal (neg := neg) (m := m)
      convert this using 2
      cases neg
      · simp only [Bool.false_eq_true, if_false, if_true]
        norm_num
        ring
      · simp only [if_true]
        norm_num
        ring
    · have := Bits32.normal (neg := neg) (m := m) (e := e) (by omega) (by omega)
      convert this using 2
      have key : (if 150 ≤ e then ((8388608 + m : Nat) : Rat) * (2 ^ (e - 150) : Nat)
          else ((8388608 + m : Nat) : Rat) / (2 ^ (150 - e) : Nat)) =
          (1 + m / 2 ^ 23) * (2 : Rat) ^ ((e : Int) - 127) := by
        have two : (2 : Rat) ≠ 0 := by norm_num
        have e1 : (2 : Rat) ^ ((e : Int) - 127) = 2 ^ 23 * (2 : Rat) ^ ((e : Int) - 150) := by
          rw [show ((2 : Rat) ^ 23) = (2 : Rat) ^ (23 : Int) by norm_num, ← zpow_add₀ two]
          congr 1; ring
        rw [e1]
        split_ifs with h
        · rw [show ((e : Int) - 150) = ((e - 150 : Nat) : Int) by omega, zpow_natCast]
          push_cast
          ring
        · rw [show ((e : Int) - 150) = -((150 - e : Nat) : Int) by omega, zpow_neg, zpow_natCast]
          push_cast
          rw [div_eq_mul_inv]
          ring
      rw [if_neg e0, key]
      cases neg <;> simp
      ring

theorem bits_has {neg : Bool} {e m : Nat} {x : PyF} (hm : m < 2 ^ 23) (h : Bits32 neg e m x) :
    x.single = x := by
  have two : (2 : Rat) ≠ 0 := by norm_num
  cases h with
  | nan => rfl
  | inf => rfl
  | normal h0 h1 =>
    refine round_exact (F := binary32) ⟨(if neg then -1 else 1) * (8388608 + m), (e : Int) - 150, ?_, ?_, ?_⟩ ?_
    · show |_| < 2 ^ 24
      rw [abs_lt]
      cases neg <;> simp <;> omega
    · show (-149 : Int) ≤ _
      omega
    · have e1 : (2 : Rat) ^ ((e : Int) - 127) = 2 ^ 23 * (2 : Rat) ^ ((e : Int) - 150) := by
        rw [show ((2 : Rat) ^ 23) = (2 : Rat) ^ (23 : Int) by norm_num, ← zpow_add₀ two]
        congr 1; ring
      rw [e1]
      cases neg <;> push_cast <;> simp <;> ring
    · have hb : (2 : Rat) ^ ((e : Int) - 127) ≤ 2 ^ (127 : Int) :=
        zpow_le_zpow_right₀ (by norm_num) (by omega)
      have hpos : (0 : Rat) < 2 ^ ((e : Int) - 127) := by positivity
      have hm' : (m : Rat) < 2 ^ 23 := by exact_mod_cast hm
      have hm0 : (0 : Rat) ≤ m := by positivity
      have hf : (1 + (m : Rat) / 2 ^ 23) < 2 := by
        have : (m : Rat) / 2 ^ 23 < 1 := by rw [div_lt_one (by norm_num)]; exact hm'
        linarith
      have habs : |(if neg = true then -1 else 1 : Rat)| = 1 := by cases neg <;> simp
      rw [abs_mul, abs_mul, habs, one_mul, abs_of_pos hpos, abs_of_nonneg (by positivity)]
      calc (1 + (m : Rat) / 2 ^ 23) * 2 ^ ((e : Int) - 127)
          < 2 * 2 ^ ((e : Int) - 127) := mul_lt_mul_of_pos_right hf hpos
        _ ≤ 2 * 2 ^ (127 : Int) := by linarith
        _ = 2 ^ binary32.high := by
          show _ = (2 : Rat) ^ 128
          norm_num
  | subnormal =>
    refine round_exact (F := binary32) ⟨(if neg then -1 else 1) * m, -149, ?_, ?_, ?_⟩ ?_
    · show |_| < 2 ^ 24
      rw [abs_lt]
      cases neg <;> simp <;> omega
    · exact le_refl (-149 : Int)
    · have e1 : (2 : Rat) ^ (-126 : Int) = 2 ^ 23 * (2 : Rat) ^ (-149 : Int) := by norm_num
      rw [e1]
      cases neg <;> push_cast <;> simp <;> ring
    · have hm' : (m : Rat) < 2 ^ 23 := by exact_mod_cast hm
      have hm0 : (0 : Rat) ≤ m := by positivity
      have habs : |(if neg = true then -1 else 1 : Rat)| = 1 := by cases neg <;> simp
      rw [abs_mul, abs_mul, habs, one_mul, abs_of_nonneg (by positivity), abs_of_nonneg (by positivity)]
      have : (m : Rat) / 2 ^ 23 < 1 := by rw [div_lt_one (by norm_num)]; exact hm'
      calc (m : Rat) / 2 ^ 23 * 2 ^ (-126 : Int) ≤ 1 * 1 := by
            refine mul_le_mul this.le ?_ (by positivity) (by norm_num)
            norm_num
        _ < 2 ^ binary32.high := by
          show _ < (2 : Rat) ^ 128
          norm_num

/-- every group of four bytes has a bit pattern -/
theorem bytes_pattern (b0 b1 b2 b3 : UInt8) : ∃ (neg : Bool) (e m : Nat), e < 2 ^ 8 ∧ m < 2 ^ 23 ∧
    bytesLE b0 b1 b2 b3 = (if neg then 2 ^ 31 else 0) + 2 ^ 23 * e + m := by
  have h0 := b0.toNat_lt
  have h1 := b1.toNat_lt
  have h2 := b2.toNat_lt
  have h3 := b3.toNat_lt
  have hlt : bytesLE b0 b1 b2 b3 < 2 ^ 32 := by unfold bytesLE; omega
  generalize bytesLE b0 b1 b2 b3 = n at hlt
  refine ⟨decide (2 ^ 31 ≤ n), n / 2 ^ 23 % 2 ^ 8, n % 2 ^ 23, by omega, by omega, ?_⟩
  by_cases h : 2 ^ 31 ≤ n
  · simp only [h, decide_true, if_true]; omega
  · simp only [h, decide_false]; simp; omega

/-- the numbers of an unformatted file are kept when they are stored -/
theorem single_f32le (b0 b1 b2 b3 : UInt8) : (f32le b0 b1 b2 b3).single = f32le b0 b1 b2 b3 := by
  obtain ⟨neg, e, m, he, hm, h⟩ := bytes_pattern b0 b1 b2 b3
  exact bits_has hm (f32le_bits b0 b1 b2 b3 neg e m he hm h)

/-- four bytes for every bit pattern -/
theorem pattern_bytes {neg : Bool} {e m : Nat} (he : e < 2 ^ 8) (hm : m < 2 ^ 23) :
    ∃ b0 b1 b2 b3, bytesLE b0 b1 b2 b3 = (if neg then 2 ^ 31 else 0) + 2 ^ 23 * e + m := by
  have hlt : (if neg then 2 ^ 31 else 0) + 2 ^ 23 * e + m < 2 ^ 32 := by
    cases neg <;> simp <;> omega
  generalize (if neg then 2 ^ 31 else 0) + 2 ^ 23 * e + m = n at hlt
  refine ⟨UInt8.ofNat (n % 256), UInt8.ofNat (n / 256 % 256), UInt8.ofNat (n / 65536 % 256),
    UInt8.ofNat (n / 16777216 % 256), ?_⟩
  unfold bytesLE
  simp only [UInt8.toNat_ofNat']
  omega

/-- every number of single precision has a bit pattern -/
theorem has_bits {q : Rat} (h : binary32.Has q) (hq : |q| < 2 ^ 128) :
    ∃ (neg : Bool) (e m : Nat), e < 2 ^ 8 ∧ m < 2 ^ 23 ∧ Bits32 neg e m (.rat q) := by
  have two : (2 : Rat) ≠ 0 := by norm_num
  obtain ⟨k, e, hk, he, rfl⟩ := h
  replace hk : |k| < 2 ^ 24 := hk
  replace he : -149 ≤ e := he
  have hsgn : ∀ a : Rat, a = |(k : Rat) * 2 ^ e| →
      (k : Rat) * 2 ^ e = (if decide (k < 0) then -1 else 1) * a := by
    rintro _ rfl
    have h2 : (0 : Rat) < 2 ^ e := by positivity
    rw [abs_mul, abs_of_pos h2]
    by_cases hneg : k < 0
    · rw [abs_of_neg (by exact_mod_cast hneg)]; simp [hneg]
    · rw [abs_of_nonneg (by exact_mod_cast not_lt.mp hneg)]; simp [hneg]
  have habs : |(k : Rat) * 2 ^ e| = (k.natAbs : Rat) * 2 ^ e := by
    rw [abs_mul, abs_of_pos (show (0 : Rat) < 2 ^ e by positivity), Nat.cast_natAbs, Int.cast_abs]
  rw [habs] at hq hsgn
  have hn : k.natAbs < 2 ^ 24 := by
    rw [Int.abs_eq_natAbs] at hk
    exact_mod_cast hk
  generalize k.natAbs = n at *
  -- a multiple of a smaller power of two
  have hmul : ∀ f : Int, f ≤ e → (n : Rat) * 2 ^ e = ((n * 2 ^ (e - f).toNat : Nat) : Rat) * 2 ^ f := by
    intro f hf
    obtain ⟨j, hj⟩ := Int.eq_ofNat_of_zero_le (show 0 ≤ e - f by omega)
    rw [hj]
    simp only [Int.toNat_natCast]
    push_cast
    rw [mul_assoc, ← zpow_natCast, ← zpow_add₀ two]
    congr 2
    omega
  by_cases hsmall : (n : Rat) * 2 ^ e < 2 ^ (-126 : Int)
  · refine ⟨decide (k < 0), 0, n * 2 ^ (e - (-149)).toNat, by norm_num, ?_, ?_⟩
    · have h1 := hmul (-149) he
      rw [h1] at hsmall
      have h2 : (2 : Rat) ^ (-126 : Int) = ((2 ^ 23 : Nat) : Rat) * 2 ^ (-149 : Int) := by norm_num
      rw [h2] at hsmall
      have := lt_of_mul_lt_mul_right hsmall (by positivity)
      exact_mod_cast this
    · rw [hsgn _ rfl, hmul (-149) he]
      have := Bits32.subnormal (neg := decide (k < 0)) (m := n * 2 ^ (e - (-149)).toNat)
      convert this using 2
      rw [show (2 : Rat) ^ (-126 : Int) = 2 ^ 23 * (2 : Rat) ^ (-149 : Int) by norm_num]
      field_simp
  · have hpos : 0 < (n : Rat) * 2 ^ e := lt_of_lt_of_le (by positivity) (not_lt.mp hsmall)
    obtain ⟨b1, b2⟩ := binade_spec hpos
    generalize binade ((n : Rat) * 2 ^ e) = b at b1 b2
    have hb1 : -126 ≤ b := by
      by_contra hb
      have : (2 : Rat) ^ (b + 1) ≤ 2 ^ (-126 : Int) := zpow_le_zpow_right₀ (by norm_num) (by omega)
      exact hsmall (lt_of_lt_of_le b2 this)
    have hb2 : b ≤ 127 := by
      by_contra hb
      have : (2 : Rat) ^ (128 : Int) ≤ 2 ^ b := zpow_le_zpow_right₀ (by norm_num) (by omega)
      have h128 : (2 : Rat) ^ (128 : Int) = 2 ^ 128 := by norm_num
      rw [h128] at this
      exact absurd hq (not_lt.mpr (this.trans b1))
    have hbe : b - 23 ≤ e := by
      by_contra hb
      have h1 : (n : Rat) * 2 ^ e < 2 ^ 24 * 2 ^ e :=
        mul_lt_mul_of_pos_right (by exact_mod_cast hn) (by positivity)
      have h2 : (2 : Rat) ^ 24 * 2 ^ e = 2 ^ (24 + e) := by
        rw [zpow_add₀ two]; norm_num
      have h3 : (2 : Rat) ^ (24 + e) ≤ 2 ^ b := zpow_le_zpow_right₀ (by norm_num) (by omega)
      rw [h2] at h1
      exact absurd b1 (not_le.mpr (lt_of_lt_of_le h1 h3))
    have h1 := hmul (b - 23) hbe
    generalize n * 2 ^ (e - (b - 23)).toNat = N at h1
    have hP : (0 : Rat) < 2 ^ (b - 23) := by positivity
    have hN1 : 2 ^ 23 ≤ N := by
      rw [h1, show (2 : Rat) ^ b = ((2 ^ 23 : Nat) : Rat) * 2 ^ (b - 23) by
        rw [show b = 23 + (b - 23) by omega, zpow_add₀ two]; norm_num] at b1
      exact_mod_cast le_of_mul_le_mul_right b1 hP
    have hN2 : N < 2 ^ 24 := by
      rw [h1, show (2 : Rat) ^ (b + 1) = ((2 ^ 24 : Nat) : Rat) * 2 ^ (b - 23) by
        rw [show b + 1 = 24 + (b - 23) by omega, zpow_add₀ two]; norm_num] at b2
      exact_mod_cast lt_of_mul_lt_mul_right b2 hP.le
    refine ⟨decide (k < 0), (b + 127).toNat, N - 2 ^ 23, by omega, by omega, ?_⟩
    have := Bits32.normal (neg := decide (k < 0)) (e := (b + 127).toNat) (m := N - 2 ^ 23)
      (by omega) (by omega)
    rw [hsgn _ rfl, h1]
    convert this using 2
    rw [show (((b + 127).toNat : Nat) : Int) - 127 = 23 + (b - 23) by omega, zpow_add₀ two,
      Nat.cast_sub hN1]
    push_cast
    norm_num
    field_simp
    split_ifs <;> ring

/-- single precision: rounding gives a number that four bytes stand for -/
theorem single_bytes (x : PyF) : ∃ b0 b1 b2 b3, f32le b0 b1 b2 b3 = x.single := by
  have key : ∃ neg e m, e < 2 ^ 8 ∧ m < 2 ^ 23 ∧ Bits32 neg e m x.single := by
    rcases rounds_has (round_rounds binary32 x) with ⟨q, e, h1, h2⟩ | e | ⟨b, e⟩
    · unfold PyF.single
      rw [e]
      exact has_bits h1 h2
    · unfold PyF.single
      rw [e]
      exact ⟨false, 255, 1, by norm_num, by norm_num, .nan (by decide)⟩
    · unfold PyF.single
      rw [e]
      exact ⟨b, 255, 0, by norm_num, by norm_num, .inf⟩
  obtain ⟨neg, e, m, he, hm, hx⟩ := key
  obtain ⟨b0, b1, b2, b3, hb⟩ := pattern_bytes (neg := neg) he hm
  refine ⟨b0, b1, b2, b3, ?_⟩
  have h' := f32le_bits b0 b1 b2 b3 neg e m he hm hb
  generalize x.single = y at hx
  generalize f32le b0 b1 b2 b3 = z at h'
  cases hx <;> cases h' <;> first | rfl | omega

/-! ### numerals -/

theorem isDigit_iff {c : Char} : c.isDigit = true ↔ ∃ d < 10, c = Char.ofNat (48 + d) := by
  constructor
  · intro h
    have h' : 48 ≤ c.toNat ∧ c.toNat ≤ 57 := by
      unfold Char.isDigit at h
      simp only [Bool.and_eq_true, decide_eq_true_eq] at h
      exact ⟨by simpa using UInt32.le_iff_toNat_le.mp h.1, by simpa using UInt32.le_iff_toNat_le.mp h.2⟩
    refine ⟨c.toNat - 48, by omega, ?_⟩
    rw [show 48 + (c.toNat - 48) = c.toNat by omega, Char.ofNat_toNat]
  · rintro ⟨d, hd, rfl⟩
    interval_cases d <;> rfl

theorem digit_val {d : Nat} (hd : d < 10) : (Char.ofNat (48 + d)).toNat - 48 = d := by
  interval_cases d <;> rfl

theorem digits_snoc (l : Str) (c : Char) : digits? (l ++ [c]) = (digits? l).bind fun n =>
    if c.isDigit then some (10 * n + (c.toNat - 48)) else none := by
  unfold digits?
  rw [List.foldl_append]
  rfl

theorem digits_iff {l : Str} {n : Nat} : digits? l = some n ↔ Digits l n := by
  constructor
  · intro h
    induction l using List.reverseRecOn generalizing n with
    | nil => cases h; exact .nil
    | append_singleton l c ih =>
      rw [digits_snoc] at h
      cases hl : digits? l with
      | none => rw [hl] at h; cases h
      | some k =>
        rw [hl, Option.bind_some] at h
        split at h
        · rename_i hc
          obtain ⟨d, hd, rfl⟩ := isDigit_iff.mp hc
          rw [digit_val hd] at h
          cases h
          exact .snoc d (ih hl) hd rfl
        · cases h
  · intro h
    induction h with
    | nil => rfl
    | snoc d _ hd hc ih =>
      rw [digits_snoc, ih, Option.bind_some, hc, if_pos (isDigit_iff.mpr ⟨d, hd, rfl⟩), digit_val hd]

theorem Digits.all {l : Str} {n : Nat} (h : Digits l n) : ∀ c ∈ l, ∃ d < 10, c = Char.ofNat (48 + d) := by
  induction h with
  | nil => simp
  | snoc d _ hd hc ih =>
    intro c hc'
    rcases List.mem_append.mp hc' with h | h
    · exact ih c h
    · rw [List.mem_singleton] at h
      exact ⟨d, hd, h ▸ hc⟩

theorem sign_split (l : Str) : ∃ s, l = s ++ (sign l).2 ∧ Sign s (sign l).1 := by
  unfold sign
  split
  · exact ⟨['-'], rfl, .minus⟩
  · exact ⟨['+'], rfl, .plus⟩
  · exact ⟨[], rfl, .none⟩

theorem sign_append {s r : Str} {neg : Bool} (h : Sign s neg) (hr : ∀ c ∈ r.head?, c ≠ '-' ∧ c ≠ '+') :
    sign (s ++ r) = (neg, r) := by
  cases h with
  | none =>
    cases r with
    | nil => rfl
    | cons c r =>
      obtain ⟨h1, h2⟩ := hr c rfl
      show sign (c :: r) = _
      unfold sign
      split
      · rename_i h; cases h; exact absurd rfl h1
      · rename_i h; cases h; exact absurd rfl h2
      · rfl
  | plus => rfl
  | minus => rfl

theorem digit_ne {d : Nat} (hd : d < 10) {c : Char} (hc : c.isDigit = false) :
    Char.ofNat (48 + d) ≠ c := by
  rintro rfl
  rw [isDigit_iff.mpr ⟨d, hd, rfl⟩] at hc
  cases hc

theorem Digits.ne {l : Str} {n : Nat} (h : Digits l n) {a c : Char} (ha : a ∈ l)
    (hc : c.isDigit = false) : a ≠ c := by
  obtain ⟨d, hd, rfl⟩ := h.all a ha
  exact digit_ne hd hc

theorem exponent_iff {l : Str} {e : Int} {c : Char} (hc : c = 'e' ∨ c = 'E') :
    exponent? l = some e ↔ Expo (c :: l) e := by
  constructor
  · intro h
    obtain ⟨s, hl, hs⟩ := sign_split l
    unfold exponent? at h
    generalize sign l = p at *
    obtain ⟨neg, r⟩ := p
    dsimp only at *
    split at h
    · cases h
    · rename_i hr
      obtain ⟨n, hn, he⟩ := Option.map_eq_some_iff.mp h
      rw [hl, ← he]
      exact .some hc hs (digits_iff.mp hn) (by simpa using hr)
  · intro h
    generalize hx : c :: l = x at h
    cases h with
    | none => cases hx
    | @some c' s t neg n hc' hs ht hne =>
      injection hx with h1 h2
      subst h2
      unfold exponent?
      rw [sign_append hs (fun a ha => by
        have := List.mem_of_mem_head? ha
        exact ⟨ht.ne this rfl, ht.ne this rfl⟩)]
      simp only
      rw [if_neg (by simpa using hne), digits_iff.mpr ht]
      rfl

/-- the end of a numeral is an exponent or nothing -/
theorem split_exp {t u : Str} (ht : ∀ c ∈ t, c ≠ 'e' ∧ c ≠ 'E')
    (hu : u = [] ∨ ∃ c r, u = c :: r ∧ (c = 'e' ∨ c = 'E')) :
    (t ++ u).takeWhile (fun c => !(c == 'e' || c == 'E')) = t ∧
      (t ++ u).dropWhile (fun c => !(c == 'e' || c == 'E')) = u := by
  have hp : ∀ c ∈ t, (!(c == 'e' || c == 'E')) = true := fun c hc => by
    obtain ⟨h1, h2⟩ := ht c hc
    simp [h1, h2]
  rw [List.takeWhile_append_of_pos hp, List.dropWhile_append_of_pos hp]
  rcases hu with rfl | ⟨c, r, rfl, rfl | rfl⟩ <;> simp

/-- `.` divides whole and fractional part -/
theorem split_dot {t u : Str} (ht : ∀ c ∈ t, c ≠ '.') (hu : u = [] ∨ ∃ r, u = '.' :: r) :
    (t ++ u).takeWhile (· != '.') = t ∧ (t ++ u).dropWhile (· != '.') = u := by
  have hp : ∀ c ∈ t, (c != '.') = true := fun c hc => by simpa using ht c hc
  rw [List.takeWhile_append_of_pos hp, List.dropWhile_append_of_pos hp]
  rcases hu with rfl | ⟨r, rfl⟩ <;> simp

theorem strip_outer {pre l post : Str} (h1 : ∀ c ∈ pre, wsChar c = true)
    (h2 : ∀ c ∈ post, wsChar c = true) (h3 : ∀ c ∈ l, wsChar c = false) :
    stripBy wsChar (pre ++ l ++ post) = l := by
  unfold stripBy
  rw [List.append_assoc, List.dropWhile_append_of_pos h1]
  cases l with
  | nil =>
    have : post.dropWhile wsChar = [] := by
      have := List.dropWhile_append_of_pos (l₂ := []) h2
      simpa using this
    rw [List.nil_append, this]
    rfl
  | cons c l =>
    rw [List.cons_append, List.dropWhile_cons_of_neg (by simp [h3 c (by simp)]), ← List.cons_append,
      List.reverse_append, List.dropWhile_append_of_pos (fun c hc => h2 c (by simpa using hc))]
    have : ∀ c' ∈ (c :: l).reverse, wsChar c' = false := fun c' hc' => h3 c' (List.mem_reverse.mp hc')
    generalize hx : (c :: l).reverse = x at *
    cases x with
    | nil => simp at hx
    | cons a x =>
      rw [List.dropWhile_cons_of_neg (by simp [this a (by simp)]), ← hx, List.reverse_reverse]

/-- characters of numerals -/
def numeralChar (c : Char) : Prop := c.isDigit = true ∨ c ∈ ['.', '-', '+', 'e', 'E']

theorem not_ws {c : Char} (h : numeralChar c) : wsChar c = false := by
  refine wsChar_eq_false ?_
  rcases h with h | h
  · obtain ⟨d, hd, rfl⟩ := isDigit_iff.mp h
    interval_cases d <;> decide
  · simp only [List.mem_cons, List.not_mem_nil, or_false] at h
    rcases h with rfl | rfl | rfl | rfl | rfl <;> decide

theorem Digits.chars {l : Str} {n : Nat} (h : Digits l n) : ∀ c ∈ l, c.isDigit = true :=
  fun c hc => isDigit_iff.mpr (h.all c hc)

theorem Mantissa.chars {t : Str} {q : Rat} (h : Mantissa t q) :
    t ≠ [] ∧ ∀ c ∈ t, c.isDigit = true ∨ c = '.' := by
  cases h with
  | whole h hne => exact ⟨hne, fun c hc => .inl (h.chars c hc)⟩
  | point h1 h2 _ =>
    refine ⟨by simp, fun c hc => ?_⟩
    rcases List.mem_append.mp hc with h | h
    · exact .inl (h1.chars c h)
    · rcases List.mem_cons.mp h with h | h
      · exact .inr h
      · exact .inl (h2.chars c h)

theorem Sign.chars {s : Str} {neg : Bool} (h : Sign s neg) : ∀ c ∈ s, c = '-' ∨ c = '+' := by
  cases h <;> simp

theorem Expo.chars {u : Str} {e : Int} (h : Expo u e) : ∀ c ∈ u, numeralChar c := by
  cases h with
  | none => simp
  | some hc hs ht _ =>
    intro a ha
    rcases List.mem_cons.mp ha with rfl | ha
    · rcases hc with rfl | rfl <;> exact .inr (by simp)
    · rcases List.mem_append.mp ha with ha | ha
      · rcases hs.chars a ha with rfl | rfl <;> exact .inr (by simp)
      · exact .inl (ht.chars a ha)

theorem pow_ten {m : Rat} {e : Int} :
    (if 0 ≤ e then m * (10 ^ e.toNat : Nat) else m / (10 ^ (-e).toNat : Nat)) = m * (10 : Rat) ^ e := by
  split_ifs with h
  · obtain ⟨k, rfl⟩ := Int.eq_ofNat_of_zero_le h
    simp
  · obtain ⟨k, hk⟩ := Int.eq_ofNat_of_zero_le (show 0 ≤ -e by omega)
    obtain rfl : e = -(k : Int) := by omega
    simp [div_eq_mul_inv]

theorem Mantissa.parts {t : Str} {q : Rat} (h : Mantissa t q) : ∃ ip fp n m,
    t.takeWhile (· != '.') = ip ∧ (t.dropWhile (· != '.')).drop 1 = fp ∧ Digits ip n ∧ Digits fp m ∧
      ip ++ fp ≠ [] ∧ q = n + m / 10 ^ fp.length := by
  cases h with
  | whole hd hne =>
    obtain ⟨d1, d2⟩ := split_dot (t := t) (u := []) (fun a ha => hd.ne ha rfl) (.inl rfl)
    rw [List.append_nil] at d1 d2
    exact ⟨_, _, _, _, d1, (by rw [d2]; rfl), hd, .nil, by simpa using hne, by simp⟩
  | @point t n u' m hd1 hd2 hne =>
    obtain ⟨d1, d2⟩ := split_dot (t := t) (u := '.' :: u') (fun a ha => hd1.ne ha rfl) (.inr ⟨_, rfl⟩)
    exact ⟨_, _, _, _, d1, (by rw [d2]; rfl), hd1, hd2, hne, rfl⟩

theorem numeral_value {t u : Str} {q : Rat} {e : Int} (ht : Mantissa t q) (hu : Expo u e) :
    numeral? (t ++ u) = some (q * (10 : Rat) ^ e) := by
  have tch := ht.chars.2
  have hdig : ∀ c ∈ t, ∀ a : Char, a.isDigit = false → a ≠ '.' → c ≠ a := by
    rintro c hc a ha hdot rfl
    rcases tch c hc with h | h
    · rw [h] at ha; cases ha
    · exact hdot h
  have hu' : u = [] ∨ ∃ c r, u = c :: r ∧ (c = 'e' ∨ c = 'E') := by
    cases hu with
    | none => exact .inl rfl
    | some h _ _ _ => exact .inr ⟨_, _, rfl, h⟩
  obtain ⟨s1, s2⟩ := split_exp (t := t) (u := u)
    (fun a ha => ⟨hdig a ha _ rfl (by decide), hdig a ha _ rfl (by decide)⟩) hu'
  have hex : exponentPart? u = some e := by
    cases hu with
    | none => rfl
    | some hc a b d => exact (exponent_iff hc).mpr (.some hc a b d)
  obtain ⟨ip, fp, n, m, e1, e2, d1, d2, hne, rfl⟩ := ht.parts
  unfold numeral?
  simp only
  rw [s1, s2, hex, e1, e2, digits_iff.mpr d1, digits_iff.mpr d2]
  simp only
  rw [if_neg (by
    intro h
    simp only [Bool.and_eq_true, List.isEmpty_iff] at h
    exact hne (by rw [h.1, h.2]; rfl)), pow_ten]
  push_cast
  rfl

theorem value_numeral {body : Str} {v : Rat} (h : numeral? body = some v) :
    ∃ t u q e, body = t ++ u ∧ Mantissa t q ∧ Expo u e ∧ v = q * (10 : Rat) ^ e := by
  unfold numeral? at h
  simp only at h
  have hb := List.takeWhile_append_dropWhile (p := fun c : Char => !(c == 'e' || c == 'E')) (l := body)
  have hu : ∀ {c r}, body.dropWhile (fun c : Char => !(c == 'e' || c == 'E')) = c :: r →
      c = 'e' ∨ c = 'E' := by
    intro c r hc
    have := List.head_dropWhile_not (fun c : Char => !(c == 'e' || c == 'E')) (l := body) (by rw [hc]; simp)
    simp only [hc, List.head_cons] at this
    by_cases g : c = 'e'
    · exact .inl g
    · exact .inr (by simpa [g] using this)
  generalize hmant : body.takeWhile (fun c : Char => !(c == 'e' || c == 'E')) = mant at *
  generalize hrest : body.dropWhile (fun c : Char => !(c == 'e' || c == 'E')) = rest at *
  have hd := List.takeWhile_append_dropWhile (p := fun c : Char => c != '.') (l := mant)
  have hv : ∀ {c r}, mant.dropWhile (fun c : Char => c != '.') = c :: r → c = '.' := by
    intro c r hc
    have := List.head_dropWhile_not (fun c : Char => c != '.') (l := mant) (by rw [hc]; simp)
    simp only [hc, List.head_cons] at this
    simpa using this
  generalize mant.takeWhile (fun c : Char => c != '.') = ip at *
  generalize mant.dropWhile (fun c : Char => c != '.') = tl at *
  split at h
  · rename_i ex a b hex ha hb'
    split at h
    · cases h
    · rename_i hne
      have hne : ip ++ tl.drop 1 ≠ [] := by
        intro h
        obtain ⟨h1, h2⟩ := List.append_eq_nil_iff.mp h
        exact hne (by rw [h1, h2]; rfl)
      injection h with h
      rw [pow_ten] at h
      refine ⟨mant, rest, _, ex, hb.symm, ?_, ?_, h.symm⟩
      · have d1 := digits_iff.mp ha
        have d2 := digits_iff.mp hb'
        rw [← hd]
        cases tl with
        | nil =>
          have d3 : b = 0 := by
            have := digits_iff.mpr d2
            exact (Option.some.inj this).symm
          subst d3
          simp only [List.drop_nil, List.append_nil] at hne ⊢
          have := Mantissa.whole d1 hne
          simpa using this
        | cons c r =>
          obtain rfl := hv rfl
          have := Mantissa.point d1 d2 hne
          push_cast
          exact this
      · cases rest with
        | nil => cases hex; exact .none
        | cons c r => exact (exponent_iff (hu rfl)).mp hex
  · cases h

/-- a numeral, possibly with white space around it, stands for the double nearest to its value -/
theorem floatStd_numeral {pre t post : Str} {q : Rat} (h1 : ∀ c ∈ pre, wsChar c = true)
    (h2 : ∀ c ∈ post, wsChar c = true) (h : Numeral t q) :
    floatStd (pre ++ t ++ post) = .ok (PyF.double (.rat q)) := by
  cases h with
  | @mk s neg t q u e hs ht hu =>
    obtain ⟨tne, tch⟩ := ht.chars
    have hch : ∀ c ∈ s ++ t ++ u, wsChar c = false := by
      intro c hc
      refine not_ws ?_
      rcases List.mem_append.mp hc with hc | hc
      · rcases List.mem_append.mp hc with hc | hc
        · rcases hs.chars c hc with rfl | rfl <;> exact .inr (by simp)
        · rcases tch c hc with h | rfl
          · exact .inl h
          · exact .inr (by simp)
      · exact hu.chars c hc
    have hdig : ∀ c ∈ t, ∀ a : Char, a.isDigit = false → a ≠ '.' → c ≠ a := by
      rintro c hc a ha hdot rfl
      rcases tch c hc with h | h
      · rw [h] at ha; cases ha
      · exact hdot h
    have hval := numeral_value ht hu
    obtain ⟨c, t', rfl⟩ := List.exists_cons_of_ne_nil tne
    unfold floatStd
    rw [strip_outer h1 h2 hch, List.append_assoc, sign_append hs (fun a ha => by
      cases ha
      exact ⟨hdig c (by simp) _ rfl (by decide), hdig c (by simp) _ rfl (by decide)⟩)]
    have hlow : ∀ a : Char, a ∈ ['i', 'n'] → ∀ w, String.ofList ((c :: t' ++ u).map Char.toLower) ≠
        String.ofList (a :: w) := by
      intro a ha w hw
      have hw := String.ofList_injective hw
      rw [List.cons_append, List.map_cons] at hw
      injection hw with hw _
      have : c.toLower = c := by
        rcases tch c (by simp) with h | rfl
        · obtain ⟨d, hd, rfl⟩ := isDigit_iff.mp h
          interval_cases d <;> rfl
        · rfl
      rw [this] at hw
      subst hw
      simp only [List.mem_cons, List.not_mem_nil, or_false] at ha
      rcases ha with rfl | rfl
      · exact absurd rfl (hdig 'i' (by simp) 'i' rfl (by decide))
      · exact absurd rfl (hdig 'n' (by simp) 'n' rfl (by decide))
    have l1 : (String.ofList ((c :: t' ++ u).map Char.toLower) == "inf") = false := by
      simpa using hlow 'i' (by simp) ['n', 'f']
    have l2 : (String.ofList ((c :: t' ++ u).map Char.toLower) == "infinity") = false := by
      simpa using hlow 'i' (by simp) ['n', 'f', 'i', 'n', 'i', 't', 'y']
    have l3 : (String.ofList ((c :: t' ++ u).map Char.toLower) == "nan") = false := by
      simpa using hlow 'n' (by simp) ['a', 'n']
    simp only
    rw [l1, l2, l3, hval]
    simp only [Bool.or_self, Bool.false_eq_true, if_false]
    congr 3
    cases neg <;> simp

/-- the words that are no numerals -/
inductive Word : Str → PyF → Prop
  | inf {s neg t} : Sign s neg → t.map Char.toLower = "inf".toList → Word (s ++ t) (.inf neg)
  | infinity {s neg t} : Sign s neg → t.map Char.toLower = "infinity".toList → Word (s ++ t) (.inf neg)
  | nan {s neg t} : Sign s neg → t.map Char.toLower = "nan".toList → Word (s ++ t) .nan

theorem takeWhile_all {p : Char → Bool} {l : Str} {c : Char} (h : c ∈ l.takeWhile p) : p c = true := by
  induction l with
  | nil => cases h
  | cons a l ih =>
    rw [List.takeWhile_cons] at h
    split at h
    · rename_i ha
      rcases List.mem_cons.mp h with rfl | h
      · exact ha
      · exact ih h
    · cases h

theorem stripBy_split {p : Char → Bool} (l : Str) : ∃ pre post, l = pre ++ stripBy p l ++ post ∧
    (∀ c ∈ pre, p c = true) ∧ ∀ c ∈ post, p c = true := by
  refine ⟨l.takeWhile p, ((l.dropWhile p).reverse.takeWhile p).reverse, ?_, ?_, ?_⟩
  · unfold stripBy
    rw [List.append_assoc, ← List.reverse_append, List.takeWhile_append_dropWhile, List.reverse_reverse,
      List.takeWhile_append_dropWhile]
  · exact fun c hc => takeWhile_all hc
  · exact fun c hc => takeWhile_all (List.mem_reverse.mp hc)

/-- only numerals and these words are accepted; a numeral stands for the double nearest to its
value -/
theorem floatStd_ok {text : Str} {x : PyF} (h : floatStd text = .ok x) :
    ∃ pre t post, text = pre ++ t ++ post ∧ (∀ c ∈ pre, wsChar c = true) ∧
      (∀ c ∈ post, wsChar c = true) ∧
      (Word t x ∨ ∃ q, Numeral t q ∧ x = PyF.double (.rat q)) := by
  obtain ⟨pre, post, h1, h2, h3⟩ := stripBy_split (p := wsChar) text
  refine ⟨pre, _, post, h1, h2, h3, ?_⟩
  unfold floatStd at h
  obtain ⟨s, e1, e2⟩ := sign_split (stripBy wsChar text)
  generalize sign (stripBy wsChar text) = p at *
  obtain ⟨neg, body⟩ := p
  simp only at h e1 e2
  have low : ∀ {w : String}, (String.ofList (body.map Char.toLower) == w) = true →
      body.map Char.toLower = w.toList := by
    intro w hw
    rw [← eq_of_beq hw, String.toList_ofList]
  rw [e1]
  split at h
  · rename_i hw
    cases h
    rcases (Bool.or_eq_true _ _).mp hw with hw | hw
    · exact .inl (.inf e2 (low hw))
    · exact .inl (.infinity e2 (low hw))
  · split at h
    · rename_i hw
      cases h
      exact .inl (.nan e2 (low hw))
    · split at h
      · rename_i v hv
        cases h
        obtain ⟨t, u, q, e, rfl, ht, hu, rfl⟩ := value_numeral hv
        refine .inr ⟨_, by rw [← List.append_assoc]; exact .mk e2 ht hu, ?_⟩
        congr 2
        cases neg <;> simp
      · cases h

example : Digits "120".toList 120 :=
  .snoc (t := ['1', '2']) 0 (.snoc (t := ['1']) 2 (.snoc (t := []) 1 .nil (by decide) rfl) (by decide) rfl)
    (by decide) rfl

/-- `-1.2E-1` is -0.12, read as the nearest double -/
example : floatStd "  -1.2E-1 ".toList = .ok (PyF.double (.rat (-12 / 100))) := by
  have hd : ∀ d : Nat, (hd : d < 10) → Digits [Char.ofNat (48 + d)] d := fun d hd => by
    have := Digits.snoc d .nil hd rfl
    simpa using this
  have h := Numeral.mk (s := ['-']) (t := ['1', '.', '2']) (u := ['E', '-', '1']) .minus
    (.point (t := ['1']) (u := ['2']) (hd 1 (by decide)) (hd 2 (by decide)) (by simp))
    (.some (s := ['-']) (t := ['1']) (.inr rfl) .minus (hd 1 (by decide)) (by simp))
  have := floatStd_numeral (pre := [' ', ' ']) (post := [' ']) (by decide) (by decide) h
  refine this.trans ?_
  congr 3
  norm_num

/-- rounding twice need not give the `float32` nearest to the numeral -/
theorem rounds_twice : ∃ q : Rat, PyF.single (PyF.double (.rat q)) ≠ PyF.single (.rat q) :=
  ⟨1 + 1 / 2 ^ 24 + 1 / 2 ^ 60, by decide +kernel⟩

/-- a number that cannot be represented is changed: 0.1 -/
example : PyF.single (PyF.double (.rat (1 / 10))) = .rat (13421773 / 134217728) := by decide +kernel

example : f32le 0 0 128 63 = .rat 1 := by decide +kernel
example : f32le 0 0 160 192 = .rat (-5) := by decide +kernel
example : floatStd " -5.00000000e+00".toList = .ok (.rat (-5)) := by decide +kernel
example : floatStd "  1.25000000E+02".toList = .ok (.rat 125) := by decide +kernel
example : floatStd "                ".toList = .error .valueError := by decide +kernel

end Verif.Seq
