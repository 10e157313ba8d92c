import Verif.Conv.Names
import Verif.Conv.NameSpec
/-!
# Lemmas on file names
-/

namespace Verif.Conv
open Verif Verif.Seq

theorem wordish_iff (c : Char) : wordish c = true ↔ PrefixChar c := by
  unfold wordish PrefixChar
  simp only [Char.isAlphanum, Char.isAlpha, Char.isUpper, Char.isLower, Char.isDigit, Bool.or_eq_true,
    Bool.and_eq_true, decide_eq_true_eq, beq_iff_eq, ge_iff_le]
  have e : ∀ a b : Char, a ≤ b ↔ a.val ≤ b.val := fun _ _ => Iff.rfl
  simp only [e]
  tauto

theorem digit_iff (c : Char) : digit c = true ↔ '0' ≤ c ∧ c ≤ '9' := by
  unfold digit Char.isDigit
  simp only [Bool.and_eq_true, decide_eq_true_eq, ge_iff_le]
  exact Iff.rfl

theorem lazyWord_mem (s a b : Str) :
    (a, b) ∈ lazyWord s ↔ s = a ++ b ∧ ∀ c ∈ a, PrefixChar c := by
  induction s generalizing a b with
  | nil => simp only [lazyWord, List.mem_singleton, Prod.mk.injEq]; constructor <;> simp +contextual
  | cons c r ih =>
    unfold lazyWord
    simp only [List.mem_cons, Prod.mk.injEq]
    cases a with
    | nil =>
      constructor
      · rintro (⟨_, rfl⟩ | h)
        · simp
        · split at h <;> simp at h
      · rintro ⟨h, _⟩; left; simpa using h.symm
    | cons x xs =>
      simp only [List.cons_ne_nil, false_and, false_or]
      split
      · rename_i hw
        simp only [List.mem_map, Prod.mk.injEq, List.cons.injEq, Prod.exists, List.cons_append,
          List.mem_cons, forall_eq_or_imp]
        constructor
        · rintro ⟨u, v, h, ⟨rfl, rfl⟩, rfl⟩
          have := (ih _ _).mp h
          exact ⟨⟨rfl, this.1⟩, (wordish_iff c).mp hw, this.2⟩
        · rintro ⟨⟨rfl, h1⟩, _, h3⟩
          exact ⟨xs, b, (ih _ _).mpr ⟨h1, h3⟩, ⟨rfl, rfl⟩, rfl⟩
      · rename_i hw
        simp only [List.not_mem_nil, List.cons_append, List.cons.injEq, List.mem_cons,
          forall_eq_or_imp, false_iff]
        rintro ⟨⟨rfl, _⟩, h, _⟩
        exact hw ((wordish_iff c).mpr h)

theorem greedyDigits_mem (s a b : Str) :
    (a, b) ∈ greedyDigits s ↔ s = a ++ b ∧ ∀ c ∈ a, '0' ≤ c ∧ c ≤ '9' := by
  induction s generalizing a b with
  | nil => simp only [greedyDigits, List.mem_singleton, Prod.mk.injEq]; constructor <;> simp +contextual
  | cons c r ih =>
    unfold greedyDigits
    simp only [List.mem_append, List.mem_singleton, Prod.mk.injEq]
    cases a with
    | nil =>
      constructor
      · rintro (h | ⟨_, rfl⟩)
        · split at h <;> simp at h
        · simp
      · rintro ⟨h, _⟩; right; simpa using h.symm
    | cons x xs =>
      simp only [List.cons_ne_nil, false_and, or_false]
      split
      · rename_i hw
        simp only [List.mem_map, Prod.mk.injEq, List.cons.injEq, Prod.exists, List.cons_append,
          List.mem_cons, forall_eq_or_imp]
        constructor
        · rintro ⟨u, v, h, ⟨rfl, rfl⟩, rfl⟩
          have := (ih _ _).mp h
          exact ⟨⟨rfl, this.1⟩, (digit_iff c).mp hw, this.2⟩
        · rintro ⟨⟨rfl, h1⟩, _, h3⟩
          exact ⟨xs, b, (ih _ _).mpr ⟨h1, h3⟩, ⟨rfl, rfl⟩, rfl⟩
      · rename_i hw
        simp only [List.not_mem_nil, List.cons_append, List.cons.injEq, List.mem_cons,
          forall_eq_or_imp, false_iff]
        rintro ⟨⟨rfl, _⟩, h, _⟩
        exact hw ((digit_iff c).mpr h)

theorem oneOf_mem (cs : List Char) (s : Str) (c : Char) (r : Str) :
    (c, r) ∈ oneOf cs s ↔ s = c :: r ∧ c.toLower ∈ cs := by
  unfold oneOf
  split
  · simp
  · rename_i x xs
    split
    · rename_i h
      simp only [List.mem_singleton, Prod.mk.injEq, List.cons.injEq]
      constructor
      · rintro ⟨rfl, rfl⟩; simpa using h
      · rintro ⟨⟨rfl, rfl⟩, _⟩; simp
    · rename_i h
      simp only [List.not_mem_nil, List.cons.injEq, false_iff]
      rintro ⟨⟨rfl, rfl⟩, h2⟩
      exact h (by simpa using h2)

theorem toNat_inj {c d : Char} : c = d ↔ c.toNat = d.toNat :=
  ⟨fun h => h ▸ rfl, fun h => Char.ext (UInt32.toNat.inj h)⟩

theorem toLower_toNat (c : Char) : c.toLower.toNat =
    if 65 ≤ c.toNat ∧ c.toNat ≤ 90 then c.toNat + 32 else c.toNat := by
  have e1 : ('A'.val ≤ c.val) ↔ 65 ≤ c.toNat := UInt32.le_iff_toNat_le
  have e2 : (c.val ≤ 'Z'.val) ↔ c.toNat ≤ 90 := UInt32.le_iff_toNat_le
  unfold Char.toLower
  split
  · rename_i h
    rw [ge_iff_le, e1, e2] at h
    rw [if_pos h]
    show (c.val + ('a'.val - 'A'.val)).toNat = _
    have : c.val.toNat ≤ 90 := h.2
    rw [UInt32.toNat_add]
    show (c.val.toNat + 32) % 2 ^ 32 = c.val.toNat + 32
    omega
  · rename_i h
    rw [ge_iff_le, e1, e2] at h
    rw [if_neg h]

theorem lower_letter (c d : Char) (h1 : 97 ≤ d.toNat) (h2 : d.toNat ≤ 122) :
    c.toLower = d ↔ c.toNat = d.toNat ∨ c.toNat + 32 = d.toNat := by
  rw [toNat_inj, toLower_toNat]
  split <;> omega

theorem lower_digit (c d : Char) (h2 : d.toNat < 65) :
    c.toLower = d ↔ c.toNat = d.toNat := by
  rw [toNat_inj, toLower_toNat]
  split <;> omega

theorem letters_iff (c : Char) : c.toLower ∈ ['r', 't', 'g', 'l'] ↔ FileLetter c := by
  unfold FileLetter
  simp only [List.mem_cons, List.not_mem_nil, or_false]
  rw [lower_letter _ _ (by decide) (by decide), lower_letter _ _ (by decide) (by decide),
    lower_letter _ _ (by decide) (by decide), lower_letter _ _ (by decide) (by decide)]
  simp only [toNat_inj, show 'r'.toNat = 114 from rfl, show 't'.toNat = 116 from rfl,
    show 'g'.toNat = 103 from rfl, show 'l'.toNat = 108 from rfl, show 'R'.toNat = 82 from rfl,
    show 'T'.toNat = 84 from rfl, show 'G'.toNat = 71 from rfl, show 'L'.toNat = 76 from rfl]
  omega

theorem le_toNat (c d : Char) : c ≤ d ↔ c.toNat ≤ d.toNat := UInt32.le_iff_toNat_le

theorem first_digit_iff (c : Char) :
    c.toLower ∈ ['1', '2', '3', '4', '5', '6', '7', '8', '9'] ↔ '1' ≤ c ∧ c ≤ '9' := by
  simp only [List.mem_cons, List.not_mem_nil, or_false]
  rw [lower_digit _ _ (by decide), lower_digit _ _ (by decide), lower_digit _ _ (by decide),
    lower_digit _ _ (by decide), lower_digit _ _ (by decide), lower_digit _ _ (by decide),
    lower_digit _ _ (by decide), lower_digit _ _ (by decide), lower_digit _ _ (by decide)]
  simp only [le_toNat, show '1'.toNat = 49 from rfl, show '2'.toNat = 50 from rfl,
    show '3'.toNat = 51 from rfl, show '4'.toNat = 52 from rfl, show '5'.toNat = 53 from rfl,
    show '6'.toNat = 54 from rfl, show '7'.toNat = 55 from rfl, show '8'.toNat = 56 from rfl,
    show '9'.toNat = 57 from rfl]
  omega

theorem lower_iff {c lo up : Char} (h : lo.toNat = up.toNat + 32) (h1 : 97 ≤ lo.toNat)
    (h2 : lo.toNat ≤ 122) : c.toLower = lo ↔ c = lo ∨ c = up := by
  rw [lower_letter _ _ h1 h2, toNat_inj, toNat_inj]
  omega

theorem number_mem (s n r : Str) : (n, r) ∈ number s ↔ s = n ++ r ∧ IsNumber n := by
  unfold number IsNumber
  simp only [List.mem_flatMap, List.mem_map, Prod.exists, Prod.mk.injEq]
  constructor
  · rintro ⟨d, t, h1, ds, u, h2, rfl, rfl⟩
    rw [oneOf_mem, first_digit_iff] at h1
    rw [greedyDigits_mem] at h2
    exact ⟨by rw [h1.1, h2.1]; rfl, d, ds, rfl, h1.2, h2.2⟩
  · rintro ⟨rfl, d, ds, rfl, h1, h2⟩
    exact ⟨d, ds ++ r, by rw [oneOf_mem, first_digit_iff]; exact ⟨rfl, h1⟩, ds, r,
      by rw [greedyDigits_mem]; exact ⟨rfl, h2⟩, rfl, rfl⟩

theorem optIndex_mem (s r : Str) : r ∈ optIndex s ↔ ∃ h, s = h ++ r ∧ IsIndex h := by
  unfold optIndex IsIndex
  simp only [List.mem_append, List.mem_flatMap, List.mem_map, Prod.exists, List.mem_singleton]
  constructor
  · rintro (⟨c, t, h1, n, u, h2, rfl⟩ | rfl)
    · rw [oneOf_mem] at h1
      rw [number_mem] at h2
      refine ⟨c :: n, by rw [h1.1, h2.1]; rfl, .inr ⟨c, n, rfl, ?_, h2.2⟩⟩
      have := h1.2
      simp only [List.mem_singleton] at this
      exact ((lower_iff (up := 'H') rfl (by decide) (by decide)).mp this).symm
    · exact ⟨[], rfl, .inl rfl⟩
  · rintro ⟨h, rfl, rfl | ⟨c, n, rfl, hc, hn⟩⟩
    · exact .inr rfl
    · refine .inl ⟨c, n ++ r, ?_, n, r, by rw [number_mem]; exact ⟨rfl, hn⟩, rfl⟩
      rw [oneOf_mem]
      refine ⟨rfl, ?_⟩
      simp only [List.mem_singleton]
      exact (lower_iff (up := 'H') rfl (by decide) (by decide)).mpr hc.symm

theorem anyChar_mem (s r : Str) : r ∈ anyChar s ↔ ∃ c, s = c :: r ∧ c ≠ '\n' := by
  unfold anyChar
  split
  · simp
  · rename_i c t
    split
    · rename_i h
      subst h
      simp
    · rename_i h
      simp [h, eq_comm]

theorem extension_mem (s e r : Str) : (e, r) ∈ extension s ↔ s = e ++ r ∧ IsExt e := by
  have hs : ∀ c : Char, c.toLower = 's' ↔ c = 's' ∨ c = 'S' := fun c =>
    lower_iff rfl (by decide) (by decide)
  have hi : ∀ c : Char, c.toLower = 'i' ↔ c = 'i' ∨ c = 'I' := fun c =>
    lower_iff rfl (by decide) (by decide)
  have hf : ∀ c : Char, c.toLower = 'f' ↔ c = 'f' ∨ c = 'F' := fun c =>
    lower_iff rfl (by decide) (by decide)
  have hu : ∀ c : Char, c.toLower = 'u' ↔ c = 'u' ∨ c = 'U' := fun c =>
    lower_iff rfl (by decide) (by decide)
  have hn : ∀ c : Char, c.toLower = 'n' ↔ c = 'n' ∨ c = 'N' := fun c =>
    lower_iff rfl (by decide) (by decide)
  have he : ∀ c : Char, c.toLower = 'e' ↔ c = 'e' ∨ c = 'E' := fun c =>
    lower_iff rfl (by decide) (by decide)
  have hm : ∀ c : Char, c.toLower = 'm' ↔ c = 'm' ∨ c = 'M' := fun c =>
    lower_iff rfl (by decide) (by decide)
  unfold extension IsExt
  simp only [List.mem_append, List.mem_flatMap, List.mem_map, Prod.exists, oneOf_mem,
    List.mem_cons, List.not_mem_nil, or_false, hs, hi, hf, hu, hn, he, hm, Prod.mk.injEq]
  constructor
  · rintro (⟨x, _, ⟨rfl, h1⟩, y, _, ⟨rfl, h2⟩, z, _, ⟨rfl, h3⟩, rfl, rfl⟩ |
      ⟨x, _, ⟨rfl, h1⟩, y, _, ⟨rfl, h2⟩, z, _, ⟨rfl, h3⟩, rfl, rfl⟩)
    · exact ⟨rfl, x, y, z, rfl, .inl ⟨h1, h2, by tauto⟩⟩
    · exact ⟨rfl, x, y, z, rfl, .inr ⟨h1, h2, h3⟩⟩
  · rintro ⟨rfl, x, y, z, rfl, ⟨h1, h2, h3⟩ | ⟨h1, h2, h3⟩⟩
    · exact .inl ⟨x, _, ⟨rfl, h1⟩, y, _, ⟨rfl, h2⟩, z, r, ⟨rfl, by tauto⟩, rfl, rfl⟩
    · exact .inr ⟨x, _, ⟨rfl, h1⟩, y, _, ⟨rfl, h2⟩, z, r, ⟨rfl, h3⟩, rfl, rfl⟩

/-- the matches of the pattern behind a prefix -/
theorem sifTail_mem (pre s : Str) (m : SifName) : m ∈ sifTail pre s ↔
    m.fileprefix = pre ∧ ∃ h sep rest, s = m.letter :: m.selno ++ h ++ sep :: m.ext ++ rest ∧
      FileLetter m.letter ∧ IsNumber m.selno ∧ IsIndex h ∧ sep ≠ '\n' ∧ IsExt m.ext := by
  unfold sifTail
  simp only [List.mem_flatMap, List.mem_map, Prod.exists, oneOf_mem, letters_iff, number_mem,
    optIndex_mem, anyChar_mem, extension_mem]
  constructor
  · rintro ⟨l, _, ⟨rfl, h1⟩, n, _, ⟨rfl, h2⟩, _, ⟨h, rfl, h3⟩, _, ⟨c, rfl, h4⟩, e, r, ⟨rfl, h5⟩, rfl⟩
    exact ⟨rfl, h, c, r, by simp, h1, h2, h3, h4, h5⟩
  · rintro ⟨rfl, h, c, r, rfl, h1, h2, h3, h4, h5⟩
    exact ⟨m.letter, _, ⟨by simp, h1⟩, m.selno, _, ⟨rfl, h2⟩, _, ⟨h, rfl, h3⟩, _, ⟨c, rfl, h4⟩,
      m.ext, r, ⟨rfl, h5⟩, rfl⟩

theorem convTail_eq (pre s : Str) :
    convTail pre s = (sifTail pre s).map fun m => ⟨m.fileprefix, m.letter, m.ext⟩ := by
  simp only [convTail, sifTail, List.map_flatMap, List.map_map, Function.comp_def]

end Verif.Conv
