import Verif.Conv.NameLemmas
/-!
# File name analysis (C22)
-/

namespace Verif.Conv
open Verif Verif.Seq

theorem isExt_letters {e : Str} (h : IsExt e) : ∀ c ∈ e, c ∈
    ['s', 'S', 'i', 'I', 'f', 'F', 'u', 'U', 'n', 'N', 'e', 'E', 'm', 'M'] := by
  obtain ⟨x, y, z, rfl, h⟩ := h
  simp only [List.mem_cons, List.not_mem_nil, or_false] at h ⊢
  rintro c (rfl | rfl | rfl) <;> tauto

theorem not_letter_of_ext {e : Str} (h : IsExt e) {c : Char} (hc : c ∈ e) : ¬ FileLetter c := by
  have := isExt_letters h c hc
  simp only [List.mem_cons, List.not_mem_nil, or_false] at this
  rcases this with rfl | rfl | rfl | rfl | rfl | rfl | rfl | rfl | rfl | rfl | rfl | rfl | rfl | rfl <;>
    (unfold FileLetter; decide)

/-- digits and `H` -/
def NumChar (c : Char) : Prop := ('0' ≤ c ∧ c ≤ '9') ∨ c = 'H' ∨ c = 'h'

theorem isNumber_digits {n : Str} (h : IsNumber n) : ∀ c ∈ n, '0' ≤ c ∧ c ≤ '9' := by
  obtain ⟨d, ds, rfl, h1, h2⟩ := h
  intro c hc
  simp only [List.mem_cons] at hc
  rcases hc with rfl | hc
  · exact ⟨Char.le_trans (by decide) h1.1, h1.2⟩
  · exact h2 c hc

theorem numChar_of {no h : Str} (hn : IsNumber no) (hh : IsIndex h) : ∀ c ∈ no ++ h, NumChar c := by
  intro c hc
  rw [List.mem_append] at hc
  rcases hc with hc | hc
  · exact .inl (isNumber_digits hn c hc)
  · rcases hh with rfl | ⟨d, n, rfl, hd, hn'⟩
    · simp at hc
    · simp only [List.mem_cons] at hc
      rcases hc with rfl | hc
      · exact .inr hd
      · exact .inl (isNumber_digits hn' c hc)

theorem numChar_not_letter {c : Char} (h : NumChar c) : ¬ FileLetter c := by
  rcases h with h | rfl | rfl
  · unfold FileLetter
    rw [le_toNat, le_toNat] at h
    simp only [List.mem_cons, List.not_mem_nil, or_false, toNat_inj]
    simp only [show '0'.toNat = 48 from rfl, show '9'.toNat = 57 from rfl,
      show 'r'.toNat = 114 from rfl, show 't'.toNat = 116 from rfl,
      show 'g'.toNat = 103 from rfl, show 'l'.toNat = 108 from rfl, show 'R'.toNat = 82 from rfl,
      show 'T'.toNat = 84 from rfl, show 'G'.toNat = 71 from rfl, show 'L'.toNat = 76 from rfl] at h ⊢
    omega
  · unfold FileLetter; decide
  · unfold FileLetter; decide

theorem numChar_not_ext {e : Str} (he : IsExt e) {c : Char} (hc : c ∈ e) : ¬ NumChar c := by
  have := isExt_letters he c hc
  simp only [List.mem_cons, List.not_mem_nil, or_false] at this
  rcases this with rfl | rfl | rfl | rfl | rfl | rfl | rfl | rfl | rfl | rfl | rfl | rfl | rfl | rfl <;>
    (unfold NumChar; decide)

theorem digit_not_H {c : Char} (h : '0' ≤ c ∧ c ≤ '9') : ¬ (c = 'H' ∨ c = 'h') := by
  rintro (rfl | rfl) <;> revert h <;> decide

/-- behind a prefix the parts of a name are determined -/
theorem tail_unique {no h ext rest no' h' ext' rest' : Str} {sep sep' : Char}
    (e : no ++ h ++ sep :: ext ++ rest = no' ++ h' ++ sep' :: ext' ++ rest')
    (n1 : IsNumber no) (i1 : IsIndex h) (x1 : IsExt ext)
    (n2 : IsNumber no') (i2 : IsIndex h') (x2 : IsExt ext') : no = no' ∧ ext = ext' := by
  -- the end of number and index
  have key : ∀ {R R' ext rest ext' rest' k : Str} {sep sep' : Char}, R' = R ++ k →
      (∀ c ∈ R', NumChar c) → IsExt ext → IsExt ext' →
      R ++ sep :: (ext ++ rest) = R' ++ sep' :: (ext' ++ rest') → k = [] := by
    intro R R' ext rest ext' rest' k sep sep' hk hR x1 x2 e
    subst hk
    rw [List.append_assoc] at e
    replace e := List.append_cancel_left e
    cases k with
    | nil => rfl
    | cons a k =>
      exfalso
      simp only [List.cons_append, List.cons.injEq] at e
      obtain ⟨rfl, e⟩ := e
      obtain ⟨x, y, z, rfl, hx⟩ := x1
      cases k with
      | cons b k =>
        simp only [List.cons_append, List.cons.injEq] at e
        obtain ⟨rfl, _⟩ := e
        exact numChar_not_ext ⟨x, y, z, rfl, hx⟩ (by simp) (hR x (by simp))
      | nil =>
        obtain ⟨x', y', z', rfl, hx'⟩ := x2
        simp only [List.nil_append, List.cons_append, List.cons.injEq] at e
        obtain ⟨rfl, rfl, _⟩ := e
        simp only [List.mem_cons, List.not_mem_nil, or_false] at hx hx'
        rcases hx with ⟨_, h, _⟩ | ⟨_, h, _⟩ <;> rcases hx' with ⟨h', _⟩ | ⟨h', _⟩ <;>
          rcases h with rfl | rfl <;> revert h' <;> decide
  have e' : (no ++ h) ++ sep :: (ext ++ rest) = (no' ++ h') ++ sep' :: (ext' ++ rest') := by
    simpa using e
  have heq : no ++ h = no' ++ h' := by
    rcases List.append_eq_append_iff.mp e' with ⟨k, h1, _⟩ | ⟨k, h1, _⟩
    · have := key h1 (numChar_of n2 i2) x1 x2 e'
      subst this; simpa using h1.symm
    · have := key h1 (numChar_of n1 i1) x2 x1 e'.symm
      subst this; simpa using h1
  constructor
  · have sub : ∀ {a b k i : Str}, a ++ k = b → (∀ c ∈ b, '0' ≤ c ∧ c ≤ '9') →
        IsIndex (k ++ i) → k = [] := by
      intro a b k i h1 h2 h3
      cases k with
      | nil => rfl
      | cons c k =>
        exfalso
        rcases h3 with h3 | ⟨d, n, h3, hd, _⟩
        · simp at h3
        · simp only [List.cons_append, List.cons.injEq] at h3
          obtain ⟨rfl, _⟩ := h3
          exact digit_not_H (h2 c (by rw [← h1]; simp)) hd
    rcases List.append_eq_append_iff.mp heq with ⟨k, h1, h2⟩ | ⟨k, h1, h2⟩
    · have := sub h1.symm (isNumber_digits n2) (h2 ▸ i1)
      subst this; simpa using h1.symm
    · have := sub h1.symm (isNumber_digits n1) (h2 ▸ i2)
      subst this; simpa using h1
  · rw [heq] at e'
    have := List.append_cancel_left e'
    simp only [List.cons.injEq] at this
    obtain ⟨_, h3⟩ := this
    obtain ⟨x, y, z, rfl, _⟩ := x1
    obtain ⟨x', y', z', rfl, _⟩ := x2
    simp only [List.cons_append, List.cons.injEq] at h3
    obtain ⟨rfl, rfl, rfl, _⟩ := h3
    rfl

theorem head?_mem {α : Type} {l : List α} {x : α} (h : l.head? = some x) : x ∈ l := by
  cases l with
  | nil => simp at h
  | cons a l => simp at h; simp [h]

theorem head?_none {α : Type} {l : List α} : l.head? = none ↔ ∀ x, x ∉ l := by
  cases l with
  | nil => simp
  | cons a l => simp only [List.head?_cons, reduceCtorEq, false_iff, not_forall, not_not]; exact ⟨a, by simp⟩

/-- the prefix of a match is the shortest one for which there is a match -/
theorem lazyWord_first {β : Type} (f : Str → Str → List β) :
    ∀ (s : Str) (x : β), ((lazyWord s).flatMap fun p => f p.1 p.2).head? = some x →
      ∃ a b, s = a ++ b ∧ (∀ c ∈ a, PrefixChar c) ∧ x ∈ f a b ∧
        ∀ a' b', s = a' ++ b' → a'.length < a.length → f a' b' = [] := by
  intro s
  induction s generalizing f with
  | nil =>
    intro x h
    simp only [lazyWord, List.flatMap_cons, List.flatMap_nil, List.append_nil] at h
    exact ⟨[], [], rfl, by simp, head?_mem h, by simp⟩
  | cons c r ih =>
    intro x h
    unfold lazyWord at h
    simp only [List.flatMap_cons] at h
    cases hf : f [] (c :: r) with
    | cons y ys =>
      rw [hf] at h
      simp at h
      subst h
      exact ⟨[], c :: r, rfl, by simp, by rw [hf]; simp, by simp⟩
    | nil =>
      rw [hf] at h
      simp only [List.nil_append] at h
      split at h
      · rename_i hw
        rw [List.flatMap_map] at h
        obtain ⟨a, b, h1, h2, h3, h4⟩ := ih (fun a b => f (c :: a) b) x h
        refine ⟨c :: a, b, by rw [h1]; rfl, ?_, h3, ?_⟩
        · simp only [List.mem_cons, forall_eq_or_imp]
          exact ⟨(wordish_iff c).mp hw, h2⟩
        · intro a' b' e hl
          cases a' with
          | nil => simp at e; rw [← e, hf]
          | cons d a' =>
            simp only [List.cons_append, List.cons.injEq] at e
            obtain ⟨rfl, e⟩ := e
            exact h4 a' b' e (by simpa using hl)
      · simp at h

theorem convMatch_eq (s : Str) :
    convMatch s = (sifMatch s).map fun m => ⟨m.fileprefix, m.letter, m.ext⟩ := by
  unfold convMatch sifMatch
  rw [← List.head?_map, List.map_flatMap]
  simp only [convTail_eq]

/-- **file name analysis, exactly**: the parts found are the only ones for their prefix, and no
shorter prefix would do; the separator may be any character but a line break. -/
theorem sifMatch_iff (s : Str) (m : SifName) : sifMatch s = some m ↔
    (∃ sep, sep ≠ '\n' ∧ Splits s m.fileprefix m.letter m.selno sep m.ext) ∧
    ∀ pre l no sep ext, sep ≠ '\n' → pre.length < m.fileprefix.length →
      ¬ Splits s pre l no sep ext := by
  have fwd : ∀ m', sifMatch s = some m' →
      (∃ sep, sep ≠ '\n' ∧ Splits s m'.fileprefix m'.letter m'.selno sep m'.ext) ∧
      ∀ pre l no sep ext, sep ≠ '\n' → pre.length < m'.fileprefix.length →
        ¬ Splits s pre l no sep ext := by
    intro m' h
    obtain ⟨a, b, rfl, h2, h3, h4⟩ := lazyWord_first sifTail s m' h
    rw [sifTail_mem] at h3
    obtain ⟨h0, hx, sep, rest, rfl, k1, k2, k3, k4, k5⟩ := h3
    subst h0
    refine ⟨⟨sep, k4, hx, rest, by simp, h2, k1, k2, k3, k5⟩, ?_⟩
    rintro pre l no sep' ext hsep hlen ⟨hx', rest', e, q1, q2, q3, q4, q5⟩
    have hnil := h4 pre (l :: no ++ hx' ++ sep' :: ext ++ rest') (by rw [e]; simp) hlen
    have : (⟨pre, l, no, ext⟩ : SifName) ∈ sifTail pre (l :: no ++ hx' ++ sep' :: ext ++ rest') := by
      rw [sifTail_mem]
      exact ⟨rfl, hx', sep', rest', rfl, q2, q3, q4, hsep, q5⟩
    rw [hnil] at this
    simp at this
  refine ⟨fwd m, ?_⟩
  rintro ⟨⟨sep, hsep, hs⟩, hmin⟩
  cases hm : sifMatch s with
  | none =>
    exfalso
    unfold sifMatch at hm
    rw [head?_none] at hm
    obtain ⟨h, rest, e, q1, q2, q3, q4, q5⟩ := hs
    refine hm m (List.mem_flatMap.mpr ⟨(m.fileprefix,
      m.letter :: m.selno ++ h ++ sep :: m.ext ++ rest), ?_, ?_⟩)
    · rw [lazyWord_mem]
      exact ⟨by rw [e]; simp, q1⟩
    · rw [sifTail_mem]
      exact ⟨rfl, h, sep, rest, rfl, q2, q3, q4, hsep, q5⟩
  | some m' =>
    obtain ⟨⟨sep', hsep', hs'⟩, hmin'⟩ := fwd m' hm
    have hl : m'.fileprefix.length = m.fileprefix.length := by
      by_contra hne
      rcases Nat.lt_or_gt_of_ne hne with hlt | hlt
      · exact hmin _ _ _ _ _ hsep' hlt hs'
      · exact hmin' _ _ _ _ _ hsep hlt hs
    obtain ⟨h, rest, e, q1, q2, q3, q4, q5⟩ := hs
    obtain ⟨h', rest', e', q1', q2', q3', q4', q5'⟩ := hs'
    rw [e] at e'
    simp only [List.append_assoc, List.cons_append] at e'
    obtain ⟨ep, et⟩ := List.append_inj e' hl.symm
    simp only [List.cons.injEq] at et
    obtain ⟨el, et⟩ := et
    obtain ⟨en, ee⟩ := tail_unique (no := m.selno) (h := h) (sep := sep) (ext := m.ext)
      (rest := rest) (no' := m'.selno) (h' := h') (sep' := sep') (ext' := m'.ext) (rest' := rest')
      (by simpa using et) q3 q4 q5 q3' q4' q5'
    cases m; cases m'
    simp_all

/-- a proper prefix of the prefix of a SESAM file name never splits the name -/
theorem sesam_first {s pre : Str} {l : Char} {no ext : Str} (h : SesamName s pre l no ext)
    {pre' : Str} {l' : Char} {no' : Str} {sep' : Char} {ext' : Str}
    (hlen : pre'.length < pre.length) : ¬ Splits s pre' l' no' sep' ext' := by
  rintro ⟨h', rest', e', _, p2, p3, p4, p5⟩
  obtain ⟨⟨hx, rest, e, _, q2, q3, q4, q5⟩, hno⟩ := h
  rw [e] at e'
  simp only [List.append_assoc, List.cons_append] at e'
  -- pre = pre' ++ m
  obtain ⟨m, rfl⟩ : ∃ m, pre = pre' ++ m := by
    rcases List.append_eq_append_iff.mp e' with ⟨k, h1, _⟩ | ⟨k, h1, _⟩
    · rw [h1] at hlen; simp at hlen
    · exact ⟨k, h1⟩
  cases m with
  | nil => simp at hlen
  | cons a m =>
    rw [List.append_assoc] at e'
    have e2 := List.append_cancel_left e'
    simp only [List.cons_append, List.cons.injEq] at e2
    obtain ⟨rfl, e2⟩ := e2
    -- m ++ l :: tail = (no' ++ h') ++ sep' :: ext' ++ rest'
    have e3 : m ++ l :: (no ++ (hx ++ '.' :: (ext ++ rest))) =
        (no' ++ h' ++ sep' :: ext') ++ rest' := by simpa using e2
    rcases List.append_eq_append_iff.mp e3 with ⟨k, h1, h2⟩ | ⟨k, h1, h2⟩
    · -- the letter lies inside
      cases k with
      | nil =>
        apply hno ext' p5
        exact ⟨pre' ++ a :: (no' ++ h' ++ [sep']), [], by simp at h1; simp [← h1]⟩
      | cons b k =>
        simp only [List.cons_append, List.cons.injEq] at h2
        obtain ⟨rfl, h2⟩ := h2
        rw [List.append_assoc] at h1
        have h1' : (no' ++ h') ++ (sep' :: ext') = m ++ l :: k := by simpa using h1
        rcases List.append_eq_append_iff.mp h1' with ⟨j, g1, g2⟩ | ⟨j, g1, g2⟩
        · cases j with
          | nil =>
            simp only [List.nil_append, List.cons.injEq] at g2
            obtain ⟨rfl, rfl⟩ := g2
            obtain ⟨d, ds, rfl, hd, _⟩ := q3
            obtain ⟨x, y, z, rfl, hxyz⟩ := p5
            simp only [List.cons_append, List.cons.injEq] at h2
            obtain ⟨rfl, _⟩ := h2
            exact numChar_not_ext ⟨d, y, z, rfl, hxyz⟩ (by simp)
              (.inl ⟨Char.le_trans (by decide) hd.1, hd.2⟩)
          | cons c j =>
            simp only [List.cons_append, List.cons.injEq] at g2
            obtain ⟨rfl, g2⟩ := g2
            exact not_letter_of_ext p5 (by rw [g2]; simp) q2
        · cases j with
          | nil =>
            simp only [List.nil_append, List.cons.injEq] at g2
            obtain ⟨rfl, rfl⟩ := g2
            obtain ⟨d, ds, rfl, hd, _⟩ := q3
            obtain ⟨x, y, z, rfl, hxyz⟩ := p5
            simp only [List.cons_append, List.cons.injEq] at h2
            obtain ⟨rfl, _⟩ := h2
            exact numChar_not_ext ⟨d, y, z, rfl, hxyz⟩ (by simp)
              (.inl ⟨Char.le_trans (by decide) hd.1, hd.2⟩)
          | cons c j =>
            simp only [List.cons_append, List.cons.injEq] at g2
            obtain ⟨rfl, _⟩ := g2
            exact numChar_not_letter (numChar_of p3 p4 l (by rw [g1]; simp)) q2
    · -- the extension lies in the prefix
      apply hno ext' p5
      exact ⟨pre' ++ a :: (no' ++ h' ++ [sep']), k, by simp [h1]⟩

theorem splitPath_eq {dir name : Str} (hd : dir = [] ∨ ∃ d, dir = d ++ ['/'])
    (hn : '/' ∉ name) : splitPath (dir ++ name) = (dir, name) := by
  have hrev : ∀ c ∈ name.reverse, (c != '/') = true := by
    intro c hc
    simp only [List.mem_reverse] at hc
    simp only [bne_iff_ne, ne_eq]
    rintro rfl
    exact hn hc
  unfold splitPath
  rw [List.reverse_append]
  rcases hd with rfl | ⟨d, rfl⟩
  · simp only [List.reverse_nil, List.append_nil]
    have h1 := List.takeWhile_append_of_pos (l₂ := []) hrev
    have h2 := List.dropWhile_append_of_pos (l₂ := []) hrev
    rw [List.append_nil] at h1 h2
    rw [h1, h2]
    simp
  · rw [List.takeWhile_append_of_pos hrev, List.dropWhile_append_of_pos hrev]
    simp

/-- **C22** `parse_sifname` returns the parts of a SESAM file name, whatever the directory, the
letter case, the hierarchy index and the text behind the extension. -/
theorem sifname_parts {filename dir name pre no ext : Str} {l : Char}
    (hp : PathOf filename dir name) (h : SesamName name pre l no ext) :
    parseSifname filename = .ok ⟨pre, l, no, ext⟩ := by
  obtain ⟨rfl, hd, hn⟩ := hp
  unfold parseSifname
  rw [splitPath_eq hd hn]
  have : sifMatch name = some ⟨pre, l, no, ext⟩ :=
    (sifMatch_iff _ _).mpr ⟨⟨'.', by decide, h.1⟩, fun _ _ _ _ _ _ hlen => sesam_first h hlen⟩
  simp only [this]

/-- **C22** a name that cannot be split into prefix, letter, number, index, separator and
extension raises `ValueError`; any other name gives parts of the name -/
theorem sifname_raises {filename dir name : Str} (hp : PathOf filename dir name) :
    (parseSifname filename = .error .valueError ↔
      ∀ pre l no sep ext, Splits name pre l no sep ext → sep = '\n') ∧
    (∀ e, parseSifname filename = .error e → e = .valueError) := by
  obtain ⟨rfl, hd, hn⟩ := hp
  unfold parseSifname
  rw [splitPath_eq hd hn]
  dsimp only
  constructor
  · cases hm : sifMatch name with
    | some m =>
      simp only [reduceCtorEq, false_iff]
      obtain ⟨⟨sep, h1, h2⟩, _⟩ := (sifMatch_iff _ _).mp hm
      intro hall
      exact h1 (hall _ _ _ _ _ h2)
    | none =>
      simp only [true_iff]
      intro pre l no sep ext hs
      by_contra hsep
      unfold sifMatch at hm
      rw [head?_none] at hm
      obtain ⟨h, rest, e, q1, q2, q3, q4, q5⟩ := hs
      refine hm ⟨pre, l, no, ext⟩ (List.mem_flatMap.mpr ⟨(pre,
        l :: no ++ h ++ sep :: ext ++ rest), ?_, ?_⟩)
      · rw [lazyWord_mem]
        exact ⟨by rw [e]; simp, q1⟩
      · rw [sifTail_mem]
        exact ⟨rfl, h, sep, rest, rfl, q2, q3, q4, hsep, q5⟩
  · intro e
    split <;> intro he <;> cases he
    rfl

/-- **C22** the converter (`sif2hdf5`) and `open_sif` (`parse_sifname`) agree about prefix, letter
and extension of every name -/
theorem names_agree {filename dir name : Str} (hp : PathOf filename dir name) :
    (∀ m, parseSifname filename = .ok m → convMatch name = some ⟨m.fileprefix, m.letter, m.ext⟩) ∧
    (parseSifname filename = .error .valueError → convMatch name = none) := by
  obtain ⟨rfl, hd, hn⟩ := hp
  unfold parseSifname
  rw [splitPath_eq hd hn, convMatch_eq]
  dsimp only
  cases sifMatch name <;> simp

section
/-! A name with a hierarchy index and a lower case extension. -/
private theorem demoNumber : IsNumber "12".toList := ⟨'1', ['2'], rfl, by decide, by decide⟩

theorem demoName : SesamName "rig-A_R12H3.siu".toList "rig-A_".toList 'R' "12".toList "siu".toList := by
  refine ⟨⟨"H3".toList, [], rfl, ?_, by unfold FileLetter; decide, demoNumber,
    .inr ⟨'H', ['3'], rfl, .inl rfl, ⟨'3', [], rfl, by decide, by simp⟩⟩,
    's', 'i', 'u', rfl, by decide⟩, ?_⟩
  · unfold PrefixChar; decide
  · rintro e ⟨x, y, z, rfl, h⟩ ⟨a, b, hab⟩
    have h1 : x ∈ "rig-A_".toList := by rw [← hab]; simp
    have h3 : z ∈ "rig-A_".toList := by rw [← hab]; simp
    simp only [List.mem_cons, List.not_mem_nil, or_false] at h
    rcases h with ⟨h | h, _⟩ | ⟨h | h, _⟩ <;> subst h <;> revert h1 <;> decide

example : parseSifname "runs/rig-A_R12H3.siu".toList =
    .ok ⟨"rig-A_".toList, 'R', "12".toList, "siu".toList⟩ :=
  sifname_parts (dir := "runs/".toList) (name := "rig-A_R12H3.siu".toList)
    ⟨rfl, .inr ⟨"runs".toList, rfl⟩, by decide⟩ demoName

/-- the condition on the prefix is needed: an extension inside the prefix is taken for the one of
the file -/
example : parseSifname "T1.SIF_R2.FEM".toList = .ok ⟨[], 'T', "1".toList, "SIF".toList⟩ := by
  decide +kernel

/-- the dot of the pattern stands for any character -/
example : parseSifname "R1_SIF".toList = .ok ⟨[], 'R', "1".toList, "SIF".toList⟩ := by
  decide +kernel

example : parseSifname "R01.SIF".toList = .error .valueError := by decide +kernel
end

end Verif.Conv
