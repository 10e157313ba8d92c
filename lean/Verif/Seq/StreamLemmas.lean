import Verif.Seq.Logical
/-!
# Lemmas about value streams, names and slices used by both simulations
-/

namespace Verif.Seq

theorem pyTake_nat {α : Type} (l : List α) (n : Nat) : pyTake l (n : Int) = l.take n := by
  simp [pyTake]

theorem pyDrop_nat {α : Type} (l : List α) (n : Nat) : pyDrop l (n : Int) = l.drop n := by
  simp [pyDrop]

theorem flatten_dropLast_length_le {α : Type} (vss : List (List α)) :
    vss.dropLast.flatten.length ≤ vss.flatten.length := by
  induction vss with
  | nil => simp
  | cons v vs ih =>
    cases vs with
    | nil => simp
    | cons w ws =>
      simp only [List.dropLast_cons_cons, List.flatten_cons, List.length_append] at ih ⊢
      omega

/-- Consuming `n` values of a stream: `lead` is the leftover buffer, `v1` the value groups that
have been read for the request, `v2` those still in the file. -/
theorem stream_step {lead vals pad : List PyF} {v1 v2 : List (List PyF)} {n : Nat}
    (hn : n ≤ vals.length) (hall : lead ++ (v1 ++ v2).flatten = vals ++ pad)
    (hlast : v1 ++ v2 ≠ [] → (lead ++ (v1 ++ v2).dropLast.flatten).length < vals.length)
    (hgot : n ≤ (lead ++ v1.flatten).length) :
    (lead ++ v1.flatten).take n = vals.take n ∧
    (lead ++ v1.flatten).drop n ++ v2.flatten = vals.drop n ++ pad ∧
    (v2 ≠ [] → ((lead ++ v1.flatten).drop n ++ v2.dropLast.flatten).length <
      (vals.drop n).length) := by
  have hall' : (lead ++ v1.flatten) ++ v2.flatten = vals ++ pad := by
    rw [← hall]; simp
  refine ⟨?_, ?_, ?_⟩
  · have h1 : ((lead ++ v1.flatten) ++ v2.flatten).take n = (lead ++ v1.flatten).take n :=
      List.take_append_of_le_length hgot
    have h2 : (vals ++ pad).take n = vals.take n := List.take_append_of_le_length hn
    rw [← h1, hall', h2]
  · have h1 : ((lead ++ v1.flatten) ++ v2.flatten).drop n
        = (lead ++ v1.flatten).drop n ++ v2.flatten := List.drop_append_of_le_length hgot
    have h2 : (vals ++ pad).drop n = vals.drop n ++ pad := List.drop_append_of_le_length hn
    rw [← h1, hall', h2]
  · intro hv2
    have hne : v1 ++ v2 ≠ [] := by simp [hv2]
    have h := hlast hne
    rw [List.dropLast_append_of_ne_nil hv2] at h
    simp only [List.length_append, List.flatten_append, List.length_drop] at h hgot ⊢
    omega

/-! ### names -/

theorem stripBy_append_replicate {α : Type} {p : α → Bool} {l : List α} {b : α} (k : Nat)
    (hl : ∀ c ∈ l, p c = false) (hb : p b = true) :
    stripBy p (l ++ List.replicate k b) = l := by
  cases l with
  | nil =>
    have : (List.replicate k b).dropWhile p = [] := by
      induction k with
      | zero => rfl
      | succ k ih => simp [List.replicate_succ, hb, ih]
    simp [stripBy, this]
  | cons a l =>
    have ha : p a = false := hl a (by simp)
    have h1 : (a :: l ++ List.replicate k b).dropWhile p = a :: l ++ List.replicate k b := by
      simp [ha]
    have h2 : ∀ k, (List.replicate k b ++ (a :: l).reverse).dropWhile p = (a :: l).reverse := by
      intro k
      induction k with
      | zero =>
        have : ∀ m : List α, (∀ c ∈ m, p c = false) → m.dropWhile p = m := by
          intro m hm
          cases m with
          | nil => rfl
          | cons x m => simp [hm x (by simp)]
        simp only [List.replicate_zero, List.nil_append]
        exact this _ (by intro c hc; exact hl c (List.mem_reverse.mp hc))
      | succ k ih =>
        simp only [List.replicate_succ, List.cons_append, List.dropWhile_cons, hb, if_true]
        exact ih
    unfold stripBy
    rw [h1, List.reverse_append, List.reverse_replicate, h2, List.reverse_reverse]

theorem wsChar_eq_false {c : Char} (h : 33 ≤ c.toNat ∧ c.toNat ≤ 126) : wsChar c = false := by
  have aux : ∀ d : Char, d.toNat < 33 → (c == d) = false := by
    intro d hd
    rw [beq_eq_false_iff_ne]
    rintro rfl
    omega
  unfold wsChar
  simp only [aux ' ' (by decide), aux '\t' (by decide), aux '\n' (by decide),
    aux '\x0b' (by decide), aux '\x0c' (by decide), aux '\r' (by decide), aux '\x1c' (by decide),
    aux '\x1d' (by decide), aux '\x1e' (by decide), aux '\x1f' (by decide), Bool.or_self]

theorem toByte_toNat {c : Char} (h : c.toNat ≤ 126) : (toByte c).toNat = c.toNat := by
  unfold toByte
  rw [UInt8.toNat_ofNat']
  omega

theorem latin1_toByte {c : Char} (h : c.toNat ≤ 126) : latin1 (toByte c) = c := by
  unfold latin1
  rw [toByte_toNat h]
  exact Char.ofNat_toNat c

theorem map_latin1_toByte {t : Str} (h : ∀ c ∈ t, c.toNat ≤ 126) :
    (t.map toByte).map latin1 = t := by
  induction t with
  | nil => rfl
  | cons c t ih =>
    simp only [List.map_cons]
    rw [latin1_toByte (h c (by simp)), ih (fun d hd => h d (by simp [hd]))]

theorem wsByte_eq_false {c : Char} (h : 33 ≤ c.toNat ∧ c.toNat ≤ 126) :
    wsByte (toByte c) = false := by
  have hb := toByte_toNat h.2
  have aux : ∀ d : UInt8, d.toNat < 33 → (toByte c == d) = false := by
    intro d hd
    rw [beq_eq_false_iff_ne]
    intro he
    rw [he] at hb
    omega
  unfold wsByte
  simp only [aux 32 (by decide), aux 9 (by decide), aux 10 (by decide),
    aux 11 (by decide), aux 12 (by decide), aux 13 (by decide), Bool.or_self]

theorem nameField_length {name : String} (h : NameOK name) : (nameField name).length = 8 := by
  unfold nameField
  have := h.2.1
  simp only [List.length_append, List.length_replicate]
  omega

theorem nameField_le {name : String} (h : NameOK name) : ∀ c ∈ nameField name, c.toNat ≤ 126 := by
  intro c hc
  unfold nameField at hc
  rcases List.mem_append.mp hc with hc | hc
  · exact (h.2.2 c hc).2
  · rw [List.eq_of_mem_replicate hc]; decide

theorem nameField_ne_newline {name : String} (h : NameOK name) : '\n' ∉ nameField name := by
  intro hc
  unfold nameField at hc
  rcases List.mem_append.mp hc with hc | hc
  · exact absurd (h.2.2 _ hc).1 (by decide)
  · exact absurd (List.eq_of_mem_replicate hc) (by decide)

theorem strip_nameField {name : String} (h : NameOK name) :
    stripBy wsChar (nameField name) = name.toList :=
  stripBy_append_replicate _ (fun c hc => wsChar_eq_false (h.2.2 c hc)) (by decide)

theorem strip_nameField_bytes {name : String} (h : NameOK name) :
    stripBy wsByte ((nameField name).map toByte) = name.toList.map toByte := by
  have : (nameField name).map toByte =
      name.toList.map toByte ++ List.replicate (8 - name.toList.length) 32 := by
    unfold nameField
    rw [List.map_append, List.map_replicate]
    rfl
  rw [this]
  refine stripBy_append_replicate _ ?_ (by decide)
  intro b hb
  obtain ⟨c, hc, rfl⟩ := List.mem_map.mp hb
  exact wsByte_eq_false (h.2.2 c hc)

theorem decode_nameField {name : String} (h : NameOK name) :
    decodeAscii ((nameField name).map toByte) = .ok (nameField name) := by
  unfold decodeAscii
  rw [if_pos, map_latin1_toByte (nameField_le h)]
  rw [List.all_eq_true]
  intro b hb
  obtain ⟨c, hc, rfl⟩ := List.mem_map.mp hb
  have h1 := nameField_le h c hc
  have h2 := toByte_toNat h1
  rw [decide_eq_true_eq, UInt8.lt_iff_toNat_lt]
  have : (128 : UInt8).toNat = 128 := rfl
  omega

theorem nameField_ne_blanks {name : String} (h : NameOK name) :
    nameField name ≠ List.replicate 8 ' ' := by
  intro he
  have := strip_nameField h
  rw [he] at this
  have hs : stripBy wsChar (List.replicate 8 ' ') = [] := by decide
  rw [hs] at this
  exact h.1 this.symm

theorem nameBytes_ne_blanks {name : String} (h : NameOK name) :
    (nameField name).map toByte ≠ List.replicate 8 32 := by
  intro he
  have h1 := map_latin1_toByte (nameField_le h)
  rw [he] at h1
  exact nameField_ne_blanks h (by rw [← h1]; decide)

theorem name_ne_empty {name : String} (h : NameOK name) : name ≠ "" := by
  rintro rfl
  exact h.1 rfl

theorem mem_allowedB (n : String) : n ∈ allowedNamesB ↔ n ∈ knownNames := by
  have h1 : ∀ n ∈ allowedNamesB, n ∈ knownNames := by decide +kernel
  have h2 : ∀ n ∈ knownNames, n ∈ allowedNamesB := by decide +kernel
  exact ⟨h1 n, h2 n⟩

theorem allowedB_name {name : String} (h : NameOK name) :
    allowedB (stripBy wsByte ((nameField name).map toByte)) = knownNames.contains name := by
  unfold allowedB
  rw [strip_nameField_bytes h, map_latin1_toByte (fun c hc => (h.2.2 c hc).2),
    String.ofList_toList, Bool.eq_iff_iff, List.contains_iff_mem, List.contains_iff_mem]
  exact mem_allowedB name

theorem allowedS_name {name : String} (h : NameOK name) :
    allowedS (stripBy wsChar (nameField name)) = allowedNamesStr.contains name := by
  unfold allowedS
  rw [strip_nameField h, String.ofList_toList]

theorem allowedB_nil : allowedB [] = false := by decide +kernel
theorem allowedS_nil : allowedS [] = false := by decide +kernel

/-- every name recognised on unformatted files is recognised on formatted files -/
theorem allowed_sub : ∀ n ∈ knownNames, n ∈ allowedNamesStr := by decide +kernel

/-- stripping printable text: only blanks can be stripped -/
theorem stripBy_congr {α : Type} {p q : α → Bool} {l : List α} (h : ∀ c ∈ l, p c = q c) :
    stripBy p l = stripBy q l := by
  have aux : ∀ m : List α, (∀ c ∈ m, p c = q c) → m.dropWhile p = m.dropWhile q := by
    intro m hm
    induction m with
    | nil => rfl
    | cons a m ih =>
      simp only [List.dropWhile_cons, hm a (by simp)]
      rw [ih (fun c hc => hm c (by simp [hc]))]
  unfold stripBy
  rw [aux l h, aux]
  intro c hc
  rw [List.mem_reverse] at hc
  exact h c ((List.dropWhile_sublist q).mem hc)

theorem stripBy_map {α β : Type} {p : β → Bool} {f : α → β} (l : List α) :
    stripBy p (l.map f) = (stripBy (p ∘ f) l).map f := by
  unfold stripBy
  rw [List.dropWhile_map, ← List.map_reverse, List.dropWhile_map, ← List.map_reverse]

theorem strip_text {t : Str} (h : TextOK t) : stripBy wsChar t = stripBy (· == ' ') t := by
  apply stripBy_congr
  intro c hc
  by_cases hb : c = ' '
  · subst hb; decide
  · have : 33 ≤ c.toNat := by
      have h1 := (h c hc).1
      rcases Nat.lt_or_ge c.toNat 33 with h2 | h2
      · exfalso
        apply hb
        have : c.toNat = 32 := by omega
        have h3 := Char.ofNat_toNat c
        rw [this] at h3
        exact h3.symm
      · exact h2
    rw [wsChar_eq_false ⟨this, (h c hc).2⟩]
    exact (beq_eq_false_iff_ne.mpr hb).symm

theorem strip_text_bytes {t : Str} (h : TextOK t) :
    stripBy wsByte (t.map toByte) = (stripBy (· == ' ') t).map toByte := by
  rw [stripBy_map]
  congr 1
  apply stripBy_congr
  intro c hc
  by_cases hb : c = ' '
  · subst hb; decide
  · have : 33 ≤ c.toNat := by
      have h1 := (h c hc).1
      rcases Nat.lt_or_ge c.toNat 33 with h2 | h2
      · exfalso
        apply hb
        have : c.toNat = 32 := by omega
        have h3 := Char.ofNat_toNat c
        rw [this] at h3
        exact h3.symm
      · exact h2
    rw [Function.comp, wsByte_eq_false ⟨this, (h c hc).2⟩]
    exact (beq_eq_false_iff_ne.mpr hb).symm

theorem mem_stripBy {α : Type} {p : α → Bool} {l : List α} {c : α} (h : c ∈ stripBy p l) :
    c ∈ l := by
  unfold stripBy at h
  rw [List.mem_reverse] at h
  have := (List.dropWhile_sublist p).mem h
  rw [List.mem_reverse] at this
  exact (List.dropWhile_sublist p).mem this

theorem decode_text {t : Str} (h : ∀ c ∈ t, c.toNat ≤ 126) :
    decodeAscii (t.map toByte) = .ok t := by
  unfold decodeAscii
  rw [if_pos, map_latin1_toByte h]
  rw [List.all_eq_true]
  intro b hb
  obtain ⟨c, hc, rfl⟩ := List.mem_map.mp hb
  have h2 := toByte_toNat (h c hc)
  have h3 := h c hc
  rw [decide_eq_true_eq, UInt8.lt_iff_toNat_lt]
  have : (128 : UInt8).toNat = 128 := rfl
  omega

theorem isTD_iff (name : String) : name.toList.take 2 = ['T', 'D'] ↔ isTD name := by
  unfold isTD
  constructor
  · intro h
    refine ⟨name.toList.drop 2, ?_⟩
    have := List.take_append_drop 2 name.toList
    rw [h] at this
    exact this.symm
  · rintro ⟨r, hr⟩
    rw [hr]; rfl

end Verif.Seq
