import Verif.Parse.CutInside
import Verif.Seq.Decoder
import Verif.Parse.Newline
/-!
# Formatted files that end inside a line

The character in front of the end is lost (C60), what is left of the number in front of it is read as
a number, and the values that are missing are stored as zeros.
-/

namespace Verif.Parse
open Verif Verif.Seq

section
variable {only : Option (List String)} {sk : LRec → Bool} {e0 : Int → Option Int}

/-- The last record of the beginning of a file may be another one of the same type. -/
theorem Accepts.replaceLast {a b : List LRec} {r : LRec} {outs : List Added} {names : List String}
    {n k : Nat} (hacc : Accepts only sk e0 none [] (a ++ r :: b) outs names)
    (hend : ∀ x ∈ a, ¬ (EndOfFile x ∧ Selected only x.name)) (he : "" ∉ a.map LRec.name)
    (ht : (r.name, n, k) ∈ fixedTypes ++ optionalTypes) (hsel : Selected only r.name)
    (hnv : NotVoid r) :
    ∃ past x o1 o o2 n1 n2, outs = o1 ++ o :: o2 ∧ names = n1 ++ n2 ∧ o.name = r.name ∧
      Adds e0 past b.head? x r o ∧
      ∀ r' cells, r'.name = r.name → NotVoid r' →
        Adds e0 past (some endMark) x r' { o with cells := cells } →
        Accepts only sk e0 none [] (a ++ [r', endMark]) (o1 ++ [{ o with cells := cells }]) n1 := by
  have htab : HasTable r.name := by
    have : ∀ t ∈ fixedTypes ++ optionalTypes, t.1 ∈ layouts.map (·.name) := by decide +kernel
    exact hasTable_iff.mpr (this _ ht)
  have hident : r.name ≠ "IDENT" := by
    have : ∀ t ∈ fixedTypes ++ optionalTypes, t.1 ≠ "IDENT" := by decide
    exact this _ ht
  have hmesh : r.name ≠ "SCONMESH" := by
    have : ∀ t ∈ fixedTypes ++ optionalTypes, t.1 ≠ "SCONMESH" := by decide
    exact this _ ht
  have hne : r.name ≠ "" := (hasTable_ne htab).1
  obtain ⟨cur, past, p, outs1, pn, names1, rfl, rfl, k1, k2⟩ := Accepts.split a hacc hend he
  have hnext : ∀ r' : LRec, r'.name = r.name → ∀ past x y o, Adds e0 past (r :: b).head? x y o →
      Adds e0 past [r', endMark].head? x y o := by
    rintro r' hr' past x y o ⟨e, l, g1, g2⟩
    refine ⟨e, l, g1.otherNext (fun h => ?_) (fun h => ?_), g2⟩
    · have : r = endMark := by simpa using h
      exact absurd (by rw [this]; rfl) hne
    · have : ∀ t ∈ fixedTypes ++ optionalTypes, t.1 ∈ knownNames := by decide +kernel
      exact ⟨_, rfl, by rw [hr']; exact this _ ht⟩
  have hfin : ∀ r' : LRec, r'.name = r.name →
      Accepts only sk e0 (some r'.name) (r' :: past) [endMark] [] [] := fun r' hr' =>
    .eof rfl fun h => hne (hr' ▸ Option.some.inj h)
  have hnm : ∀ {past x o}, Adds e0 past b.head? x r o → o.name = r.name := by
    rintro past x o ⟨e, l, -, -, -, g, -⟩
    exact g
  have base : ∃ x o o2 m1 m2, outs1 = o :: o2 ∧ names1 = m1 ++ m2 ∧ Adds e0 past b.head? x r o ∧
      ∀ r' cells, r'.name = r.name → NotVoid r' →
        Adds e0 past (some endMark) x r' { o with cells := cells } →
        Accepts only sk e0 cur past [r', endMark] [{ o with cells := cells }] m1 := by
    generalize hg : r :: b = g at k1
    cases k1 with
    | stop h1 h2 =>
      obtain ⟨rfl, rfl⟩ := List.cons.inj hg
      exact absurd h2.1 (hasTable_ne htab).2.1
    | eof hm =>
      obtain ⟨rfl, _⟩ := List.cons.inj hg
      exact absurd hm hne
    | more h1 h2 h3 =>
      obtain ⟨rfl, rfl⟩ := List.cons.inj hg
      refine ⟨_, _, _, [], _, rfl, rfl, h2, fun r' cells hr' _ ha => ?_⟩
      rw [← hr']
      exact .more (r := r') (hr' ▸ h1) ha (hfin r' hr')
    | first h1 h2 h3 h4 h5 h6 h7 =>
      obtain ⟨rfl, rfl⟩ := List.cons.inj hg
      refine ⟨_, _, _, [r.name], _, rfl, rfl, h6, fun r' cells hr' hv ha => ?_⟩
      rw [← hr']
      exact .first (r := r') (hr' ▸ h1) (hr' ▸ h2) (hr' ▸ h3) hv (fun h => absurd (hr' ▸ h) hmesh) ha
        (hfin r' hr')
    | ident h1 =>
      obtain ⟨rfl, rfl⟩ := List.cons.inj hg
      exact absurd h1 hident
    | void _ _ _ h =>
      obtain ⟨rfl, rfl⟩ := List.cons.inj hg
      cases h with
      | one h' _ =>
        obtain ⟨x, t, e1, e2⟩ := hnv
        obtain ⟨rfl, _⟩ := List.cons.inj e1
        rw [h'] at e2; cases e2
      | two =>
        obtain ⟨x, t, e1, e2⟩ := hnv
        obtain ⟨rfl, _⟩ := List.cons.inj e1
        exact absurd e2 (by decide +kernel)
    | unselected _ _ h =>
      obtain ⟨rfl, rfl⟩ := List.cons.inj hg
      exact absurd hsel h
    | unread _ _ _ _ h =>
      obtain ⟨rfl, rfl⟩ := List.cons.inj hg
      exact absurd htab h
    | unreadMore _ _ _ h =>
      obtain ⟨rfl, rfl⟩ := List.cons.inj hg
      exact absurd htab h
    | recsize _ h =>
      obtain ⟨rfl, rfl⟩ := List.cons.inj hg
      exact absurd h.1 (hasTable_ne htab).2.2
    | notEnd _ h =>
      obtain ⟨rfl, rfl⟩ := List.cons.inj hg
      exact absurd h.1 (hasTable_ne htab).2.1
  obtain ⟨x, o, o2, m1, m2, rfl, rfl, g1, g2⟩ := base
  exact ⟨past, x, p, o, o2, pn ++ m1, m2, rfl, (List.append_assoc _ _ _).symm, hnm g1, g1,
    fun r' cells hr' hv ha => k2 _ _ _ (hnext r' hr') (g2 r' cells hr' hv ha)⟩

/-- complete lines -/
def Lines (t : Str) : Prop := t = [] ∨ t.getLast? = some '\n'

theorem lines_unlines (ls : List Str) : Lines (T.unlines ls) := by
  induction ls with
  | nil => exact .inl rfl
  | cons l ls ih =>
    right
    rw [T.unlines, List.getLast?_append, List.getLast?_cons]
    rcases ih with h | h <;> simp [h]

theorem Lines.append {s t : Str} (hs : Lines s) (ht : Lines t) : Lines (s ++ t) := by
  rcases ht with rfl | ht
  · rwa [List.append_nil]
  · right
    rw [List.getLast?_append, ht]
    rfl

/-- the beginning of a formatted file and the lines of the record behind it -/
theorem formatted_replace {D : Dec} {z : Str} {b : List LRec} {r : LRec} (hname : r.name ≠ "") :
    ∀ (a : List LRec) {t : Str}, T.Encodes D sk z (a ++ r :: b) t → endMark ∉ a →
      ∃ t1 c body t2, t = t1 ++ (T.unlines (c :: body) ++ t2) ∧ Lines t1 ∧ T.Head D r c ∧
        T.Body D r body ∧
        ∀ D' : Dec, D'.Extends D → ∀ r' c' body', r'.name = r.name → T.Head D' r' c' →
          T.Body D' r' body' → sk r' = false →
          T.Encodes D' sk [] (a ++ [r', endMark]) (t1 ++ T.unlines (c' :: body'))
  | [], t, h, _ => by
    generalize hg : [] ++ r :: b = g at h
    cases h with
    | nil => cases hg
    | eof =>
      obtain ⟨rfl, _⟩ := List.cons.inj hg
      exact absurd rfl hname
    | @cons r' rs c body t' h1 h2 h4 h5 =>
      obtain ⟨rfl, rfl⟩ := List.cons.inj hg
      refine ⟨[], c, body, t', rfl, .inl rfl, h1, h2, fun D' _ r' c' body' _ g1 g2 g3 => ?_⟩
      have := T.Encodes.cons (z := []) g1 g2 (fun e => by rw [g3] at e; cases e)
          (T.Encodes.eof (D := D') (sk := sk) rfl)
      rwa [List.append_nil] at this
  | x :: a, t, h, he => by
    have he' : endMark ∉ a := fun h => he (List.mem_cons_of_mem _ h)
    generalize hg : x :: a ++ r :: b = g at h
    cases h with
    | nil => cases hg
    | eof =>
      obtain ⟨rfl, _⟩ := List.cons.inj hg
      exact absurd List.mem_cons_self he
    | @cons r' rs c0 body0 t' h1 h2 h4 h5 =>
      obtain ⟨rfl, rfl⟩ := List.cons.inj hg
      obtain ⟨t1, c, body, t2, rfl, k0, k1, k2, k3⟩ := formatted_replace hname a h5 he'
      refine ⟨T.unlines (c0 :: body0) ++ t1, c, body, t2, (List.append_assoc _ _ _).symm,
        (lines_unlines _).append k0, k1, k2, fun D' hD r' c' body' hr' g1 g2 g3 => ?_⟩
      rw [List.append_assoc]
      refine .cons (h1.extends hD) (h2.extends hD) (fun e n hn => ?_) (k3 D' hD r' c' body' hr' g1 g2 g3)
      refine T.Skippable.extends hD ?_
      cases a with
      | nil =>
        obtain rfl : r' = n := by simpa using hn
        rw [hr']
        exact h4 e r (by simp)
      | cons y a => exact h4 e n hn

/-! ### fields of the first characters of a line -/

theorem fields_length : ∀ (n : Nat) (t : Str), t.length ≤ n →
    (T.fields n t).length = (t.length + 15) / 16
  | 0, t, h => by
    have : t = [] := List.length_eq_zero_iff.mp (by omega)
    subst this
    rfl
  | n + 1, t, h => by
    unfold T.fields
    by_cases ht : t = []
    · subst ht; rfl
    · rw [if_neg ht, List.length_cons, fields_length n _ (by
        rw [List.length_drop]
        have := List.length_pos_iff.mpr ht
        omega), List.length_drop]
      have := List.length_pos_iff.mpr ht
      omega

theorem floatAll_length (D : Dec) : ∀ {ts : List Str} {vs : List PyF}, T.floatAll D ts = .ok vs →
    vs.length = ts.length
  | [], vs, h => by cases h; rfl
  | t :: ts, vs, h => by
    unfold T.floatAll at h
    split at h
    · cases h
    · split at h
      · cases h
      · cases h
        rename_i xs hx
        rw [List.length_cons, List.length_cons, floatAll_length D hx]

theorem tofloatrec_length {D : Dec} {t : Str} {vs : List PyF} (h : T.tofloatrec D t = .ok vs) :
    vs.length = (t.length + 15) / 16 := by
  rw [floatAll_length D h, fields_length _ _ le_rfl]

/-! ### what is read -/

/-- the record with the values `w` behind its first line, of which those are used that there are
places for -/
def withValues (r : LRec) (n : Nat) (w : List PyF) : LRec :=
  { r with vals := w.take (n - 4), pad := w.drop (n - 4) }

theorem means_fixed_skip {past : List LRec} {next : Option LRec} {r : LRec} {e : Entry}
    (h : Means e0 past next r e) {n k : Nat} (hf : (r.name, n, k) ∈ fixedTypes) (hv : r.vals ≠ [])
    (hnext : next ≠ some endMark) : r.skip = k := by
  have hn : r.name ∈ fixedTypes.map (·.1) := List.mem_map.mpr ⟨_, hf, rfl⟩
  cases h
  case fixed h1 _ h3 =>
    have : ∀ a ∈ fixedTypes, ∀ b ∈ fixedTypes, a.1 = b.1 → a = b := by decide
    have := this _ h1 _ hf rfl
    rw [h3 hv]
    exact congrArg (fun t => t.2.2) this
  case fixedCut h3 => exact absurd h3 hnext
  all_goals clear hf
  other_types hn

theorem Adds.withValues {past : List LRec} {next : Option LRec} {x : Bool} {r : LRec} {o : Added}
    (h : Adds e0 past next x r o) {n k : Nat} {w : List PyF} {cells : List Cell}
    (ht : (r.name, n, k) ∈ fixedTypes ++ optionalTypes) (hv : r.vals ≠ [])
    (hnext : next ≠ some endMark)
    (hc : ∀ l ∈ layouts, l.name = r.name →
      StoredRow l.cols (numbers (fit n (r.head ++ w.take (n - 4)))) cells) :
    Adds e0 past (some endMark) x (withValues r n w) { o with cells := cells } := by
  obtain ⟨e, l, h1, h2, h3, h4, h5, h6, h7⟩ := h
  obtain ⟨k1, k2, rfl, k3⟩ := means_plain h1 ht
  refine ⟨⟨numbers (fit n (r.head ++ w.take (n - 4))), []⟩, l, ?_, h2, h3, h4, h5, hc l h2 h3, h7⟩
  have hsk := fun hf : (r.name, n, k) ∈ fixedTypes => means_fixed_skip h1 hf hv hnext
  obtain ⟨name, head, pre, skp, vals, pad⟩ := r
  subst k1
  by_cases hw : w.length < n - 4
  · have e : Parse.withValues ⟨name, head, [], skp, vals, pad⟩ n w = ⟨name, head, [], skp, w.take (n - 4), []⟩ := by
      simp [Parse.withValues, hw.le]
    rw [e]
    have hl : (w.take (n - 4)).length < n - 4 := by rw [List.length_take]; omega
    rcases List.mem_append.mp ht with ht | ht
    · exact .fixedCut ht hl rfl
    · obtain rfl := k3 ht
      exact .optCut ht hl rfl
  · have hl : (w.take (n - 4)).length = n - 4 := by rw [List.length_take]; omega
    rcases List.mem_append.mp ht with ht | ht
    · exact .fixed ht hl fun _ => hsk ht
    · obtain rfl := k3 ht
      exact .optPresent ht hl

theorem Adds.withHead {past : List LRec} {next : Option LRec} {x : Bool} {r : LRec} {o : Added}
    (h : Adds e0 past next x r o) {n k : Nat} {w : List PyF} {cells : List Cell}
    (ht : (r.name, n, k) ∈ fixedTypes ++ optionalTypes)
    (hc : ∀ l ∈ layouts, l.name = r.name → StoredRow l.cols (numbers (fit n w)) cells) :
    Adds e0 past (some endMark) x { r with head := w, vals := [], pad := [] }
      { o with cells := cells } := by
  obtain ⟨e, l, h1, h2, h3, h4, h5, h6, h7⟩ := h
  obtain ⟨k1, k2, rfl, k3⟩ := means_plain h1 ht
  refine ⟨⟨numbers (fit n w), []⟩, l, ?_, h2, h3, h4, h5, hc l h2 h3, h7⟩
  obtain ⟨name, head, pre, skp, vals, pad⟩ := r
  subst k1
  have e : fit n w = fit n (w ++ []) := by rw [List.append_nil]
  rw [e]
  rcases List.mem_append.mp ht with ht | ht
  · by_cases hn : n - 4 = 0
    · exact .fixed ht (by simp [hn]) fun h => absurd rfl h
    · exact .fixedCut ht (by simp; omega) rfl
  · obtain rfl := k3 ht
    have : ∀ t ∈ optionalTypes, 4 < t.2.1 := by decide
    have := this _ ht
    exact .optCut ht (by simp at this ⊢; omega) rfl

/-- the lines of the values, up to what is left of one of them -/
theorem Body.cutLine {D : Dec} {r : LRec} {body : List Str} {n i : Nat} {line l' rest : Str} {ch : Char}
    {vs' : List PyF} (hb : T.Body D r body) (hpre : r.pre = []) (hn : r.vals.length ≤ n - 4)
    (hi : body[i]? = some line) (hline : line = List.replicate 8 ' ' ++ (l' ++ ch :: rest))
    (hl : l' ≠ []) (hv : T.tofloatrec D l' = .ok vs') :
    r.vals ≠ [] ∧ '\n' ∉ l' ∧ ch ≠ '\n' ∧
      T.Body D (withValues r n (r.vals.take (4 * i) ++ vs'))
        (body.take i ++ [List.replicate 8 ' ' ++ l']) := by
  obtain ⟨ps, fs, rfl, hps, vss, g1, g2, g3, g4, g5⟩ := hb
  rw [hpre] at hps
  cases hps
  rw [List.nil_append] at hi ⊢
  have hlen := g1.length_eq
  have hif : i < fs.length := (List.getElem?_eq_some_iff.mp hi).1
  have hne : fs ≠ [] := by rintro rfl; simp at hif
  have hex : ∀ l : List (List PyF), (∀ vs ∈ l, vs.length = 4) → l.flatten.length = 4 * l.length := by
    intro l
    induction l with
    | nil => simp
    | cons v l ih =>
      intro hl
      have := ih fun vs hvs => hl vs (by simp [hvs])
      have := hl v (by simp)
      simp only [List.flatten_cons, List.length_append, List.length_cons]
      omega
  have hmost := g5 hne
  rw [hex _ g3, List.length_dropLast] at hmost
  have hi4 : 4 * i < r.vals.length := by omega
  have hfour : ∀ vs ∈ vss.take i, vs.length = 4 := by
    intro vs hvs
    refine g3 vs ?_
    rw [List.dropLast_eq_take]
    have e : vss.take i = (vss.take (vss.length - 1)).take i := by
      rw [List.take_take, Nat.min_eq_left (by omega)]
    rw [e] at hvs
    exact List.mem_of_mem_take hvs
  have hleni : (vss.take i).flatten.length = 4 * i := by
    rw [hex _ hfour, List.length_take, Nat.min_eq_left (by omega)]
  have hvals : (vss.take i).flatten = r.vals.take (4 * i) := by
    have e : vss.flatten = (vss.take i).flatten ++ (vss.drop i).flatten := by
      rw [← List.flatten_append, List.take_append_drop]
    have e2 := congrArg (List.take (4 * i)) g2
    rw [e, List.take_left' hleni, List.take_append_of_le_length (by omega)] at e2
    exact e2
  -- the line
  obtain ⟨fb, hfb, hnl, hdec⟩ : T.Chunk D line (vss[i]'(by omega)) := by
    have := List.forall₂_iff_get.mp g1
    have := this.2 i hif (by omega)
    have e : fs.get ⟨i, hif⟩ = line := by
      rw [List.getElem?_eq_getElem hif] at hi
      exact Option.some.inj hi
    rw [e] at this
    exact this
  have hfb' : fb = l' ++ ch :: rest := by
    rw [hline] at hfb
    exact (List.append_cancel_left hfb).symm
  have hvl : vs'.length ≤ 4 := by
    have h1 := tofloatrec_length hv
    have h2 := tofloatrec_length hdec
    have h3 := g4 (vss[i]'(by omega)) (List.getElem_mem _)
    rw [hfb', List.length_append, List.length_cons] at h2
    omega
  have hvpos : 0 < vs'.length := by
    have h1 := tofloatrec_length hv
    have := List.length_pos_iff.mpr hl
    omega
  have hnl' : '\n' ∉ l' ∧ ch ≠ '\n' := by
    rw [hfb'] at hnl
    simp only [List.mem_append, List.mem_cons, not_or] at hnl
    exact ⟨hnl.1, fun h => hnl.2.1 h.symm⟩
  refine ⟨by rintro h; rw [h] at hi4; simp at hi4, hnl'.1, hnl'.2, [], _, rfl, by simp [withValues, hpre],
    vss.take i ++ [vs'], ?_, ?_, ?_, ?_, ?_⟩
  · exact List.rel_append (forall₂_take g1 i) (.cons ⟨l', rfl, hnl'.1, hv⟩ .nil)
  · simp only [withValues, List.flatten_append, List.flatten_cons, List.flatten_nil, List.append_nil,
      List.take_append_drop, hvals]
  · rw [List.dropLast_concat]
    exact hfour
  · intro vs hvs
    rcases List.mem_append.mp hvs with h | h
    · exact (hfour vs h).le
    · rw [List.mem_singleton.mp h]; exact hvl
  · intro _
    rw [List.dropLast_concat, hleni]
    simp only [withValues, List.length_take, List.length_append]
    omega

variable {D : Dec} {pl : Place} {s : Int} {h0 : H5} {st : St} {lev dt : String}
  {ix : Option (Option Int)}

/-- **C87** A formatted file that ends inside a line of a record of a fixed layout, or of one with
optional fields, is converted, as long as what is left of the line (without its last character, and
at least one character of a number) can be read as numbers and stored: the records in front of it get
the rows they get from the whole file, and the record gets a row with what is left of its numbers and
zeros for those that are missing.  Nothing tells that the file is not complete. -/
theorem formatted_cut_line {a b : List LRec} {r : LRec} {outs : List Added} {names : List String}
    {z t : Str} {n k : Nat} (hacc : Accepts only sk e0 none [] (a ++ r :: b) outs names)
    (henc : T.Encodes D sk z (a ++ r :: b) t) (he : endMark ∉ a) (hb : b.head? ≠ some endMark)
    (hend : ∀ x ∈ a, ¬ (EndOfFile x ∧ Selected only x.name))
    (ht : (r.name, n, k) ∈ fixedTypes ++ optionalTypes) (hsel : Selected only r.name)
    (hnv : NotVoid r) (hsk : ∀ r', r'.name = r.name → sk r' = false) :
    ∃ t1 c body t2 o1 o o2 n1 n2, t = t1 ++ (T.unlines (c :: body) ++ t2) ∧ T.Head D r c ∧
      T.Body D r body ∧ outs = o1 ++ o :: o2 ∧ names = n1 ++ n2 ∧ o.name = r.name ∧
      -- inside a line with values
      (∀ i (l' : Str) ch rest vs' cells,
        body[i]? = some (List.replicate 8 ' ' ++ (l' ++ ch :: rest)) → l' ≠ [] →
        T.tofloatrec D l' = .ok vs' →
        (∀ l ∈ layouts, l.name = r.name → StoredRow l.cols
          (numbers (fit n (r.head ++ (r.vals.take (4 * i) ++ vs').take (n - 4)))) cells) →
        s ≠ 0 → GivesType s (o1 ++ [{ o with cells := cells }]) →
        pl.Allows s (o1 ++ [{ o with cells := cells }]) → pl.In h0 →
        (∀ l ∈ layouts, h0.tabs (pl.path s, l.name) = none) →
        Classified (o1 ++ [{ o with cells := cells }]) pl lev dt ix →
        Clean pl e0 h0 st → ∀ B, ∃ st',
          parseSource D B only st (.formatted
            (t1 ++ T.unlines (c :: body.take i) ++ (List.replicate 8 ' ' ++ l' ++ [ch]))) = .ok st' ∧
          Converted (o1 ++ [{ o with cells := cells }]) n1 pl s h0 lev dt ix st'.h5) ∧
      -- inside the line with the name
      (∀ (l' : Str) ch rest x vs' cells,
        c = nameField r.name ++ (l' ++ ch :: rest) →
        T.tofloatrec D l' = .ok (x :: vs') → NotVoid { r with head := x :: vs' } →
        (∀ l ∈ layouts, l.name = r.name → StoredRow l.cols (numbers (fit n (x :: vs'))) cells) →
        s ≠ 0 → GivesType s (o1 ++ [{ o with cells := cells }]) →
        pl.Allows s (o1 ++ [{ o with cells := cells }]) → pl.In h0 →
        (∀ l ∈ layouts, h0.tabs (pl.path s, l.name) = none) →
        Classified (o1 ++ [{ o with cells := cells }]) pl lev dt ix →
        Clean pl e0 h0 st → ∀ B, ∃ st',
          parseSource D B only st (.formatted (t1 ++ (nameField r.name ++ l' ++ [ch]))) = .ok st' ∧
          Converted (o1 ++ [{ o with cells := cells }]) n1 pl s h0 lev dt ix st'.h5) := by
  have hname : r.name ≠ "" := by
    have : ∀ t ∈ fixedTypes ++ optionalTypes, t.1 ≠ "" := by decide
    exact this _ ht
  obtain ⟨past, x, o1, o, o2, n1, n2, e1, e2, e3, k1, k2⟩ := hacc.replaceLast hend
    (formatted_named henc he) ht hsel hnv
  obtain ⟨t1, c, body, t2, e4, g1, g2, g3, g4⟩ := formatted_replace hname a henc he
  obtain ⟨m1, m2⟩ : r.pre = [] ∧ r.vals.length ≤ n - 4 := by
    obtain ⟨e, l, h1, -⟩ := k1
    exact ⟨(means_plain h1 ht).1, (means_plain h1 ht).2.1⟩
  refine ⟨t1, c, body, t2, o1, o, o2, n1, n2, e4, g2, g3, e1, e2, e3, ?_, ?_⟩
  · intro i l' ch rest vs' cells hi hl hv hc h1 h2 h3 h4 h5 h6 h7 B
    obtain ⟨b1, b2, b3, b4⟩ := Body.cutLine g3 m1 m2 hi rfl hl hv
    rw [convert_newline_missing D B only st (g1.append (lines_unlines _)) (by
      rw [List.mem_append, not_or]
      exact ⟨by simp, b2⟩) b3 (by simp)]
    have henc' := g4 D (fun _ _ h => h) (withValues r n (r.vals.take (4 * i) ++ vs')) c _ rfl g2 b4 (hsk _ rfl)
    have hacc' := k2 (withValues r n (r.vals.take (4 * i) ++ vs')) cells rfl hnv
      (k1.withValues ht b1 hb hc)
    have e : t1 ++ T.unlines (c :: (body.take i ++ [List.replicate 8 ' ' ++ l'])) =
        t1 ++ T.unlines (c :: body.take i) ++ (List.replicate 8 ' ' ++ l' ++ ['\n']) := by
      rw [← List.cons_append, T.unlines_append, List.append_assoc]
      simp [T.unlines]
    rw [e] at henc'
    exact Job.source ⟨hacc', h1, h2, h3, h4, h5, h6⟩ h7 B (.formatted henc')
  · intro l' ch rest x vs' cells hcl hv hnv' hc h1 h2 h3 h4 h5 h6 h7 B
    obtain ⟨hok, fb, q1, q2, q3⟩ := g2
    have hfb : fb = l' ++ ch :: rest := by
      rw [hcl] at q1
      exact (List.append_cancel_left q1).symm
    have hnl : '\n' ∉ l' ∧ ch ≠ '\n' := by
      rw [hfb] at q2
      simp only [List.mem_append, List.mem_cons, not_or] at q2
      exact ⟨q2.1, fun h => q2.2.1 h.symm⟩
    have hnf : '\n' ∉ nameField r.name ∧ 8 ≤ (nameField r.name).length := by
      obtain ⟨_, o2, o3⟩ := hok
      refine ⟨?_, by simp [nameField]; omega⟩
      intro h
      rcases List.mem_append.mp h with h | h
      · have := (o3 _ h).1
        exact absurd this (by decide)
      · exact absurd (List.eq_of_mem_replicate h) (by decide)
    rw [convert_newline_missing D B only st g1 (by
      rw [List.mem_append, not_or]
      exact ⟨hnf.1, hnl.1⟩) hnl.2 (by rw [List.length_append]; omega)]
    have henc' := g4 D (fun _ _ h => h) { r with head := x :: vs', vals := [], pad := [] } (nameField r.name ++ l') [] rfl
      ⟨hok, l', rfl, hnl.1, hv⟩
      ⟨[], [], rfl, by rw [m1]; exact .nil, [], .nil, rfl, by simp, by simp, fun h => absurd rfl h⟩
      (hsk _ rfl)
    have hacc' := k2 { r with head := x :: vs', vals := [], pad := [] } cells rfl hnv'
      (k1.withHead ht hc)
    have e : t1 ++ T.unlines [nameField r.name ++ l'] = t1 ++ (nameField r.name ++ l' ++ ['\n']) := by
      simp [T.unlines]
    rw [e] at henc'
    exact Job.source ⟨hacc', h1, h2, h3, h4, h5, h6⟩ h7 B (.formatted henc')

end

namespace Demo

/-- the demo file up to a character in a line of its pipe section: the hypotheses of
`formatted_cut_line` are met -/
example : ∃ t1 c body t2 o1 o o2 n1 n2, text file = t1 ++ (T.unlines (c :: body) ++ t2) ∧
    T.Head Dec.std file[7] c ∧ T.Body Dec.std file[7] body ∧ outs = o1 ++ o :: o2 ∧
    names = n1 ++ n2 ∧ o.name = "GPIPE" := by
  obtain ⟨t1, c, body, t2, o1, o, o2, n1, n2, k1, k2, k3, k4, k5, k6, -⟩ :=
    formatted_cut_line (D := Dec.std) (z := []) (a := file.take 7) (r := file[7])
      (b := file.drop 8) (n := 8) (k := 2) (s := 5) (pl := .top "" "T") (h0 := {})
      (st := {}) (lev := "FIRSTLEVEL") (dt := "STRUCTURAL") (ix := none)
      (accepted fun _ => false) (encodesT (f := file) (by decide +kernel)) (by decide +kernel)
      (by decide +kernel)
      (by
        intro x hx h
        have : ∀ x ∈ file.take 7, x.name ≠ "IEND" := by decide +kernel
        exact this x hx h.1.1)
      (by decide +kernel) trivial ⟨_, _, rfl, by decide +kernel⟩ (fun _ _ => rfl)
  exact ⟨t1, c, body, t2, o1, o, o2, n1, n2, k1, k2, k3, k4, k5, k6⟩

/-- the beginning of a formatted file with a material -/
def steelStart : String :=
  "IDENT          1.000E+00       5.000E+00       3.000E+00       0.000E+00\n"

/-- the record of the material -/
def steel : String :=
  "MISOSEL        1.000E+00       2.000E+09       3.000E-01       7.850E+03\n" ++
  "               5.000E-02       6.000E-01       0.000E+00       0.000E+00\n"

/-- `n` characters of the record of the material, read as a formatted file with letter `T`: rows of
the materials, or nothing if there is an exception -/
def steelTo (n : Nat) : Option (List (List Cell)) :=
  match parseSource Dec.std 3 none { g := { filetypeid := "T" } }
    (.formatted (steelStart.toList ++ steel.toList.take n)) with
  | .error _ => none
  | .ok st => (st.h5.tabs (["T5"], "MISOSEL")).map Tab.rows

/-- a file that ends in the exponent of Young's modulus gives a material with another modulus, and
without Poisson's ratio and density; one in the exponent of Poisson's ratio gives a ratio of 3; only
where the rest of a number is no number there is an exception -/
example : steelTo 40 = some [.sc (.int 1) :: [2, 0, 0, 0, 0].map fun i => .sc (.flt (.rat i))] ∧
    steelTo 56 = some [.sc (.int 1) :: [2000000000, 3, 0, 0, 0].map fun i => .sc (.flt (.rat i))] ∧
    steelTo 39 = none := by
  decide +kernel

end Demo

end Verif.Parse
