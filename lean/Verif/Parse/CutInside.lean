import Verif.Parse.Cut
/-!
# Formatted files that end inside a record

The values that are missing are stored as zeros.
-/

namespace Verif.Parse
open Verif Verif.Seq

section
variable {only : Option (List String)} {sk : LRec → Bool} {e0 : Int → Option Int}

/-- the first records of a file can be followed by something else -/
theorem Accepts.split {b : List LRec} :
    ∀ (a : List LRec) {cur : Option String} {past : List LRec} {outs : List Added}
      {names : List String}, Accepts only sk e0 cur past (a ++ b) outs names →
      (∀ x ∈ a, ¬ (EndOfFile x ∧ Selected only x.name)) → "" ∉ a.map LRec.name →
      ∃ cur' past' p outs1 pn names1, outs = p ++ outs1 ∧ names = pn ++ names1 ∧
        Accepts only sk e0 cur' past' b outs1 names1 ∧
        ∀ b' outs' names', (∀ past x r o, Adds e0 past b.head? x r o → Adds e0 past b'.head? x r o) →
          Accepts only sk e0 cur' past' b' outs' names' →
          Accepts only sk e0 cur past (a ++ b') (p ++ outs') (pn ++ names')
  | [], cur, past, outs, names, h, _, _ =>
    ⟨cur, past, [], outs, [], names, rfl, rfl, h, fun _ _ _ _ h' => h'⟩
  | r :: a, cur, past, outs, names, h, hend, he => by
    have he' : "" ∉ a.map LRec.name := fun h => he (List.mem_cons_of_mem _ h)
    have hend' : ∀ x ∈ a, ¬ (EndOfFile x ∧ Selected only x.name) :=
      fun y hy => hend y (List.mem_cons_of_mem _ hy)
    have hnext : ∀ {b' : List LRec} {past x o},
        (∀ past x r o, Adds e0 past b.head? x r o → Adds e0 past b'.head? x r o) →
        Adds e0 past (a ++ b).head? x r o → Adds e0 past (a ++ b').head? x r o := by
      intro b' past x o hb ha
      cases a with
      | nil => exact hb _ _ _ _ ha
      | cons y a => exact ha
    generalize hg : r :: a ++ b = g at h
    cases h with
    | stop h1 h2 =>
      obtain ⟨rfl, rfl⟩ := List.cons.inj hg
      exact absurd ⟨h2, by rw [h2.1]; exact h1⟩ (hend _ List.mem_cons_self)
    | eof hm =>
      obtain ⟨rfl, _⟩ := List.cons.inj hg
      exact absurd (by simp [hm]) he
    | more h1 h2 h3 =>
      obtain ⟨rfl, rfl⟩ := List.cons.inj hg
      obtain ⟨c, q, p, o1, pn, n1, rfl, rfl, k1, k2⟩ := Accepts.split a h3 hend' he'
      exact ⟨c, q, _ :: p, o1, pn, n1, rfl, rfl, k1, fun b' o' n' hb k =>
        .more h1 (hnext hb h2) (k2 b' o' n' hb k)⟩
    | first h1 h2 h3 h4 h5 h6 h7 =>
      obtain ⟨rfl, rfl⟩ := List.cons.inj hg
      obtain ⟨c, q, p, o1, pn, n1, rfl, rfl, k1, k2⟩ := Accepts.split a h7 hend' he'
      exact ⟨c, q, _ :: p, o1, _ :: pn, n1, rfl, rfl, k1, fun b' o' n' hb k =>
        .first h1 h2 h3 h4 h5 (hnext hb h6) (k2 b' o' n' hb k)⟩
    | ident h1 h2 h3 h4 h5 =>
      obtain ⟨rfl, rfl⟩ := List.cons.inj hg
      obtain ⟨c, q, p, o1, pn, n1, rfl, rfl, k1, k2⟩ := Accepts.split a h5 hend' he'
      exact ⟨c, q, _ :: p, o1, _ :: pn, n1, rfl, rfl, k1, fun b' o' n' hb k =>
        .ident h1 h2 h3 (hnext hb h4) (k2 b' o' n' hb k)⟩
    | void h1 h2 h3 h4 h5 =>
      obtain ⟨rfl, rfl⟩ := List.cons.inj hg
      obtain ⟨c, q, p, o1, pn, n1, rfl, rfl, k1, k2⟩ := Accepts.split a h5 hend' he'
      exact ⟨c, q, p, o1, pn, n1, rfl, rfl, k1, fun b' o' n' hb k =>
        .void h1 h2 h3 h4 (k2 b' o' n' hb k)⟩
    | unselected h1 h2 h3 h4 h5 =>
      obtain ⟨rfl, rfl⟩ := List.cons.inj hg
      obtain ⟨c, q, p, o1, pn, n1, rfl, rfl, k1, k2⟩ := Accepts.split a h5 hend' he'
      exact ⟨c, q, p, o1, pn, n1, rfl, rfl, k1, fun b' o' n' hb k =>
        .unselected h1 h2 h3 h4 (k2 b' o' n' hb k)⟩
    | unread h1 h2 h3 h4 h5 h6 h7 h8 h9 =>
      obtain ⟨rfl, rfl⟩ := List.cons.inj hg
      obtain ⟨c, q, p, o1, pn, n1, rfl, rfl, k1, k2⟩ := Accepts.split a h9 hend' he'
      exact ⟨c, q, p, o1, pn, n1, rfl, rfl, k1, fun b' o' n' hb k =>
        .unread h1 h2 h3 h4 h5 h6 h7 h8 (k2 b' o' n' hb k)⟩
    | unreadMore h1 h2 h3 h4 h5 h6 =>
      obtain ⟨rfl, rfl⟩ := List.cons.inj hg
      obtain ⟨c, q, p, o1, pn, n1, rfl, rfl, k1, k2⟩ := Accepts.split a h6 hend' he'
      exact ⟨c, q, p, o1, pn, n1, rfl, rfl, k1, fun b' o' n' hb k =>
        .unreadMore h1 h2 h3 h4 h5 (k2 b' o' n' hb k)⟩
    | recsize h1 h2 h3 h4 =>
      obtain ⟨rfl, rfl⟩ := List.cons.inj hg
      obtain ⟨c, q, p, o1, pn, n1, rfl, rfl, k1, k2⟩ := Accepts.split a h4 hend' he'
      exact ⟨c, q, p, o1, _ :: pn, n1, rfl, rfl, k1, fun b' o' n' hb k =>
        .recsize h1 h2 h3 (k2 b' o' n' hb k)⟩
    | notEnd h1 h2 h3 =>
      obtain ⟨rfl, rfl⟩ := List.cons.inj hg
      obtain ⟨c, q, p, o1, pn, n1, rfl, rfl, k1, k2⟩ := Accepts.split a h3 hend' he'
      exact ⟨c, q, p, o1, _ :: pn, n1, rfl, rfl, k1, fun b' o' n' hb k =>
        .notEnd h1 h2 (k2 b' o' n' hb k)⟩

/-! ### rows with zeros -/

theorem fit_cut (n : Nat) (p q : List PyF) :
    List.Forall₂ (fun x y => y = x ∨ y = PyF.rat 0) (fit n (p ++ q)) (fit n p) := by
  unfold fit
  induction n generalizing p q with
  | zero => simp
  | succ n ih =>
    cases p with
    | nil =>
      have : ∀ (m : Nat) (l : List PyF), l.length = m →
          List.Forall₂ (fun x y => y = x ∨ y = PyF.rat 0) l (List.replicate m (PyF.rat 0)) := by
        intro m l
        induction l generalizing m with
        | nil => rintro rfl; exact .nil
        | cons x l ih => rintro rfl; exact .cons (.inr rfl) (ih _ rfl)
      have e : ([] ++ List.replicate (n + 1) (PyF.rat 0)).take (n + 1) =
          List.replicate (n + 1) (PyF.rat 0) := by simp
      rw [e]
      exact this _ _ (by simp)
    | cons x p =>
      have e : ∀ l : List PyF, (x :: l ++ List.replicate (n + 1) (PyF.rat 0)).take (n + 1) =
          x :: (l ++ List.replicate n (PyF.rat 0)).take n := by
        intro l
        rw [List.cons_append, List.take_succ_cons, List.replicate_succ', ← List.append_assoc,
          List.take_append_of_le_length (by simp)]
      rw [List.cons_append, e, e]
      exact .cons (.inl rfl) (ih p q)

theorem rounds_zero : Rounds binary32 (.rat 0) (.rat 0) := rounds_of (by decide +kernel)

/-- a row in which values are replaced by zeros can be stored -/
theorem storedRow_zeros {xs ys : List PyF}
    (h : List.Forall₂ (fun x y => y = x ∨ y = PyF.rat 0) xs ys) :
    ∀ {cols : List Col} {cells : List Cell},
      (∀ c ∈ cols, c.shape = .sc ∧ (c.kind = .int ∨ c.kind = .flt)) →
      StoredRow cols (numbers xs) cells → ∃ cells', StoredRow cols (numbers ys) cells' := by
  induction h with
  | nil => exact fun _ h => ⟨_, h⟩
  | @cons x y xs ys hxy _ ih =>
    intro cols cells hc hs
    obtain ⟨h1, h2, h3⟩ := hs
    cases cols with
    | nil => simp [numbers] at h2
    | cons c cols =>
      cases cells with
      | nil => simp at h3
      | cons d cells =>
        simp only [numbers, List.map_cons, List.zip_cons_cons, List.length_cons,
          Nat.add_right_cancel_iff] at h1 h2 h3
        cases h1 with
        | cons h4 h5 =>
          obtain ⟨cells', k1, k2, k3⟩ := ih (fun c hc' => hc c (List.mem_cons_of_mem _ hc'))
            ⟨h5, h2, h3⟩
          have hd : ∃ d', Stored c.kind c.shape (.sc (.num y)) d' := by
            rcases hxy with rfl | rfl
            · exact ⟨d, h4⟩
            · obtain ⟨e1, e2⟩ := hc c List.mem_cons_self
              rw [e1]
              rcases e2 with e2 | e2 <;> rw [e2]
              · exact ⟨_, .sc (.int (toInt_hasInt (n := 0) (by decide +kernel)))⟩
              · exact ⟨_, .sc (.flt rounds_zero)⟩
          obtain ⟨d', hd⟩ := hd
          exact ⟨d' :: cells', .cons hd k1, by simpa [numbers] using k2, by simpa using k3⟩

/-- the record with the values that are on its first line and on `j` more lines -/
def cutTo (r : LRec) (j : Nat) : LRec := { r with vals := r.vals.take (4 * j), pad := [] }

theorem plain_layout : ∀ t ∈ fixedTypes ++ optionalTypes, ∀ l ∈ layouts, l.name = t.1 →
    l.arrs = [] ∧ ∀ c ∈ l.cols, c.shape = .sc ∧ (c.kind = .int ∨ c.kind = .flt) := by
  decide +kernel

theorem means_optional_skip {past : List LRec} {next : Option LRec} {r : LRec} {e : Entry}
    (h : Means e0 past next r e) (hn : r.name ∈ optionalTypes.map (·.1)) : r.skip = 8 := by
  cases h
  case optPresent => rfl
  case optAbsent => rfl
  case optCut => rfl
  other_types hn

theorem means_plain {past : List LRec} {next : Option LRec} {r : LRec} {e : Entry}
    (h : Means e0 past next r e) {n k : Nat} (ht : (r.name, n, k) ∈ fixedTypes ++ optionalTypes) :
    r.pre = [] ∧ r.vals.length ≤ n - 4 ∧ e = ⟨numbers (fit n (r.head ++ r.vals)), []⟩ ∧
      ((r.name, n, k) ∈ optionalTypes → r.skip = 8) := by
  rcases List.mem_append.mp ht with ht | ht
  · obtain ⟨h1, h2, h3⟩ := means_fixed h ht
    refine ⟨h1, by omega, h3, fun h' => ?_⟩
    have : ∀ t ∈ fixedTypes, t ∉ optionalTypes := by decide
    exact absurd h' (this _ ht)
  · obtain ⟨h1, h3, h2⟩ := means_optional h ht
    refine ⟨h1, by omega, h3, fun _ => ?_⟩
    exact means_optional_skip h (List.mem_map.mpr ⟨_, ht, rfl⟩)

/-- the record that is cut adds a row too -/
theorem Adds.cutInside {past : List LRec} {next : Option LRec} {x : Bool} {r : LRec} {o : Added}
    (h : Adds e0 past next x r o) {n k j : Nat}
    (ht : (r.name, n, k) ∈ fixedTypes ++ optionalTypes) (hj : 4 * j < r.vals.length) :
    ∃ cells, (∀ l ∈ layouts, l.name = r.name →
        StoredRow l.cols (numbers (fit n (r.head ++ r.vals.take (4 * j)))) cells) ∧
      Adds e0 past (some endMark) x (cutTo r j) { o with cells := cells } := by
  obtain ⟨e, l, h1, h2, h3, h4, h5, h6, h7⟩ := h
  obtain ⟨k1, k2, rfl, k3⟩ := means_plain h1 ht
  obtain ⟨p1, p2⟩ := plain_layout _ ht l h2 h3
  have hz := fit_cut n (r.head ++ r.vals.take (4 * j)) (r.vals.drop (4 * j))
  rw [List.append_assoc, List.take_append_drop] at hz
  obtain ⟨cells, hc⟩ := storedRow_zeros hz p2 h6
  refine ⟨cells, fun l' hl' hn' => ?_, ⟨numbers (fit n (r.head ++ r.vals.take (4 * j))), []⟩, l, ?_,
    h2, h3, h4, h5, hc, h7⟩
  · obtain rfl : l' = l := layout_eq hl' h2 (hn'.trans h3.symm)
    exact hc
  · have hlen : (r.vals.take (4 * j)).length < n - 4 := by rw [List.length_take]; omega
    obtain ⟨name, head, pre, skp, vals, pad⟩ := r
    subst k1
    rcases List.mem_append.mp ht with ht | ht
    · exact .fixedCut ht hlen rfl
    · obtain rfl := k3 ht
      exact .optCut ht hlen rfl

theorem forall₂_take {α β : Type} {R : α → β → Prop} {l : List α} {m : List β}
    (h : List.Forall₂ R l m) (j : Nat) : List.Forall₂ R (l.take j) (m.take j) := by
  induction h generalizing j with
  | nil => simp
  | cons h1 _ ih =>
    cases j with
    | zero => simp
    | succ j => exact .cons h1 (ih j)

/-- the first lines of a formatted file, up to a line inside a record -/
theorem formatted_inside {D : Dec} {z : Str} {b : List LRec} {r : LRec} {j : Nat}
    (hpre : r.pre = []) (hj : 4 * j < r.vals.length) (hname : r.name ≠ "")
    (hsk : sk (cutTo r j) = false) :
    ∀ (a : List LRec) {t : Str}, T.Encodes D sk z (a ++ r :: b) t → endMark ∉ a →
      ∃ t1 t2, t = t1 ++ t2 ∧ T.Encodes D sk [] (a ++ [cutTo r j, endMark]) t1
  | [], t, h, _ => by
    generalize hg : [] ++ r :: b = g at h
    cases h with
    | nil => cases hg
    | eof =>
      obtain ⟨rfl, _⟩ := List.cons.inj hg
      exact absurd rfl hname
    | @cons r' rs c body t' h1 h2 h4 h5 =>
      obtain ⟨rfl, rfl⟩ := List.cons.inj hg
      obtain ⟨ps, fs, rfl, hps, vss, g1, g2, g3, g4, g5⟩ := h2
      rw [hpre] at hps
      cases hps
      rw [List.nil_append]
      have hlen := g1.length_eq
      -- there are more than `j` lines
      have hjl : j < vss.length := by
        by_contra hc
        have hle : ∀ l : List (List PyF), (∀ vs ∈ l, vs.length ≤ 4) → l.flatten.length ≤ 4 * l.length := by
          intro l
          induction l with
          | nil => simp
          | cons v l ih =>
            intro hl
            have := ih fun vs hvs => hl vs (by simp [hvs])
            have := hl v (by simp)
            simp only [List.flatten_cons, List.length_append, List.length_cons]
            omega
        have h6 := hle vss g4
        rw [g2, List.length_append] at h6
        omega
      have hfour : ∀ vs ∈ vss.take j, vs.length = 4 := by
        intro vs hvs
        refine g3 vs ?_
        rw [List.dropLast_eq_take]
        have e : vss.take j = (vss.take (vss.length - 1)).take j := by
          rw [List.take_take, Nat.min_eq_left (by omega)]
        rw [e] at hvs
        exact List.mem_of_mem_take hvs
      have hex : ∀ l : List (List PyF), (∀ vs ∈ l, vs.length = 4) → l.flatten.length = 4 * l.length := by
        intro l
        induction l with
        | nil => simp
        | cons v l ih =>
          intro hl
          have := ih fun vs hvs => hl vs (by simp [hvs])
          have := hl v (by simp)
          simp only [List.flatten_cons, List.length_append, List.length_cons]
          omega
      have hlenj : (vss.take j).flatten.length = 4 * j := by
        rw [hex _ hfour, List.length_take, Nat.min_eq_left (by omega)]
      have hvals : (vss.take j).flatten = r.vals.take (4 * j) := by
        have e : vss.flatten = (vss.take j).flatten ++ (vss.drop j).flatten := by
          rw [← List.flatten_append, List.take_append_drop]
        have e2 := congrArg (List.take (4 * j)) g2
        rw [e, List.take_left' hlenj, List.take_append_of_le_length (by omega)] at e2
        exact e2
      refine ⟨T.unlines (c :: fs.take j), T.unlines (fs.drop j) ++ t', ?_, ?_⟩
      · rw [← List.append_assoc, ← T.unlines_append, List.cons_append, List.take_append_drop]
      · have hb : T.Body D (cutTo r j) (fs.take j) := by
          refine ⟨[], fs.take j, rfl, by simp [cutTo, hpre], vss.take j, ?_, ?_, ?_, ?_, ?_⟩
          · exact forall₂_take g1 j
          · simpa [cutTo] using hvals
          · exact fun vs hvs => hfour vs (List.mem_of_mem_dropLast hvs)
          · exact fun vs hvs => (hfour vs hvs).le
          · intro hne
            have hj0 : j ≠ 0 := by rintro rfl; exact hne rfl
            have e := hex (vss.take j).dropLast fun vs hvs => hfour vs (List.mem_of_mem_dropLast hvs)
            have : (vss.take j).dropLast.length = j - 1 := by
              rw [List.length_dropLast, List.length_take]; omega
            rw [e, this]
            simp only [cutTo, List.length_take]
            omega
        have hh : T.Head D (cutTo r j) c := h1
        have := T.Encodes.cons (z := []) hh hb (fun e => by rw [hsk] at e; cases e)
          (T.Encodes.eof (D := D) (sk := sk) rfl)
        rwa [List.append_nil] at this
  | x :: a, t, h, he => by
    have he' : endMark ∉ a := fun h => he (List.mem_cons_of_mem _ h)
    generalize hg : x :: a ++ r :: b = g at h
    cases h with
    | nil => cases hg
    | eof =>
      obtain ⟨rfl, _⟩ := List.cons.inj hg
      exact absurd List.mem_cons_self he
    | cons h1 h2 h4 h5 =>
      obtain ⟨rfl, rfl⟩ := List.cons.inj hg
      obtain ⟨t1, t2, rfl, k⟩ := formatted_inside hpre hj hname hsk a h5 he'
      refine ⟨_, t2, (List.append_assoc _ _ _).symm, .cons h1 h2 (fun e n hn => ?_) k⟩
      cases a with
      | nil =>
        obtain rfl : cutTo r j = n := by simpa using hn
        exact h4 e r (by simp)
      | cons y a => exact h4 e n hn

variable {D : Dec} {pl : Place} {s : Int} {h0 : H5} {st : St} {lev dt : String}
  {ix : Option (Option Int)}

/-- **C85** A formatted file that ends inside a record of a fixed layout, or of one with optional
fields, is converted: nothing is raised, the records in front of it get the rows they get from the
whole file, and the record gets a row with zeros for the values that are missing. -/
theorem formatted_cut_inside {a b : List LRec} {r : LRec} {outs : List Added} {names : List String}
    {z t : Str} {n k j : Nat} (hacc : Accepts only sk e0 none [] (a ++ r :: b) outs names)
    (henc : T.Encodes D sk z (a ++ r :: b) t) (he : endMark ∉ a)
    (hend : ∀ x ∈ a, ¬ (EndOfFile x ∧ Selected only x.name))
    (ht : (r.name, n, k) ∈ fixedTypes ++ optionalTypes) (hsel : Selected only r.name)
    (hnv : NotVoid r) (hj : 4 * j < r.vals.length) (hsk : sk (cutTo r j) = false) :
    ∃ t1 t2 o1 o o2 cells n1 n2, t = t1 ++ t2 ∧ outs = o1 ++ o :: o2 ∧ names = n1 ++ n2 ∧
      o.name = r.name ∧ T.Encodes D sk [] (a ++ [cutTo r j, endMark]) t1 ∧
      (∀ l ∈ layouts, l.name = r.name →
        StoredRow l.cols (numbers (fit n (r.head ++ r.vals.take (4 * j)))) cells) ∧
      Accepts only sk e0 none [] (a ++ [cutTo r j, endMark]) (o1 ++ [{ o with cells := cells }]) n1 ∧
      (s ≠ 0 → GivesType s (o1 ++ [{ o with cells := cells }]) →
        pl.Allows s (o1 ++ [{ o with cells := cells }]) → pl.In h0 →
        (∀ l ∈ layouts, h0.tabs (pl.path s, l.name) = none) →
        Classified (o1 ++ [{ o with cells := cells }]) pl lev dt ix →
        Clean pl e0 h0 st → ∀ B, ∃ st', parseSource D B only st (.formatted t1) = .ok st' ∧
          Converted (o1 ++ [{ o with cells := cells }]) n1 pl s h0 lev dt ix st'.h5) := by
  have htab : HasTable r.name := by
    have : ∀ t ∈ fixedTypes ++ optionalTypes, t.1 ∈ layouts.map (·.name) := by decide +kernel
    exact hasTable_iff.mpr (this _ ht)
  have hident : r.name ≠ "IDENT" := by
    have : ∀ t ∈ fixedTypes ++ optionalTypes, t.1 ≠ "IDENT" := by decide
    exact this _ ht
  have hmesh : r.name ≠ "SCONMESH" := by
    have : ∀ t ∈ fixedTypes ++ optionalTypes, t.1 ≠ "SCONMESH" := by decide
    exact this _ ht
  have hne : r.name ≠ "" := (hasTable_ne htab).1
  obtain ⟨cur, past, p, outs1, pn, names1, rfl, rfl, k1, k2⟩ := Accepts.split a hacc hend
    (formatted_named henc he)
  have hnext : ∀ past x y o, Adds e0 past (r :: b).head? x y o →
      Adds e0 past [cutTo r j, endMark].head? x y o := by
    rintro past x y o ⟨e, l, g1, g2⟩
    refine ⟨e, l, g1.otherNext (fun h => ?_) (fun h => ?_), g2⟩
    · have : r = endMark := by simpa using h
      exact absurd (by rw [this]; rfl) hne
    · have : ∀ t ∈ fixedTypes ++ optionalTypes, t.1 ∈ knownNames := by decide +kernel
      exact ⟨_, rfl, this _ ht⟩
  have last : ∀ {past x o}, Adds e0 past b.head? x r o → ∃ cells, (∀ l ∈ layouts, l.name = r.name →
        StoredRow l.cols (numbers (fit n (r.head ++ r.vals.take (4 * j)))) cells) ∧
      Adds e0 past [endMark].head? x (cutTo r j) { o with cells := cells } :=
    fun h => h.cutInside ht hj
  have hend : Accepts only sk e0 (some (cutTo r j).name) (cutTo r j :: past) [endMark] [] [] :=
    .eof rfl fun h => hne (Option.some.inj h)
  have base : ∃ o o2 cells m1 m2, outs1 = o :: o2 ∧ names1 = m1 ++ m2 ∧ o.name = r.name ∧
      (∀ l ∈ layouts, l.name = r.name →
        StoredRow l.cols (numbers (fit n (r.head ++ r.vals.take (4 * j)))) cells) ∧
      r.pre = [] ∧
      Accepts only sk e0 cur past [cutTo r j, endMark] [{ o with cells := cells }] m1 := by
    have hpre : ∀ {past x o}, Adds e0 past b.head? x r o → r.pre = [] := by
      rintro past x o ⟨e, l, g1, -⟩
      exact (means_plain g1 ht).1
    have hnm : ∀ {past x o}, Adds e0 past b.head? x r o → o.name = r.name := by
      rintro past x o ⟨e, l, -, -, -, g, -⟩
      exact g
    generalize hg : r :: b = g at k1
    cases k1 with
    | stop h1 h2 =>
      obtain ⟨rfl, rfl⟩ := List.cons.inj hg
      exact absurd h2.1 (hasTable_ne htab).2.1
    | eof hm =>
      obtain ⟨rfl, _⟩ := List.cons.inj hg
      exact absurd hm hne
    | more h1 h2 h3 =>
      obtain ⟨rfl, rfl⟩ := List.cons.inj hg
      obtain ⟨cells, g1, g2⟩ := last h2
      exact ⟨_, _, cells, [], _, rfl, rfl, hnm h2, g1, hpre h2, .more (r := cutTo r j) h1 g2 hend⟩
    | first h1 h2 h3 h4 h5 h6 h7 =>
      obtain ⟨rfl, rfl⟩ := List.cons.inj hg
      obtain ⟨cells, g1, g2⟩ := last h6
      exact ⟨_, _, cells, [r.name], _, rfl, rfl, hnm h6, g1, hpre h6,
        .first (r := cutTo r j) h1 h2 h3 h4 (fun h => absurd h hmesh) g2 hend⟩
    | ident h1 =>
      obtain ⟨rfl, rfl⟩ := List.cons.inj hg
      exact absurd h1 hident
    | void _ _ _ h =>
      obtain ⟨rfl, rfl⟩ := List.cons.inj hg
      cases h with
      | one h' _ =>
        obtain ⟨x, t, e1, e2⟩ := hnv
        obtain ⟨rfl, _⟩ := List.cons.inj e1
        rw [h'] at e2; cases e2
      | two =>
        obtain ⟨x, t, e1, e2⟩ := hnv
        obtain ⟨rfl, _⟩ := List.cons.inj e1
        exact absurd e2 (by decide +kernel)
    | unselected _ _ h =>
      obtain ⟨rfl, rfl⟩ := List.cons.inj hg
      exact absurd hsel h
    | unread _ _ _ _ h =>
      obtain ⟨rfl, rfl⟩ := List.cons.inj hg
      exact absurd htab h
    | unreadMore _ _ _ h =>
      obtain ⟨rfl, rfl⟩ := List.cons.inj hg
      exact absurd htab h
    | recsize _ h =>
      obtain ⟨rfl, rfl⟩ := List.cons.inj hg
      exact absurd h.1 (hasTable_ne htab).2.2
    | notEnd _ h =>
      obtain ⟨rfl, rfl⟩ := List.cons.inj hg
      exact absurd h.1 (hasTable_ne htab).2.1
  obtain ⟨o, o2, cells, m1, m2, rfl, rfl, g1, g2, g3, g4⟩ := base
  obtain ⟨t1, t2, rfl, k3⟩ := formatted_inside g3 hj hne hsk a henc he
  have k := k2 _ _ _ hnext g4
  exact ⟨t1, t2, p, o, o2, cells, pn ++ m1, m2, rfl, rfl, (List.append_assoc _ _ _).symm, g1, k3, g2,
    k, fun h1 h2 h3 h4 h5 h6 h7 B => Job.source ⟨k, h1, h2, h3, h4, h5, h6⟩ h7 B (.formatted k3)⟩

end

namespace Demo

/-- the demo file ends behind the first line of its pipe section: the hypotheses of
`formatted_cut_inside` are met -/
example : ∃ t1 t2 o1 o o2 cells n1 n2, text file = t1 ++ t2 ∧ outs = o1 ++ o :: o2 ∧
      names = n1 ++ n2 ∧ o.name = "GPIPE" ∧
      T.Encodes Dec.std (fun _ => false) [] (file.take 7 ++ [cutTo file[7] 0, endMark]) t1 ∧
      StoredRow (lay "GPIPE").cols (numbers (file[7].head ++ List.replicate 4 (.rat 0))) cells ∧
      Accepts none (fun _ => false) (fun _ => none) none []
        (file.take 7 ++ [cutTo file[7] 0, endMark]) (o1 ++ [{ o with cells := cells }]) n1 := by
  obtain ⟨t1, t2, o1, o, o2, cells, n1, n2, k1, k2, k3, k4, k5, k6, k7, -⟩ :=
    formatted_cut_inside (D := Dec.std) (z := []) (a := file.take 7) (r := file[7])
      (b := file.drop 8) (n := 8) (k := 2) (j := 0) (s := 5) (pl := .top "" "T") (h0 := {})
      (st := {}) (lev := "FIRSTLEVEL") (dt := "STRUCTURAL") (ix := none)
      (accepted fun _ => false) (encodesT (f := file) (by decide +kernel)) (by decide +kernel)
      (by
        intro x hx h
        have : ∀ x ∈ file.take 7, x.name ≠ "IEND" := by decide +kernel
        exact this x hx h.1.1)
      (by decide +kernel) trivial ⟨_, _, rfl, by decide +kernel⟩ (by decide +kernel) rfl
  refine ⟨t1, t2, o1, o, o2, cells, n1, n2, k1, k2, k3, k4, k5, ?_, k7⟩
  have := k6 (lay "GPIPE") (by decide +kernel) (by decide +kernel)
  have e : fit 8 (file[7].head ++ file[7].vals.take (4 * 0)) =
      file[7].head ++ List.replicate 4 (.rat 0) := by decide +kernel
  rwa [e] at this

/-- the lines of a formatted file with a material -/
def materialLines : List String := [
  "IDENT          1.000E+00       5.000E+00       3.000E+00       0.000E+00",
  "MISOSEL        1.000E+00       2.000E+00       3.000E+00       4.000E+00",
  "               5.000E+00       6.000E+00       0.000E+00       0.000E+00",
  "IEND           0.000E+00       0.000E+00       0.000E+00       0.000E+00"]

/-- the first `n` lines, read as a formatted file with letter `T`: rows of the materials -/
def material (n : Nat) : Option (List (List Cell)) :=
  match parseSource Dec.std 3 none { g := { filetypeid := "T" } }
    (.formatted (T.unlines ((materialLines.take n).map String.toList))) with
  | .error _ => none
  | .ok st => (st.h5.tabs (["T5"], "MISOSEL")).map Tab.rows

/-- damping and thermal expansion are zero if the file ends inside the record -/
example : material 4 = some [.sc (.int 1) :: [2, 3, 4, 5, 6].map fun i => .sc (.flt (.rat i))] ∧
    material 2 = some [.sc (.int 1) :: [2, 3, 4, 0, 0].map fun i => .sc (.flt (.rat i))] := by
  decide +kernel

end Demo

end Verif.Parse
