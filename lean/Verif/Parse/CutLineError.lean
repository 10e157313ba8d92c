import Verif.Parse.CutLine
import Verif.Seq.Decoder
/-!
# Formatted files that end inside a number

What is left of the number may not be a number.
-/

namespace Verif.Parse
open Verif Verif.Seq

section
variable {only : Option (List String)} {sk : LRec → Bool} {e0 : Int → Option Int}

/-- numbers that can be stored in each column -/
def Plain (y : PyF) : Prop :=
  (∃ d, Stored .int .sc (.sc (.num y)) d) ∧ ∃ d, Stored .flt .sc (.sc (.num y)) d

theorem plain_zero : Plain (.rat 0) :=
  ⟨⟨_, .sc (.int (toInt_hasInt (n := 0) (by decide +kernel)))⟩, _, .sc (.flt rounds_zero)⟩

theorem plain_one : Plain (.rat 1) :=
  ⟨⟨_, .sc (.int (toInt_hasInt (n := 1) (by decide +kernel)))⟩, .sc (.flt (.rat 1)),
    .sc (.flt (rounds_of (by decide +kernel)))⟩

/-- a row in which values are replaced by such numbers can be stored -/
theorem storedRow_plain {xs ys : List PyF} (h : List.Forall₂ (fun x y => y = x ∨ Plain y) xs ys) :
    ∀ {cols : List Col} {cells : List Cell},
      (∀ c ∈ cols, c.shape = .sc ∧ (c.kind = .int ∨ c.kind = .flt)) →
      StoredRow cols (numbers xs) cells → ∃ cells', StoredRow cols (numbers ys) cells' := by
  induction h with
  | nil => exact fun _ h => ⟨_, h⟩
  | @cons x y xs ys hxy _ ih =>
    intro cols cells hc hs
    obtain ⟨h1, h2, h3⟩ := hs
    cases cols with
    | nil => simp [numbers] at h2
    | cons c cols =>
      cases cells with
      | nil => simp at h3
      | cons d cells =>
        simp only [numbers, List.map_cons, List.zip_cons_cons, List.length_cons,
          Nat.add_right_cancel_iff] at h1 h2 h3
        cases h1 with
        | cons h4 h5 =>
          obtain ⟨cells', k1, k2, k3⟩ := ih (fun c hc' => hc c (List.mem_cons_of_mem _ hc'))
            ⟨h5, h2, h3⟩
          have hd : ∃ d', Stored c.kind c.shape (.sc (.num y)) d' := by
            rcases hxy with rfl | hp
            · exact ⟨d, h4⟩
            · obtain ⟨e1, e2⟩ := hc c List.mem_cons_self
              rw [e1]
              rcases e2 with e2 | e2 <;> rw [e2]
              · exact hp.1
              · exact hp.2
          obtain ⟨d', hd⟩ := hd
          exact ⟨d' :: cells', .cons hd k1, by simpa [numbers] using k2, by simpa using k3⟩

theorem fit_put (n : Nat) {v : PyF} (hv : Plain v) (p q : List PyF) :
    List.Forall₂ (fun x y => y = x ∨ Plain y) (fit n (p ++ q)) (fit n (p ++ [v])) := by
  unfold fit
  induction n generalizing p q with
  | zero => simp
  | succ n ih =>
    cases p with
    | nil =>
      have : ∀ l m : List PyF, l.length = m.length → (∀ y ∈ m, Plain y) →
          List.Forall₂ (fun x y => y = x ∨ Plain y) l m := by
        intro l
        induction l with
        | nil => intro m hm _; cases m with
          | nil => exact .nil
          | cons => simp at hm
        | cons x l ih =>
          intro m hm hp
          cases m with
          | nil => simp at hm
          | cons y m =>
            exact .cons (.inr (hp y (by simp))) (ih m (by simpa using hm)
              fun y hy => hp y (by simp [hy]))
      refine this _ _ (by simp) fun y hy => ?_
      have := List.mem_of_mem_take hy
      simp only [List.nil_append, List.cons_append, List.mem_cons, List.mem_replicate] at this
      rcases this with rfl | ⟨_, rfl⟩
      · exact hv
      · exact plain_zero
    | cons x p =>
      have e : ∀ l : List PyF, (x :: l ++ List.replicate (n + 1) (PyF.rat 0)).take (n + 1) =
          x :: (l ++ List.replicate n (PyF.rat 0)).take n := by
        intro l
        rw [List.cons_append, List.take_succ_cons, List.replicate_succ', ← List.append_assoc,
          List.take_append_of_le_length (by simp)]
      rw [show x :: p ++ q = x :: (p ++ q) from rfl, show x :: p ++ [v] = x :: (p ++ [v]) from rfl, e, e]
      exact .cons (.inl rfl) (ih p q)

/-- rows with different numbers differ -/
theorem storedRow_zero_one {n : Nat} {p : List PyF} (hp : p.length < n) {cols : List Col}
    {cells : List Cell} (hc : ∀ c ∈ cols, c.shape = .sc ∧ (c.kind = .int ∨ c.kind = .flt))
    (h0 : StoredRow cols (numbers (fit n (p ++ [.rat 0]))) cells)
    (h1 : StoredRow cols (numbers (fit n (p ++ [.rat 1]))) cells) : False := by
  have e : ∀ v : PyF, (numbers (fit n (p ++ [v])))[p.length]? = some (.sc (.num v)) := by
    intro v
    unfold numbers fit
    rw [List.getElem?_map, List.getElem?_take_of_lt hp, List.append_assoc,
      List.getElem?_append_right le_rfl, Nat.sub_self]
    rfl
  have get : ∀ {v : PyF}, StoredRow cols (numbers (fit n (p ++ [v]))) cells →
      ∃ c d, cols[p.length]? = some c ∧ cells[p.length]? = some d ∧
        Stored c.kind c.shape (.sc (.num v)) d := by
    intro v ⟨g1, g2, g3⟩
    have hl : p.length < (numbers (fit n (p ++ [v]))).length := by
      by_contra hcon
      have := e v
      rw [List.getElem?_eq_none (by omega)] at this
      cases this
    have hc' : p.length < cols.length := by omega
    have hd' : p.length < cells.length := by omega
    have := (List.forall₂_iff_get.mp g1).2 p.length hc' (by rw [List.length_zip]; omega)
    simp only [List.get_eq_getElem, List.getElem_zip] at this
    have e' := e v
    rw [List.getElem?_eq_getElem hl] at e'
    rw [Option.some.inj e'] at this
    exact ⟨_, _, List.getElem?_eq_getElem hc', List.getElem?_eq_getElem hd', this⟩
  obtain ⟨c, d, a1, a2, a3⟩ := get h0
  obtain ⟨c', d', b1, b2, b3⟩ := get h1
  rw [a1] at b1
  rw [a2] at b2
  cases b1
  cases b2
  obtain ⟨q1, q2⟩ := hc c (List.mem_of_getElem? a1)
  have s0 := storeVal_of a3
  have s1 := storeVal_of b3
  rw [q1] at s0 s1
  have hn : ∀ k ∈ [Kind.int, Kind.flt], (storeVal k .sc (.sc (.num (.rat 0)))).toOption ≠
      (storeVal k .sc (.sc (.num (.rat 1)))).toOption := by decide +kernel
  refine hn c.kind (by rcases q2 with q2 | q2 <;> simp [q2]) ?_
  rw [s0, s1]

/-- the cells of the last record are in the table -/
theorem converted_cells {o1 : List Added} {o : Added} {cells cells' : List Cell}
    {n1 : List String} {pl : Place} {s : Int} {h0 h : H5} {lev dt : String} {ix : Option (Option Int)}
    {l : Layout} (hl : l ∈ layouts) (hn : o.name = l.name) (hlen : cells.length = cells'.length)
    (h1 : Converted (o1 ++ [{ o with cells := cells }]) n1 pl s h0 lev dt ix h)
    (h2 : Converted (o1 ++ [{ o with cells := cells' }]) n1 pl s h0 lev dt ix h) :
    cells = cells' := by
  have ne : ∀ c : List Cell, ofType l.name (o1 ++ [{ o with cells := c }]) ≠ [] := by
    intro c
    simp [ofType, hn]
  have t1 := h1.tables.1 l hl (ne cells)
  have t2 := h2.tables.1 l hl (ne cells')
  rw [t1] at t2
  have t3 := congrArg Tab.rows (Option.some.inj t2)
  have rows : ∀ c : List Cell, ∃ a lim, ((contents l (o1 ++ [{ o with cells := c }])).table l).rows =
      a ++ [c ++ lim] := by
    intro c
    have e : (o1 ++ [{ o with cells := c }]).filter (fun o => o.name = l.name) =
        o1.filter (fun o => o.name = l.name) ++ [{ o with cells := c }] := by
      rw [List.filter_append]
      simp [hn]
    unfold contents Acc.table
    rw [e, List.foldl_append]
    exact ⟨_, _, rfl⟩
  obtain ⟨a, lim, r1⟩ := rows cells
  obtain ⟨a', lim', r2⟩ := rows cells'
  rw [r1, r2] at t3
  have := congrArg List.getLast? t3
  rw [List.getLast?_concat, List.getLast?_concat] at this
  exact (List.append_inj (Option.some.inj this) hlen).1

variable {D : Dec} {pl : Place} {s : Int} {h0 : H5} {st : St} {lev dt : String}
  {ix : Option (Option Int)}

/-- a text that is no number, but would change the result if it were one, is read -/
theorem refused_number {x : Str} {e : Err} (hx : D.float x = .error e) (B : Nat) {t : Str}
    {v v' : PyF} {s1 s2 : St} (h1 : parseSource (D.put x v) B only st (.formatted t) = .ok s1)
    (h2 : parseSource (D.put x v') B only st (.formatted t) = .ok s2) (hne : s1 ≠ s2) :
    parseSource D B only st (.formatted t) = .error e := by
  have key : ∀ v s1, parseSource (D.put x v) B only st (.formatted t) = .ok s1 →
      parseSource D B only st (.formatted t) = .error e ∨
      parseSource D B only st (.formatted t) = .ok s1 := by
    intro v s1 hv
    rw [← hv]
    change parseFormatted _ _ _ _ _ = _ ∨ parseFormatted _ _ _ _ _ = parseFormatted _ _ _ _ _
    unfold parseFormatted
    rcases T.run_or (D := D) (D' := D.put x v) (e := e) (fun t => by
      by_cases ht : t = x
      · exact .inl (ht ▸ hx)
      · exact .inr (if_neg ht).symm) (parseFile B (t.length + 2) only st) (T.openFile t) with h | h
    · rw [h]; exact .inl rfl
    · rw [h]; exact .inr rfl
  rcases key _ _ h1 with h | h
  · exact h
  · rcases key _ _ h2 with h' | h'
    · exact h'
    · rw [h] at h'
      exact absurd (Except.ok.inj h') hne

/-- **C87** A formatted file that ends inside a number of a record of a fixed layout, or of one with
optional fields, where what is left of the number (without its last character) is no number, is
refused with the exception that `float` raises. -/
theorem formatted_cut_number {a b : List LRec} {r : LRec} {outs : List Added} {names : List String}
    {z t : Str} {n k : Nat} (hacc : Accepts only sk e0 none [] (a ++ r :: b) outs names)
    (henc : T.Encodes D sk z (a ++ r :: b) t) (he : endMark ∉ a) (hb : b.head? ≠ some endMark)
    (hend : ∀ x ∈ a, ¬ (EndOfFile x ∧ Selected only x.name))
    (ht : (r.name, n, k) ∈ fixedTypes ++ optionalTypes) (hsel : Selected only r.name)
    (hnv : NotVoid r) (hsk : ∀ r', r'.name = r.name → sk r' = false) :
    ∃ t1 c body t2 o1 o o2 n1 n2, t = t1 ++ (T.unlines (c :: body) ++ t2) ∧ T.Head D r c ∧
      T.Body D r body ∧ outs = o1 ++ o :: o2 ∧ names = n1 ++ n2 ∧ o.name = r.name ∧
      (s ≠ 0 → (∀ cells, GivesType s (o1 ++ [{ o with cells := cells }]) ∧
          pl.Allows s (o1 ++ [{ o with cells := cells }]) ∧
          Classified (o1 ++ [{ o with cells := cells }]) pl lev dt ix) → pl.In h0 →
        (∀ l ∈ layouts, h0.tabs (pl.path s, l.name) = none) → Clean pl e0 h0 st → ∀ B e,
        -- inside a line with values
        (∀ i (l' : Str) ch rest,
          body[i]? = some (List.replicate 8 ' ' ++ (l' ++ ch :: rest)) →
          T.tofloatrec D l' = .error e →
          4 * i + l'.length / 16 < r.vals.length → r.head.length + (4 * i + l'.length / 16) < n →
          parseSource D B only st (.formatted
            (t1 ++ T.unlines (c :: body.take i) ++ (List.replicate 8 ' ' ++ l' ++ [ch]))) =
              .error e) ∧
        -- inside the line with the name
        (∀ (l' : Str) ch rest, c = nameField r.name ++ (l' ++ ch :: rest) →
          T.tofloatrec D l' = .error e → l'.length / 16 < n →
          parseSource D B only st (.formatted (t1 ++ (nameField r.name ++ l' ++ [ch]))) =
            .error e)) := by
  have hname : r.name ≠ "" := by
    have : ∀ t ∈ fixedTypes ++ optionalTypes, t.1 ≠ "" := by decide
    exact this _ ht
  obtain ⟨past, x, o1, o, o2, n1, n2, e1, e2, e3, k1, k2⟩ := hacc.replaceLast hend
    (formatted_named henc he) ht hsel hnv
  obtain ⟨t1, c, body, t2, e4, g1, g2, g3, g4⟩ := formatted_replace hname a henc he
  have k1' := k1
  obtain ⟨entry, lay, q1, q2, q3, q4, q5, q6, q7⟩ := k1'
  obtain ⟨m1, m2, rfl, -⟩ := means_plain q1 ht
  have hcols := (plain_layout _ ht lay q2 q3).2
  refine ⟨t1, c, body, t2, o1, o, o2, n1, n2, e4, g2, g3, e1, e2, e3, ?_⟩
  intro c1 c2 c3 c4 c5 B e
  -- rows with a number in place of what is left
  have hrow : ∀ p q : List PyF, r.head ++ r.vals = p ++ q → ∀ v, Plain v → ∃ cells,
      StoredRow lay.cols (numbers (fit n (p ++ [v]))) cells := by
    intro p q hpq v hv
    refine storedRow_plain (cells := o.cells) (fit_put n hv p q) hcols ?_
    rw [← hpq]
    exact q6
  -- two numbers, two results
  have main : ∀ (y : Str) (p q : List PyF) (t' : Str), D.float y = .error e → p.length < n →
      r.head ++ r.vals = p ++ q →
      (∀ v cells, StoredRow lay.cols (numbers (fit n (p ++ [v]))) cells →
        v = .rat 0 ∨ v = .rat 1 → ∃ st',
        parseSource (D.put y v) B only st (.formatted t') = .ok st' ∧
        Converted (o1 ++ [{ o with cells := cells }]) n1 pl s h0 lev dt ix st'.h5) →
      parseSource D B only st (.formatted t') = .error e := by
    intro y p q t' hy hp hpq hconv
    obtain ⟨d0, r0⟩ := hrow p q hpq _ plain_zero
    obtain ⟨d1, r1⟩ := hrow p q hpq _ plain_one
    obtain ⟨s0, u0, w0⟩ := hconv _ d0 r0 (.inl rfl)
    obtain ⟨s1, u1, w1⟩ := hconv _ d1 r1 (.inr rfl)
    refine refused_number hy B u0 u1 ?_
    rintro rfl
    have := converted_cells q2 (q4.trans q3.symm) (r0.2.2.trans r1.2.2.symm) w0 w1
    rw [← this] at r1
    exact storedRow_zero_one hp hcols r0 r1
  constructor
  · intro i l' ch rest hi hte hval hpos
    -- the line
    obtain ⟨ps, fs, rfl, hps, vss, b1, b2, b3, b4, b5⟩ := g3
    have hps' := hps
    rw [m1] at hps'
    cases hps'
    rw [List.nil_append] at hi
    have hif : i < fs.length := (List.getElem?_eq_some_iff.mp hi).1
    have hlen := b1.length_eq
    have hex : ∀ l : List (List PyF), (∀ vs ∈ l, vs.length = 4) → l.flatten.length = 4 * l.length := by
      intro l
      induction l with
      | nil => simp
      | cons v l ih =>
        intro hl
        have := ih fun vs hvs => hl vs (by simp [hvs])
        have := hl v (by simp)
        simp only [List.flatten_cons, List.length_append, List.length_cons]
        omega
    have hfour : ∀ vs ∈ vss.take i, vs.length = 4 := by
      intro vs hvs
      refine b3 vs ?_
      rw [List.dropLast_eq_take]
      have e : vss.take i = (vss.take (vss.length - 1)).take i := by
        rw [List.take_take, Nat.min_eq_left (by omega)]
      rw [e] at hvs
      exact List.mem_of_mem_take hvs
    have hleni : (vss.take i).flatten.length = 4 * i := by
      rw [hex _ hfour, List.length_take, Nat.min_eq_left (by omega)]
    obtain ⟨fb, hfb, hnl, hdec⟩ : T.Chunk D (List.replicate 8 ' ' ++ (l' ++ ch :: rest))
        (vss[i]'(by omega)) := by
      have := (List.forall₂_iff_get.mp b1).2 i hif (by omega)
      have e : fs.get ⟨i, hif⟩ = List.replicate 8 ' ' ++ (l' ++ ch :: rest) := by
        rw [List.getElem?_eq_getElem hif] at hi
        exact Option.some.inj hi
      rw [e] at this
      exact this
    obtain rfl : fb = l' ++ ch :: rest := (List.append_cancel_left hfb).symm
    obtain ⟨y, hy, hput⟩ := T.tofloatrec_cut hdec hte
    have hl'ne : l' ≠ [] := by rintro rfl; cases hte
    -- values in front
    have hq : r.vals.take (4 * i) ++ (vss[i]'(by omega)).take (l'.length / 16) =
        r.vals.take (4 * i + l'.length / 16) := by
      have hk : l'.length / 16 ≤ (vss[i]'(by omega)).length := by
        rw [tofloatrec_length hdec, List.length_append]
        omega
      have hsplit : vss.flatten = (vss.take i).flatten ++ ((vss[i]'(by omega)) ++
          (vss.drop (i + 1)).flatten) := by
        rw [← List.flatten_cons, ← List.flatten_append, ← List.drop_eq_getElem_cons,
          List.take_append_drop]
      have e2 := congrArg (List.take (4 * i + l'.length / 16)) b2
      rw [hsplit, List.take_append_of_le_length (l₁ := r.vals) (by omega), List.take_append,
        List.take_of_length_le (by omega), hleni, Nat.add_sub_cancel_left,
        List.take_append_of_le_length hk] at e2
      have e3 := congrArg (List.take (4 * i)) b2
      rw [hsplit, List.take_left' hleni, List.take_append_of_le_length (by omega)] at e3
      rw [← e3]
      exact e2
    refine main y (r.head ++ r.vals.take (4 * i + l'.length / 16))
      (r.vals.drop (4 * i + l'.length / 16)) _ hy ?_ ?_ fun v cells hc hv => ?_
    · rw [List.length_append, List.length_take]
      omega
    · rw [List.append_assoc, List.take_append_drop]
    · have hext := Dec.put_extends hy v
      have hbody : T.Body (D.put y v) r ([] ++ fs) :=
        T.Body.extends hext ⟨[], fs, rfl, hps, vss, b1, b2, b3, b4, b5⟩
      obtain ⟨d1, d2, d3, d4⟩ := Body.cutLine hbody m1 m2 hi rfl hl'ne (hput v)
      rw [convert_newline_missing (D.put y v) B only st (g1.append (lines_unlines _)) (by
        rw [List.mem_append, not_or]
        exact ⟨by simp, d2⟩) d3 (by simp)]
      have hw : (r.vals.take (4 * i) ++ ((vss[i]'(by omega)).take (l'.length / 16) ++ [v])) =
          r.vals.take (4 * i + l'.length / 16) ++ [v] := by rw [← List.append_assoc, hq]
      have hwt : (r.vals.take (4 * i + l'.length / 16) ++ [v]).take (n - 4) =
          r.vals.take (4 * i + l'.length / 16) ++ [v] := by
        rw [List.take_of_length_le]
        rw [List.length_append, List.length_take, List.length_singleton]
        omega
      rw [hw] at d4
      have henc' := g4 _ hext (withValues r n (r.vals.take (4 * i + l'.length / 16) ++ [v])) c _ rfl
        (g2.extends hext) d4 (hsk _ rfl)
      have hacc' := k2 (withValues r n (r.vals.take (4 * i + l'.length / 16) ++ [v])) cells rfl hnv
        (k1.withValues ht d1 hb (fun l hl hn => by
          obtain rfl : l = lay := layout_eq hl q2 (hn.trans q3.symm)
          rw [hwt, ← List.append_assoc]
          exact hc))
      have e : t1 ++ T.unlines (c :: (([] ++ fs).take i ++ [List.replicate 8 ' ' ++ l'])) =
          t1 ++ T.unlines (c :: ([] ++ fs).take i) ++ (List.replicate 8 ' ' ++ l' ++ ['\n']) := by
        rw [← List.cons_append, T.unlines_append, List.append_assoc]
        simp [T.unlines]
      rw [e] at henc'
      exact Job.source ⟨hacc', c1, (c2 cells).1, (c2 cells).2.1, c3, c4, (c2 cells).2.2⟩ c5 B
        (.formatted henc')
  · intro l' ch rest hcl hte hpos
    obtain ⟨hok, fb, w1, w2, w3⟩ := g2
    obtain rfl : fb = l' ++ ch :: rest := by
      rw [hcl] at w1
      exact (List.append_cancel_left w1).symm
    have hnl : '\n' ∉ l' ∧ ch ≠ '\n' := by
      simp only [List.mem_append, List.mem_cons, not_or] at w2
      exact ⟨w2.1, fun h => w2.2.1 h.symm⟩
    have hnf : '\n' ∉ nameField r.name ∧ 8 ≤ (nameField r.name).length := by
      obtain ⟨_, o2, o3⟩ := hok
      refine ⟨?_, by simp [nameField]; omega⟩
      intro h
      rcases List.mem_append.mp h with h | h
      · have := (o3 _ h).1
        exact absurd this (by decide)
      · exact absurd (List.eq_of_mem_replicate h) (by decide)
    obtain ⟨y, hy, hput⟩ := T.tofloatrec_cut w3 hte
    have hk : l'.length / 16 ≤ r.head.length := by
      rw [tofloatrec_length w3, List.length_append]
      omega
    refine main y (r.head.take (l'.length / 16)) (r.head.drop (l'.length / 16) ++ r.vals) _ hy ?_ ?_
      fun v cells hc hv => ?_
    · rw [List.length_take]
      omega
    · rw [← List.append_assoc, List.take_append_drop]
    · have hext := Dec.put_extends hy v
      rw [convert_newline_missing (D.put y v) B only st g1 (by
        rw [List.mem_append, not_or]
        exact ⟨hnf.1, hnl.1⟩) hnl.2 (by rw [List.length_append]; omega)]
      have hnv' : NotVoid { r with head := r.head.take (l'.length / 16) ++ [v] } := by
        obtain ⟨x0, t0, u1, u2⟩ := hnv
        cases hk0 : l'.length / 16 with
        | zero =>
          refine ⟨v, [], by simp, ?_⟩
          rcases hv with rfl | rfl <;> decide +kernel
        | succ m => exact ⟨x0, t0.take m ++ [v], by simp [u1], u2⟩
      have henc' := g4 _ hext
        { r with head := r.head.take (l'.length / 16) ++ [v], vals := [], pad := [] }
        (nameField r.name ++ l') [] rfl ⟨hok, l', rfl, hnl.1, hput v⟩
        ⟨[], [], rfl, by rw [m1]; exact .nil, [], .nil, rfl, by simp, by simp, fun h => absurd rfl h⟩
        (hsk _ rfl)
      have hacc' := k2 { r with head := r.head.take (l'.length / 16) ++ [v], vals := [], pad := [] }
        cells rfl hnv' (k1.withHead ht fun l hl hn => by
          obtain rfl : l = lay := layout_eq hl q2 (hn.trans q3.symm)
          exact hc)
      have e : t1 ++ T.unlines [nameField r.name ++ l'] =
          t1 ++ (nameField r.name ++ l' ++ ['\n']) := by
        simp [T.unlines]
      rw [e] at henc'
      exact Job.source ⟨hacc', c1, (c2 cells).1, (c2 cells).2.1, c3, c4, (c2 cells).2.2⟩ c5 B
        (.formatted henc')

end

namespace Demo

/-- the demo file up to a character in a number of its pipe section: the hypotheses of
`formatted_cut_number` are met -/
example : ∃ t1 c body t2 o1 o o2 n1 n2, text file = t1 ++ (T.unlines (c :: body) ++ t2) ∧
    T.Head Dec.std file[7] c ∧ T.Body Dec.std file[7] body ∧ outs = o1 ++ o :: o2 ∧
    names = n1 ++ n2 ∧ o.name = "GPIPE" := by
  obtain ⟨t1, c, body, t2, o1, o, o2, n1, n2, k1, k2, k3, k4, k5, k6, -⟩ :=
    formatted_cut_number (D := Dec.std) (z := []) (a := file.take 7) (r := file[7])
      (b := file.drop 8) (n := 8) (k := 2) (s := 5) (pl := .top "" "T") (h0 := {})
      (st := {}) (lev := "FIRSTLEVEL") (dt := "STRUCTURAL") (ix := none)
      (accepted fun _ => false) (encodesT (f := file) (by decide +kernel)) (by decide +kernel)
      (by decide +kernel)
      (by
        intro x hx h
        have : ∀ x ∈ file.take 7, x.name ≠ "IEND" := by decide +kernel
        exact this x hx h.1.1)
      (by decide +kernel) trivial ⟨_, _, rfl, by decide +kernel⟩ (fun _ _ => rfl)
  exact ⟨t1, c, body, t2, o1, o, o2, n1, n2, k1, k2, k3, k4, k5, k6⟩

/-- the exception for `n` characters of the record of the material -/
def steelError (n : Nat) : Option Err :=
  match parseSource Dec.std 3 none { g := { filetypeid := "T" } }
    (.formatted (steelStart.toList ++ steel.toList.take n)) with
  | .error e => some e
  | .ok _ => none

/-- behind `2.000E` and `2.000E+` in the first line, and behind `5.000E-` in the second -/
example : steelError 38 = some .valueError ∧ steelError 39 = some .valueError ∧
    steelError 40 = none ∧ steelError (73 + 23) = some .valueError := by
  decide +kernel

end Demo

end Verif.Parse
