import Verif.Parse.Records
/-!
# Arrays that a record has no items for: property C72

C21 is false of the code: a record that has no items for an array does not get an empty selection.
Here is what it gets instead.
-/

namespace Verif.Parse
open Verif Verif.Seq

/-! ### specification -/

/-- the record of `p` is directly followed, in the file, by another one of its type -/
def Event.GoesOn (p : Event) : Prop :=
  ∃ r, p.next = some r ∧ r.name = p.record.name ∧ r.name ≠ "IDENT"

/-- record `i` of the records of one type does not go on with a block -/
def Starts (evs : List Event) (i : Nat) : Prop :=
  ∀ i' p, i = i' + 1 → evs[i']? = some p → ¬ p.GoesOn

/-- start and stop of the row at column `k` are `a` and `b` -/
def Limits (row : List Cell) (k a b : Nat) : Prop := HasField row k a ∧ HasField row (k + 1) b

/-- Row `i` has start and stop at column `k` without items of its own: 0 and 0 if its record is the
first of a block, those of the row before otherwise. -/
def Carried (evs : List Event) (rows : List (List Cell)) (i k : Nat) (row : List Cell) : Prop :=
  (Starts evs i ∧ Limits row k 0 0) ∨
    ∃ i' p row' a b, i = i' + 1 ∧ evs[i']? = some p ∧ p.GoesOn ∧ rows[i']? = some row' ∧
      Limits row' k a b ∧ Limits row k a b

/-! ### flags of records -/

/-- the flags of the records of one type say that the record before goes on -/
inductive Flagged : Bool → List (Event × Bool) → Prop
  | nil {c} : Flagged c []
  | cons {c c' ev l} : (c' = true ↔ ev.GoesOn) → Flagged c' l → Flagged c ((ev, c) :: l)

theorem flagged_type {n : String} (hn : n ∈ layouts.map (·.name)) (f : List LRec) :
    ∀ (block : Option String) (past : List LRec), block ≠ some "IDENT" →
      Flagged (decide (block = some n ∧ f.head?.map (·.name) = some n))
        ((flagged block past f).filter fun ev => ev.1.record.name = n) := by
  induction f with
  | nil => intro _ _ _; exact .nil
  | cons r rest ih =>
    intro block past hb
    have other : (r.name ≠ n ∨ block ≠ some n) →
        decide (block = some n ∧ (r :: rest).head?.map (·.name) = some n) = false := by
      intro h
      simp only [List.head?_cons, Option.map_some, Option.some.injEq, decide_eq_false_iff_not,
        not_and]
      tauto
    have none' : Flagged false ((flagged none past rest).filter fun ev => ev.1.record.name = n) := by
      have := ih none past (by simp)
      simpa using this
    unfold flagged
    split_ifs with h1 h2 h3 h4
    · exact .nil
    · rw [other (by by_cases hr : r.name = n; right; rw [← hr]; exact h3.2; exact .inl hr)]
      exact none'
    · by_cases hr : r.name = n
      · rw [List.filter_cons_of_pos (by simpa using hr)]
        have : decide (block = some n ∧ (r :: rest).head?.map (·.name) = some n) =
            decide (block = some r.name) := by simp [hr]
        rw [this]
        refine .cons ?_ (ih none (r :: past) (by simp))
        simp only [reduceCtorEq, false_and, decide_false, Bool.false_eq_true, false_iff]
        rintro ⟨r', _, g2, g3⟩
        exact g3 (g2.trans h4)
      · rw [List.filter_cons_of_neg (by simpa using hr), other (.inl hr)]
        have := ih none (r :: past) (by simp)
        simpa using this
    · by_cases hr : r.name = n
      · rw [List.filter_cons_of_pos (by simpa using hr)]
        have : decide (block = some n ∧ (r :: rest).head?.map (·.name) = some n) =
            decide (block = some r.name) := by simp [hr]
        rw [this]
        refine .cons ?_ (ih (some r.name) (r :: past) (by simpa using h4))
        simp only [hr, true_and, decide_eq_true_eq]
        constructor
        · intro g
          cases hh : rest.head? with
          | none => rw [hh] at g; cases g
          | some r' =>
            rw [hh] at g
            simp only [Option.map_some, Option.some.injEq] at g
            exact ⟨r', rfl, by rw [g]; exact hr.symm, by rw [g, ← hr]; exact h4⟩
        · rintro ⟨r', g1, g2, _⟩
          have g1' : rest.head? = some r' := g1
          rw [g1', Option.map_some, g2]
          exact congrArg some hr
      · rw [List.filter_cons_of_neg (by simpa using hr), other (.inl hr)]
        have := ih (some r.name) (r :: past) (by simpa using h4)
        have hne : ¬ (some r.name = some n ∧ rest.head?.map (·.name) = some n) := by
          simp [hr]
        rw [decide_eq_false hne] at this
        exact this
    · rw [other (.inl fun h => h2 (by rw [h]; exact hn))]
      exact none'

theorem Flagged.get {c : Bool} {l : List (Event × Bool)} (h : Flagged c l) :
    ∀ (i : Nat) (ev : Event) (b : Bool), l[i]? = some (ev, b) →
      (i = 0 → b = c) ∧ ∀ i' p, i = i' + 1 → (l.map Prod.fst)[i']? = some p →
        (b = true ↔ p.GoesOn) := by
  induction h with
  | nil => intro i ev b h; simp at h
  | @cons c c' ev l hc _ ih =>
    intro i ev' b hi
    cases i with
    | zero =>
      simp only [List.getElem?_cons_zero, Option.some.injEq, Prod.mk.injEq] at hi
      exact ⟨fun _ => hi.2.symm, fun i' p h => by omega⟩
    | succ i =>
      simp only [List.getElem?_cons_succ] at hi
      obtain ⟨h1, h2⟩ := ih i ev' b hi
      refine ⟨by omega, fun i' p hi' hp => ?_⟩
      obtain rfl : i = i' := by omega
      cases i with
      | zero =>
        simp only [List.map_cons, List.getElem?_cons_zero, Option.some.injEq] at hp
        rw [h1 rfl, hc, hp]
      | succ k => exact h2 k p rfl (by simpa using hp)

/-! ### limits of rows -/

/-- rows with the limits `new`; limits for arrays without items are zero or those before -/
inductive Limited (n : Nat) : List (Nat × Nat) → List Added → List (List Cell) → Prop
  | nil {last} : Limited n last [] []
  | cons {last new o os rows} : new.length = n →
      (∀ j : Nat, o.items[j]? = some none → new[j]? = if o.first then some (0, 0) else last[j]?) →
      Limited n new os rows → Limited n last (o :: os) ((o.cells ++ limits new) :: rows)

theorem foldl_limited (n : Nat) (os : List Added) : ∀ t : Acc, t.arrs.length = n →
    t.last.length = n → (∀ o ∈ os, o.items.length = n) →
    ∃ rows, (os.foldl (fun t o => t.add o.first o.cells o.items) t).rows = t.rows ++ rows ∧
      Limited n t.last os rows := by
  induction os with
  | nil => intro t _ _ _; exact ⟨[], by simp, .nil⟩
  | cons o os ih =>
    intro t ht hl h
    have ho := h o (by simp)
    have ht' : (t.add o.first o.cells o.items).arrs.length = n := Acc.add_length ht ho
    have hl' : (t.add o.first o.cells o.items).last.length = n := by
      unfold Acc.add
      cases o.first <;> simp [ht, hl, ho]
    obtain ⟨rows, h1, h2⟩ := ih _ ht' hl' fun o' ho' => h o' (by simp [ho'])
    refine ⟨(o.cells ++ limits (t.add o.first o.cells o.items).last) :: rows, ?_,
      .cons hl' (fun j hj => ?_) h2⟩
    · rw [List.foldl_cons, h1]
      simp [Acc.add]
    · obtain ⟨hlt, _⟩ := List.getElem?_eq_some_iff.mp hj
      have ha : t.arrs[j]? = some t.arrs[j] := List.getElem?_eq_getElem (by omega)
      have hp : t.last[j]? = some t.last[j] := List.getElem?_eq_getElem (by omega)
      unfold Acc.add
      cases o.first
      · simp only [List.getElem?_zipWith, List.zip, ha, hj, hp, Bool.false_eq_true, if_false,
          interval]
      · simp only [List.getElem?_zipWith, List.zip, ha, hj, if_true, List.getElem?_map,
          Option.map_some, interval]

theorem Limited.get {n : Nat} {last : List (Nat × Nat)} {os : List Added} {rows : List (List Cell)}
    (h : Limited n last os rows) :
    ∀ (i : Nat) (o : Added) (row : List Cell), os[i]? = some o → rows[i]? = some row →
      ∃ new prev, row = o.cells ++ limits new ∧ new.length = n ∧
        (∀ j : Nat, o.items[j]? = some none →
          new[j]? = if o.first then some (0, 0) else prev[j]?) ∧ (i = 0 → prev = last) ∧
        ∀ i' (o' : Added) row', i = i' + 1 → os[i']? = some o' → rows[i']? = some row' →
          row' = o'.cells ++ limits prev := by
  induction h with
  | nil => intro i o row h; simp at h
  | @cons last new o os rows h1 h2 _ ih =>
    intro i o' row ho hr
    cases i with
    | zero =>
      simp only [List.getElem?_cons_zero, Option.some.injEq] at ho hr
      subst ho
      exact ⟨new, last, hr.symm, h1, h2, fun _ => rfl, fun i' _ _ h => by omega⟩
    | succ i =>
      simp only [List.getElem?_cons_succ] at ho hr
      cases i with
      | zero =>
        obtain ⟨new', prev, g1, g2, g3, g4, _⟩ := ih 0 o' row ho hr
        refine ⟨new', prev, g1, g2, g3, by omega, fun i' o'' row' hi ho' hr' => ?_⟩
        obtain rfl : i' = 0 := by omega
        simp only [List.getElem?_cons_zero, Option.some.injEq] at ho' hr'
        rw [← ho', ← hr', g4 rfl]
      | succ k =>
        obtain ⟨new', prev, g1, g2, g3, _, g4⟩ := ih (k + 1) o' row ho hr
        refine ⟨new', prev, g1, g2, g3, by omega, fun i' o'' row' hi ho' hr' => ?_⟩
        obtain rfl : i' = k + 1 := by omega
        exact g4 k o'' row' rfl (by simpa using ho') (by simpa using hr')

/-- limits in a row -/
theorem limits_row {cells : List Cell} {new : List (Nat × Nat)} {j : Nat} {p : Nat × Nat}
    (h : new[j]? = some p) : Limits (cells ++ limits new) (cells.length + 2 * j) p.1 p.2 := by
  obtain ⟨h1, h2⟩ := limits_get h
  constructor
  · unfold HasField
    rw [List.getElem?_append_right (by omega), ← h1]; congr 1; omega
  · unfold HasField
    rw [List.getElem?_append_right (by omega), ← h2]; congr 1; omega

section
variable {only : Option (List String)} {sk : LRec → Bool} {e0 : Int → Option Int}
  {f : List LRec} {outs : List Added} {names : List String} {pl : Place} {s : Int} {h0 : H5}
  {lev dt : String} {ix : Option (Option Int)} {st : St} {D D' : Dec} {src src' : Source}

/-- row `i` of the table of a record type: all of its columns -/
def RowExactly (e0 : Int → Option Int) (l : Layout) (t : Tab) (evs : List Event) (i : Nat)
    (ev : Event) (row : List Cell) : Prop :=
  ∃ e, Means e0 ev.past ev.next ev.record e ∧ e.items.length = l.arrs.length ∧
    row.length = l.cols.length + 2 * l.arrs.length ∧
    StoredRow l.cols e.row (row.take l.cols.length) ∧
    (∀ k vs, e.items[k]? = some (some vs) → ItemsAt l t row k vs) ∧
    ∀ k, e.items[k]? = some none → Carried evs t.rows i (l.cols.length + 2 * k) row

theorem contents_exact (j : Job none sk e0 f outs names pl s h0 lev dt ix) {l : Layout}
    (hl : l ∈ layouts) (i : Nat) (ev : Event) (row : List Cell)
    (hev : ((events [] f).filter fun ev => ev.record.name = l.name)[i]? = some ev)
    (hrow : (contents l outs).rows[i]? = some row) :
    RowExactly e0 l ((contents l outs).table l)
      ((events [] f).filter fun ev => ev.record.name = l.name) i ev row := by
  have hfl := j.accepted.complete none (fun _ _ => Iff.rfl) (by simp)
  have hnames : l.name ∈ layouts.map (·.name) := List.mem_map.mpr ⟨l, hl, rfl⟩
  have hflag := flagged_type hnames f none [] (by simp)
  simp only [reduceCtorEq, false_and, decide_false] at hflag
  have key : ∀ (tr : List (Event × Bool)) (outs : List Added),
      List.Forall₂ (fun (ev : Event × Bool) o =>
        Adds e0 ev.1.past ev.1.next (!ev.2) ev.1.record o) tr outs →
      List.Forall₂ (fun (ev : Event × Bool) o =>
          Adds e0 ev.1.past ev.1.next (!ev.2) ev.1.record o)
        (tr.filter fun ev => ev.1.record.name = l.name) (ofType l.name outs) := by
    intro tr outs h
    induction h with
    | nil => exact .nil
    | @cons ev o tr outs ha _ ih =>
      unfold ofType at ih ⊢
      by_cases hn : ev.1.record.name = l.name
      · rw [List.filter_cons_of_pos (by simpa using hn),
          List.filter_cons_of_pos (by simpa [adds_name ha] using hn)]
        exact .cons ha ih
      · rw [List.filter_cons_of_neg (by simpa using hn),
          List.filter_cons_of_neg (by simpa [adds_name ha] using hn)]
        exact ih
  have h3 := key _ _ hfl
  have hevs : ((events [] f).filter fun ev => ev.record.name = l.name) =
      ((flagged none [] f).filter fun ev => ev.1.record.name = l.name).map Prod.fst := by
    unfold events
    rw [← flagged_events, List.filter_map]
    rfl
  rw [hevs] at hev ⊢
  generalize (flagged none [] f).filter (fun ev => ev.1.record.name = l.name) = tr at *
  obtain ⟨⟨ev', b⟩, htr, rfl⟩ : ∃ p, tr[i]? = some p ∧ p.1 = ev := by
    rw [List.getElem?_map] at hev
    exact Option.map_eq_some_iff.mp hev
  obtain ⟨hlt, hget⟩ := List.getElem?_eq_some_iff.mp htr
  have hlt' : i < (ofType l.name outs).length := by rw [← h3.length_eq]; exact hlt
  have ho : (ofType l.name outs)[i]? = some (ofType l.name outs)[i] :=
    List.getElem?_eq_getElem hlt'
  have hadd := (List.forall₂_iff_get.mp h3).2 i hlt hlt'
  simp only [List.get_eq_getElem, hget] at hadd
  obtain ⟨hb0, hb1⟩ := hflag.get i ev' b htr
  obtain ⟨hr, hrr⟩ := List.getElem?_eq_some_iff.mp hrow
  have hok := contents_slices (l := l) j.accepted.itemsOK hl
  have hsl := (List.forall₂_iff_get.mp hok).2 i hlt' hr
  simp only [List.get_eq_getElem, hrr] at hsl
  have hname : ∀ o ∈ ofType l.name outs, o ∈ outs ∧ o.name = l.name := by
    intro o ho; simpa [ofType] using ho
  obtain ⟨rows, hr1, hr2⟩ := foldl_limited l.arrs.length (ofType l.name outs) (Acc.start l)
    (by simp [Acc.start]) (by simp [Acc.start])
    (fun o ho => j.accepted.itemsOK l hl o (hname o ho).1 (hname o ho).2)
  rw [← contents_eq] at hr1
  have hr1' : (contents l outs).rows = rows := by rw [hr1]; simp [Acc.start]
  rw [← hr1'] at hr2
  obtain ⟨new, prev, n1, n2, n3, _, n4⟩ := hr2.get i _ row ho hrow
  have hall : ∀ (i' : Nat) (o : Added), (ofType l.name outs)[i']? = some o →
      o.cells.length = l.cols.length := by
    intro i' o ho'
    obtain ⟨hlt2, hget2⟩ := List.getElem?_eq_some_iff.mp ho'
    have := (List.forall₂_iff_get.mp h3).2 i' (by rw [h3.length_eq]; exact hlt2) hlt2
    simp only [List.get_eq_getElem, hget2] at this
    obtain ⟨e, l', _, hl', hln, hon, _, hsr, _⟩ := this
    obtain rfl : l = l' := layout_eq hl hl'
      (by rw [hln, ← hon, (hname o (List.mem_of_getElem? ho')).2])
    exact hsr.2.2
  generalize hoo : (ofType l.name outs)[i] = o at *
  obtain ⟨e, l', hm, hl', hln, hon, hfirst, hsr, hsi⟩ := hadd
  obtain rfl : l = l' := layout_eq hl hl'
    (by rw [hln, ← hon, (hname o (List.mem_of_getElem? ho)).2])
  obtain ⟨r1, r2, r3⟩ := hsl
  have hc : o.cells.length = l.cols.length := hsr.2.2
  rw [hc] at r1 r2 r3
  obtain ⟨hi, hi1, hi2⟩ := hsi
  have hpair : ∀ (k : Nat) (x : Option (List Val)), e.items[k]? = some x →
      ∃ (a : Arr) (y : Option (List Cell)), l.arrs[k]? = some a ∧ o.items[k]? = some y ∧
        (match x, y with
          | some vs, some cs => List.Forall₂ (Stored a.kind a.shape) vs cs
          | none, none => True
          | _, _ => False) := by
    intro k x hx
    obtain ⟨hlt3, _⟩ := List.getElem?_eq_some_iff.mp hx
    have hio : o.items[k]? = some o.items[k] := List.getElem?_eq_getElem (by omega)
    refine ⟨l.arrs[k]'(by omega), o.items[k]'(by omega), List.getElem?_eq_getElem _, hio, ?_⟩
    have hz : (e.items.zip o.items)[k]? = some (x, o.items[k]) := by
      rw [List.getElem?_zip_eq_some]; exact ⟨hx, hio⟩
    obtain ⟨hlt4, hz'⟩ := List.getElem?_eq_some_iff.mp hz
    have := (List.forall₂_iff_get.mp hi).2 k (by omega) hlt4
    simp only [List.get_eq_getElem, hz'] at this
    cases x <;> cases hy : o.items[k] <;> rw [hy] at this <;> exact this
  refine ⟨e, hm, ?_, r1, by rw [r2]; exact hsr, ?_, ?_⟩
  · omega
  · intro k vs hk
    obtain ⟨a, y, q1, q2, q3⟩ := hpair k _ hk
    cases y with
    | none => exact q3.elim
    | some cs =>
      obtain ⟨arr, harr, hs⟩ := r3 k cs q2
      refine ⟨a, cs, { a with items := arr }, q1, ?_, hs, q3⟩
      simp [Acc.table, List.getElem?_zipWith, q1, harr]
  · intro k hk
    obtain ⟨a, y, q1, q2, q3⟩ := hpair k _ hk
    cases y with
    | some cs => exact q3.elim
    | none =>
      have hnew := n3 k q2
      have hkn : k < new.length := by
        rw [n2]; exact (List.getElem?_eq_some_iff.mp q1).1
      rw [← hc]
      subst n1
      cases b with
      | false =>
        left
        refine ⟨fun i' p hi' hp hg => ?_, ?_⟩
        · exact absurd ((hb1 i' p hi' hp).mpr hg) (by simp)
        · have : o.first = true := by simpa using hfirst
          rw [this] at hnew
          exact limits_row hnew
      | true =>
        right
        have : o.first = false := by simpa using hfirst
        rw [this] at hnew
        cases i with
        | zero => exact absurd (hb0 rfl) (by simp)
        | succ i' =>
          have hp : (tr.map Prod.fst)[i']? = some ((tr.map Prod.fst)[i']'(by simp; omega)) :=
            List.getElem?_eq_getElem _
          have ho' : (ofType l.name outs)[i']? = some ((ofType l.name outs)[i']'(by omega)) :=
            List.getElem?_eq_getElem _
          have hr' : (contents l outs).rows[i']? = some ((contents l outs).rows[i']'(by omega)) :=
            List.getElem?_eq_getElem _
          have hn4 := n4 i' _ _ rfl ho' hr'
          have hc' := hall i' _ ho'
          have hpk : prev[k]? = some new[k] := by
            rw [List.getElem?_eq_getElem hkn] at hnew
            simpa using hnew.symm
          refine ⟨i', _, _, new[k].1, new[k].2, rfl, hp, (hb1 i' _ rfl hp).mp rfl, hr', ?_, ?_⟩
          · rw [hn4, hc, ← hc']
            exact limits_row hpk
          · exact limits_row (List.getElem?_eq_getElem hkn)

/-! ## C72: limits of arrays without items -/

/-- **C72** For each row and each array: if the record of the row has items for the array, the row
selects them; if it has not, start and stop are both 0 in the first record of a block (records of
one type directly behind each other), and those of the row before in the others. -/
theorem missing_items (j : Job none sk e0 f outs names pl s h0 lev dt ix)
    (hclean : Clean pl e0 h0 st) (henc : Encoded D sk f src) (B : Nat) :
    ∃ st', parseSource D B none st src = .ok st' ∧ ∀ l ∈ layouts, ∀ t,
      st'.h5.tabs (pl.path s, l.name) = some t →
      t.rows.length = ((events [] f).filter fun ev => ev.record.name = l.name).length ∧
      ∀ (i : Nat) (ev : Event) (row : List Cell),
        ((events [] f).filter fun ev => ev.record.name = l.name)[i]? = some ev →
        t.rows[i]? = some row →
        RowExactly e0 l t ((events [] f).filter fun ev => ev.record.name = l.name) i ev row := by
  obtain ⟨st', h1, h2⟩ := j.source hclean B henc
  refine ⟨st', h1, fun l hl t ht => ?_⟩
  have hne : ofType l.name outs ≠ [] := by
    intro he
    rw [h2.tables.2 (pl.path s, l.name) (.inr he), j.free l hl] at ht
    cases ht
  rw [h2.tables.1 l hl hne] at ht
  obtain rfl := Option.some.inj ht
  exact ⟨(rows_of j j.accepted.events hl).length_eq.symm,
    fun i ev row hev hrow => contents_exact j hl i ev row hev hrow⟩

/-- the record has pairs `vs` of type `k` -/
def HasRefs (r : LRec) (k : Int) (vs : List Val) : Prop :=
  ∃ c d n m ts, r.head[2]? = some c ∧ r.head[3]? = some d ∧ HasInt c n ∧ HasInt d m ∧
    RefTypes n.toNat m.toNat r.vals ts ∧ (k, vs) ∈ ts

/-- records `j`, `j + 1`, ..., `i` are directly behind each other -/
def Together (evs : List Event) (j i : Nat) : Prop :=
  j ≤ i ∧ ∀ m, j ≤ m → m < i → ∃ p, evs[m]? = some p ∧ p.GoesOn

/-- no record from `j` to `i` has pairs of type `k` -/
def NoRefs (evs : List Event) (k : Int) (j i : Nat) : Prop :=
  ∀ (m : Nat) (p : Event), j ≤ m → m ≤ i → evs[m]? = some p → ∀ vs, ¬ HasRefs p.record k vs

/-- **C72** Each row of WDRESREF selects, for each type of reference, the pairs of the latest
record of its block up to its own that has the type, and nothing if there is none. -/
theorem wave_references_exact (j : Job none sk e0 f outs names pl s h0 lev dt ix)
    (hclean : Clean pl e0 h0 st) (henc : Encoded D sk f src) (B : Nat) :
    ∃ st', parseSource D B none st src = .ok st' ∧ ∀ l ∈ layouts, l.name = "WDRESREF" → ∀ t,
      st'.h5.tabs (pl.path s, "WDRESREF") = some t →
      ∀ (i : Nat) (ev : Event) (row : List Cell),
        ((events [] f).filter fun ev => ev.record.name = "WDRESREF")[i]? = some ev →
        t.rows[i]? = some row → ∀ k : Nat, k < 3 →
        (∃ i' p vs, ((events [] f).filter fun ev => ev.record.name = "WDRESREF")[i']? = some p ∧
          Together ((events [] f).filter fun ev => ev.record.name = "WDRESREF") i' i ∧
          HasRefs p.record (k + 1) vs ∧
          NoRefs ((events [] f).filter fun ev => ev.record.name = "WDRESREF") (k + 1) (i' + 1) i ∧
          ItemsAt l t row k vs) ∨
        (∃ i', Starts ((events [] f).filter fun ev => ev.record.name = "WDRESREF") i' ∧
          Together ((events [] f).filter fun ev => ev.record.name = "WDRESREF") i' i ∧
          NoRefs ((events [] f).filter fun ev => ev.record.name = "WDRESREF") (k + 1) i' i ∧
          Limits row (l.cols.length + 2 * k) 0 0) := by
  obtain ⟨st', h1, h2⟩ := missing_items j hclean henc B
  refine ⟨st', h1, fun l hl hn t ht => ?_⟩
  obtain ⟨hlen, hall⟩ := h2 l hl t (by rw [hn]; exact ht)
  rw [hn] at hlen hall
  generalize hevs : ((events [] f).filter fun ev => ev.record.name = "WDRESREF") = evs at *
  have hname : ∀ (i : Nat) ev, evs[i]? = some ev → ev.record.name = "WDRESREF" := by
    intro i ev hev
    have := List.mem_of_getElem? hev
    rw [← hevs] at this
    simpa using (List.mem_filter.mp this).2
  have decl : ∀ (ev : Event) e, ev.record.name = "WDRESREF" → Means e0 ev.past ev.next ev.record e →
      ∀ k < 3, (∃ vs, HasRefs ev.record (k + 1 : Nat) vs ∧ e.items[k]? = some (some vs)) ∨
        ((∀ vs, ¬ HasRefs ev.record (k + 1 : Nat) vs) ∧ e.items[k]? = some none) := by
    intro ev e hne hm k hk
    obtain ⟨a, b, c, d, n, m, ts, dir, freq, time, k1, k2, k3, k4, k5, k6, k7, rfl⟩ :=
      means_wdresref hm (by simp [hne])
    have uniq : ∀ {k : Int} {vs}, HasRefs ev.record k vs → (k, vs) ∈ ts := by
      rintro k vs ⟨c', d', n', m', ts', u1, u2, u3, u4, u5, u6⟩
      rw [k1] at u1 u2
      simp only [List.getElem?_cons_succ, List.getElem?_cons_zero, Option.some.injEq] at u1 u2
      subst u1 u2
      rw [u3.unique k2, u4.unique k3] at u5
      rw [← refTypes_unique u5 k4]
      exact u6
    have pick : ∀ {x : Int} {o : Option (List Val)}, PairsFor x ts o →
        (∃ vs, HasRefs ev.record x vs ∧ o = some vs) ∨
          ((∀ vs, ¬ HasRefs ev.record x vs) ∧ o = none) := by
      intro x o hp
      cases hp with
      | @given vs p1 p2 =>
        exact .inl ⟨vs, ⟨c, d, n, m, ts, by simp [k1], by simp [k1], k2, k3, k4, p1⟩, rfl⟩
      | absent p1 => exact .inr ⟨fun vs hv => p1 (List.mem_map.mpr ⟨_, uniq hv, rfl⟩), rfl⟩
    have fin : ∀ {o : Option (List Val)}, [dir, freq, time][k]? = some o →
        PairsFor (k + 1 : Nat) ts o →
        (∃ vs, HasRefs ev.record (k + 1 : Nat) vs ∧ [dir, freq, time][k]? = some (some vs)) ∨
        ((∀ vs, ¬ HasRefs ev.record (k + 1 : Nat) vs) ∧ [dir, freq, time][k]? = some none) := by
      intro o ho hp
      rw [ho]
      rcases pick hp with ⟨vs, v1, v2⟩ | ⟨v1, v2⟩
      · exact .inl ⟨vs, v1, by rw [v2]⟩
      · exact .inr ⟨v1, by rw [v2]⟩
    have : k = 0 ∨ k = 1 ∨ k = 2 := by omega
    rcases this with rfl | rfl | rfl
    · exact fin rfl k5
    · exact fin rfl k6
    · exact fin rfl k7
  intro i
  induction i using Nat.strong_induction_on with
  | _ i ih =>
    intro ev row hev hrow k hk
    obtain ⟨e, g1, g2, g3, g4, g5, g6⟩ := hall i ev row hev hrow
    rcases decl ev e (hname i ev hev) g1 k hk with ⟨vs, d1, d2⟩ | ⟨d1, d2⟩
    · refine .inl ⟨i, ev, vs, hev, ⟨le_refl _, fun m h1 h2 => by omega⟩, by exact_mod_cast d1,
        fun m p h1 h2 => by omega, g5 k vs d2⟩
    · have last : NoRefs evs (k + 1) i i := by
        intro m p h1 h2 hp vs hv
        obtain rfl : m = i := by omega
        rw [hev] at hp
        cases hp
        exact d1 vs (by exact_mod_cast hv)
      rcases g6 k d2 with ⟨c1, c2⟩ | ⟨i', p, row', a, b, rfl, c1, c2, c3, c4, c5⟩
      · exact .inr ⟨i, c1, ⟨le_refl _, fun m h1 h2 => by omega⟩, last, c2⟩
      · have more : ∀ {x}, Together evs x i' → Together evs x (i' + 1) := by
          rintro x ⟨t1, t2⟩
          refine ⟨by omega, fun m h1 h2 => ?_⟩
          by_cases hm : m = i'
          · subst hm; exact ⟨p, c1, c2⟩
          · exact t2 m h1 (by omega)
        have none : ∀ {x}, NoRefs evs (k + 1) x i' → NoRefs evs (k + 1) x (i' + 1) := by
          intro x hx m q h1 h2 hq
          by_cases hm : m = i' + 1
          · exact last m q (by omega) h2 hq
          · exact hx m q h1 (by omega) hq
        rcases ih i' (by omega) p row' c1 c3 k hk with ⟨x, q, vs, b1, b2, b3, b4, b5⟩ | ⟨x, b1, b2, b3, b4⟩
        · refine .inl ⟨x, q, vs, b1, more b2, b3, none b4, ?_⟩
          obtain ⟨ar, cs, arr, q1, q2, q3, q4⟩ := b5
          refine ⟨ar, cs, arr, q1, q2, ?_, q4⟩
          obtain ⟨a', b', s1, s2, s3⟩ := q3
          have ea : a' = a := by
            have := s1.symm.trans c4.1
            simpa using this
          have eb : b' = b := by
            have := s2.symm.trans c4.2
            simpa using this
          subst ea eb
          exact ⟨_, _, c5.1, c5.2, s3⟩
        · refine .inr ⟨x, b1, more b2, none b3, ?_⟩
          have ea : a = 0 := by
            have := c4.1.symm.trans b4.1
            simpa using this
          have eb : b = 0 := by
            have := c4.2.symm.trans b4.2
            simpa using this
          subst ea eb
          exact c5

end

namespace Demo

/-- what `waveRefs` adds to the tables -/
def waveOuts : List Added := [
  ⟨"IDENT", true, [.sc (.int 1), .sc (.int 5), .sc (.int 3)], []⟩,
  ⟨"WDRESREF", true, [.sc (.int 7), .sc (.int 1), .sc (.int 1), .sc (.int 1)],
    [some [.vec [.flt (.rat 6), .flt (.rat 7)]], none, none]⟩,
  ⟨"WDRESREF", false, [.sc (.int 7), .sc (.int 2), .sc (.int 1), .sc (.int 1)],
    [none, some [.vec [.flt (.rat 8), .flt (.rat 9)]], none]⟩]

theorem waveAccepted (sk : LRec → Bool) :
    Accepts none sk (fun _ => none) none [] waveRefs waveOuts ["IDENT", "WDRESREF", "IEND"] := by
  have nv : ∀ {n : String} {x : PyF} {t : List PyF} {p sk v d}, x.ltZero = false →
      NotVoid ⟨n, x :: t, p, sk, v, d⟩ := fun h => ⟨_, _, rfl, h⟩
  have fo : ∀ {r : LRec}, r.name ≠ "SCONMESH" → FirstOK r := fun h h' => absurd h' h
  have int : ∀ {x : PyF} (n : Int), x.toInt = .ok n → HasInt x n := fun n h => toInt_hasInt h
  unfold waveRefs waveOuts
  refine .ident rfl trivial (nv (by decide +kernel)) ?_ ?_
  · exact ⟨_, lay "IDENT", .ident (int 1 (by decide +kernel)) (int 5 (by decide +kernel))
      (int 3 (by decide +kernel)), by decide +kernel, rfl, rfl, rfl, by stored, by stored⟩
  refine .first (by simp) (by simp) trivial (nv (by decide +kernel)) (fo (by simp)) ?_ ?_
  · refine ⟨_, lay "WDRESREF", .wdresref (n := 1) (m := 1)
      (ts := [(1, [vector [.rat 6, .rat 7]])]) (int 1 (by decide +kernel))
      (int 1 (by decide +kernel)) ?_
      (.given (vs := [vector [.rat 6, .rat 7]]) (by simp) (by simp)) (.absent (by simp))
      (.absent (by simp)),
      by decide +kernel, rfl, rfl, rfl, by stored, ?_⟩
    · exact .cons (d := [.rat 6, .rat 7]) (l := []) (int 1 (by decide +kernel))
        ⟨[[.rat 6, .rat 7]], by simp, rfl, rfl⟩ rfl .nil
    · refine ⟨.cons (.cons ?_ .nil) (.cons trivial (.cons trivial .nil)), rfl, rfl⟩
      exact Stored.vec (.cons (.flt (rounds_of (by decide +kernel)))
        (.cons (.flt (rounds_of (by decide +kernel))) .nil))
  refine .more (r := ⟨"WDRESREF", [.rat 7, .rat 2, .rat 1, .rat 1], [], 0,
    [.rat 2, .rat 8, .rat 9], []⟩) (by simp) ?_ ?_
  · refine ⟨_, lay "WDRESREF", .wdresref (n := 1) (m := 1)
      (ts := [(2, [vector [.rat 8, .rat 9]])]) (int 1 (by decide +kernel))
      (int 1 (by decide +kernel)) ?_ (.absent (by simp))
      (.given (vs := [vector [.rat 8, .rat 9]]) (by simp) (by simp)) (.absent (by simp)),
      by decide +kernel, rfl, rfl, rfl, by stored, ?_⟩
    · exact .cons (d := [.rat 8, .rat 9]) (l := []) (int 2 (by decide +kernel))
        ⟨[[.rat 8, .rat 9]], by simp, rfl, rfl⟩ rfl .nil
    · refine ⟨.cons trivial (.cons (.cons ?_ .nil) (.cons trivial .nil)), rfl, rfl⟩
      exact Stored.vec (.cons (.flt (rounds_of (by decide +kernel)))
        (.cons (.flt (rounds_of (by decide +kernel))) .nil))
  exact .stop trivial ⟨rfl, _, _, rfl, rfl⟩

theorem waveJob : Job none (fun _ => false) (fun _ => none) waveRefs waveOuts
    ["IDENT", "WDRESREF", "IEND"] (.top "" "R") 5 {} "FIRSTLEVEL" "STRUCTURAL" (some none) where
  accepted := waveAccepted _
  sel := by decide
  gives := ⟨_, rfl, .inl ⟨rfl, rfl⟩⟩
  allows := by
    intro o ho hn
    exfalso
    revert o
    decide +kernel
  hier := trivial
  free := fun _ _ => rfl
  classified := .resAlone (by decide +kernel)

theorem waveOnDisk :
    Encoded Dec.std (fun _ => false) waveRefs (.unformatted (75 :: bytes waveRefs)) :=
  .unformatted (encodesU (by decide +kernel))

end Demo

example (B : Nat) := missing_items Demo.waveJob Demo.resClean Demo.waveOnDisk B
example (B : Nat) := wave_references_exact Demo.waveJob Demo.resClean Demo.waveOnDisk B

/-- two references, directly behind each other -/
example : (((events [] Demo.waveRefs).filter fun ev => ev.record.name = "WDRESREF").map fun ev =>
      ev.next.map (·.name)) = [some "WDRESREF", some "IEND"] := by
  decide +kernel

/-- two blocks: the second block starts from zero (columns 4 and 5 of the second row) -/
example : Demo.rowsOf (Demo.conv "G" ((Demo.waveRefs.take 2) ++ [Demo.resFile[3]] ++
      Demo.waveRefs.drop 2)) ["G5"] "WDRESREF" =
    some [[.sc (.int 7), .sc (.int 1), .sc (.int 1), .sc (.int 1), .sc (.int 0), .sc (.int 1),
        .sc (.int 0), .sc (.int 0), .sc (.int 0), .sc (.int 0)],
      [.sc (.int 7), .sc (.int 2), .sc (.int 1), .sc (.int 1), .sc (.int 0), .sc (.int 0),
        .sc (.int 0), .sc (.int 1), .sc (.int 0), .sc (.int 0)]] := by
  decide +kernel

end Verif.Parse
