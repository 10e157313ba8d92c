import Verif.Parse.MeansRun
/-!
# The buffers compute the specified tables

For any buffer size, the row buffer and the `vldata` objects of a block together with the table
written so far represent an `Acc` (`WInv`).
-/

namespace Verif.Parse
open Verif Verif.Seq

/-! ### storing values -/

theorem storeSc_of {k : Kind} {s : Sc} {c : SCell} (h : StoredSc k s c) : storeSc k s = .ok c := by
  cases h with
  | int h => simp [storeSc, hasInt_toInt h]; rfl
  | flt h => rw [h.eq]; rfl
  | cpxReal h => rw [h.eq]; rfl
  | cpx h h' => rw [h.eq, h'.eq]; rfl
  | _ => rfl

theorem storedSc_of {k : Kind} {s : Sc} {c : SCell} (h : storeSc k s = .ok c)
    (hk : ∀ i : Int, s = .int i → k = .int) : StoredSc k s c := by
  cases k <;> cases s <;> simp [storeSc] at h hk
  · rename_i x
    cases hx : x.toInt with
    | error e => simp [hx, Except.map] at h
    | ok n =>
      simp [hx, Except.map] at h
      subst h
      exact .int (toInt_hasInt hx)
  all_goals (subst h; constructor)
  all_goals exact round_rounds binary32 _

theorem mapM_of_forall₂ {α β : Type} {f : α → Except Err β} {l : List α} {m : List β}
    (h : List.Forall₂ (fun a b => f a = .ok b) l m) : l.mapM f = .ok m := by
  induction h with
  | nil => rfl
  | cons h _ ih => simp only [List.mapM_cons, h, ih]; rfl

theorem storeVal_of {k : Kind} {sh : Shape} {v : Val} {c : Cell} (h : Stored k sh v c) :
    storeVal k sh v = .ok c := by
  cases h with
  | sc h => simp [storeVal, storeSc_of h, Except.map]
  | vec h =>
    simp [storeVal, mapM_of_forall₂ (h.imp fun _ _ => storeSc_of), Except.map]
  | mat h1 h2 h =>
    have : _ := mapM_of_forall₂ (f := fun r : List Sc => r.mapM (storeSc k))
      (h.imp fun _ _ h' => mapM_of_forall₂ (h'.imp fun _ _ => storeSc_of))
    simp only [storeVal]
    rw [if_pos ⟨h1, h2⟩, this]
    rfl

theorem storeCells_append {cols cols' : List Col} {row row' : List Val} {cells cells' : List Cell}
    (h : StoredRow cols row cells) (h' : StoredRow cols' row' cells') :
    storeCells (cols ++ cols') (row ++ row') = .ok (cells ++ cells') := by
  have base : ∀ (cols : List Col) (row : List Val) (cells : List Cell), StoredRow cols row cells →
      ∀ (cs : List Col) (vs : List Val) (xs : List Cell), storeCells cs vs = .ok xs →
      storeCells (cols ++ cs) (row ++ vs) = .ok (cells ++ xs) := by
    intro cols
    induction cols with
    | nil =>
      intro row cells h cs vs xs hx
      obtain ⟨_, h2, h3⟩ := h
      rw [List.length_eq_zero_iff.mp h2, List.length_eq_zero_iff.mp h3]
      exact hx
    | cons c cols ih =>
      intro row cells h cs vs xs hx
      obtain ⟨h1, h2, h3⟩ := h
      cases row with
      | nil => simp at h2
      | cons v row =>
        cases cells with
        | nil => simp at h3
        | cons x cells =>
          simp only [List.zip_cons_cons, List.forall₂_cons] at h1
          have := ih row cells ⟨h1.2, by simpa using h2, by simpa using h3⟩ cs vs xs hx
          simp only [List.cons_append, storeCells, storeVal_of h1.1, this]
          rfl
  refine base cols row cells h _ _ _ ?_
  have := base cols' row' cells' h' [] [] [] rfl
  simpa using this

theorem storeRow_append {cols cols' : List Col} {row row' : List Val} {cells cells' : List Cell}
    (h : StoredRow cols row cells) (h' : StoredRow cols' row' cells') :
    storeRow (cols ++ cols') (row ++ row') = .ok (cells ++ cells') := by
  unfold storeRow
  rw [if_pos (by rw [List.length_append, List.length_append, h.2.1, h'.2.1]), storeCells_append h h']

/-- a row that is refused, whatever stands behind it -/
theorem storeRow_refused {cols cols' : List Col} {row row' : List Val} {e : Err}
    (h : RowRefused cols row e) (hl : row'.length = cols'.length) :
    storeRow (cols ++ cols') (row ++ row') = .error e := by
  unfold storeRow
  cases h with
  | count h =>
    rw [if_neg (by rw [List.length_append, List.length_append]; omega)]
  | field h =>
    have key : row.length = cols.length ∧ storeCells (cols ++ cols') (row ++ row') = .error e := by
      induction h with
      | here h hl =>
        refine ⟨by simp [hl], ?_⟩
        have hv : ∀ {k sh v e}, Unstorable k sh v e → storeVal k sh v = .error e := by
          intro k sh v e h
          cases h <;> rfl
        simp only [List.cons_append, storeCells, hv h]
        rfl
      | later h _ ih =>
        refine ⟨by simp [ih.1], ?_⟩
        simp only [List.cons_append, storeCells, storeVal_of h, ih.2]
        rfl
    rw [if_pos (by rw [List.length_append, List.length_append, key.1, hl]), key.2]

/-! ### one array -/

/-- array `a` (an `a0` with items) and buffer `v` hold `items`; the last interval is `last` -/
structure VInv (a0 a : Arr) (v : Vl) (items : List Cell) (last : Nat × Nat) : Prop where
  arr : a = { a0 with items := a.items }
  cells : ∃ cs, List.Forall₂ (Stored a0.kind a0.shape) v.data cs ∧ a.items ++ cs = items
  next : v.startindex = items.length
  last : (v.start, v.stop) = last

theorem VInv.init {a0 : Arr} {items : List Cell} :
    VInv a0 { a0 with items := items } (Vl.init { a0 with items := items }) items (0, 0) :=
  ⟨rfl, ⟨[], .nil, by simp⟩, rfl, rfl⟩

theorem VInv.skip {a0 a : Arr} {v : Vl} {items : List Cell} {last : Nat × Nat}
    (h : VInv a0 a v items last) : VInv a0 a (v.adds []) items (interval items.length last none) :=
  h

theorem VInv.add {a0 a : Arr} {v : Vl} {items : List Cell} {last : Nat × Nat}
    (h : VInv a0 a v items last) {vs : List Val} {cs : List Cell}
    (hs : List.Forall₂ (Stored a0.kind a0.shape) vs cs) :
    VInv a0 a (v.adds [vs]) (items ++ cs) (interval items.length last (some cs)) := by
  obtain ⟨h1, ⟨ds, h2, h3⟩, h4, h5⟩ := h
  show VInv a0 a (v.add vs) _ _
  unfold Vl.add
  cases vs with
  | nil =>
    cases hs
    exact ⟨h1, ⟨ds, h2, by simpa using h3⟩, by simpa using h4, rfl⟩
  | cons w vs =>
    cases hs with
    | cons hw hs =>
      rename_i c cs
      rw [if_neg (by simp)]
      refine ⟨h1, ⟨ds ++ c :: cs, List.rel_append h2 (.cons hw hs), ?_⟩, ?_, ?_⟩
      · rw [← List.append_assoc, h3]
      · simp [h4, hs.length_eq]
      · simp [interval, h4, hs.length_eq]

theorem VInv.write {a0 a : Arr} {v : Vl} {items : List Cell} {last : Nat × Nat}
    (h : VInv a0 a v items last) : ∃ v', v.write a = .ok (v', { a0 with items := items }) ∧
      VInv a0 { a0 with items := items } v' items last := by
  obtain ⟨h1, ⟨ds, h2, h3⟩, h4, h5⟩ := h
  unfold Vl.write
  by_cases hd : v.data = []
  · rw [if_pos hd]
    rw [hd] at h2
    cases h2
    simp only [List.append_nil] at h3
    subst h3
    refine ⟨v, ?_, ⟨rfl, ⟨[], ?_, by simp⟩, h4, h5⟩⟩
    · rw [← h1]
    · rw [hd]; exact .nil
  · rw [if_neg hd]
    refine ⟨{ v with data := [] }, ?_, ⟨rfl, ⟨[], .nil, by simp⟩, h4, h5⟩⟩
    have : appendItems a v.data = .ok { a0 with items := items } := by
      unfold appendItems
      rw [mapM_of_forall₂ (m := ds)]
      · rw [h1]; simp only [← h3]; rfl
      · refine h2.imp fun x y hxy => ?_
        have hk : a.kind = a0.kind := by rw [h1]
        have hsh : a.shape = a0.shape := by rw [h1]
        have hv := storeVal_of hxy
        rw [hk, hsh]
        split
        · rename_i n l heq
          rw [heq] at hxy hv
          cases hxy
          rw [if_pos rfl, heq]
          exact hv
        · exact hv
    rw [this]
    rfl

/-! ### all arrays -/

/-- the arrays of a table -/
inductive AInv : List Arr → List Arr → List Vl → List (List Cell) → List (Nat × Nat) → Prop
  | nil : AInv [] [] [] [] []
  | cons {a0 a v i l a0s as vs is ls} : VInv a0 a v i l → AInv a0s as vs is ls →
      AInv (a0 :: a0s) (a :: as) (v :: vs) (i :: is) (l :: ls)

theorem AInv.init : ∀ (a0s : List Arr) (is : List (List Cell)), is.length = a0s.length →
    AInv a0s (List.zipWith (fun a items => { a with items := items }) a0s is)
      ((List.zipWith (fun a items => { a with items := items }) a0s is : List Arr).map Vl.init) is
      (is.map fun _ => (0, 0))
  | [], [], _ => .nil
  | _ :: a0s, _ :: is, h => .cons VInv.init (AInv.init a0s is (by simpa using h))
  | [], _ :: _, h => by simp at h
  | _ :: _, [], h => by simp at h

theorem storedItems_cons {a : Arr} {as : List Arr} {i : Option (List Val)}
    {is : List (Option (List Val))} {c : Option (List Cell)} {cs : List (Option (List Cell))}
    (h : StoredItems (a :: as) (i :: is) (c :: cs)) :
    (match (i, c) with
      | (some vs, some cs) => List.Forall₂ (Stored a.kind a.shape) vs cs
      | (none, none) => True
      | _ => False) ∧ StoredItems as is cs := by
  obtain ⟨h1, h2, h3⟩ := h
  simp only [List.zip_cons_cons, List.forall₂_cons] at h1
  exact ⟨h1.1, h1.2, by simpa using h2, by simpa using h3⟩

/-- the intervals after a record -/
def newLast (is : List (List Cell)) (ls : List (Nat × Nat)) (cs : List (Option (List Cell))) :
    List (Nat × Nat) :=
  List.zipWith (fun (p : List Cell × (Nat × Nat)) i => interval p.1.length p.2 i) (is.zip ls) cs

/-- the arrays after a record -/
def newItems (is : List (List Cell)) (cs : List (Option (List Cell))) : List (List Cell) :=
  List.zipWith (fun a (i : Option (List Cell)) =>
      match i with
      | none => a
      | some cs => a ++ cs) is cs

theorem AInv.adds {a0s as : List Arr} {vs : List Vl} {is : List (List Cell)}
    {ls : List (Nat × Nat)} (h : AInv a0s as vs is ls) {items : List (Option (List Val))}
    {cs : List (Option (List Cell))} (hs : StoredItems a0s items cs) :
    AInv a0s as (addVls vs (items.map addsOf)) (newItems is cs) (newLast is ls cs) := by
  induction h generalizing items cs with
  | nil =>
    have h1 := hs.2.1
    have h2 := hs.2.2
    rw [List.length_eq_zero_iff.mp h1, List.length_eq_zero_iff.mp h2]
    exact .nil
  | cons hv _ ih =>
    cases items with
    | nil => have := hs.2.1; simp at this
    | cons i items =>
      cases cs with
      | nil => have := hs.2.2; simp at this
      | cons c cs =>
        obtain ⟨h1, h2⟩ := storedItems_cons hs
        cases i with
        | none =>
          cases c with
          | none => exact .cons hv.skip (ih h2)
          | some c => exact h1.elim
        | some i =>
          cases c with
          | none => exact h1.elim
          | some c => exact .cons (hv.add h1) (ih h2)

theorem AInv.write {a0s as : List Arr} {vs : List Vl} {is : List (List Cell)}
    {ls : List (Nat × Nat)} (h : AInv a0s as vs is ls) :
    ∃ vs', writeVls vs as =
      .ok (vs', List.zipWith (fun a items => { a with items := items }) a0s is) ∧
      AInv a0s (List.zipWith (fun a items => { a with items := items }) a0s is) vs' is ls := by
  induction h with
  | nil => exact ⟨[], rfl, .nil⟩
  | cons hv _ ih =>
    obtain ⟨v', e1, h1⟩ := hv.write
    obtain ⟨vs', e2, h2⟩ := ih
    refine ⟨v' :: vs', ?_, .cons h1 h2⟩
    simp only [writeVls, e1, e2]
    rfl

theorem storedRow_bounds {a0s as : List Arr} {vs : List Vl} {is : List (List Cell)}
    {ls : List (Nat × Nat)} (h : AInv a0s as vs is ls) :
    StoredRow (limitCols a0s) (bounds vs) (limits ls) := by
  induction h with
  | nil => exact ⟨.nil, rfl, rfl⟩
  | cons hv _ ih =>
    obtain ⟨h1, h2, h3⟩ := ih
    have h0 := hv.last
    rename_i a0 a v i l a0s as vs is ls
    subst h0
    refine ⟨.cons (.sc (.intInt _)) (.cons (.sc (.intInt _)) h1), ?_, ?_⟩
    · simpa [limitCols, bounds] using h2
    · simpa [limitCols, limits] using h3

/-! ### the table -/

/-- table and buffers of a block in progress represent `t` -/
structure WInv (l : Layout) (w : Work) (t : Acc) : Prop where
  cols : w.tab.cols = l.cols ++ limitCols l.arrs
  rows : w.tab.rows ++ w.recs = t.rows
  arrs : AInv l.arrs w.tab.arrs w.vls t.arrs t.last

/-- the start of a block -/
def Acc.fresh (t : Acc) : Acc := { t with last := t.arrs.map fun _ => (0, 0) }

theorem Acc.add_first (t : Acc) (cells : List Cell) (items : List (Option (List Cell))) :
    t.add true cells items = t.fresh.add false cells items := rfl

theorem WInv.open {l : Layout} {t : Acc} (h : t.arrs.length = l.arrs.length) :
    WInv l (Work.open (t.table l)) t.fresh :=
  ⟨rfl, by simp [Work.open, Acc.table, Acc.fresh], AInv.init _ _ h⟩

theorem WInv.write' {l : Layout} {w : Work} {t : Acc} (h : WInv l w t) :
    ∃ w', w.write = .ok w' ∧ w'.tab = t.table l ∧ WInv l w' t ∧ w'.recs = [] := by
  obtain ⟨h1, h2, h3⟩ := h
  obtain ⟨vs', e, h4⟩ := h3.write
  refine ⟨{ tab := { w.tab with rows := w.tab.rows ++ w.recs, arrs := _ }, recs := [], vls := vs' },
    ?_, ?_, ⟨h1, by simpa using h2, h4⟩, rfl⟩
  · unfold Work.write
    rw [e]
    rfl
  · simp only [Acc.table, h1, h2]

theorem WInv.write {l : Layout} {w : Work} {t : Acc} (h : WInv l w t) :
    ∃ w', w.write = .ok w' ∧ w'.tab = t.table l ∧ WInv l w' t := by
  obtain ⟨w', h1, h2, h3, _⟩ := h.write'
  exact ⟨w', h1, h2, h3⟩

/-- adding a record: either the buffer is full and everything is written, or the record waits -/
theorem WInv.add' {l : Layout} {w : Work} {t : Acc} (h : WInv l w t) (B : Nat) {e : Entry}
    {cells : List Cell} {items : List (Option (List Cell))} (hr : StoredRow l.cols e.row cells)
    (hi : StoredItems l.arrs e.items items) :
    ∃ w', w.add B (emitOf e) = .ok w' ∧ WInv l w' (t.add false cells items) ∧
      (w.recs.length + 1 = B ∧ w'.recs = [] ∧ w'.tab = (t.add false cells items).table l ∨
       w.recs.length + 1 ≠ B ∧ w'.recs.length = w.recs.length + 1 ∧ w'.tab = w.tab) := by
  have h3 := h.arrs.adds hi
  have hrow := storeRow_append hr (storedRow_bounds h3)
  have hw : WInv l { w with
      recs := w.recs ++ [cells ++ limits (newLast t.arrs t.last items)],
      vls := addVls w.vls (e.items.map addsOf) } (t.add false cells items) := by
    refine ⟨h.cols, ?_, h3⟩
    show w.tab.rows ++ (w.recs ++ _) = t.rows ++ _
    rw [← List.append_assoc, h.rows]
    rfl
  unfold Work.add
  simp only [emitOf, h.cols, hrow]
  simp only [bind, Except.bind]
  split
  · next hB =>
    obtain ⟨w', h1, h2, h3, h4⟩ := hw.write'
    exact ⟨w', h1, h3, .inl ⟨by simpa using hB, h4, h2⟩⟩
  · next hB => exact ⟨_, rfl, hw, .inr ⟨by simpa using hB, by simp, rfl⟩⟩

theorem WInv.add {l : Layout} {w : Work} {t : Acc} (h : WInv l w t) (B : Nat) {e : Entry}
    {cells : List Cell} {items : List (Option (List Cell))} (hr : StoredRow l.cols e.row cells)
    (hi : StoredItems l.arrs e.items items) :
    ∃ w', w.add B (emitOf e) = .ok w' ∧ WInv l w' (t.add false cells items) := by
  obtain ⟨w', h1, h2, _⟩ := h.add' B hr hi
  exact ⟨w', h1, h2⟩

/-- adding a record keeps the number of arrays -/
theorem Acc.add_length {t : Acc} {n : Nat} (h : t.arrs.length = n) {b : Bool} {cells : List Cell}
    {items : List (Option (List Cell))} (hi : items.length = n) :
    (t.add b cells items).arrs.length = n := by
  simp [Acc.add, h, hi]

end Verif.Parse
