import Verif.Data.Load
import Verif.Data.LoadSpec
import Verif.Parse.MeansInv
/-!
# Reading the tables of a converted file
-/

namespace Verif.Data.Load
open Verif Verif.Data Verif.Parse Verif.Seq

/-! ### cells -/

theorem cell_idx : ∀ {cols : List Col} {row : List Cell} {n : String} {i : Nat} {x : Cell},
    (cols.map (·.name)).idxOf n = i → i < cols.length → row[i]? = some x → cell cols row n = .ok x
  | [], _, _, _, _, _, h, _ => by simp at h
  | c :: cs, row, n, i, x, h1, h2, h3 => by
    cases row with
    | nil => simp at h3
    | cons y ys =>
      unfold cell
      by_cases hn : c.name = n
      · rw [if_pos hn]
        rw [List.map_cons, List.idxOf_cons_eq _ hn] at h1
        subst h1
        simpa using h3
      · rw [if_neg hn]
        rw [List.map_cons, List.idxOf_cons_ne _ hn] at h1
        subst h1
        exact cell_idx rfl (by simpa using h2) (by simpa using h3)

theorem storedRow_get {cols : List Col} {row : List Val} {cells : List Cell}
    (h : StoredRow cols row cells) {i : Nat} {c : Col} {v : Val} (hc : cols[i]? = some c)
    (hv : row[i]? = some v) : ∃ x, cells[i]? = some x ∧ Stored c.kind c.shape v x := by
  obtain ⟨h1, h2, h3⟩ := h
  obtain ⟨hi, hc⟩ := List.getElem?_eq_some_iff.mp hc
  obtain ⟨hi', hv⟩ := List.getElem?_eq_some_iff.mp hv
  have hi'' : i < cells.length := by omega
  have := (List.forall₂_iff_get.mp h1).2 i hi (by simp; omega)
  simp only [List.get_eq_getElem, List.getElem_zip] at this
  rw [hc, hv] at this
  exact ⟨cells[i], List.getElem?_eq_getElem hi'', this⟩

/-- the cells of the row of a record in its table -/
def IsRow (l : Layout) (vals : List Val) (lim : List Cell) (row : List Cell) : Prop :=
  ∃ cells, StoredRow l.cols vals cells ∧ row = cells ++ lim

section
variable {l : Layout} {vals : List Val} {lim row : List Cell}

theorem cell_stored (h : IsRow l vals lim row) {n : String} (i : Nat) {c : Col} {v : Val}
    (hc : l.cols[i]? = some c) (hix : ((l.cols ++ limitCols l.arrs).map (·.name)).idxOf n = i)
    (hv : vals[i]? = some v) :
    ∃ x, cell (l.cols ++ limitCols l.arrs) row n = .ok x ∧ Stored c.kind c.shape v x := by
  obtain ⟨cells, hs, rfl⟩ := h
  obtain ⟨x, hx, hst⟩ := storedRow_get hs hc hv
  have hlt := (List.getElem?_eq_some_iff.mp hx).1
  have hlt' := (List.getElem?_eq_some_iff.mp hc).1
  exact ⟨x, cell_idx hix (by simp; omega) (by rw [List.getElem?_append_left hlt]; exact hx), hst⟩

theorem int_total (h : IsRow l vals lim row) {n : String} (i : Nat)
    (hc : l.cols[i]? = some (colI n))
    (hix : ((l.cols ++ limitCols l.arrs).map (·.name)).idxOf n = i) :
    ∃ k, int (cell (l.cols ++ limitCols l.arrs) row) n = .ok k ∧
      ∀ x, vals[i]? = some (.sc (.num x)) → HasInt x k := by
  have hlen : vals.length = l.cols.length := by obtain ⟨_, hs, _⟩ := h; exact hs.2.1
  have hlt := (List.getElem?_eq_some_iff.mp hc).1
  obtain ⟨y, h1, h2⟩ := cell_stored h i hc hix (List.getElem?_eq_getElem (hlen ▸ hlt))
  unfold int
  rw [h1, List.getElem?_eq_getElem (hlen ▸ hlt)]
  generalize vals[i] = v at h2
  cases h2 with
  | sc h2 => cases h2 with
    | int h2 =>
      refine ⟨_, rfl, fun x hx => ?_⟩
      cases hx; exact h2
    | intInt k => exact ⟨k, rfl, fun x hx => by cases hx⟩

theorem int_cells {cells : List Cell} (h : StoredRow l.cols vals cells) {n : String} (i : Nat)
    (hc : l.cols[i]? = some (colI n))
    (hix : ((l.cols ++ limitCols l.arrs).map (·.name)).idxOf n = i) :
    ∃ k, (∀ lim, int (cell (l.cols ++ limitCols l.arrs) (cells ++ lim)) n = .ok k) ∧
      ∀ x, vals[i]? = some (.sc (.num x)) → HasInt x k := by
  obtain ⟨k, h1, h2⟩ := int_total ⟨cells, h, rfl⟩ (lim := []) i hc hix
  refine ⟨k, fun lim => ?_, h2⟩
  have hlt := (List.getElem?_eq_some_iff.mp hc).1
  have hi : i < cells.length := by rw [h.2.2]; exact hlt
  have e1 := cell_idx (cols := l.cols ++ limitCols l.arrs) (row := cells ++ []) hix
    (by simp; omega) (by rw [List.getElem?_append_left hi]; exact List.getElem?_eq_getElem hi)
  have e2 := cell_idx (cols := l.cols ++ limitCols l.arrs) (row := cells ++ lim) hix
    (by simp; omega) (by rw [List.getElem?_append_left hi]; exact List.getElem?_eq_getElem hi)
  unfold int at h1 ⊢
  rw [e1] at h1
  rw [e2]
  exact h1

theorem real_total {K : Type} {num : PyF → K} (h : IsRow l vals lim row) {n : String} (i : Nat)
    (hc : l.cols[i]? = some (colF n))
    (hix : ((l.cols ++ limitCols l.arrs).map (·.name)).idxOf n = i) :
    ∃ x, real num (cell (l.cols ++ limitCols l.arrs) row) n = .ok (at32 num x) ∧
      ∀ y, vals[i]? = some (.sc (.num y)) → y = x := by
  have hlen : vals.length = l.cols.length := by obtain ⟨_, hs, _⟩ := h; exact hs.2.1
  have hlt := (List.getElem?_eq_some_iff.mp hc).1
  obtain ⟨y, h1, h2⟩ := cell_stored h i hc hix (List.getElem?_eq_getElem (hlen ▸ hlt))
  unfold real
  rw [h1, List.getElem?_eq_getElem (hlen ▸ hlt)]
  generalize vals[i] = v at h2
  cases h2 with
  | sc h2 => cases h2 with
    | @flt x x' hx => exact ⟨x, by rw [hx.eq]; rfl, fun y hy => by cases hy; rfl⟩

theorem text_total (h : IsRow l vals lim row) {n : String} {w : Nat} (i : Nat)
    (hc : l.cols[i]? = some ⟨n, .str w, .sc⟩)
    (hix : ((l.cols ++ limitCols l.arrs).map (·.name)).idxOf n = i) :
    ∃ t, (cell (l.cols ++ limitCols l.arrs) row n >>= asText) = .ok t ∧
      ∀ u, vals[i]? = some (.sc (.txt u)) → t = u.take w := by
  have hlen : vals.length = l.cols.length := by obtain ⟨_, hs, _⟩ := h; exact hs.2.1
  have hlt := (List.getElem?_eq_some_iff.mp hc).1
  obtain ⟨y, h1, h2⟩ := cell_stored h i hc hix (List.getElem?_eq_getElem (hlen ▸ hlt))
  rw [h1, List.getElem?_eq_getElem (hlen ▸ hlt)]
  generalize vals[i] = v at h2
  cases h2 with
  | sc h2 => cases h2 with
    | txt _ t => exact ⟨_, rfl, fun u hu => by cases hu; rfl⟩

theorem mat_total {K : Type} {num : PyF → K} (h : IsRow l vals lim row) {n : String} {a b : Nat}
    (i : Nat) (hc : l.cols[i]? = some ⟨n, .flt, .mat a b⟩)
    (hix : ((l.cols ++ limitCols l.arrs).map (·.name)).idxOf n = i) :
    ∃ m : List (List PyF), m.length = a ∧ (∀ r ∈ m, r.length = b) ∧
      (cell (l.cols ++ limitCols l.arrs) row n >>= asMat num) = .ok (m.map (·.map (at32 num))) ∧
      ∀ m' : List (List PyF), vals[i]? = some (.mat (m'.map fun r => r.map fun x => .num x)) →
        m' = m := by
  have hlen : vals.length = l.cols.length := by obtain ⟨_, hs, _⟩ := h; exact hs.2.1
  have hlt := (List.getElem?_eq_some_iff.mp hc).1
  obtain ⟨y, h1, h2⟩ := cell_stored h i hc hix (List.getElem?_eq_getElem (hlen ▸ hlt))
  rw [h1, List.getElem?_eq_getElem (hlen ▸ hlt)]
  generalize vals[i] = v at h2
  cases h2 with
  | @mat _ _ l' cs g1 g2 g3 =>
    have row1 : ∀ {r : List Sc} {c : List SCell}, List.Forall₂ (StoredSc .flt) r c →
        ∃ q : List PyF, r = q.map (fun x => Sc.num x) ∧ c.mapM (realSc num) = .ok (q.map (at32 num)) := by
      intro r c hrc
      induction hrc with
      | nil => exact ⟨[], rfl, rfl⟩
      | cons hx _ ih =>
        obtain ⟨q, q1, q2⟩ := ih
        cases hx with
        | @flt x x' hx =>
          exact ⟨x :: q, by rw [q1]; rfl, by rw [List.mapM_cons, q2, hx.eq]; rfl⟩
    have all : ∀ {r : List (List Sc)} {c : List (List SCell)},
        List.Forall₂ (List.Forall₂ (StoredSc .flt)) r c →
        ∃ q : List (List PyF), r = q.map (fun r => r.map (fun x => Sc.num x)) ∧
          (c.mapM fun r : List SCell => r.mapM (realSc num)) = .ok (q.map (·.map (at32 num))) := by
      intro r c hrc
      induction hrc with
      | nil => exact ⟨[], rfl, rfl⟩
      | cons hx _ ih =>
        obtain ⟨q, q1, q2⟩ := ih
        obtain ⟨p, p1, p2⟩ := row1 hx
        exact ⟨p :: q, by rw [q1, p1]; rfl, by rw [List.mapM_cons, q2, p2]; rfl⟩
    obtain ⟨q, rfl, q2⟩ := all g3
    refine ⟨q, by simpa using g1, fun r hr => ?_, q2, fun m' hm' => ?_⟩
    · have := g2 (r.map fun x => Sc.num x) (List.mem_map.mpr ⟨r, hr, rfl⟩)
      simpa using this
    · simp only [Option.some.injEq, Val.mat.injEq] at hm'
      have inj : Function.Injective fun r : List PyF => r.map fun x => Sc.num x :=
        List.map_injective_iff.mpr fun x y hxy => by cases hxy; rfl
      exact (List.map_injective_iff.mpr inj hm').symm

theorem int_limit (h : IsRow l vals lim row) {n : String} (i : Nat) {k : Int}
    (hix : ((l.cols ++ limitCols l.arrs).map (·.name)).idxOf n = l.cols.length + i)
    (hi : i < (limitCols l.arrs).length)
    (hv : lim[i]? = some (.sc (.int k))) :
    int (cell (l.cols ++ limitCols l.arrs) row) n = .ok k := by
  obtain ⟨cells, hs, rfl⟩ := h
  have hl := hs.2.2
  have : cell (l.cols ++ limitCols l.arrs) (cells ++ lim) n = .ok (.sc (.int k)) := by
    refine cell_idx hix (by simp; omega) ?_
    rw [List.getElem?_append_right (by omega), hl]
    simpa using hv
  unfold int
  rw [this]
  rfl

end

/-! ### tables -/

theorem mapM_ok {α β : Type} {f : α → Except Err β} {as : List α} {bs : List β}
    (h : List.Forall₂ (fun a b => f a = .ok b) as bs) : as.mapM f = .ok bs := by
  induction h with
  | nil => rfl
  | cons h1 _ ih => rw [List.mapM_cons, h1, ih]; rfl

theorem table_none {β : Type} {h : H5} {p : Path} {name : String} {f : Row → Except Err β}
    (ht : h.tabs (p, name) = none) : table h p name f = .ok none := by
  unfold table; rw [ht]

theorem table_some {β : Type} {h : H5} {p : Path} {name : String} {f : Row → Except Err β} {t : Tab}
    {bs : List β} (ht : h.tabs (p, name) = some t)
    (hr : List.Forall₂ (fun r b => f (cell t.cols r) = .ok b) t.rows bs) :
    table h p name f = .ok (some bs) := by
  unfold table; rw [ht]; simp only
  rw [mapM_ok hr]; rfl

theorem tableArr_none {β γ : Type} {h : H5} {p : Path} {name arr : String} {f : Row → Except Err β}
    {g : Cell → Except Err γ} (ht : h.tabs (p, name) = none) :
    tableArr h p name arr f g = .ok none := by
  unfold tableArr; rw [ht]

theorem tableArr_some {β γ : Type} {h : H5} {p : Path} {name arr : String} {f : Row → Except Err β}
    {g : Cell → Except Err γ} {t : Tab} {bs : List β} {cs : List γ}
    (ht : h.tabs (p, name) = some t)
    (hr : List.Forall₂ (fun r b => f (cell t.cols r) = .ok b) t.rows bs)
    (ha : array t arr g = .ok cs) :
    tableArr h p name arr f g = .ok (some (bs, cs)) := by
  unfold tableArr; rw [ht]; simp only
  rw [mapM_ok hr, ha]; rfl

/-! ### records and what was added -/

theorem recordsAfter_events {name : String} (hn : HasTable name) : ∀ (f past : List LRec)
    (cur : Option String) (block : Bool), (block = true ↔ cur = some name) →
    ((eventsAfter cur past f).filter fun ev => ev.record.name = name).map Event.record =
      recordsAfter block name f
  | [], _, _, _, _ => rfl
  | r :: rest, past, cur, block, hb => by
    have ih := recordsAfter_events hn rest
    unfold eventsAfter recordsAfter
    by_cases h1 : r.name = "IEND" ∧ r.head.head? = some (.rat 0)
    · rw [if_pos h1, if_pos h1]; rfl
    · rw [if_neg h1, if_neg h1]
      by_cases h3 : r.name = name
      · subst h3
        rw [if_pos (hasTable_iff.mp hn), if_pos rfl]
        have hiff : (isVoid r = true ∧ cur ≠ some r.name) ↔ (isVoid r = true ∧ block = false) := by
          rw [ne_eq, ← hb, Bool.not_eq_true]
        by_cases hv : isVoid r = true ∧ block = false
        · rw [if_pos hv, if_pos (hiff.mpr hv), ih _ none false (by simp)]
        · rw [if_neg hv, if_neg (mt hiff.mp hv), List.filter_cons_of_pos (by simp), List.map_cons,
            ih _ _ (decide (r.name ≠ "IDENT")) (by by_cases hi : r.name = "IDENT" <;> simp [hi])]
      · rw [if_neg h3]
        by_cases h2 : r.name ∈ layouts.map (·.name)
        · rw [if_pos h2]
          split
          · rw [ih _ none false (by simp)]
          · rw [List.filter_cons_of_neg (by simpa using h3), ih _ _ false]
            by_cases hi : r.name = "IDENT" <;> simp [hi, h3]
        · rw [if_neg h2, ih _ none false (by simp)]

theorem recordsOf_events {name : String} (hn : HasTable name) (f past : List LRec) :
    ((events past f).filter fun ev => ev.record.name = name).map Event.record = recordsOf name f :=
  recordsAfter_events hn f past none false (by simp)

/-- what a record of a type adds to the table -/
def AddsTo (e0 : Int → Option Int) (l : Layout) (r : LRec) (o : Added) : Prop :=
  r.name = l.name ∧ ∃ past next e, Means e0 past next r e ∧ StoredRow l.cols e.row o.cells ∧
    StoredItems l.arrs e.items o.items

section
variable {sk : LRec → Bool} {e0 : Int → Option Int}
  {f : List LRec} {outs : List Added} {names : List String} {pl : Place} {s : Int} {h0 : H5}
  {lev dt : String} {ix : Option (Option Int)}

theorem added_of (j : Job none sk e0 f outs names pl s h0 lev dt ix)
    {l : Layout} (hl : l ∈ layouts) :
    List.Forall₂ (AddsTo e0 l) (recordsOf l.name f) (ofType l.name outs) := by
  have htr := j.accepted.events
  rw [← recordsOf_events ⟨l, hl, rfl⟩ f [], List.forall₂_map_left_iff]
  generalize events [] f = tr at htr
  clear j
  induction htr with
  | nil => exact .nil
  | @cons ev o tr outs ha _ ih =>
    unfold ofType at ih ⊢
    by_cases hn : ev.record.name = l.name
    · rw [List.filter_cons_of_pos (by simpa using hn),
        List.filter_cons_of_pos (by simpa [adds_name ha] using hn)]
      refine .cons ?_ ih
      obtain ⟨e, l', hm, hl', hln, hon, _, hsr, hsi⟩ := ha
      obtain rfl : l = l' := layout_eq hl hl' (by rw [hln, hn])
      exact ⟨hn, _, _, e, hm, hsr, hsi⟩
    · rw [List.filter_cons_of_neg (by simpa using hn),
        List.filter_cons_of_neg (by simpa [adds_name ha] using hn)]
      exact ih

/-- the table of a type with records, and that of a type without -/
theorem table_of (j : Job none sk e0 f outs names pl s h0 lev dt ix)
    {h : H5} (hc : Converted outs names pl s h0 lev dt ix h) {l : Layout} (hl : l ∈ layouts) :
    (recordsOf l.name f = [] ∧ h.tabs (pl.path s, l.name) = none) ∨
    (recordsOf l.name f ≠ [] ∧ h.tabs (pl.path s, l.name) = some ((contents l outs).table l)) := by
  have ha := added_of j hl
  by_cases he : recordsOf l.name f = []
  · rw [he] at ha
    have ho := List.forall₂_nil_left_iff.mp ha
    exact .inl ⟨he, by rw [hc.tables.2 (pl.path s, l.name) (.inr ho)]; exact j.free l hl⟩
  · refine .inr ⟨he, hc.tables.1 l hl fun ho => he ?_⟩
    rw [ho] at ha
    exact List.forall₂_nil_right_iff.mp ha

/-! ### rows and arrays from what was added -/

/-- start and stop of a record with items `cs` in an array with `n` items -/
def span (n : Nat) (cs : List Cell) : Nat × Nat := if cs = [] then (0, 0) else (n, n + cs.length)

/-- rows of a table with one array -/
def rowsFrom : Nat → List (List Cell × List Cell) → List (List Cell)
  | _, [] => []
  | n, p :: ps => (p.1 ++ limits [span n p.2]) :: rowsFrom (n + p.2.length) ps

theorem contents_one_aux (os : List Added) (ps : List (List Cell × List Cell))
    (h : List.Forall₂ (fun (o : Added) p => o.cells = p.1 ∧ o.items = [some p.2]) os ps) :
    ∀ (t : Acc) (a : List Cell) (x : Nat × Nat), t.arrs = [a] → t.last = [x] →
      (os.foldl (fun t o => t.add o.first o.cells o.items) t).rows =
          t.rows ++ rowsFrom a.length ps ∧
      (os.foldl (fun t o => t.add o.first o.cells o.items) t).arrs =
          [a ++ ps.flatMap Prod.snd] := by
  induction h with
  | nil => intro t a x ha _; simp [rowsFrom, ha]
  | @cons o p os ps hop _ ih =>
    intro t a x ha hx
    obtain ⟨h1, h2⟩ := hop
    rw [List.foldl_cons]
    have e1 : ∀ y : Nat × Nat, interval a.length y (some p.2) = span a.length p.2 := by
      intro y
      unfold span
      cases p.2 with
      | nil => rfl
      | cons c cs => rfl
    have har : (t.add o.first o.cells o.items).arrs = [a ++ p.2] := by
      simp [Acc.add, ha, h2]
    have hla : (t.add o.first o.cells o.items).last = [span a.length p.2] := by
      cases hf : o.first <;> simp [Acc.add, ha, hx, h2, e1]
    have hro : (t.add o.first o.cells o.items).rows =
        t.rows ++ [o.cells ++ limits (t.add o.first o.cells o.items).last] := rfl
    obtain ⟨g1, g2⟩ := ih _ _ _ har hla
    rw [g1, g2, hro, hla, h1]
    simp [rowsFrom]

theorem contents_one {l : Layout} {a : Arr} (hl : l.arrs = [a])
    {ps : List (List Cell × List Cell)}
    (h : List.Forall₂ (fun (o : Added) p => o.cells = p.1 ∧ o.items = [some p.2])
      (ofType l.name outs) ps) :
    (contents l outs).rows = rowsFrom 0 ps ∧ (contents l outs).arrs = [ps.flatMap Prod.snd] := by
  have := contents_one_aux _ ps h (Acc.start l) [] (0, 0) (by simp [Acc.start, hl])
    (by simp [Acc.start, hl])
  rw [contents_eq]
  simpa [Acc.start] using this

theorem add_last_length {n : Nat} {t : Acc} {first : Bool} {cells : List Cell}
    {items : List (Option (List Cell))} (ha : t.arrs.length = n) (hl : t.last.length = n)
    (hi : items.length = n) : (t.add first cells items).last.length = n := by
  cases first <;> simp [Acc.add, ha, hl, hi]

theorem contents_rows' {l : Layout} (hit : ∀ o ∈ ofType l.name outs, o.items.length = l.arrs.length) :
    List.Forall₂ (fun (o : Added) (row : List Cell) => ∃ last : List (Nat × Nat),
        last.length = l.arrs.length ∧ row = o.cells ++ limits last)
      (ofType l.name outs) (contents l outs).rows := by
  have : ∀ (os : List Added) (t : Acc), (∀ o ∈ os, o.items.length = l.arrs.length) →
      t.arrs.length = l.arrs.length → t.last.length = l.arrs.length → ∃ rows,
      (os.foldl (fun t o => t.add o.first o.cells o.items) t).rows = t.rows ++ rows ∧
      List.Forall₂ (fun (o : Added) (row : List Cell) => ∃ last : List (Nat × Nat),
        last.length = l.arrs.length ∧ row = o.cells ++ limits last) os rows := by
    intro os
    induction os with
    | nil => intro t _ _ _; exact ⟨[], by simp, .nil⟩
    | cons o os ih =>
      intro t hi ha hl
      have h3 := hi o (by simp)
      have h4 := add_last_length (first := o.first) (cells := o.cells) ha hl h3
      obtain ⟨rows, h1, h2⟩ := ih (t.add o.first o.cells o.items)
        (fun o ho => hi o (by simp [ho])) (Acc.add_length ha h3) h4
      refine ⟨(o.cells ++ limits (t.add o.first o.cells o.items).last) :: rows, ?_,
        .cons ⟨_, h4, rfl⟩ h2⟩
      rw [List.foldl_cons, h1]
      have : (t.add o.first o.cells o.items).rows =
        t.rows ++ [o.cells ++ limits (t.add o.first o.cells o.items).last] := rfl
      rw [this, List.append_assoc]; rfl
  obtain ⟨rows, h1, h2⟩ := this (ofType l.name outs) (Acc.start l) hit (by simp [Acc.start])
    (by simp [Acc.start])
  rw [contents_eq, h1]
  simpa [Acc.start] using h2

end

theorem forall₂_comp {α β γ : Type} {R : α → β → Prop} {S : α → γ → Prop} {as : List α}
    {bs : List β} {cs : List γ} (h1 : List.Forall₂ R as bs) (h2 : List.Forall₂ S as cs) :
    List.Forall₂ (fun b c => ∃ a, R a b ∧ S a c) bs cs := by
  induction h1 generalizing cs with
  | nil => cases h2; exact .nil
  | cons h _ ih => cases h2 with
    | cons h2 hs => exact .cons ⟨_, h, h2⟩ (ih hs)

theorem forall₂_comp' {α β γ : Type} {R : α → β → Prop} {S : β → γ → Prop} {as : List α}
    {bs : List β} {cs : List γ} (h1 : List.Forall₂ R as bs) (h2 : List.Forall₂ S bs cs) :
    List.Forall₂ (fun a c => ∃ b, R a b ∧ S b c) as cs := by
  induction h1 generalizing cs with
  | nil => cases h2; exact .nil
  | cons h _ ih => cases h2 with
    | cons h2 hs => exact .cons ⟨_, h, h2⟩ (ih hs)

/-! ### loading -/

section
variable {sk : LRec → Bool} {e0 : Int → Option Int}
  {f : List LRec} {outs : List Added} {names : List String} {pl : Place} {s : Int} {h0 : H5}
  {lev dt : String} {ix : Option (Option Int)} {h : H5}

theorem added_items (j : Job none sk e0 f outs names pl s h0 lev dt ix) {l : Layout}
    (hl : l ∈ layouts) : ∀ o ∈ ofType l.name outs, o.items.length = l.arrs.length := by
  intro o ho
  have ho' : o ∈ outs ∧ o.name = l.name := by simpa [ofType] using ho
  exact j.accepted.itemsOK l hl o ho'.1 ho'.2

/-- loading the rows of a table -/
theorem load_table (j : Job none sk e0 f outs names pl s h0 lev dt ix)
    (hc : Converted outs names pl s h0 lev dt ix h) {β : Type} {l : Layout} (hl : l ∈ layouts)
    {g : Row → Except Err β} (R : LRec → β → Prop)
    (hrow : ∀ r past next e lim row, r.name = l.name → Means e0 past next r e →
      IsRow l e.row lim row →
      ∃ b, g (cell (l.cols ++ limitCols l.arrs) row) = .ok b ∧ ∀ b', R r b' → b = b') :
    ∃ o, table h (pl.path s) l.name g = .ok o ∧ (recordsOf l.name f = [] → o = none) ∧
      ∀ bs, bs ≠ [] → List.Forall₂ R (recordsOf l.name f) bs → o = some bs := by
  have ha := added_of j hl
  rcases table_of j hc hl with ⟨he, ht⟩ | ⟨he, ht⟩
  · refine ⟨none, table_none ht, fun _ => rfl, fun bs hbs hf => ?_⟩
    rw [he] at hf
    exact absurd (List.forall₂_nil_left_iff.mp hf) hbs
  · have hr := contents_rows' (l := l) (added_items j hl)
    have h2 := forall₂_comp' ha hr
    have h3 : ∃ bs, List.Forall₂ (fun row b => g (cell (l.cols ++ limitCols l.arrs) row) = .ok b)
        (contents l outs).rows bs ∧
        List.Forall₂ (fun r b => ∀ b', R r b' → b = b') (recordsOf l.name f) bs := by
      clear ha hr ht he
      generalize (contents l outs).rows = rows at h2
      generalize recordsOf l.name f = recs at h2
      induction h2 with
      | nil => exact ⟨[], .nil, .nil⟩
      | cons hh _ ih =>
        obtain ⟨bs, i1, i2⟩ := ih
        obtain ⟨o, ⟨hn, past, next, e, hm, hsr, hsi⟩, last, hlast, hrow'⟩ := hh
        obtain ⟨b, b1, b2⟩ := hrow _ past next e (limits last) _ hn hm ⟨o.cells, hsr, hrow'⟩
        exact ⟨b :: bs, .cons b1 i1, .cons b2 i2⟩
    obtain ⟨bs, h3, h4⟩ := h3
    refine ⟨some bs, table_some ht h3, fun he' => absurd he' he, fun bs' _ hf => ?_⟩
    have := forall₂_comp h4 hf
    congr 1
    clear h3
    have h5 : List.Forall₂ (fun a b => a = b) bs bs' := this.imp fun a b ⟨r, h1, h2⟩ => h1 b h2
    exact List.forall₂_eq_eq_eq ▸ h5

/-- rows with start and stop -/
def spanRows {β γ : Type} : Nat → List ((Nat → Nat → β) × List γ) → List β
  | _, [] => []
  | n, p :: ps =>
    (if p.2.length = 0 then p.1 0 0 else p.1 n (n + p.2.length)) :: spanRows (n + p.2.length) ps

/-- loading the rows of a table with one array -/
theorem load_arr (j : Job none sk e0 f outs names pl s h0 lev dt ix)
    (hc : Converted outs names pl s h0 lev dt ix h) {β γ δ : Type} {l : Layout} (hl : l ∈ layouts)
    {a : Arr} (hla : l.arrs = [a]) {arr : String} (hn : a.name = arr)
    {f' : Row → Except Err β} {g : Cell → Except Err γ}
    (R : LRec → δ → Prop) (Q : δ → (Nat → Nat → β) → List γ → Prop)
    (hrow : ∀ r past next e, r.name = l.name → Means e0 past next r e →
      ∃ vs, e.items = [some vs] ∧ ∀ cs, List.Forall₂ (Stored a.kind a.shape) vs cs →
        ∀ cells, StoredRow l.cols e.row cells → ∃ (b : Nat → Nat → β) (ys : List γ),
          (∀ p q, f' (cell (l.cols ++ limitCols l.arrs) (cells ++ limits [(p, q)])) = .ok (b p q)) ∧
          List.Forall₂ (fun c y => g c = .ok y) cs ys ∧ ∀ x, R r x → Q x b ys) :
    ∃ o, tableArr h (pl.path s) l.name arr f' g = .ok o ∧ (recordsOf l.name f = [] → o = none) ∧
      ∀ xs, xs ≠ [] → List.Forall₂ R (recordsOf l.name f) xs →
        ∃ bys : List ((Nat → Nat → β) × List γ), o = some (spanRows 0 bys, bys.flatMap Prod.snd) ∧
          List.Forall₂ (fun x p => Q x p.1 p.2) xs bys := by
  have ha := added_of j hl
  rcases table_of j hc hl with ⟨he, ht⟩ | ⟨he, ht⟩
  · refine ⟨none, tableArr_none ht, fun _ => rfl, fun bs hbs hf => ?_⟩
    rw [he] at hf
    exact absurd (List.forall₂_nil_left_iff.mp hf) hbs
  · have h3 : ∃ (ps : List (List Cell × List Cell)) (bys : List ((Nat → Nat → β) × List γ)),
        List.Forall₂ (fun (o : Added) p => o.cells = p.1 ∧ o.items = [some p.2])
          (ofType l.name outs) ps ∧
        List.Forall₂ (fun (p : List Cell × List Cell) (q : (Nat → Nat → β) × List γ) =>
          (∀ s t, f' (cell (l.cols ++ limitCols l.arrs) (p.1 ++ limits [(s, t)])) = .ok (q.1 s t)) ∧
          List.Forall₂ (fun c y => g c = .ok y) p.2 q.2) ps bys ∧
        List.Forall₂ (fun r (q : (Nat → Nat → β) × List γ) => ∀ x, R r x → Q x q.1 q.2)
          (recordsOf l.name f) bys := by
      clear ht he
      generalize ofType l.name outs = os at ha
      generalize recordsOf l.name f = recs at ha
      induction ha with
      | nil => exact ⟨[], [], .nil, .nil, .nil⟩
      | @cons r o recs os hh _ ih =>
        obtain ⟨ps, bys, i1, i2, i3⟩ := ih
        obtain ⟨hn, past, next, e, hm, hsr, hsi⟩ := hh
        obtain ⟨vs, hvs, hall⟩ := hrow r past next e hn hm
        obtain ⟨g1, g2, g3⟩ := hsi
        rw [hla, hvs] at g1
        rw [hla] at g3
        obtain ⟨it, hit⟩ := List.length_eq_one_iff.mp g3
        rw [hit] at g1
        simp only [List.zip_cons_cons, List.zip_nil_right, List.forall₂_cons,
          List.forall₂_nil_right_iff, and_true] at g1
        cases it with
        | none => exact g1.elim
        | some cs =>
          obtain ⟨b, ys, b1, b2, b3⟩ := hall cs g1 o.cells hsr
          exact ⟨(o.cells, cs) :: ps, (b, ys) :: bys, .cons ⟨rfl, hit⟩ i1, .cons ⟨b1, b2⟩ i2,
            .cons b3 i3⟩
    obtain ⟨ps, bys, p1, p2, p3⟩ := h3
    obtain ⟨c1, c2⟩ := contents_one hla p1
    have rows : ∀ n, List.Forall₂ (fun row b => f' (cell (l.cols ++ limitCols l.arrs) row) = .ok b)
        (rowsFrom n ps) (spanRows n bys) := by
      clear p1 p3 c1 c2
      induction p2 with
      | nil => intro n; exact .nil
      | @cons p q ps bys hh _ ih =>
        intro n
        obtain ⟨q1, q2⟩ := hh
        have hlen := q2.length_eq
        unfold rowsFrom spanRows
        rw [hlen]
        refine .cons ?_ (ih _)
        unfold span
        by_cases hp : p.2 = []
        · have : q.2.length = 0 := by rw [← hlen, hp]; rfl
          rw [if_pos hp, if_pos this]
          exact q1 0 0
        · have : ¬ q.2.length = 0 := by rw [← hlen]; exact fun h => hp (List.length_eq_zero_iff.mp h)
          rw [if_neg hp, if_neg this, hlen]
          exact q1 _ _
    have items : List.Forall₂ (fun c y => g c = .ok y) (ps.flatMap Prod.snd)
        (bys.flatMap Prod.snd) := by
      clear p1 p3 c1 c2 rows
      induction p2 with
      | nil => exact .nil
      | cons hh _ ih => exact List.rel_append hh.2 ih
    refine ⟨some (spanRows 0 bys, bys.flatMap Prod.snd), tableArr_some ht ?_ ?_,
      fun he' => absurd he' he, fun xs _ hf => ⟨bys, rfl, ?_⟩⟩
    · have : ((contents l outs).table l).rows = rowsFrom 0 ps := c1
      rw [this]
      exact rows 0
    · unfold array
      have : ((contents l outs).table l).arrs = [{ a with items := ps.flatMap Prod.snd }] := by
        simp [Acc.table, hla, c2]
      rw [this]
      simp only [hn, List.find?_cons, decide_true]
      exact mapM_ok items
    · exact (forall₂_comp hf p3).imp fun x p ⟨r, h1, h2⟩ => h2 x h1

end

end Verif.Data.Load
