import Verif.Parse.Demo
/-!
# Conversion of files: properties C08 - C15, C17 - C21

The theorems are about `parseSource`, the model of `parse_file` on a file of either kind.  A `Job`
is a file that makes sense (`Accepts`: every record has one of the layouts of the format) together
with the place of its data in the output file.  `Demo` has a concrete job with both encodings.
-/

namespace Verif.Parse
open Verif Verif.Seq

section
variable {only : Option (List String)} {sk : LRec → Bool} {e0 : Int → Option Int}
  {f : List LRec} {outs : List Added} {names : List String} {pl : Place} {s : Int} {h0 : H5}
  {lev dt : String} {ix : Option (Option Int)} {st : St} {D D' : Dec} {src src' : Source}

/-! ## C08: rows -/

/-- **C08** Every record of a type that has a table gets a row, in file order, with the cells of
the record; there are no other rows.  `B` is the number of rows that are buffered. -/
theorem one_row_per_record (j : Job none sk e0 f outs names pl s h0 lev dt ix)
    (hclean : Clean pl e0 h0 st) (henc : Encoded D sk f src) (B : Nat) :
    ∃ st', parseSource D B none st src = .ok st' ∧ ∀ l ∈ layouts,
      ((events [] f).filter fun ev => ev.record.name = l.name) ≠ [] →
      ∃ t, st'.h5.tabs (pl.path s, l.name) = some t ∧ t.cols = l.cols ++ limitCols l.arrs ∧
        List.Forall₂ (RowOf e0 l t) ((events [] f).filter fun ev => ev.record.name = l.name)
          t.rows := by
  obtain ⟨st', h1, h2⟩ := j.source hclean B henc
  refine ⟨st', h1, fun l hl hne => ?_⟩
  have htr := j.accepted.events
  have hrows := rows_of j htr hl
  have hne' : ofType l.name outs ≠ [] := by
    intro h0
    have : (contents l outs).rows = [] := by rw [contents_nil h0]; rfl
    rw [this] at hrows
    exact hne (List.forall₂_nil_right_iff.mp hrows)
  exact ⟨_, h2.tables.1 l hl hne', rfl, hrows⟩

/-- **C08** A record type without records gets no table. -/
theorem no_record_no_table (j : Job none sk e0 f outs names pl s h0 lev dt ix)
    (hclean : Clean pl e0 h0 st) (henc : Encoded D sk f src) (B : Nat) :
    ∃ st', parseSource D B none st src = .ok st' ∧ ∀ l ∈ layouts,
      ((events [] f).filter fun ev => ev.record.name = l.name) = [] →
      st'.h5.tabs (pl.path s, l.name) = none := by
  obtain ⟨st', h1, h2⟩ := j.source hclean B henc
  refine ⟨st', h1, fun l hl he => ?_⟩
  rw [h2.tables.2 (pl.path s, l.name) (.inr ?_)]
  · exact j.free l hl
  · have hrows := rows_of j (j.accepted.events) hl
    rw [he] at hrows
    have h3 := List.forall₂_nil_left_iff.mp hrows
    have h4 := (contents_slices j.accepted.itemsOK hl).length_eq
    rw [h3] at h4
    exact List.length_eq_zero_iff.mp h4

/-- **C08, C13** The same for any selection of record types: exactly the records of the selected types
get rows (`selectedEvents`), whatever else is selected; a type without such a record gets no table. -/
theorem one_row_per_selected_record (j : Job only sk e0 f outs names pl s h0 lev dt ix)
    (hclean : Clean pl e0 h0 st) (henc : Encoded D sk f src) (B : Nat) :
    ∃ st', parseSource D B only st src = .ok st' ∧ ∀ l ∈ layouts,
      (((selectedEvents only f).filter fun ev => ev.record.name = l.name) ≠ [] →
        ∃ t, st'.h5.tabs (pl.path s, l.name) = some t ∧ t.cols = l.cols ++ limitCols l.arrs ∧
          List.Forall₂ (RowOf e0 l t)
            ((selectedEvents only f).filter fun ev => ev.record.name = l.name) t.rows) ∧
      (((selectedEvents only f).filter fun ev => ev.record.name = l.name) = [] →
        st'.h5.tabs (pl.path s, l.name) = none) := by
  obtain ⟨st', h1, h2⟩ := j.source hclean B henc
  refine ⟨st', h1, fun l hl => ?_⟩
  have hrows := rows_of j j.accepted.selectedEvents hl
  refine ⟨fun hne => ?_, fun he => ?_⟩
  · have hne' : ofType l.name outs ≠ [] := by
      intro h0
      have : (contents l outs).rows = [] := by rw [contents_nil h0]; rfl
      rw [this] at hrows
      exact hne (List.forall₂_nil_right_iff.mp hrows)
    exact ⟨_, h2.tables.1 l hl hne', rfl, hrows⟩
  · rw [h2.tables.2 (pl.path s, l.name) (.inr ?_)]
    · exact j.free l hl
    · rw [he] at hrows
      have h3 := List.forall₂_nil_left_iff.mp hrows
      have h4 := (contents_slices j.accepted.itemsOK hl).length_eq
      rw [h3] at h4
      exact List.length_eq_zero_iff.mp h4

/-- **C08** The size of the buffer does not matter. -/
theorem buffer_size_irrelevant (j : Job only sk e0 f outs names pl s h0 lev dt ix)
    (hclean : Clean pl e0 h0 st) (henc : Encoded D sk f src) (B B' : Nat) :
    ∃ st1 st2, parseSource D B only st src = .ok st1 ∧ parseSource D B' only st src = .ok st2 ∧
      st1.h5 = st2.h5 := by
  obtain ⟨st1, h1, h2⟩ := j.source hclean B henc
  obtain ⟨st2, h3, h4⟩ := j.source hclean B' henc
  exact ⟨st1, st2, h1, h3, h2.unique j.accepted.outs_table h4⟩

/-- the demo: two GNODE records, two rows -/
example : (((events [] Demo.file).filter fun ev => ev.record.name = "GNODE").map fun ev =>
      ev.record.head) =
    [[.rat 1, .rat 11, .rat 6, .rat 123456], [.rat 2, .rat 12, .rat 6, .rat 123456]] := by
  decide +kernel
/-- with `only=['GNODE']` also the IEND record is passed over; the demo has a job for a selection -/
example : (selectedEvents (some ["GNODE"]) Demo.file).map (·.record.name) = ["GNODE", "GNODE"] ∧
    (selectedEvents (some ["IDENT", "GELMNT1", "IEND"]) Demo.file).map (·.record.name) =
      ["IDENT", "GELMNT1"] ∧ selectedEvents none Demo.file = events [] Demo.file :=
  ⟨by decide +kernel, by decide +kernel, selectedEvents_none _⟩
example (B : Nat) := buffer_size_irrelevant Demo.job Demo.clean Demo.onDisk.1 B 1
example (B : Nat) := buffer_size_irrelevant Demo.job Demo.clean Demo.onDisk.2 B 1

/-! ## C09: slices -/

/-- **C09** For each row and each array: the start and stop of the row select the items of the
record of that row, for any selection of record types and any buffer size. -/
theorem slices_are_own (j : Job only sk e0 f outs names pl s h0 lev dt ix)
    (hclean : Clean pl e0 h0 st) (henc : Encoded D sk f src) (B : Nat) :
    ∃ st', parseSource D B only st src = .ok st' ∧ ∀ l ∈ layouts, ∀ t,
      st'.h5.tabs (pl.path s, l.name) = some t →
      ∃ evs : List Event, evs = ((selectedEvents only f).filter fun ev => ev.record.name = l.name) ∧
        evs.length = t.rows.length ∧ ∀ (i : Nat) (ev : Event) (row : List Cell), evs[i]? = some ev → t.rows[i]? = some row →
          ev.record.name = l.name ∧ ∃ e, Means e0 ev.past ev.next ev.record e ∧
          ∀ (k : Nat) (a : Arr) (vs : List Val), l.arrs[k]? = some a →
            e.items[k]? = some (some vs) →
            ∃ (arr : Arr) (start stop : Nat), t.arrs[k]? = some arr ∧
              HasField row (l.cols.length + 2 * k) start ∧
              HasField row (l.cols.length + 2 * k + 1) stop ∧
              List.Forall₂ (Stored a.kind a.shape) vs
                ((arr.items.drop start).take (stop - start)) := by
  obtain ⟨st', h1, h2⟩ := j.source hclean B henc
  refine ⟨st', h1, fun l hl t ht => ?_⟩
  have hne : ofType l.name outs ≠ [] := by
    intro he
    rw [h2.tables.2 (pl.path s, l.name) (.inr he), j.free l hl] at ht
    cases ht
  rw [h2.tables.1 l hl hne] at ht
  obtain rfl := Option.some.inj ht
  have hrows := rows_of j j.accepted.selectedEvents hl
  refine ⟨_, rfl, hrows.length_eq, ?_⟩
  intro i ev row hi hr
  obtain ⟨hlt, hev⟩ := List.getElem?_eq_some_iff.mp hi
  obtain ⟨hlt', hrow⟩ := List.getElem?_eq_some_iff.mp hr
  have := (List.forall₂_iff_get.mp hrows).2 i hlt hlt'
  simp only [List.get_eq_getElem] at this
  rw [hev] at this
  obtain ⟨g1, e, g2, g3, g4, g5⟩ := this
  refine ⟨g1, e, g2, fun k a vs hk hvs => ?_⟩
  obtain ⟨cs, arr, q1, q2, a', b', q3, q4, q5⟩ := g5 k a vs hk hvs
  have e1 : (((contents l outs).table l).rows[i]'hlt') = row := hrow
  refine ⟨arr, a', b', q2, ?_, ?_, by rw [q5]; exact q1⟩
  · exact (congrArg (fun r => HasField r (l.cols.length + 2 * k) (a' : Int)) e1).mp q3
  · exact (congrArg (fun r => HasField r (l.cols.length + 2 * k + 1) (b' : Int)) e1).mp q4

/-- the items of the element of the demo -/
example : (contents (Demo.lay "GELREF1") Demo.outs).rows.map (·.drop 12) =
    [[.sc (.int 0), .sc (.int 2), .sc (.int 0), .sc (.int 0), .sc (.int 0), .sc (.int 0),
      .sc (.int 0), .sc (.int 0)]] := by decide +kernel

/-! ## rows of one type -/

/-- The rows of a table hold records of the file, with their meaning. -/
theorem rows_mean (j : Job only sk e0 f outs names pl s h0 lev dt ix)
    (hclean : Clean pl e0 h0 st) (henc : Encoded D sk f src) (B : Nat) :
    ∃ st', parseSource D B only st src = .ok st' ∧ ∀ l ∈ layouts, ∀ t,
      st'.h5.tabs (pl.path s, l.name) = some t →
      List.Forall₂ (RowOf e0 l t)
        ((selectedEvents only f).filter fun ev => ev.record.name = l.name) t.rows := by
  obtain ⟨st', h1, h2⟩ := j.source hclean B henc
  refine ⟨st', h1, fun l hl t ht => ?_⟩
  have hne : ofType l.name outs ≠ [] := by
    intro he
    rw [h2.tables.2 (pl.path s, l.name) (.inr he), j.free l hl] at ht
    cases ht
  rw [h2.tables.1 l hl hne] at ht
  obtain rfl := Option.some.inj ht
  exact rows_of j j.accepted.selectedEvents hl

/-- the items that a row has in array `k` -/
def ItemsAt (l : Layout) (t : Tab) (row : List Cell) (k : Nat) (vs : List Val) : Prop :=
  ∃ a cs arr, l.arrs[k]? = some a ∧ t.arrs[k]? = some arr ∧
    Slice row (l.cols.length + 2 * k) arr.items cs ∧ List.Forall₂ (Stored a.kind a.shape) vs cs

theorem RowOf.items {l : Layout} {t : Tab} {ev : Event} {row : List Cell}
    (h : RowOf e0 l t ev row) {k : Nat} (hk : k < l.arrs.length) {e : Entry}
    (huniq : ∀ e', Means e0 ev.past ev.next ev.record e' → e'.items[k]? = e.items[k]?)
    {vs : List Val} (hvs : e.items[k]? = some (some vs)) : ItemsAt l t row k vs := by
  obtain ⟨_, e', hm, _, _, h5⟩ := h
  obtain ⟨cs, arr, q1, q2, q3⟩ := h5 k l.arrs[k] vs (List.getElem?_eq_getElem hk)
    ((huniq e' hm).trans hvs)
  exact ⟨_, cs, arr, List.getElem?_eq_getElem hk, q2, q3, q1⟩

/-! ## C10: fixed layouts -/

/-- **C10** Types with a fixed number `n` of fields: the row is the values on the record, header
and continuation, cut after `n` or filled up with zeros. -/
theorem fixed_layout_rows (j : Job only sk e0 f outs names pl s h0 lev dt ix)
    (hclean : Clean pl e0 h0 st) (henc : Encoded D sk f src) (B : Nat) :
    ∃ st', parseSource D B only st src = .ok st' ∧ ∀ l ∈ layouts, ∀ n k t,
      (l.name, n, k) ∈ fixedTypes → st'.h5.tabs (pl.path s, l.name) = some t →
      List.Forall₂ (fun ev row =>
          StoredRow l.cols (numbers (fit n (ev.record.head ++ ev.record.vals))) row)
        ((selectedEvents only f).filter fun ev => ev.record.name = l.name) t.rows := by
  obtain ⟨st', h1, h2⟩ := rows_mean j hclean henc B
  refine ⟨st', h1, fun l hl n k t hf ht => ?_⟩
  refine (h2 l hl t ht).imp fun ev row hrow => ?_
  obtain ⟨g1, e, g2, g3, g4, _⟩ := hrow
  obtain ⟨_, _, rfl⟩ := means_fixed g2 (by rw [g1]; exact hf)
  have harr : l.arrs.length = 0 := by
    have : ∀ l ∈ layouts, l.name ∈ fixedTypes.map (·.1) → l.arrs.length = 0 := by decide +kernel
    exact this l hl (List.mem_map.mpr ⟨_, hf, rfl⟩)
  rw [List.take_of_length_le (by omega)] at g4
  exact g4

/-- a header of three values is filled up, one of five is cut -/
example : numbers (fit 4 ([.rat 1, .rat 2, .rat 3] ++ [])) = numbers [.rat 1, .rat 2, .rat 3, .rat 0] ∧
    numbers (fit 3 ([.rat 1, .rat 2, .rat 3, .rat 4, .rat 5])) = numbers [.rat 1, .rat 2, .rat 3] := by
  decide +kernel

/-! ## C11: optional fields -/

/-- **C11** Section records: the row is the values on the record, and optional values that are not on
the record are zero; they are left out only if a record with a known name follows, or a formatted
file ends there. -/
theorem optional_fields (j : Job only sk e0 f outs names pl s h0 lev dt ix)
    (hclean : Clean pl e0 h0 st) (henc : Encoded D sk f src) (B : Nat) :
    ∃ st', parseSource D B only st src = .ok st' ∧ ∀ l ∈ layouts, ∀ n m t,
      (l.name, n, m) ∈ optionalTypes → st'.h5.tabs (pl.path s, l.name) = some t →
      List.Forall₂ (fun ev row =>
          (ev.record.vals.length = n - 4 ∨
            ev.record.vals.length = n - 4 - m ∧ (∃ nx, ev.next = some nx ∧ nx.name ∈ knownNames) ∨
            ev.record.vals.length < n - 4 ∧ ev.next = some endMark) ∧
          StoredRow l.cols (numbers (fit n (ev.record.head ++ ev.record.vals))) row)
        ((selectedEvents only f).filter fun ev => ev.record.name = l.name) t.rows := by
  obtain ⟨st', h1, h2⟩ := rows_mean j hclean henc B
  refine ⟨st', h1, fun l hl n m t hf ht => ?_⟩
  refine (h2 l hl t ht).imp fun ev row hrow => ?_
  obtain ⟨g1, e, g2, g3, g4, _⟩ := hrow
  obtain ⟨_, rfl, g5⟩ := means_optional g2 (by rw [g1]; exact hf)
  have harr : l.arrs.length = 0 := by
    have : ∀ l ∈ layouts, l.name ∈ optionalTypes.map (·.1) → l.arrs.length = 0 := by decide +kernel
    exact this l hl (List.mem_map.mpr ⟨_, hf, rfl⟩)
  rw [List.take_of_length_le (by omega)] at g4
  exact ⟨g5.imp id (Or.imp (fun ⟨g6, _, g7⟩ => ⟨g6, g7⟩) fun ⟨g6, _, g7⟩ => ⟨g6, g7⟩), g4⟩

/-! ## C12: file kinds -/

/-- **C12** Two files with the same logical records, formatted or unformatted, however cut into
physical records, give the same groups and tables. -/
theorem same_records_same_result (j : Job only sk e0 f outs names pl s h0 lev dt ix)
    (hclean : Clean pl e0 h0 st) (henc : Encoded D sk f src) (henc' : Encoded D' sk f src')
    (B : Nat) :
    ∃ st1 st2, parseSource D B only st src = .ok st1 ∧ parseSource D' B only st src' = .ok st2 ∧
      st1.h5 = st2.h5 := by
  obtain ⟨st1, h1, h2⟩ := j.source hclean B henc
  obtain ⟨st2, h3, h4⟩ := j.source hclean B henc'
  exact ⟨st1, st2, h1, h3, h2.unique j.accepted.outs_table h4⟩

example (B : Nat) := same_records_same_result Demo.job Demo.clean Demo.onDisk.1 Demo.onDisk.2 B

/-! ## C13: selections -/

theorem keepO_ofType (l : List String) (n : String) (outs : List Added) (h : n ∈ l) :
    ofType n (keepO l outs) = ofType n outs := by
  unfold ofType keepO
  rw [List.filter_filter]
  apply List.filter_congr
  intro o _
  by_cases ho : o.name = n
  · simp [ho, h]
  · simp [ho]

theorem keepO_other (l : List String) (n : String) (outs : List Added) (h : n ∉ l) :
    ofType n (keepO l outs) = [] := by
  unfold ofType keepO
  rw [List.filter_filter, List.filter_eq_nil_iff]
  intro o _
  by_cases ho : o.name = n
  · simp [ho, h]
  · simp [ho]

/-- a selection of a job is a job, if the records are accepted -/
theorem Job.selected (j : Job none sk e0 f outs names pl s h0 lev dt ix) {l : List String}
    (hc : ∀ n ∈ ["IDENT", "HIERARCH"], n ∈ l) {f' : List LRec} {names' : List String}
    (hacc : Accepts (some l) sk e0 none [] f' (keepO l outs) names') :
    Job (some l) sk e0 f' (keepO l outs) names' pl s h0 lev dt ix := by
  have hh : ofType "HIERARCH" (keepO l outs) = ofType "HIERARCH" outs :=
    keepO_ofType _ _ _ (hc _ (by decide))
  refine ⟨hacc, j.sel, ?_, ?_, j.hier, j.free, ?_⟩
  · obtain ⟨o, h1, h2⟩ := j.gives
    refine ⟨o, ?_, h2⟩
    have hn : o.name ∈ l := by
      rcases h2 with ⟨h2, _⟩ | ⟨h2, _⟩ <;> rw [h2] <;> exact hc _ (by decide)
    cases outs with
    | nil => cases h1
    | cons x xs =>
      simp only [List.head?_cons, Option.some.injEq] at h1
      subst h1
      unfold keepO
      rw [List.filter_cons_of_pos (by simpa using hn)]
      rfl
  · have := j.allows
    unfold Place.Allows at this ⊢
    cases pl with
    | top => exact fun o ho => this o (List.mem_filter.mp ho).1
    | low => exact fun o ho => this o (List.mem_filter.mp ho).1
  · have hl : ∀ lev, HeadLevel outs lev → HeadLevel (keepO l outs) lev := by
      rintro lev ⟨o, h1, h2⟩; exact ⟨o, by rw [hh]; exact h1, h2⟩
    cases j.classified with
    | resOne h => exact .resOne (hl _ h)
    | resTop h h' => exact .resTop (hl _ h) h'
    | resAlone h => exact .resAlone (by rw [hh]; exact h)
    | resLow => exact .resLow
    | modTop h h' => exact .modTop h (by rw [hh]; exact h')
    | modAlone h h' => exact .modAlone h (by rw [hh]; exact h')
    | modInter h h' h'' => exact .modInter h h' h''
    | modFirst h h' h'' => exact .modFirst h h' h''
    | hydro h => exact .hydro h
    | other h => exact .other h

/-- a selection of a job is a job -/
theorem Job.select (j : Job none sk e0 f outs names pl s h0 lev dt ix) {l : List String}
    (hc : Closed l) (hsk : ∀ r ∈ f, r.name ∉ l → sk r = true) :
    Job (some l) sk e0 f (keepO l outs) (names.filter fun n => n ∈ l) pl s h0 lev dt ix :=
  j.selected (fun n hn => hc.2 n (by
    simp only [List.mem_cons, List.not_mem_nil, or_false] at hn ⊢; tauto))
    (j.accepted.select hc hsk)

theorem contents_keep {l : List String} {y : Layout} {outs : List Added} (h : y.name ∈ l) :
    contents y (keepO l outs) = contents y outs := by
  rw [contents_eq, contents_eq, keepO_ofType l y.name outs h]

theorem idxOf_filter {p : String → Bool} {a b : String} (ha : p a = true) (hb : p b = true) :
    ∀ names : List String, names.idxOf a < names.idxOf b →
      (names.filter p).idxOf a < (names.filter p).idxOf b
  | [], h => absurd h (by simp)
  | x :: names, h => by
    by_cases hxb : x = b
    · subst hxb
      simp at h
    by_cases hxa : x = a
    · subst hxa
      rw [List.filter_cons_of_pos ha, List.idxOf_cons_self, List.idxOf_cons_ne _ hxb]
      exact Nat.succ_pos _
    · rw [List.idxOf_cons_ne _ hxa, List.idxOf_cons_ne _ hxb] at h
      have ih := idxOf_filter ha hb names (Nat.lt_of_succ_lt_succ h)
      by_cases hx : p x = true
      · rw [List.filter_cons_of_pos hx, List.idxOf_cons_ne _ hxa, List.idxOf_cons_ne _ hxb]
        exact Nat.succ_lt_succ ih
      · rw [List.filter_cons_of_neg hx]
        exact ih

/-- the names of the selected types, each once -/
theorem Once.filter {names recs : List String} (h : Once names recs) (p : String → Bool) :
    Once (names.filter p) (recs.filter p) := by
  refine ⟨fun n => by simp [h.1 n], ?_⟩
  refine ((h.2.filter p).imp_of_mem fun {a b} ha hb hab => ?_)
  exact idxOf_filter (List.mem_filter.mp ha).2 (List.mem_filter.mp hb).2 names hab

/-- the output files of a conversion and of a conversion of selected types -/
theorem selected_tables (j : Job none sk e0 f outs names pl s h0 lev dt ix) {l : List String}
    {h1 h2 : H5} (c1 : Converted outs names pl s h0 lev dt ix h1)
    (c2 : Converted (keepO l outs) (names.filter fun n => n ∈ l) pl s h0 lev dt ix h2) :
    (∀ n ∈ l, h2.tabs (pl.path s, n) = h1.tabs (pl.path s, n)) ∧
      (∀ n, n ∉ l → HasTable n → h2.tabs (pl.path s, n) = none) ∧
      (∀ k : Path × String, k.1 ≠ pl.path s → h2.tabs k = h1.tabs k) ∧
      ∃ a1 recs, h1.groups (pl.path s) = some a1 ∧ a1.records = some recs ∧
        h2.groups (pl.path s) = some { a1 with records := some (recs.filter fun n => n ∈ l) } := by
  obtain ⟨recs1, o1, g1, _⟩ := c1.groups
  obtain ⟨recs2, o2, g2, _⟩ := c2.groups
  obtain rfl := o2.unique (o1.filter _)
  refine ⟨fun n hn => ?_, fun n hn ht => ?_, fun k hk => ?_, _, recs1, g1, rfl, g2⟩
  · by_cases hno : ofType n outs = []
    · rw [c1.tables.2 (pl.path s, n) (.inr hno),
        c2.tables.2 (pl.path s, n) (.inr (by rw [keepO_ofType _ _ _ hn]; exact hno))]
    · obtain ⟨o, ho⟩ := List.exists_mem_of_ne_nil _ hno
      have ho' : o ∈ outs ∧ o.name = n := by simpa [ofType] using ho
      obtain ⟨y, hy, hyn⟩ := j.accepted.outs_table o ho'.1
      rw [ho'.2] at hyn
      subst hyn
      rw [c1.tables.1 y hy hno, c2.tables.1 y hy (by rw [keepO_ofType _ _ _ hn]; exact hno),
        contents_keep hn]
  · obtain ⟨y, hy, rfl⟩ := ht
    rw [c2.tables.2 (pl.path s, y.name) (.inr (keepO_other _ _ _ hn))]
    exact j.free y hy
  · rw [c1.tables.2 k (.inl hk), c2.tables.2 k (.inl hk)]

/-- **C13** Converting with `only=l`: the tables of the types in `l` are those of a full
conversion, there are no other tables; of RECORDS the types in `l` remain, LEVEL, DATATYPE and the
other attributes are the same.  `l` contains with each
type the types it depends on (`Closed`), and the records of the other types can be passed over. -/
theorem only_selects (j : Job none sk e0 f outs names pl s h0 lev dt ix) {l : List String}
    (hc : Closed l) (hsk : ∀ r ∈ f, r.name ∉ l → sk r = true)
    (hclean : Clean pl e0 h0 st) (henc : Encoded D sk f src) (B : Nat) :
    ∃ st1 st2 a1 recs, parseSource D B none st src = .ok st1 ∧
      parseSource D B (some l) st src = .ok st2 ∧
      (∀ n ∈ l, st2.h5.tabs (pl.path s, n) = st1.h5.tabs (pl.path s, n)) ∧
      (∀ n, n ∉ l → HasTable n → st2.h5.tabs (pl.path s, n) = none) ∧
      (∀ k : Path × String, k.1 ≠ pl.path s → st2.h5.tabs k = st1.h5.tabs k) ∧
      st1.h5.groups (pl.path s) = some a1 ∧ a1.records = some recs ∧
      st2.h5.groups (pl.path s) =
        some { a1 with records := some (recs.filter fun n => n ∈ l) } := by
  obtain ⟨st1, h1, h2⟩ := j.source hclean B henc
  obtain ⟨st2, h3, h4⟩ := (j.select hc hsk).source hclean B henc
  obtain ⟨t1, t2, t3, a1, recs, t4⟩ := selected_tables j h2 h4
  exact ⟨st1, st2, a1, recs, h1, h3, t1, t2, t3, t4⟩

/-! ## C14: RECORDS -/

/-- **C14** The attribute RECORDS: no name twice; a record type with a table is listed exactly if
it has a record (a row); otherwise only IEND (unless the file ends without it, see `Accepts.eof`) and possibly
IRECSIZE, and only types that the file has; in the order of the first records. -/
theorem records_attribute (j : Job only sk e0 f outs names pl s h0 lev dt ix)
    (hclean : Clean pl e0 h0 st) (henc : Encoded D sk f src) (B : Nat) :
    ∃ st' a recs, parseSource D B only st src = .ok st' ∧
      st'.h5.groups (pl.path s) = some a ∧ a.records = some recs ∧ recs.Nodup ∧
      (∀ l ∈ layouts, l.name ∈ recs ↔ (st'.h5.tabs (pl.path s, l.name)).isSome) ∧
      (∀ n ∈ recs, HasTable n ∨ n = "IEND" ∨ n = "IRECSIZE") ∧
      ("IEND" ∈ recs ∨ "" ∈ f.map LRec.name) ∧ (∀ n ∈ recs, n ∈ f.map LRec.name) ∧
      ∃ evs : List Event, evs = selectedEvents only f ∧
        (∀ n, HasTable n → (n ∈ recs ↔ n ∈ evs.map (·.record.name))) ∧
        (recs.filter fun n => n ∈ layouts.map (·.name)).Pairwise fun a b =>
          (evs.map (·.record.name)).idxOf a < (evs.map (·.record.name)).idxOf b := by
  obtain ⟨st', h1, h2⟩ := j.source hclean B henc
  obtain ⟨recs, h3, h4, _⟩ := h2.groups
  obtain ⟨tr, h5, h6⟩ : ∃ tr, tr = selectedEvents only f ∧
      List.Forall₂ (fun ev o => Adds e0 ev.past ev.next o.first ev.record o) tr outs :=
    ⟨_, rfl, j.accepted.selectedEvents⟩
  obtain ⟨n1, n2, n3⟩ := j.accepted.named
  simp only [Option.toList_none, List.nil_append] at n1
  have ho := j.accepted.order
  simp only [Option.toList_none, List.nil_append] at ho
  have hnames : tr.map (·.record.name) = outs.map (·.name) := by
    clear ho n1 n2 n3 h5 h2 j
    induction h6 with
    | nil => rfl
    | cons ha _ ih => rw [List.map_cons, List.map_cons, ih, adds_name ha]
  refine ⟨st', _, recs, h1, h4, rfl, ?_, ?_, ?_, n3.imp (h3.1 _).mpr id,
    fun n hn => j.accepted.names_sub n ((h3.1 n).mp hn), tr, h5, ?_, ?_⟩
  · exact h3.2.imp fun {x y} hlt => by rintro rfl; exact absurd hlt (lt_irrefl _)
  · intro l hl
    rw [h3.1, n1 _ ⟨l, hl, rfl⟩]
    by_cases hno : ofType l.name outs = []
    · rw [h2.tables.2 (pl.path s, l.name) (.inr hno), j.free l hl]
      simp only [Option.isSome_none, Bool.false_eq_true, iff_false, List.mem_map, not_exists]
      rintro o ⟨ho1, ho2⟩
      have : o ∈ ofType l.name outs := by simp [ofType, ho1, ho2]
      rw [hno] at this
      simp at this
    · rw [h2.tables.1 l hl hno]
      simp only [Option.isSome_some, iff_true]
      obtain ⟨o, ho⟩ := List.exists_mem_of_ne_nil _ hno
      have ho' : o ∈ outs ∧ o.name = l.name := by simpa [ofType] using ho
      exact List.mem_map.mpr ⟨o, ho'.1, ho'.2⟩
  · intro n hn
    exact n2 n ((h3.1 n).mp hn)
  · intro n hn
    rw [h3.1, n1 n hn, hnames]
  · rw [hnames]
    refine List.Pairwise.imp_of_mem ?_ (h3.2.filter fun n => decide (n ∈ layouts.map (·.name)))
    intro a b ha hb hlt
    have ha' := hasTable_iff.mpr (by simpa using (List.mem_filter.mp ha).2)
    have hb' := hasTable_iff.mpr (by simpa using (List.mem_filter.mp hb).2)
    exact (ho a b ha' hb').mp hlt

example (B : Nat) := records_attribute Demo.job Demo.clean Demo.onDisk.1 B

/-! ## C15: classification -/

/-- **C15** The attributes LEVEL, DATATYPE, FILETYPE and SELTYP of the group -/
theorem classification (j : Job only sk e0 f outs names pl s h0 lev dt ix)
    (hclean : Clean pl e0 h0 st) (henc : Encoded D sk f src) (B : Nat) :
    ∃ st' a, parseSource D B only st src = .ok st' ∧ st'.h5.groups (pl.path s) = some a ∧
      a.level = some lev ∧ a.datatype = some dt ∧ a.filetype = some pl.letter ∧
      a.seltyp = some (some s) ∧ (∀ i, ix = some i → a.index = some i) := by
  obtain ⟨st', h1, h2⟩ := j.source hclean B henc
  obtain ⟨recs, _, h4, _⟩ := h2.groups
  exact ⟨st', _, h1, h4, rfl, rfl, rfl, rfl, fun i hi => by rw [hi]; rfl⟩

/-- **C15** The classification is a function of the letter, the hierarchy on the file and the row
of the superelement in the hierarchy. -/
theorem classified_function {lev' dt' : String} {ix' : Option (Option Int)}
    (h : Classified outs pl lev dt ix) (h' : Classified outs pl lev' dt' ix') :
    lev = lev' ∧ dt = dt' ∧ ix = ix' := by
  have hl : ∀ {a b : Int}, HeadLevel outs a → HeadLevel outs b → a = b := by
    rintro a b ⟨o, h1, h2⟩ ⟨o', h3, h4⟩
    rw [h1] at h3
    obtain rfl := Option.some.inj h3
    unfold HasField at h2 h4
    rw [h2] at h4
    simpa using h4
  have hn : ∀ {a : Int}, HeadLevel outs a → ofType "HIERARCH" outs ≠ [] := by
    rintro a ⟨o, h1, _⟩ he
    rw [he] at h1
    cases h1
  have hf : ∀ {row : List Cell} {a b : Int}, HasField row 4 a → HasField row 4 b → a = b := by
    intro row a b h1 h2
    unfold HasField at h1 h2
    rw [h1] at h2
    simpa using h2
  cases h <;> cases h' <;> first
    | exact ⟨rfl, rfl, rfl⟩
    | (exfalso; exact ‹_ ≠ _› (hl ‹HeadLevel outs _› ‹HeadLevel outs _›))
    | (exfalso; rename_i h1 h2 h3; exact hn h1 h3)
    | (exfalso; rename_i h1 h2 h3; exact hn h2 h1)
    | (exfalso; simp_all [Place.letter]; done)
    | (exfalso; rename_i h2 h3 _ _ h5 h6; have := hf h2 h6; omega)

/-- **C15** Every results, model, load and hydrodynamic file is classified; results, model and load
files as structural. -/
theorem classified_total (hhier : ∀ o ∈ outs, o.name = "HIERARCH" → ∃ n, HasField o.cells 4 n)
    (hrow : ∀ pre ft t i hp hrec, pl = .low pre ft t i hp hrec → ∃ n, HasField hrec 4 n)
    (hl : pl.letter ∈ ["R", "T", "L", "G"]) :
    ∃ lev dt ix, Classified outs pl lev dt ix ∧
      (pl.letter ∈ ["R", "T", "L"] → dt = "STRUCTURAL") ∧
      (pl.letter = "G" → dt = "HYDRODYNAMIC") := by
  have hd : ofType "HIERARCH" outs = [] ∨ ∃ n, HeadLevel outs n := by
    cases h : ofType "HIERARCH" outs with
    | nil => exact .inl rfl
    | cons o os =>
      have ho : o ∈ ofType "HIERARCH" outs := by rw [h]; simp
      have ho' : o ∈ outs ∧ o.name = "HIERARCH" := by simpa [ofType] using ho
      obtain ⟨n, hn⟩ := hhier o ho'.1 ho'.2
      exact .inr ⟨n, o, by rw [h]; rfl, hn⟩
  simp only [List.mem_cons, List.not_mem_nil, or_false] at hl
  by_cases hg : pl.letter = "G"
  · refine ⟨_, _, _, .hydro hg, ?_, fun _ => rfl⟩
    rw [hg]; intro h; exact absurd h (by decide)
  · cases pl with
    | top pre ft =>
      simp only [Place.letter] at hl hg ⊢
      rcases hl with rfl | hl
      · rcases hd with hd | ⟨n, hn⟩
        · exact ⟨_, _, _, .resAlone hd, fun _ => rfl, fun h => absurd h hg⟩
        · by_cases h1 : n = 1
          · subst h1; exact ⟨_, _, _, .resOne hn, fun _ => rfl, fun h => absurd h hg⟩
          · exact ⟨_, _, _, .resTop hn h1, fun _ => rfl, fun h => absurd h hg⟩
      · have hft : ft ∈ ["T", "L"] := by
          simp only [List.mem_cons, List.not_mem_nil, or_false]; tauto
        by_cases h1 : ofType "HIERARCH" outs = []
        · exact ⟨_, _, _, .modAlone hft h1, fun _ => rfl, fun h => absurd h hg⟩
        · exact ⟨_, _, _, .modTop hft h1, fun _ => rfl, fun h => absurd h hg⟩
    | low pre ft t i hp hrec =>
      simp only [Place.letter] at hl hg ⊢
      rcases hl with rfl | hl
      · exact ⟨_, _, _, .resLow, fun _ => rfl, fun h => absurd h hg⟩
      · have hft : ft ∈ ["T", "L"] := by
          simp only [List.mem_cons, List.not_mem_nil, or_false]; tauto
        obtain ⟨n, hn⟩ := hrow _ _ _ _ _ _ rfl
        by_cases h1 : 1 < n
        · exact ⟨_, _, _, .modInter hft hn h1, fun _ => rfl, fun h => absurd h hg⟩
        · exact ⟨_, _, _, .modFirst hft hn (by omega), fun _ => rfl, fun h => absurd h hg⟩

end

end Verif.Parse
