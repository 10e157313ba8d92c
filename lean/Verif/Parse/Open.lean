import Verif.Parse.Cut
/-!
# Selections without the end record

`only` may lack IEND.  Then the end record is passed over like any other record that is not
selected, and reading goes on: a formatted file is read to its end, an unformatted file is refused.
-/

namespace Verif.Parse

open Verif.Seq

/-- a selection with which the end of the file is not seen: with each type the types it needs, and
the records that name the file -/
def Endless (l : List String) : Prop :=
  (∀ p ∈ needs, p.1 ∈ l → p.2 ∈ l) ∧ (∀ n ∈ ["IDENT", "HIERARCH"], n ∈ l) ∧ "IEND" ∉ l

/-- the last record is the end record, and there is no other -/
def EndsOnce (f : List LRec) : Prop :=
  ∃ a r, f = a ++ [r] ∧ EndOfFile r ∧ ∀ x ∈ a, ¬ EndOfFile x

theorem EndsOnce.cons {r : LRec} {rest : List LRec} (h : EndsOnce (r :: rest)) :
    EndOfFile r ∧ rest = [] ∨ ¬ EndOfFile r ∧ EndsOnce rest := by
  obtain ⟨a, x, e, h1, h2⟩ := h
  cases a with
  | nil =>
    obtain ⟨rfl, rfl⟩ := List.cons.inj e
    exact .inl ⟨h1, rfl⟩
  | cons y a =>
    obtain ⟨rfl, rfl⟩ := List.cons.inj e
    exact .inr ⟨h2 _ (by simp), a, x, rfl, h1, fun z hz => h2 z (by simp [hz])⟩

theorem EndsOnce.head {rest : List LRec} (h : EndsOnce rest) :
    (rest ++ [endMark]).head? = rest.head? := by
  obtain ⟨a, r, rfl, -⟩ := h
  cases a <;> rfl

theorem EndsOnce.tail {r : LRec} {rest : List LRec} (h : EndsOnce (r :: rest))
    (hr : r.name ≠ "IEND") : EndsOnce rest := by
  rcases h.cons with ⟨k, -⟩ | ⟨-, k⟩
  · exact absurd k.1 hr
  · exact k

theorem keepC_not {l : List String} {n : String} (h : n ∉ l) (cur : Option String) :
    keepC l cur ≠ some n := by
  intro hcur
  cases cur with
  | none => simp [keepC] at hcur
  | some c =>
    simp only [keepC] at hcur
    split at hcur
    · rename_i hcl
      cases hcur
      exact h hcl
    · cases hcur

/-- What is accepted of a file with such a selection: the rows of the selected types, and behind
the last record the end of the file. -/
theorem Accepts.selectOpen {sk : LRec → Bool} {e0 : Int → Option Int} {cur : Option String}
    {past f : List LRec} {outs : List Added} {names : List String}
    (h : Accepts none sk e0 cur past f outs names) {l : List String} (hc : Endless l)
    (hend : EndsOnce f) (hsk : ∀ r ∈ f, r.name ∉ l → sk r = true) :
    Accepts (some l) sk e0 (keepC l cur) (keepR l past) (f ++ [endMark]) (keepO l outs)
      (names.filter fun n => n ∈ l) := by
  induction h with
  | @stop cur past r rest _ he =>
    have hr : r.name ∉ l := by rw [he.1]; exact hc.2.2
    obtain rfl : rest = [] := by
      rcases hend.cons with ⟨-, k⟩ | ⟨k, -⟩
      · exact k
      · exact absurd he k
    simp only [keepO, List.filter_nil]
    rw [List.filter_cons_of_neg (by simpa using hc.2.2), List.filter_nil]
    exact .unselected (keepC_not hr cur) (by rw [he.1]; decide) hr (hsk r (by simp) hr)
      (.eof rfl (by simp))
  | eof hm _ =>
    exfalso
    rcases hend.cons with ⟨k, -⟩ | ⟨-, a, r, e, -⟩
    · exact absurd (hm.symm.trans k.1) (by decide)
    · simp at e
  | @more past r rest o outs names hn ha _ ih =>
    have hend' := hend.tail (hasTable_ne (adds_table ha)).2.1
    have ih := ih hend' fun r hr => hsk r (by simp [hr])
    have hne := (hasTable_ne (adds_table ha)).1
    rw [← hend'.head] at ha
    unfold keepO keepR keepC at ih ⊢
    by_cases hr : r.name ∈ l
    · simp only [hr, if_true] at ih ⊢
      rw [List.filter_cons_of_pos (by simpa [adds_name ha] using hr)]
      rw [List.filter_cons_of_pos (by simpa using hr)] at ih
      exact .more hn (adds_keep hc.1 hr ha) ih
    · simp only [hr, if_false] at ih ⊢
      rw [List.filter_cons_of_neg (by simpa [adds_name ha] using hr)]
      rw [List.filter_cons_of_neg (by simpa using hr)] at ih
      exact .unselected (by simp) hne hr (hsk r (by simp) hr) ih
  | @first cur past r rest o outs names hcur hn _ hv hf ha _ ih =>
    have hend' := hend.tail (hasTable_ne (adds_table ha)).2.1
    have ih := ih hend' fun r hr => hsk r (by simp [hr])
    have hne := (hasTable_ne (adds_table ha)).1
    have hcur' := keepC_ne (l := l) hcur
    rw [← hend'.head] at ha
    unfold keepO keepR at ih ⊢
    by_cases hr : r.name ∈ l
    · simp only [keepC, hr, if_true] at ih
      rw [List.filter_cons_of_pos (by simpa [adds_name ha] using hr),
        List.filter_cons_of_pos (by simpa using hr)]
      rw [List.filter_cons_of_pos (by simpa using hr)] at ih
      exact .first hcur' hn hr hv hf (adds_keep hc.1 hr ha) ih
    · simp only [keepC, hr, if_false] at ih
      rw [List.filter_cons_of_neg (by simpa [adds_name ha] using hr),
        List.filter_cons_of_neg (by simpa using hr)]
      rw [List.filter_cons_of_neg (by simpa using hr)] at ih
      exact .unselected hcur' hne hr (hsk r (by simp) hr) ih
  | @ident cur past r rest o outs names hn _ hv ha _ ih =>
    have hend' := hend.tail (by rw [hn]; decide)
    have ih := ih hend' fun r hr => hsk r (by simp [hr])
    have hr : r.name ∈ l := by rw [hn]; exact hc.2.1 _ (by decide)
    rw [← hend'.head] at ha
    unfold keepO keepR at ih ⊢
    rw [List.filter_cons_of_pos (by simpa [adds_name ha] using hr),
      List.filter_cons_of_pos (by simpa using hr)]
    rw [List.filter_cons_of_pos (by simpa using hr)] at ih
    exact .ident hn hr hv (adds_keep hc.1 hr ha) ih
  | @void cur past r rest outs names hcur hne _ hv _ ih =>
    have hend' : EndsOnce rest := by
      rcases hend.cons with ⟨⟨-, x, t, k1, k2⟩, -⟩ | ⟨-, k⟩
      · exfalso
        cases hv with
        | one h' _ =>
          obtain ⟨rfl, -⟩ := List.cons.inj k1
          rw [k2] at h'
          exact absurd h' (by decide +kernel)
        | two =>
          obtain ⟨rfl, -⟩ := List.cons.inj k1
          exact absurd k2 (by decide +kernel)
      · exact k
    have ih := ih hend' fun r hr => hsk r (by simp [hr])
    by_cases hr : r.name ∈ l
    · exact .void (keepC_ne hcur) hne hr hv ih
    · exact .unselected (keepC_ne hcur) hne hr (hsk r (by simp) hr) ih
  | unselected _ _ hs _ _ ih => exact absurd trivial hs
  | @unread cur past r rest outs names hcur hne h1 h2 ht hv _ hs _ ih =>
    have ih := ih (hend.tail (by assumption)) fun r hr => hsk r (by simp [hr])
    by_cases hr : r.name ∈ l
    · simp only [keepC, hr, if_true] at ih
      exact .unread (keepC_ne hcur) hne h1 h2 ht hv hr hs ih
    · simp only [keepC, hr, if_false] at ih
      exact .unselected (keepC_ne hcur) hne hr hs ih
  | @unreadMore past r rest outs names hne h1 h2 ht hs _ ih =>
    have ih := ih (hend.tail (by assumption)) fun r hr => hsk r (by simp [hr])
    unfold keepC at ih ⊢
    by_cases hr : r.name ∈ l
    · simp only [hr, if_true] at ih ⊢
      exact .unreadMore hne h1 h2 ht hs ih
    · simp only [hr, if_false] at ih ⊢
      exact .unselected (by simp) hne hr hs ih
  | @recsize cur past r rest outs names hs h1 hv _ ih =>
    have ih := ih (hend.tail (by rw [h1.1]; decide)) fun r hr => hsk r (by simp [hr])
    by_cases hr : r.name ∈ l
    · rw [List.filter_cons_of_pos (by simpa using hr)]
      exact .recsize hr h1 hv ih
    · rw [List.filter_cons_of_neg (by simpa using hr)]
      exact .unselected (keepC_not hr cur) (by rw [h1.1]; decide) hr (hsk r (by simp) hr) ih
  | @notEnd cur past r rest outs names hs h1 _ ih =>
    have hend' : EndsOnce rest := by
      rcases hend.cons with ⟨⟨-, x, t, k1, k2⟩, -⟩ | ⟨-, k⟩
      · obtain ⟨-, -, -, y, u, k3, k4, -⟩ := h1
        rw [k3] at k1
        obtain ⟨rfl, -⟩ := List.cons.inj k1
        exact absurd k2 k4
      · exact k
    have ih := ih hend' fun r hr => hsk r (by simp [hr])
    have hr : r.name ∉ l := by rw [h1.1]; exact hc.2.2
    rw [List.filter_cons_of_neg (by simpa using hr)]
    exact .unselected (keepC_not hr cur) (by rw [h1.1]; decide) hr (hsk r (by simp) hr) ih

/-- the lines of a formatted file, without the end of it -/
theorem encodes_front {D : Dec} {sk : LRec → Bool} :
    ∀ (f : List LRec) {t : Str}, T.Encodes D sk [] (f ++ [endMark]) t → T.Encodes D sk [] f t
  | [], t, h => by
    cases h with
    | eof => exact .nil
    | cons h1 _ _ _ => exact absurd rfl (name_ne_empty h1.1)
  | r :: f, t, h => by
    generalize hg : r :: f ++ [endMark] = g at h
    cases h with
    | nil => cases hg
    | eof => simp at hg
    | cons h1 h2 h4 h5 =>
      obtain ⟨rfl, rfl⟩ := List.cons.inj hg
      refine .cons h1 h2 (fun e n hn => h4 e n ?_) (encodes_front f h5)
      cases f with
      | nil => cases hn
      | cons x f => exact hn

section

variable {D : Dec} {sk : LRec → Bool} {e0 : Int → Option Int} {f : List LRec} {outs : List Added}
  {names : List String} {pl : Place} {s : Int} {h0 : H5} {st : St} {lev dt : String}
  {ix : Option (Option Int)}

/-- **C77** A formatted file converted with a selection `l` that lacks IEND: nothing is raised, the
tables of the types in `l` are those of a full conversion, there are no other tables, and the
attributes are the same but for RECORDS, which has the types in `l` and so lacks IEND.  The end
record is the last line of the file, and the records of the other types can be passed over. -/
theorem only_without_end (j : Job none sk e0 f outs names pl s h0 lev dt ix) {l : List String}
    (hc : Endless l) (hend : EndsOnce f) (hsk : ∀ r ∈ f, r.name ∉ l → sk r = true)
    (hclean : Clean pl e0 h0 st) {t : Str} (henc : T.Encodes D sk [] (f ++ [endMark]) t) (B : Nat) :
    ∃ st1 st2 a1 recs, parseSource D B none st (.formatted t) = .ok st1 ∧
      parseSource D B (some l) st (.formatted t) = .ok st2 ∧
      (∀ n ∈ l, st2.h5.tabs (pl.path s, n) = st1.h5.tabs (pl.path s, n)) ∧
      (∀ n, n ∉ l → HasTable n → st2.h5.tabs (pl.path s, n) = none) ∧
      (∀ k : Path × String, k.1 ≠ pl.path s → st2.h5.tabs k = st1.h5.tabs k) ∧
      st1.h5.groups (pl.path s) = some a1 ∧ a1.records = some recs ∧
      st2.h5.groups (pl.path s) =
        some { a1 with records := some (recs.filter fun n => n ∈ l) } := by
  obtain ⟨st1, h1, h2⟩ := j.source hclean B (.formatted (encodes_front f henc))
  obtain ⟨st2, h3, h4⟩ := (j.selected hc.2.1 (j.accepted.selectOpen hc hend hsk)).source hclean B
    (.formatted henc)
  obtain ⟨t1, t2, t3, a1, recs, t4⟩ := selected_tables j h2 h4
  exact ⟨st1, st2, a1, recs, h1, h3, t1, t2, t3, t4⟩

/-- **C77** The unformatted file with the same records is refused with `struct.error`: behind the
end record, which is passed over, another record is expected.  By then the tables of the types in
`l` are written, and are those of a full conversion; the group has no attributes yet. -/
theorem only_without_end_refused (j : Job none sk e0 f outs names pl s h0 lev dt ix)
    {l : List String} (hc : Endless l) (hend : EndsOnce f) (hone : ∀ r ∈ f.getLast?, HeaderOnly r)
    (hsk : ∀ r ∈ f, r.name ∉ l → sk r = true) (hclean : Clean pl e0 h0 st) {k : UInt8} {bs : Bytes}
    (henc : U.Encodes D sk [] f bs) (B : Nat) :
    parseSource D B (some l) st (.unformatted (k :: bs)) = .error .structError ∧
    ∃ st1, parseSource D B none st (.unformatted (k :: bs)) = .ok st1 ∧
      (∀ n ∈ l, HasTable n →
        (sourceLeft D B (some l) st (.unformatted (k :: bs))).h5.tabs (pl.path s, n) =
          st1.h5.tabs (pl.path s, n)) ∧
      (∀ n, n ∉ l → HasTable n →
        (sourceLeft D B (some l) st (.unformatted (k :: bs))).h5.tabs (pl.path s, n) = none) ∧
      (∀ k' : Path × String, k'.1 ≠ pl.path s →
        (sourceLeft D B (some l) st (.unformatted (k :: bs))).h5.tabs k' = st1.h5.tabs k') ∧
      (sourceLeft D B (some l) st (.unformatted (k :: bs))).h5.groups (pl.path s) =
        some ((h0.groups (pl.path s)).getD {}) := by
  obtain ⟨st1, h1, h2⟩ := j.source hclean B (.unformatted (k := k) henc)
  have j' := j.selected hc.2.1 (j.accepted.selectOpen hc hend hsk)
  obtain ⟨a, r, rfl, hr, ha⟩ := hend
  have hro : HeaderOnly r := hone r (by simp)
  have hns : ¬ Short r := by
    rintro ⟨n, m, hm, -⟩
    rw [hr.1] at hm
    exact absurd (List.mem_map_of_mem (f := Prod.fst) hm)
      (show "IEND" ∉ optionalTypes.map Prod.fst by decide)
  have hnr : ¬ Ragged r := by
    rintro ⟨n, m, hm, -⟩
    rw [hr.1] at hm
    exact absurd (List.mem_map_of_mem (f := Prod.fst) hm)
      (show "IEND" ∉ (fixedTypes ++ optionalTypes).map Prod.fst by decide)
  have hacc : Accepts (some l) sk e0 none [] (a ++ r :: [endMark]) (keepO l outs)
      (names.filter fun n => n ∈ l) := by
    have := j'.accepted
    rwa [List.append_assoc] at this
  have hsel : ¬ Selected (some l) r.name := by rw [hr.1]; exact hc.2.2
  obtain ⟨o1, o2, c, e1, hR, hE, cur', past', names', hrest⟩ := Accepts.ends (by rw [hr.1]; decide) (.inr hro)
    (fun h => hsel h.2) hns (fun _ => hnr) a hacc (fun x hx h => ha x hx h.1) (by simp)
  obtain rfl : o2 = [] := by
    generalize hg : [endMark] = g at hrest
    cases hrest with
    | stop => rfl
    | eof => rfl
    | more _ h =>
      obtain ⟨rfl, -⟩ := List.cons.inj hg; exact absurd rfl (hasTable_ne (adds_table h)).1
    | first _ _ _ _ _ h =>
      obtain ⟨rfl, -⟩ := List.cons.inj hg; exact absurd rfl (hasTable_ne (adds_table h)).1
    | ident _ _ _ h =>
      obtain ⟨rfl, -⟩ := List.cons.inj hg; exact absurd rfl (hasTable_ne (adds_table h)).1
    | void _ h => obtain ⟨rfl, -⟩ := List.cons.inj hg; exact absurd rfl h
    | unselected _ h => obtain ⟨rfl, -⟩ := List.cons.inj hg; exact absurd rfl h
    | unread _ h => obtain ⟨rfl, -⟩ := List.cons.inj hg; exact absurd rfl h
    | unreadMore h => obtain ⟨rfl, -⟩ := List.cons.inj hg; exact absurd rfl h
    | recsize _ h => obtain ⟨rfl, -⟩ := List.cons.inj hg; exact absurd h.1 (by decide)
    | notEnd _ h => obtain ⟨rfl, -⟩ := List.cons.inj hg; exact absurd h.1 (by decide)
  rw [List.append_nil] at e1
  subst e1
  have hin : c.inside = false := hE.outside fun h => hsel h.2
  have hL := wrong_record_left hR j.sel j'.gives j'.allows (hR.fits s) j.hier j.free hclean B
    (.ends (k := k) henc)
  refine ⟨wrong_record_refused hR j.sel j'.gives j'.allows (hR.fits s) j.hier j.free hclean B (.ends henc),
    st1, h1, fun n hn ht => ?_, fun n hn ht => ?_, fun k' hk => ?_,
    hL.groups _ (List.prefix_refl _) ?_⟩
  · obtain ⟨y, hy, rfl⟩ := ht
    by_cases hno : ofType y.name outs = []
    · rw [h2.tables.2 (pl.path s, y.name) (.inr hno), hL.others (pl.path s, y.name)
        (.inr ⟨by rw [keepO_ofType _ _ _ hn]; exact hno, fun h => by
          rw [hE.opened] at h; exact absurd h.1 (by decide)⟩)]
    · rw [h2.tables.1 y hy hno, hL.tables y hy (.inl (by rw [keepO_ofType _ _ _ hn]; exact hno))]
      unfold Stop.written
      rw [hin, if_neg (by decide), contents_keep hn]
  · obtain ⟨y, hy, rfl⟩ := ht
    rw [hL.others (pl.path s, y.name) (.inr ⟨keepO_other _ _ _ hn, fun h => by
      rw [hE.opened] at h; exact absurd h.1 (by decide)⟩)]
    exact j.free y hy
  · rw [h2.tables.2 k' (.inl hk), hL.others k' (.inl hk)]
  · unfold Place.path
    split <;> simp

end

namespace Demo

/-- everything but the end record is selected -/
def selection : List String :=
  ["IDENT", "HIERARCH", "GNODE", "GCOORD", "GELMNT1", "GELREF1", "GPIPE"]

/-- the end record is passed over -/
def endSkip (r : LRec) : Bool := r.name = "IEND"

theorem endless : Endless selection := ⟨by decide, by decide, by decide⟩

theorem endsOnce : EndsOnce file :=
  ⟨file.take 8, file[8], by decide +kernel, ⟨by decide, _, _, rfl, rfl⟩, fun x hx h => by
    have : ∀ x ∈ file.take 8, x.name ≠ "IEND" := by decide
    exact this x hx h.1⟩

theorem endPassed : ∀ r ∈ file, r.name ∉ selection → endSkip r = true := by decide

theorem end_notTD {r : LRec} (h : r.name = "IEND") : ¬ isTD r.name := by
  rintro ⟨t, ht⟩
  rw [h] at ht
  have : "IEND".toList.head? = some 'I' := by decide
  rw [ht] at this
  simp at this

/-- the end record stands at the end, with nothing behind its header -/
def endLast : List LRec → Bool
  | [] => true
  | r :: rs => (r.name ≠ "IEND" || (r.head = [.rat 0, .rat 0, .rat 0, .rat 0] && r.pre.isEmpty &&
      r.vals = [] && rs.all fun n => n.name = "")) && endLast rs

theorem encodesEnd {g : List LRec} {t : Str} (h : T.Encodes Dec.std (fun _ => false) [] g t)
    (hg : endLast g = true) : T.Encodes Dec.std endSkip [] g t := by
  induction h with
  | nil => exact .nil
  | eof h => exact .eof h
  | @cons r rs c body t k1 k2 _ _ ih =>
    unfold endLast at hg
    simp only [Bool.and_eq_true, Bool.or_eq_true, decide_eq_true_eq, List.all_eq_true,
      List.isEmpty_iff] at hg
    refine .cons k1 k2 (fun e n hn => ?_) (ih hg.2)
    have e' : r.name = "IEND" := by simpa [endSkip] using e
    rcases hg.1 with h | ⟨⟨⟨h1, h2⟩, h3⟩, h4⟩
    · exact absurd e' h
    refine .last _ _ 0 h1 (by decide +kernel) (end_notTD e') ?_ (by decide +kernel)
      (h4 n (List.mem_of_mem_head? hn))
    obtain ⟨ps, fs, rfl, k3, vss, _, _, _, _, k4⟩ := k2
    rw [h2] at k3
    rw [h3] at k4
    cases k3
    cases fs with
    | nil => rfl
    | cons x fs => exact absurd (k4 (by simp)) (by simp)

theorem encodesEndT : T.Encodes Dec.std endSkip [] (file ++ [endMark]) (text file) :=
  encodesEnd (encodesCut (by decide +kernel)) (by decide +kernel)

theorem encodesEndU : U.Encodes Dec.std endSkip [] file (bytes file) := by
  have key : ∀ {g : List LRec} {bs : Bytes}, U.Encodes Dec.std (fun _ => false) [] g bs →
      g ≠ [] → (∀ r ∈ g.dropLast, r.name ≠ "IEND") → U.Encodes Dec.std endSkip [] g bs := by
    intro g bs h
    induction h with
    | nil => exact fun h => absurd rfl h
    | empty => exact fun _ _ => .empty
    | cut => exact fun _ _ => .cut rfl
    | @cons r rs c body b bs k1 k2 k3 _ _ ih =>
      intro _ hg
      cases rs with
      | nil =>
        exact .cons k1 k2 k3 (fun _ n hn => by cases hn) (by
          rename_i h _ ; cases h; exact .nil)
      | cons x rs =>
        exact .cons k1 k2 k3 (fun e => absurd (by simpa [endSkip] using e) (hg r (by simp)))
          (ih (by simp) fun r hr => hg r (by simp [hr]))
  exact key (encodesU (by decide +kernel)) (by decide) (by decide)

theorem jobEnd : Job none endSkip (fun _ => none) file outs names (.top "" "T") 5 {}
    "FIRSTLEVEL" "STRUCTURAL" none :=
  { job with accepted := accepted _ }

/-- the hypotheses of `only_without_end` and of `only_without_end_refused` are met: the formatted
file is converted, the unformatted one is refused with its tables written -/
example : (∃ st2, parseSource Dec.std 10000 (some selection) { g := { filetypeid := "T" } }
      (.formatted (text file)) = .ok st2 ∧
      st2.h5.tabs (["T5"], "GPIPE") = some ((contents (lay "GPIPE") outs).table (lay "GPIPE"))) ∧
    parseSource Dec.std 10000 (some selection) { g := { filetypeid := "T" } }
      (.unformatted (75 :: bytes file)) = .error .structError ∧
    (sourceLeft Dec.std 10000 (some selection) { g := { filetypeid := "T" } }
      (.unformatted (75 :: bytes file))).h5.tabs (["T5"], "GPIPE") =
      some ((contents (lay "GPIPE") outs).table (lay "GPIPE")) := by
  constructor
  · obtain ⟨st1, st2, a1, recs, k1, k2, k3, -⟩ := only_without_end jobEnd endless endsOnce endPassed
      clean encodesEndT 10000
    obtain ⟨st', k4, k5⟩ := jobEnd.source clean 10000 (.formatted (encodes_front _ encodesEndT))
    rw [k1] at k4
    cases k4
    exact ⟨st2, k2, (k3 "GPIPE" (by decide)).trans
      (k5.tables.1 (lay "GPIPE") (by decide +kernel) (by decide +kernel))⟩
  · obtain ⟨k1, st1, k2, k3, -⟩ := only_without_end_refused (k := 75) jobEnd endless endsOnce
      (by
        intro r hr
        obtain rfl : file[8] = r := by simpa [file] using hr
        exact ⟨rfl, rfl, by decide +kernel, end_notTD rfl⟩)
      endPassed clean encodesEndU 10000
    obtain ⟨st', k4, k5⟩ := jobEnd.source clean 10000 (.unformatted (k := 75) encodesEndU)
    rw [k2] at k4
    cases k4
    exact ⟨k1, (k3 "GPIPE" (by decide) (hasTable_iff.mpr (by decide +kernel))).trans
      (k5.tables.1 (lay "GPIPE") (by decide +kernel) (by decide +kernel))⟩

end Demo

end Verif.Parse
