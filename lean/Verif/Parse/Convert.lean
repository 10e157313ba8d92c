import Verif.Parse.Trace
import Verif.Seq.Props
/-!
# Conversion of formatted and unformatted files
-/

namespace Verif.Parse
open Verif Verif.Seq

/-- parsers.py:446-515 `parse_file` on an unformatted file.  The loops get a budget above the size
of the file, which they never use up (`Verif.Parse.parse_terminates`). -/
def parseUnformatted (D : Dec) (B : Nat) (only : Option (List String)) (st : St) (bytes : Bytes) :
    Except Err St :=
  (Prog.run (U.reader D) (parseFile B (bytes.length + 2) only st) (U.openFile bytes)).map (·.1)

/-- parsers.py:446-515 `parse_file` on a formatted file -/
def parseFormatted (D : Dec) (B : Nat) (only : Option (List String)) (st : St) (text : Str) :
    Except Err St :=
  (Prog.run (T.reader D) (parseFile B (text.length + 2) only st) (T.openFile text)).map (·.1)

/-- parsers.py:446-515 `parse_file` on a file of either kind -/
def parseSource (D : Dec) (B : Nat) (only : Option (List String)) (st : St) :
    Source → Except Err St
  | .unformatted b => parseUnformatted D B only st b
  | .formatted t => parseFormatted D B only st t

theorem forall₂_mem {α β : Type} {R : α → β → Prop} {a : List α} {b : List β}
    (h : List.Forall₂ R a b) {y : β} (hy : y ∈ b) : ∃ x, x ∈ a ∧ R x y := by
  induction h with
  | nil => simp at hy
  | cons hr _ ih =>
    simp only [List.mem_cons] at hy
    rcases hy with rfl | hy
    · exact ⟨_, by simp, hr⟩
    · obtain ⟨x, h1, h2⟩ := ih hy
      exact ⟨x, by simp [h1], h2⟩

theorem Accepts.outs_table {only : Option (List String)} {sk : LRec → Bool} {e0 : Int → Option Int}
    {cur : Option String} {past f : List LRec} {outs : List Added} {names : List String}
    (h : Accepts only sk e0 cur past f outs names) : ∀ o ∈ outs, HasTable o.name := by
  obtain ⟨tr, _, h2⟩ := h.trace
  intro o ho
  obtain ⟨ev, _, ha⟩ := forall₂_mem h2 ho
  rw [adds_name ha]
  exact adds_table ha

theorem Accepts.itemsOK {only : Option (List String)} {sk : LRec → Bool} {e0 : Int → Option Int}
    {cur : Option String} {past f : List LRec} {outs : List Added} {names : List String}
    (h : Accepts only sk e0 cur past f outs names) : ItemsOK outs := by
  obtain ⟨tr, _, h2⟩ := h.trace
  intro l hl o ho hn
  obtain ⟨ev, _, ha⟩ := forall₂_mem h2 ho
  obtain ⟨e, l', _, hl', hln, hon, _, _, hi⟩ := ha
  have : l = l' := layout_eq hl hl' (by rw [hln, ← hon, hn])
  subst this
  exact hi.2.2

theorem Once.unique {names a b : List String} (ha : Once names a) (hb : Once names b) : a = b := by
  have nd : ∀ {l : List String}, l.Pairwise (fun a b => names.idxOf a < names.idxOf b) → l.Nodup :=
    fun h => h.imp fun {x y} hlt => by rintro rfl; exact absurd hlt (lt_irrefl _)
  have hp : a.Perm b := (List.perm_ext_iff_of_nodup (nd ha.2) (nd hb.2)).mpr fun n => by
    rw [ha.1, hb.1]
  exact hp.eq_of_pairwise (fun x y _ _ h1 h2 => absurd (lt_trans h1 h2) (lt_irrefl _)) ha.2 hb.2

/-- a job determines the output file -/
theorem Converted.unique {outs : List Added} {names : List String} {pl : Place} {s : Int}
    {h0 : H5} {lev dt : String} {ix : Option (Option Int)} {h h' : H5}
    (hout : ∀ o ∈ outs, HasTable o.name)
    (c : Converted outs names pl s h0 lev dt ix h) (c' : Converted outs names pl s h0 lev dt ix h') :
    h = h' := by
  have ht : h.tabs = h'.tabs := by
    funext k
    by_cases hk : k.1 ≠ pl.path s ∨ ofType k.2 outs = []
    · rw [c.tables.2 k hk, c'.tables.2 k hk]
    · simp only [ne_eq, not_or, not_not] at hk
      obtain ⟨h1, h2⟩ := hk
      obtain ⟨o, ho⟩ := List.exists_mem_of_ne_nil _ h2
      have ho' : o ∈ outs ∧ o.name = k.2 := by simpa [ofType] using ho
      obtain ⟨l, hl, hn⟩ := hout o ho'.1
      have hk2 : k = (pl.path s, l.name) := by
        rw [hn, ho'.2, ← h1]
      have h2' : ofType l.name outs ≠ [] := by rw [hn, ho'.2]; exact h2
      rw [hk2, c.tables.1 l hl h2', c'.tables.1 l hl h2']
  have hg : h.groups = h'.groups := by
    obtain ⟨recs, o1, a1, a2, a3⟩ := c.groups
    obtain ⟨recs', o1', b1, b2, b3⟩ := c'.groups
    obtain rfl := o1.unique o1'
    funext q
    by_cases hq : q = pl.path s
    · rw [hq, a1, b1]
    · by_cases hq2 : q <+: pl.path s ∧ q ≠ []
      · rw [a2 q hq2.1 hq2.2 hq, b2 q hq2.1 hq2.2 hq]
      · have : ¬ q <+: pl.path s ∨ q = [] := by tauto
        rw [a3 q this hq, b3 q this hq]
  cases h; cases h'
  simp only at ht hg
  subst ht; subst hg; rfl

section
variable {only : Option (List String)} {sk : LRec → Bool} {e0 : Int → Option Int}
  {f : List LRec} {outs : List Added} {names : List String} {pl : Place} {s : Int} {h0 : H5}
  {lev dt : String} {ix : Option (Option Int)} {st : St} {D : Dec}

theorem Job.logical (j : Job only sk e0 f outs names pl s h0 lev dt ix)
    (hclean : Clean pl e0 h0 st) (B fuel : Nat) (hfuel : f.length < fuel) :
    ∃ st' ls, Prog.run (L.reader sk) (parseFile B fuel only st) (L.openFile f) = .ok (st', ls) ∧
      Converted outs names pl s h0 lev dt ix st'.h5 ∧
      GOk pl (pl.path s) (some s) (hierOf outs) st'.g ∧
      (only = none → EnvInv e0 (((events [] f).map Event.record).reverse) st'.env) := by
  obtain ⟨st', ls, recs, h1, h2, h3, h4, h5⟩ := parseFile_logical B fuel j.accepted hfuel hclean
    j.sel j.gives j.allows j.hier j.free j.classified
  exact ⟨st', ls, h1, ⟨h2, recs, h3, h4⟩, h5⟩

/-- a job, with the state of the module afterwards -/
theorem Job.sourceState (j : Job only sk e0 f outs names pl s h0 lev dt ix)
    (hclean : Clean pl e0 h0 st) (B : Nat) {src : Source} (henc : Encoded D sk f src) :
    ∃ st', parseSource D B only st src = .ok st' ∧
      Converted outs names pl s h0 lev dt ix st'.h5 ∧
      GOk pl (pl.path s) (some s) (hierOf outs) st'.g ∧
      (only = none → EnvInv e0 (((events [] f).map Event.record).reverse) st'.env) := by
  cases henc with
  | @unformatted k z bs henc =>
    have hlen := henc.length_le
    obtain ⟨st', ls, h1, h2⟩ := j.logical hclean B ((k :: bs).length + 2) (by simp; omega)
    obtain ⟨us, h3, _⟩ := Prog.run_sim (U.simulates D sk z) _ (U.rel_open k henc) h1
    exact ⟨st', by unfold parseSource parseUnformatted; dsimp only; rw [h3]; rfl, h2⟩
  | @formatted z t henc =>
    have hlen := henc.length_le
    obtain ⟨st', ls, h1, h2⟩ := j.logical hclean B (t.length + 2) (by omega)
    obtain ⟨us, h3, _⟩ := Prog.run_sim (T.simulates D sk z) _ (T.rel_open henc) h1
    exact ⟨st', by unfold parseSource parseFormatted; dsimp only; rw [h3]; rfl, h2⟩

theorem Job.source (j : Job only sk e0 f outs names pl s h0 lev dt ix)
    (hclean : Clean pl e0 h0 st) (B : Nat) {src : Source} (henc : Encoded D sk f src) :
    ∃ st', parseSource D B only st src = .ok st' ∧
      Converted outs names pl s h0 lev dt ix st'.h5 :=
  let ⟨st', h1, h2, _⟩ := j.sourceState hclean B henc
  ⟨st', h1, h2⟩

/-- the rows of the table of a record type are its records -/
theorem rows_of (j : Job only sk e0 f outs names pl s h0 lev dt ix) {tr : List Event}
    (htr : List.Forall₂ (fun ev o => Adds e0 ev.past ev.next o.first ev.record o) tr outs)
    {l : Layout} (hl : l ∈ layouts) :
    List.Forall₂ (RowOf e0 l ((contents l outs).table l))
      (tr.filter fun ev => ev.record.name = l.name) (contents l outs).rows := by
  have hsl := contents_slices (l := l) j.accepted.itemsOK hl
  have key : ∀ (tr : List Event) (outs : List Added),
      List.Forall₂ (fun ev o => Adds e0 ev.past ev.next o.first ev.record o) tr outs →
      List.Forall₂ (fun ev o => Adds e0 ev.past ev.next o.first ev.record o)
        (tr.filter fun ev => ev.record.name = l.name) (ofType l.name outs) := by
    intro tr outs h
    induction h with
    | nil => exact .nil
    | @cons ev o tr outs ha _ ih =>
      unfold ofType at ih ⊢
      by_cases hn : ev.record.name = l.name
      · rw [List.filter_cons_of_pos (by simpa using hn),
          List.filter_cons_of_pos (by simpa [adds_name ha] using hn)]
        exact .cons ha ih
      · rw [List.filter_cons_of_neg (by simpa using hn),
          List.filter_cons_of_neg (by simpa [adds_name ha] using hn)]
        exact ih
  have h3 := key tr outs htr
  have comp : ∀ (evs : List Event) (os : List Added) (rows : List (List Cell)),
      (∀ o ∈ os, o.name = l.name) →
      List.Forall₂ (fun ev o => Adds e0 ev.past ev.next o.first ev.record o) evs os →
      List.Forall₂ (fun (o : Added) (row : List Cell) =>
        row.length = o.cells.length + 2 * l.arrs.length ∧ row.take o.cells.length = o.cells ∧
        ∀ j cs, o.items[j]? = some (some cs) →
          ∃ arr, (contents l outs).arrs[j]? = some arr ∧
            Slice row (o.cells.length + 2 * j) arr cs) os rows →
      List.Forall₂ (RowOf e0 l ((contents l outs).table l)) evs rows := by
    intro evs os rows hos ha hr
    induction ha generalizing rows with
    | nil => cases hr; exact .nil
    | @cons ev o evs os ha _ ih =>
      cases hr with
      | @cons _ row _ rows hr hrs =>
        refine .cons ?_ (ih rows (fun o ho => hos o (by simp [ho])) hrs)
        obtain ⟨e, l', hm, hl', hln, hon, _, hsr, hsi⟩ := ha
        obtain rfl : l = l' := layout_eq hl hl' (by rw [hln, ← hon, hos o (by simp)])
        obtain ⟨r1, r2, r3⟩ := hr
        have hc : o.cells.length = l.cols.length := hsr.2.2
        rw [hc] at r1 r2 r3
        refine ⟨hln.symm, e, hm, r1, by rw [r2]; exact hsr, ?_⟩
        intro i a vs hia hiv
        obtain ⟨hi, hi1, hi2⟩ := hsi
        obtain ⟨hlt, _⟩ := List.getElem?_eq_some_iff.mp hia
        have hio : o.items[i]? = some o.items[i] := List.getElem?_eq_getElem (by omega)
        have hz : (e.items.zip o.items)[i]? = some (some vs, o.items[i]) := by
          rw [List.getElem?_zip_eq_some]; exact ⟨hiv, hio⟩
        have hget := (List.forall₂_iff_get.mp hi).2 i hlt (by simp; omega)
        obtain ⟨hlt', hz'⟩ := List.getElem?_eq_some_iff.mp hz
        have hia' : l.arrs.get ⟨i, hlt⟩ = a := (List.getElem?_eq_some_iff.mp hia).2
        rw [hia', List.get_eq_getElem] at hget
        simp only [hz'] at hget
        cases hoi : o.items[i] with
        | none => rw [hoi] at hget; exact hget.elim
        | some cs =>
          rw [hoi] at hget
          obtain ⟨arr, harr, hs⟩ := r3 i cs (by rw [hio, hoi])
          refine ⟨cs, { a with items := arr }, hget, ?_, hs⟩
          simp [Acc.table, List.getElem?_zipWith, hia, harr]
  refine comp _ _ _ ?_ h3 hsl
  intro o ho
  simpa [ofType] using (List.mem_filter.mp ho).2

end

end Verif.Parse
