import Verif.Parse.ParseRun
import Verif.Seq.SimU
import Verif.Seq.SimT
/-!
# parse_file follows the specification, concluded: attributes, and both file kinds
-/

namespace Verif.Parse
open Verif Verif.Seq

/-! ### RECORDS -/

theorem removeDups_mem (names : List String) : ∀ (seen : List String) (n : String),
    n ∈ removeDups seen names ↔ n ∈ names ∧ n ∉ seen := by
  induction names with
  | nil => simp [removeDups]
  | cons x xs ih =>
    intro seen n
    unfold removeDups
    split
    · rename_i h
      rw [ih]
      constructor
      · rintro ⟨h1, h2⟩; exact ⟨by simp [h1], h2⟩
      · rintro ⟨h1, h2⟩
        simp only [List.mem_cons] at h1
        rcases h1 with rfl | h1
        · exact absurd h h2
        · exact ⟨h1, h2⟩
    · rename_i h
      simp only [List.mem_cons, ih, not_or]
      constructor
      · rintro (rfl | ⟨h1, h2, h3⟩)
        · exact ⟨.inl rfl, h⟩
        · exact ⟨.inr h1, h3⟩
      · rintro ⟨rfl | h1, h2⟩
        · exact .inl rfl
        · by_cases hx : n = x
          · exact .inl hx
          · exact .inr ⟨h1, hx, h2⟩

theorem removeDups_order (names : List String) : ∀ seen : List String,
    (removeDups seen names).Pairwise fun a b => names.idxOf a < names.idxOf b := by
  induction names with
  | nil => intro seen; simp [removeDups]
  | cons x xs ih =>
    intro seen
    have lift : ∀ l : List String, (∀ a ∈ l, a ≠ x) →
        l.Pairwise (fun a b => xs.idxOf a < xs.idxOf b) →
        l.Pairwise (fun a b => (x :: xs).idxOf a < (x :: xs).idxOf b) := by
      intro l hl h
      induction h with
      | nil => exact .nil
      | @cons a l h _ ih' =>
        refine .cons (fun b hb => ?_) (ih' fun c hc => hl c (by simp [hc]))
        rw [List.idxOf_cons_ne _ (hl a (by simp)).symm, List.idxOf_cons_ne _ (hl b (by simp [hb])).symm]
        have := h b hb
        omega
    unfold removeDups
    split
    · rename_i hx
      refine lift _ (fun a ha => ?_) (ih seen)
      rintro rfl
      exact ((removeDups_mem xs seen a).mp ha).2 hx
    · refine .cons (fun b hb => ?_) (lift _ (fun a ha => ?_) (ih _))
      · have hbx : b ≠ x := by
          rintro rfl
          exact ((removeDups_mem xs _ b).mp hb).2 (by simp)
        rw [List.idxOf_cons_self, List.idxOf_cons_ne _ hbx.symm]
        omega
      · rintro rfl
        exact ((removeDups_mem xs _ a).mp ha).2 (by simp)

theorem removeDups_once (names : List String) : Once names (removeDups [] names) :=
  ⟨fun n => by simp [removeDups_mem], removeDups_order names []⟩

/-! ### LEVEL, DATATYPE, INDEX -/

theorem contents_head {l : Layout} {outs : List Added} {o : Added}
    (h : (ofType l.name outs).head? = some o) :
    ∃ more rows, (contents l outs).rows = (o.cells ++ more) :: rows := by
  rw [contents_eq]
  cases hl : ofType l.name outs with
  | nil => rw [hl] at h; simp at h
  | cons o' os =>
    rw [hl] at h
    simp only [List.head?_cons, Option.some.injEq] at h
    subst h
    have : ∀ (os : List Added) (t : Acc) (x : List Cell) (xs : List (List Cell)), t.rows = x :: xs →
        ∃ rows, (os.foldl (fun t o => t.add o.first o.cells o.items) t).rows = x :: rows := by
      intro os
      induction os with
      | nil => intro t x xs h; exact ⟨xs, h⟩
      | cons o os ih =>
        intro t x xs h
        exact ih _ x (xs ++ [o.cells ++ limits (t.add o.first o.cells o.items).last])
          (by simp only [Acc.add, h, List.cons_append])
    have h1 : ((Acc.start l).add o'.first o'.cells o'.items).rows =
        [o'.cells ++ limits ((Acc.start l).add o'.first o'.cells o'.items).last] := rfl
    obtain ⟨rows, hr⟩ := this os _ _ _ h1
    exact ⟨_, rows, hr⟩

theorem classify_of {pl : Place} {p : Path} {h0 : H5} {outs : List Added} {s : Int} {st : St}
    (h : Core pl p h0 outs (some s) (hierOf outs) st) {lev dt : String} {ix : Option (Option Int)}
    (hc : Classified outs pl lev dt ix) : classify st = .ok (lev, dt, ix) := by
  have headRow : ∀ {pre ft : String} {n : Int}, pl = .top pre ft → HeadLevel outs n →
      st.g.attoplevel = true ∧ ∃ row, hierarchRow st 0 = .ok row ∧ hField row "islevl" = .ok n := by
    intro pre ft n hpl hh
    obtain ⟨o, ho, hn⟩ := hh
    have hne : ofType "HIERARCH" outs ≠ [] := by
      intro he; rw [he] at ho; simp at ho
    have hhier : hierOf outs = true := by simp [hierOf, hne]
    have hg := h.g
    rw [hhier] at hg
    subst hpl
    obtain ⟨_, _, _, _, _, h6, h7⟩ := hg
    have hl : layouts.head (by decide) ∈ layouts := List.head_mem _
    have ht := h.tabs _ hl
    unfold TabOK at ht
    rw [if_neg (by exact hne)] at ht
    obtain ⟨more, rows, hr⟩ := contents_head (l := layouts.head (by decide)) ho
    refine ⟨h6, _, hierarchRow_zero (h7 rfl) ht.2 hr, hField_level ?_⟩
    unfold HasField at hn ⊢
    rw [List.getElem?_append_left]
    · exact hn
    · obtain ⟨hlt, _⟩ := List.getElem?_eq_some_iff.mp hn
      exact hlt
  have hg := h.g
  cases hc with
  | resOne hh =>
    obtain ⟨h1, row, h2, h3⟩ := headRow rfl hh
    obtain ⟨_, g2, g3, _⟩ := hg
    unfold classify
    simp [g2, g3, h1, h2, h3, bind, Except.bind]
  | @resTop pre lev hh hne =>
    obtain ⟨h1, row, h2, h3⟩ := headRow rfl hh
    obtain ⟨_, g2, g3, _⟩ := hg
    unfold classify
    simp [g2, h1, h2, h3, bind, Except.bind, hne]
  | resAlone hh =>
    have hhier : hierOf outs = false := by simp [hierOf, hh]
    rw [hhier] at hg
    obtain ⟨_, g2, g3, _, _, g6, _⟩ := hg
    unfold classify
    simp [g2, g3, g6]
  | resLow =>
    obtain ⟨_, g2, g3, _, _, g6, _⟩ := hg
    unfold classify
    simp [g2, g3, g6]
  | modTop hft hh =>
    have hhier : hierOf outs = true := by simp [hierOf, hh]
    rw [hhier] at hg
    obtain ⟨_, g2, g3, _, _, g6, _⟩ := hg
    simp only [List.mem_cons, List.not_mem_nil, or_false] at hft
    unfold classify
    rcases hft with rfl | rfl <;> simp [g2, g6]
  | modAlone hft hh =>
    have hhier : hierOf outs = false := by simp [hierOf, hh]
    rw [hhier] at hg
    obtain ⟨_, g2, g3, _, g5, g6, _⟩ := hg
    simp only [List.mem_cons, List.not_mem_nil, or_false] at hft
    unfold classify
    rcases hft with rfl | rfl <;> simp [g2, g5, g6]
  | modInter hft hf hlt =>
    obtain ⟨_, g2, g3, _, g5, g6, _, g8⟩ := hg
    simp only [List.mem_cons, List.not_mem_nil, or_false] at hft
    unfold classify
    rcases hft with rfl | rfl <;> simp [g2, g5, g6, g8, hField_level hf, bind, Except.bind, hlt]
  | modFirst hft hf hlt =>
    obtain ⟨_, g2, g3, _, g5, g6, _, g8⟩ := hg
    simp only [List.mem_cons, List.not_mem_nil, or_false] at hft
    have hlt' := not_lt.mpr hlt
    unfold classify
    rcases hft with rfl | rfl <;> simp [g2, g5, g6, g8, hField_level hf, bind, Except.bind, hlt']
  | hydro hft =>
    have g2 : st.g.filetypeid = "G" := by
      cases pl <;> exact hg.2.1.trans hft
    unfold classify
    simp [g2]
  | other hft =>
    have g2 : st.g.filetypeid = pl.letter := by
      cases pl <;> exact hg.2.1
    simp only [List.mem_cons, List.not_mem_nil, or_false, not_or] at hft
    unfold classify
    simp [g2, hft.1, hft.2.1, hft.2.2.1, hft.2.2.2]

/-! ### the file -/

theorem Clean.core {pl : Place} {e0 : Int → Option Int} {h0 : H5} {st : St} {s : Int}
    (h : Clean pl e0 h0 st) (hfree : ∀ l ∈ layouts, h0.tabs (pl.path s, l.name) = none) :
    Core pl (pl.path s) h0 [] none false st := by
  obtain ⟨h1, h2, h3, h4, h5, h6, h7⟩ := h
  refine ⟨?_, ?_, fun k _ => by rw [h1], by rw [if_pos rfl, h1]⟩
  · unfold GOk
    cases pl with
    | top pre ft =>
      obtain ⟨k1, k2, k3, k4⟩ := h7
      exact ⟨k1, k2, k3, h5, k4, h6, by simp⟩
    | low pre ft t i hp hrec =>
      obtain ⟨k1, k2, k3, k4, k5, k6⟩ := h7
      exact ⟨k1, k2, k3, h5, k4, h6, k5, k6⟩
  · intro l hl
    unfold TabOK
    rw [if_pos (by rfl), h1]
    exact ⟨h4 _, hfree l hl⟩

/-- **parse_file on a logical file** -/
theorem parseFile_logical {pl : Place} {e0 : Int → Option Int} {h0 : H5} {st : St} {s : Int}
    {only : Option (List String)} {sk : LRec → Bool} {f : List LRec} {outs : List Added}
    {names : List String} {lev dt : String} {ix : Option (Option Int)} (B fuel : Nat)
    (hacc : Accepts only sk e0 none [] f outs names) (hfuel : f.length < fuel)
    (hclean : Clean pl e0 h0 st) (hs : s ≠ 0) (hgives : GivesType s outs)
    (hallows : pl.Allows s outs) (hin : pl.In h0)
    (hfree : ∀ l ∈ layouts, h0.tabs (pl.path s, l.name) = none)
    (hclass : Classified outs pl lev dt ix) :
    ∃ st' ls recs, Prog.run (L.reader sk) (parseFile B fuel only st) (L.openFile f) =
        .ok (st', ls) ∧
      TablesAfter h0 (pl.path s) outs st'.h5 ∧
      Once names recs ∧
      GroupsAfter h0 (pl.path s)
        { records := some recs, level := some lev, datatype := some dt, seltyp := some (some s),
          filetype := some pl.letter,
          index := ix.orElse fun _ => ((h0.groups (pl.path s)).getD {}).index } st'.h5 ∧
      GOk pl (pl.path s) (some s) (hierOf outs) st'.g ∧
      (only = none → EnvInv e0 (((events [] f).map Event.record).reverse) st'.env) := by
  have hcore := hclean.core hfree
  obtain ⟨r, rest, rfl⟩ := hacc.nonempty
  have henv : EnvInv e0 [] st.env := by rw [hclean.2.1]; exact EnvInv.init e0
  obtain ⟨st', ls, hrun, hc', hnames, henv'⟩ := parse_run (p := pl.path s) rfl hs hin B fuel fuel []
    (r :: rest) outs names hacc hfuel hfuel [] st r rest rfl hgives hallows
    (by intro l _ o ho; simp at ho) hcore henv
  rw [List.nil_append] at hc'
  have hne : outs ≠ [] := by
    rintro rfl
    obtain ⟨o, ho, _⟩ := hgives
    simp at ho
  have hsel : selOf s outs = some s := by simp [selOf, hne]
  rw [hsel] at hc'
  have hpath := hc'.path rfl hs hin
  have hcl := classify_of hc' hclass
  have hgr := hc'.groups
  rw [if_neg hne] at hgr
  have hpne : pl.path s ≠ [] := by cases pl <;> simp [Place.path]
  have hgp : st'.h5.groups (pl.path s) = some ((h0.groups (pl.path s)).getD {}) := by
    rw [hgr]
    simp [mkGroups, hpne]
  have hletter : st'.g.filetypeid = pl.letter := by
    have := hc'.g
    cases pl <;> exact this.2.1
  have hselt : st'.g.currentSeltyp = some s := by
    have := hc'.g
    cases pl <;> exact this.2.2.2.1
  have hrn : st'.g.recordNames = names := by
    rw [hnames, hclean.2.2.1, List.nil_append]
  let a : Attrs :=
    { records := some (removeDups [] names), level := some lev, datatype := some dt,
      seltyp := some (some s), filetype := some pl.letter,
      index := ix.orElse fun _ => ((h0.groups (pl.path s)).getD {}).index }
  have hset : setAttributes st' = .ok { st' with h5 := { st'.h5 with
      groups := fun q => if q = pl.path s then some a else st'.h5.groups q } } := by
    unfold setAttributes
    simp only [hpath, bind, Except.bind, hgp, hcl, hletter, hselt, hrn]
    congr 4
    funext q
    split
    · congr 1
      cases ix <;> rfl
    · rfl
  refine ⟨{ st' with h5 := { st'.h5 with
      groups := fun q => if q = pl.path s then some a else st'.h5.groups q } }, ls,
    removeDups [] names, ?_, ?_, removeDups_once names, ⟨?_, ?_, ?_⟩, hc'.g,
    fun ho => by have := henv' ho; rw [List.append_nil] at this; exact this⟩
  · unfold parseFile
    have hh : Prog.run (L.reader sk) header (L.openFile (r :: rest)) =
        .ok ((r.name, r.head), ⟨r, 0, rest⟩) := by
      rw [header, Prog.run_call]
      simp [L.reader, L.openFile, L.next]
    rw [Prog.run_bind_ok hh, Prog.run_bind_ok hrun]
    exact Prog.run_lift_ok hset
  · refine ⟨fun l hl hne' => ?_, fun k hk => ?_⟩
    · have := hc'.tabs l hl
      unfold TabOK at this
      rw [if_neg hne'] at this
      exact this.2
    · show st'.h5.tabs k = h0.tabs k
      by_cases hk1 : k.1 = pl.path s
      · by_cases hk2 : HasTable k.2
        · rcases hk with hk | hk
          · exact absurd hk1 hk
          · obtain ⟨l, hl, hln⟩ := hk2
            have := hc'.tabs l hl
            unfold TabOK at this
            rw [if_pos (by rw [hln]; exact hk)] at this
            have h2 := hfree l hl
            rw [hln, ← hk1] at h2 this
            exact this.2.trans h2.symm
        · exact hc'.other k (.inr hk2)
      · exact hc'.other k (.inl hk1)
  · simp [a]
  · intro q hq1 hq2 hq3
    simp only [hq3, if_false]
    rw [hgr]
    simp [mkGroups, hq1, hq2]
  · intro q hq1 hq3
    simp only [hq3, if_false]
    rw [hgr]
    simp only [mkGroups]
    rw [if_neg]
    rintro ⟨h1, h2⟩
    rcases hq1 with hq1 | hq1
    · exact hq1 h1
    · exact h2 hq1

end Verif.Parse
