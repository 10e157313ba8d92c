import Verif.Parse.TraceSpec
import Verif.Parse.Tables
/-!
# parse_file follows the specification
-/

namespace Verif.Parse
open Verif Verif.Seq

/-! ### the state between blocks -/

/-- module level variables during the conversion -/
def GOk (pl : Place) (p : Path) (sel : Option Int) (hier : Bool) (g : G) : Prop :=
  match pl with
  | .top pre ft => g.groupnamePrefix = pre ∧ g.filetypeid = ft ∧ g.currentIndsel = none ∧
      g.currentSeltyp = sel ∧ g.hasHierarch = hier ∧ g.attoplevel = hier ∧
      (hier = true → g.hierarchTable = some p)
  | .low pre ft _ index hp hrec => g.groupnamePrefix = pre ∧ g.filetypeid = ft ∧
      g.currentIndsel = index ∧ g.currentSeltyp = sel ∧ g.hasHierarch = true ∧
      g.attoplevel = false ∧ g.hierarchTable = some hp ∧ g.currentHrec = some hrec

/-- the table of a record type after the records `outs` -/
def TabOK (p : Path) (outs : List Added) (l : Layout) (st : St) : Prop :=
  if ofType l.name outs = [] then st.g.tables l.name = none ∧ st.h5.tabs (p, l.name) = none
  else st.g.tables l.name = some p ∧ st.h5.tabs (p, l.name) = some ((contents l outs).table l)

theorem TabOK.congr {p : Path} {outs : List Added} {l : Layout} {st st' : St}
    (h : TabOK p outs l st) (h1 : st'.g.tables l.name = st.g.tables l.name)
    (h2 : st'.h5.tabs (p, l.name) = st.h5.tabs (p, l.name)) : TabOK p outs l st' := by
  unfold TabOK at h ⊢
  rw [h1, h2]
  exact h

/-- state of module and output file after the records `outs` -/
structure Core (pl : Place) (p : Path) (h0 : H5) (outs : List Added) (sel : Option Int)
    (hier : Bool) (st : St) : Prop where
  g : GOk pl p sel hier st.g
  tabs : ∀ l ∈ layouts, TabOK p outs l st
  other : ∀ k : Path × String, k.1 ≠ p ∨ ¬ HasTable k.2 → st.h5.tabs k = h0.tabs k
  groups : st.h5.groups = if outs = [] then h0.groups else (mkGroups h0 p).groups

theorem hField_of {row : List Cell} {n : Int} (h : HasField row 2 n) :
    hField row "iselty" = .ok n := by
  unfold HasField at h
  match row, h with
  | _ :: _ :: _ :: _, h => 
    simp at h
    subst h
    rfl

theorem hField_level {row : List Cell} {n : Int} (h : HasField row 4 n) :
    hField row "islevl" = .ok n := by
  unfold HasField at h
  match row, h with
  | _ :: _ :: _ :: _ :: _ :: _, h => 
    simp at h
    subst h
    rfl

theorem hierarchRow_zero {st : St} {p : Path} {t : Tab} {row : List Cell} {rows : List (List Cell)}
    (h1 : st.g.hierarchTable = some p) (h2 : st.h5.tabs (p, "HIERARCH") = some t)
    (h3 : t.rows = row :: rows) : hierarchRow st 0 = .ok row := by
  unfold hierarchRow
  rw [h1]
  simp [h2, h3]

theorem length_low {pre ft : String} {t : Int} {i : Option Int} {hp : Path} {hrec : List Cell}
    {s : Int} : (Place.path (.low pre ft t i hp hrec) s).length = 2 := rfl

theorem Core.path {pl : Place} {p : Path} {h0 : H5} {outs : List Added} {s : Int} {hier : Bool}
    {st : St} (h : Core pl p h0 outs (some s) hier st) (hp : p = pl.path s) (hs : s ≠ 0)
    (hin : pl.In h0) : getPath st = .ok p := by
  have hg := h.g
  unfold GOk at hg
  unfold getPath
  cases pl with
  | top pre ft =>
    obtain ⟨h1, h2, h3, h4, h5, h6, h7⟩ := hg
    cases hier with
    | true => simp [h1, h2, h3, h4, h5, h6, isTrue, pyStr, hp, Place.path]
    | false => simp [h1, h2, h4, h5, isTrue, pyStr, hp, Place.path, hs]
  | low pre ft t i hp' hrec =>
    obtain ⟨h1, h2, h3, h4, h5, h6, h7, h8⟩ := hg
    obtain ⟨hl, tab, row, rows, e1, e2, e3⟩ := hin
    have hne : hp' ≠ p := by
      intro he
      rw [hp] at he
      have := congrArg List.length he
      rw [hl, length_low] at this
      simp at this
    have e1' := h.other (hp', "HIERARCH") (.inl hne)
    rw [e1] at e1'
    have hr := hierarchRow_zero h7 e1' e2
    simp only [h5, if_true, h3, h6, h4]
    cases i with
    | none =>
      simp only [isTrue, hr, h1, h2, pyStr, hp, Place.path]
      simp [bind, Except.bind, hField_of e3]
    | some i =>
      by_cases hi : i = 0
      · subst hi
        simp only [isTrue, hr, h1, h2, pyStr, hp, Place.path]
        simp [bind, Except.bind, hField_of e3]
      · have : isTrue (some i) = true := by simp [isTrue, hi]
        simp only [this, hr, h1, h2, pyStr, hp, Place.path]
        simp [bind, Except.bind, hField_of e3]

/-! ### records of a type -/

theorem ofType_append (n : String) (a b : List Added) :
    ofType n (a ++ b) = ofType n a ++ ofType n b := List.filter_append ..

theorem ofType_same {n : String} {a : List Added} (h : ∀ o ∈ a, o.name = n) : ofType n a = a := by
  unfold ofType
  rw [List.filter_eq_self]
  simpa using h

theorem ofType_other {n m : String} {a : List Added} (h : ∀ o ∈ a, o.name = n) (hm : m ≠ n) :
    ofType m a = [] := by
  unfold ofType
  rw [List.filter_eq_nil_iff]
  intro o ho
  simp [h o ho, Ne.symm hm]

theorem contents_eq (l : Layout) (outs : List Added) : contents l outs =
    (ofType l.name outs).foldl (fun t o => t.add o.first o.cells o.items) (Acc.start l) := rfl

theorem contents_append (l : Layout) (a b : List Added) : contents l (a ++ b) =
    (ofType l.name b).foldl (fun t o => t.add o.first o.cells o.items) (contents l a) := by
  rw [contents_eq, ofType_append, List.foldl_append, ← contents_eq]

theorem contents_nil {l : Layout} {outs : List Added} (h : ofType l.name outs = []) :
    contents l outs = Acc.start l := by
  rw [contents_eq, h]; rfl

theorem contents_length {l : Layout} {outs : List Added}
    (h : ∀ o ∈ outs, o.name = l.name → o.items.length = l.arrs.length) :
    (contents l outs).arrs.length = l.arrs.length := by
  rw [contents_eq]
  have : ∀ (os : List Added) (t : Acc), t.arrs.length = l.arrs.length →
      (∀ o ∈ os, o.items.length = l.arrs.length) →
      (os.foldl (fun t o => t.add o.first o.cells o.items) t).arrs.length = l.arrs.length := by
    intro os
    induction os with
    | nil => intro t ht _; exact ht
    | cons o os ih =>
      intro t ht ho
      exact ih _ (Acc.add_length ht (ho o (by simp))) fun o' ho' => ho o' (by simp [ho'])
  refine this _ _ (by simp [Acc.start]) fun o ho => ?_
  simp only [ofType, List.mem_filter, decide_eq_true_eq] at ho
  exact h o ho.1 ho.2

theorem contents_rows {l : Layout} {outs : List Added} :
    (contents l outs).rows.length = (ofType l.name outs).length := by
  rw [contents_eq]
  have : ∀ (os : List Added) (t : Acc),
      (os.foldl (fun t o => t.add o.first o.cells o.items) t).rows.length =
        t.rows.length + os.length := by
    intro os
    induction os with
    | nil => intro t; rfl
    | cons o os ih =>
      intro t
      simp only [List.foldl_cons, ih, List.length_cons]
      simp [Acc.add]; omega
  rw [this]
  simp [Acc.start]

/-! ### get_table -/

/-- the items of the records match the arrays of the tables -/
def ItemsOK (outs : List Added) : Prop :=
  ∀ l ∈ layouts, ∀ o ∈ outs, o.name = l.name → o.items.length = l.arrs.length

/-- state with the table of `l` open -/
structure Opened (pl : Place) (p : Path) (h0 : H5) (outs : List Added) (sel : Option Int)
    (hier : Bool) (l : Layout) (st : St) : Prop where
  g : GOk pl p sel hier st.g
  tabs : ∀ l' ∈ layouts, l'.name ≠ l.name → TabOK p outs l' st
  here : st.g.tables l.name = some p
  other : ∀ k : Path × String, k.1 ≠ p ∨ ¬ HasTable k.2 → st.h5.tabs k = h0.tabs k
  groups : st.h5.groups = (mkGroups h0 p).groups

theorem mkGroups_groups {h h' : H5} {p : Path} (he : h.groups = h'.groups) :
    (mkGroups h p).groups = (mkGroups h' p).groups := by
  simp [mkGroups, he]

theorem mkGroups_idem (h : H5) (p : Path) :
    (mkGroups (mkGroups h p) p).groups = (mkGroups h p).groups := by
  funext q
  simp only [mkGroups]
  split <;> simp_all

theorem getTable_run {pl : Place} {p : Path} {h0 : H5} {outs : List Added} {s : Int} {hier : Bool}
    {st : St} (h : Core pl p h0 outs (some s) hier st) (hp : p = pl.path s) (hs : s ≠ 0)
    (hin : pl.In h0) {l : Layout} (hl : l ∈ layouts) :
    ∃ st1, getTable l.name st = .ok (st1, p, (contents l outs).table l) ∧
      Opened pl p h0 outs (some s) hier l st1 ∧ st1.env = st.env ∧
      st1.g.recordNames = st.g.recordNames := by
  have ht := h.tabs l hl
  unfold TabOK at ht
  by_cases hn : ofType l.name outs = []
  · rw [if_pos hn] at ht
    refine ⟨{ st with
      h5 := (mkGroups st.h5 p).put p l.name ((Acc.start l).table l),
      g := { st.g with tables := upd st.g.tables l.name p } }, ?_, ⟨?_, ?_, ?_, ?_, ?_⟩, rfl, rfl⟩
    · unfold getTable
      simp only [ht.1, h.path hp hs hin, layouts_descriptor l hl, layouts_atoms l hl,
        layouts_bounds l hl, bind, Except.bind, ht.2, contents_nil hn, start_table hl]
    · have := h.g
      unfold GOk at this ⊢
      exact this
    · intro l' hl' hne
      refine (h.tabs l' hl').congr (upd_other _ _ hne) ?_
      simp [H5.put, hne, mkGroups]
    · exact upd_same _ _ _
    · intro k hk
      rw [← h.other k hk]
      have : k ≠ (p, l.name) := by
        rintro rfl
        rcases hk with hk | hk
        · exact hk rfl
        · exact hk ⟨l, hl, rfl⟩
      simp [H5.put, this, mkGroups]
    · show (mkGroups st.h5 p).groups = _
      have hg := h.groups
      split at hg
      · exact mkGroups_groups hg
      · rw [mkGroups_groups hg, mkGroups_idem]
  · rw [if_neg hn] at ht
    refine ⟨st, ?_, ⟨h.g, fun l' hl' _ => h.tabs l' hl', ht.1, h.other, ?_⟩, rfl, rfl⟩
    · unfold getTable
      simp only [ht.1, ht.2]
      rw [if_neg]
      rintro ⟨_, h2⟩
      have := contents_rows (l := l) (outs := outs)
      have h2' : (contents l outs).rows = [] := h2
      rw [h2'] at this
      exact hn (List.length_eq_zero_iff.mp this.symm)
    · have hg := h.groups
      rw [if_neg] at hg
      · exact hg
      · rintro rfl; exact hn rfl

/-- writing the table of a block -/
theorem Opened.close {pl : Place} {p : Path} {h0 : H5} {outs : List Added} {sel : Option Int}
    {hier : Bool} {l : Layout} {st : St} (h : Opened pl p h0 outs sel hier l st) (hl : l ∈ layouts)
    {new : List Added} (hne : new ≠ []) (hnew : ∀ o ∈ new, o.name = l.name) (env : Env) :
    Core pl p h0 (outs ++ new) sel hier
      { st with env := env, h5 := st.h5.put p l.name ((contents l (outs ++ new)).table l) } where
  g := h.g
  tabs l' hl' := by
    by_cases hn : l'.name = l.name
    · have := layout_eq hl' hl hn
      subst this
      unfold TabOK
      rw [if_neg]
      · refine ⟨h.here, ?_⟩
        simp [H5.put]
      · rw [ofType_append, ofType_same hnew]
        simp [hne]
    · have := h.tabs l' hl' hn
      unfold TabOK at this ⊢
      have e1 : ofType l'.name (outs ++ new) = ofType l'.name outs := by
        rw [ofType_append, ofType_other hnew hn, List.append_nil]
      have e2 : contents l' (outs ++ new) = contents l' outs := by
        rw [contents_eq, e1, ← contents_eq]
      have e3 : (st.h5.put p l.name ((contents l (outs ++ new)).table l)).tabs (p, l'.name) =
          st.h5.tabs (p, l'.name) := by simp [H5.put, hn]
      rw [e1, e2, e3]
      exact this
  other k hk := by
    rw [← h.other k hk]
    have : k ≠ (p, l.name) := by
      rintro rfl
      rcases hk with hk | hk
      · exact hk rfl
      · exact hk ⟨l, hl, rfl⟩
    simp [H5.put, this]
  groups := by
    rw [if_neg (by simp [hne])]
    exact h.groups

/-! ### blocks -/

/-- a run of records of one type: `Block e0 nm past f outs past' f'` with `f'` the records that
follow -/
inductive Block (e0 : Int → Option Int) (nm : String) :
    List LRec → List LRec → List Added → List LRec → List LRec → Prop
  | done {past r rest} : r.name ≠ nm → Block e0 nm past (r :: rest) [] past (r :: rest)
  | step {past r rest b o outs past' f'} : r.name = nm → Adds e0 past rest.head? b r o →
      Block e0 nm (r :: past) rest outs past' f' →
      Block e0 nm past (r :: rest) (o :: outs) past' f'

theorem BodyFor.unique {name : String} {b b' : Body} (h : BodyFor name b) (h' : BodyFor name b') :
    b = b' := by
  rcases h with h | ⟨rfl, rfl⟩ <;> rcases h' with h' | ⟨h1, rfl⟩
  · rw [h] at h'
    simpa using h'
  · subst h1
    cases h
  · cases h'
  · rfl

theorem run_header {sk : LRec → Bool} {r : LRec} {o : Nat} {r' : LRec} {rest : List LRec} :
    Prog.run (L.reader sk) header ⟨done r, o, r' :: rest⟩ =
      .ok ((r'.name, r'.head), ⟨r', 0, rest⟩) := by
  rw [header, Prog.run_call]
  simp [L.reader, done, L.next]

theorem Block.nonempty {e0 : Int → Option Int} {nm : String} {past f past' f' : List LRec}
    {outs : List Added} (h : Block e0 nm past f outs past' f') : ∃ r rest, f = r :: rest := by
  cases h <;> exact ⟨_, _, rfl⟩

theorem Block.end {e0 : Int → Option Int} {nm : String} {past f past' f' : List LRec}
    {outs : List Added} (h : Block e0 nm past f outs past' f') :
    ∃ r rest, f' = r :: rest ∧ r.name ≠ nm := by
  induction h with
  | done h => exact ⟨_, _, rfl, h⟩
  | step _ _ _ ih => exact ih

theorem loop_run {e0 : Int → Option Int} {nm : String} {past f past' f' : List LRec}
    {outs : List Added} (h : Block e0 nm past f outs past' f') (hnm : nm ≠ "IDENT") {body : Body}
    (hb : BodyFor nm body) {l : Layout} (hl : l ∈ layouts) (hln : l.name = nm) (B : Nat)
    (sk : LRec → Bool) {r : LRec} {rest : List LRec} (hf : f = r :: rest) {r' : LRec}
    {rest' : List LRec} (hf' : f' = r' :: rest') {fuel : Nat} (hfuel : f.length ≤ fuel) {w : Work}
    {env : Env} {t : Acc} (hw : WInv l w t) (he : EnvInv e0 past env) :
    ∃ w' env', Prog.run (L.reader sk) (loop B body nm fuel w env (r.name, r.head)) ⟨r, 0, rest⟩ =
        .ok ((w', env', (r'.name, r'.head)), ⟨r', 0, rest'⟩) ∧
      WInv l w' (outs.foldl (fun t o => t.add false o.cells o.items) t) ∧
      EnvInv e0 past' env' := by
  induction h generalizing r rest fuel w env t with
  | @done past r0 rest0 hne =>
    simp only [List.cons.injEq] at hf hf'
    obtain ⟨rfl, rfl⟩ := hf
    obtain ⟨rfl, rfl⟩ := hf'
    cases fuel with
    | zero => simp at hfuel
    | succ fuel =>
      refine ⟨w, env, ?_, hw, he⟩
      simp only [loop]
      rw [if_neg hne]
      rfl
  | @step past r0 rest0 b o outs past' f' hnm' ha hb' ih =>
    simp only [List.cons.injEq] at hf
    obtain ⟨rfl, rfl⟩ := hf
    cases fuel with
    | zero => simp at hfuel
    | succ fuel =>
      obtain ⟨e, l', hm, hl', hln', ho, _, hr, hi⟩ := ha
      have : l' = l := layout_eq hl' hl (by rw [hln', hln, hnm'])
      subst this
      obtain ⟨body', hb1, hrun⟩ := means_run hm (by rw [hnm']; exact hnm)
      rw [hnm'] at hb1
      have := hb1.unique hb
      subst this
      obtain ⟨env1, o1, hrun1, he1⟩ := hrun env he sk
      obtain ⟨w1, hw1, hinv1⟩ := hw.add B hr hi
      obtain ⟨r1, rest1, hr1⟩ := hb'.nonempty
      subst hr1
      obtain ⟨w', env', h1, h2, h3⟩ := ih rfl hf' (by simpa using hfuel) hinv1 he1
      refine ⟨w', env', ?_, h2, h3⟩
      simp only [loop]
      rw [if_pos hnm']
      rw [hnm'] at hrun1
      rw [Prog.run_bind_ok hrun1, Prog.run_bind_ok (Prog.run_lift_ok hw1),
        Prog.run_bind_ok run_header]
      exact h1

theorem foldl_first {o : Added} {outs : List Added} {t : Acc} (ho : o.first = true)
    (h : ∀ o ∈ outs, o.first = false) :
    (o :: outs).foldl (fun t o => t.add o.first o.cells o.items) t =
      (o :: outs).foldl (fun t o => t.add false o.cells o.items) t.fresh := by
  simp only [List.foldl_cons, ho, Acc.add_first]
  generalize t.fresh.add false o.cells o.items = t'
  induction outs generalizing t' with
  | nil => rfl
  | cons o' outs ih =>
    simp only [List.foldl_cons, h o' (by simp)]
    exact ih (fun o'' h'' => h o'' (by simp [h''])) _

theorem Block.names {e0 : Int → Option Int} {nm : String} {past f past' f' : List LRec}
    {outs : List Added} (h : Block e0 nm past f outs past' f') : ∀ o ∈ outs, o.name = nm := by
  induction h with
  | done _ => simp
  | step hn ha _ ih =>
    intro o ho
    simp only [List.mem_cons] at ho
    rcases ho with rfl | ho
    · obtain ⟨_, _, _, _, _, h, _⟩ := ha
      rw [h, hn]
    · exact ih o ho

/-! ### blocks in a file -/

/-- the rest of a block in a file -/
theorem Accepts.block {only : Option (List String)} {sk : LRec → Bool} {e0 : Int → Option Int}
    {nm : String} {past f : List LRec} {outs : List Added} {names : List String}
    (h : Accepts only sk e0 (some nm) past f outs names) (ht : HasTable nm) (hi : nm ≠ "IDENT") :
    ∃ new outs' past' f', outs = new ++ outs' ∧ Block e0 nm past f new past' f' ∧
      (∀ o ∈ new, o.first = false) ∧ f'.length ≤ f.length ∧
      Accepts only sk e0 none past' f' outs' names := by
  generalize hc : some nm = cur at h
  have key : ∀ {cur past f outs names}, Accepts only sk e0 cur past f outs names →
      cur = some nm →
      ∃ new outs' past' f', outs = new ++ outs' ∧ Block e0 nm past f new past' f' ∧
      (∀ o ∈ new, o.first = false) ∧ f'.length ≤ f.length ∧
      Accepts only sk e0 none past' f' outs' names := by
    intro cur past f outs names h
    induction h with
    | @stop cur past r rest h1 h2 =>
      rintro rfl
      exact ⟨[], _, past, _, rfl, .done (by rw [h2.1]; exact (hasTable_ne ht).2.1.symm),
        by simp, Nat.le_refl _, .stop h1 h2⟩
    | @eof cur past m hm h1 =>
      rintro rfl
      exact ⟨[], _, past, _, rfl, .done (fun h => h1 (congrArg some (h.symm.trans hm))), by simp,
        Nat.le_refl _, .eof hm (by simp)⟩
    | @more past r rest o outs names h1 h2 h3 ih =>
      intro he
      obtain ⟨new, outs', past', f', e1, e2, e3, e4, e5⟩ := ih he
      have hn : r.name = nm := by simpa using he
      refine ⟨o :: new, outs', past', f', by rw [e1]; rfl, .step hn h2 e2, ?_, ?_, e5⟩
      · intro o' ho'
        simp only [List.mem_cons] at ho'
        rcases ho' with rfl | ho'
        · obtain ⟨_, _, _, _, _, _, h, _⟩ := h2
          exact h
        · exact e3 _ ho'
      · simp; omega
    | @first cur past r rest o outs names h1 h2 h3 h4 h5 h6 h7 _ =>
      rintro rfl
      exact ⟨[], _, past, _, rfl, .done (by rintro rfl; exact h1 rfl), by simp, Nat.le_refl _,
        .first (by simp) h2 h3 h4 h5 h6 h7⟩
    | @ident cur past r rest o outs names h1 h2 h3 h4 h5 _ =>
      rintro rfl
      exact ⟨[], _, past, _, rfl, .done (by rw [h1]; exact hi.symm), by simp, Nat.le_refl _,
        .ident h1 h2 h3 h4 h5⟩
    | @void cur past r rest outs names h1 h2 h3 h4 h5 _ =>
      rintro rfl
      exact ⟨[], _, past, _, rfl, .done (by rintro rfl; exact h1 rfl), by simp, Nat.le_refl _,
        .void (by simp) h2 h3 h4 h5⟩
    | @unselected cur past r rest outs names h1 h2 h3 h4 h5 _ =>
      rintro rfl
      exact ⟨[], _, past, _, rfl, .done (by rintro rfl; exact h1 rfl), by simp, Nat.le_refl _,
        .unselected (by simp) h2 h3 h4 h5⟩
    | @unread cur past r rest outs names h1 h2 h3 h4 h5 h6 h7 h8 h9 _ =>
      rintro rfl
      exact ⟨[], _, past, _, rfl, .done (by rintro rfl; exact h1 rfl), by simp, Nat.le_refl _,
        .unread (by simp) h2 h3 h4 h5 h6 h7 h8 h9⟩
    | @unreadMore past r rest outs names h1 h2 h3 h4 h5 h6 _ =>
      intro he
      have hn : r.name = nm := by simpa using he
      rw [hn] at h4
      exact absurd ht h4
    | @recsize cur past r rest outs names h1 h2 h3 h4 _ =>
      rintro rfl
      exact ⟨[], _, past, _, rfl, .done (by rw [h2.1]; exact (hasTable_ne ht).2.2.symm), by simp,
        Nat.le_refl _, .recsize h1 h2 h3 h4⟩
    | @notEnd cur past r rest outs names h1 h2 h3 _ =>
      rintro rfl
      exact ⟨[], _, past, _, rfl, .done (by rw [h2.1]; exact (hasTable_ne ht).2.1.symm), by simp,
        Nat.le_refl _, .notEnd h1 h2 h3⟩
  exact key h hc.symm

/-- the rest of a run of unread records -/
theorem eventsAfter_skip {r : LRec} (block : Option String) (past rest : List LRec)
    (h1 : ¬ (r.name = "IEND" ∧ r.head.head? = some (.rat 0))) (h2 : ¬ HasTable r.name) :
    eventsAfter block past (r :: rest) = eventsAfter none past rest := by
  rw [eventsAfter, if_neg h1, if_neg fun h3 => h2 (hasTable_iff.mpr h3)]

theorem no_table_empty : ¬ HasTable "" := by rw [hasTable_iff]; decide +kernel

theorem eventsAfter_eof {m : LRec} (hm : m.name = "") (block : Option String) (past : List LRec) :
    eventsAfter block past [m] = [] := by
  rw [eventsAfter_skip _ _ _ (fun h => absurd (hm.symm.trans h.1) (by decide))
    (by rw [hm]; exact no_table_empty)]
  rfl

theorem eventsAfter_row {e0 : Int → Option Int} {past : List LRec} {next : Option LRec} {b : Bool}
    {r : LRec} {o : Added} {rest : List LRec} {block : Option String}
    (ha : Adds e0 past next b r o) (hb : isVoid r = false ∨ block = some r.name) :
    eventsAfter block past (r :: rest) = ⟨past, rest.head?, r⟩ ::
      eventsAfter (if r.name = "IDENT" then none else some r.name) (r :: past) rest := by
  obtain ⟨e, l, _, hl, hln, _⟩ := ha
  have ht : HasTable r.name := ⟨l, hl, hln⟩
  rw [eventsAfter, if_neg fun h => (hasTable_ne ht).2.1 h.1, if_pos (hasTable_iff.mp ht), if_neg]
  rintro ⟨h1, h2⟩
  rcases hb with hb | hb
  · rw [h1] at hb; cases hb
  · exact h2 hb

theorem eventsAfter_other {block : Option String} {r : LRec} (past rest : List LRec)
    (h : block ≠ some r.name) :
    eventsAfter block past (r :: rest) = eventsAfter none past (r :: rest) := by
  rw [eventsAfter, eventsAfter]
  simp [h]

/-- the records read in a block and behind it -/
theorem Block.read {e0 : Int → Option Int} {nm : String} {past f past' f' : List LRec}
    {outs : List Added} (h : Block e0 nm past f outs past' f') (hi : nm ≠ "IDENT") :
    ((eventsAfter (some nm) past f).map Event.record).reverse ++ past =
      ((eventsAfter none past' f').map Event.record).reverse ++ past' := by
  induction h with
  | done hn => rw [eventsAfter_other]; simpa using Ne.symm hn
  | @step past r rest b o outs past' f' hn ha _ ih =>
    subst hn
    rw [eventsAfter_row ha (.inr rfl), if_neg hi, ← ih]
    simp

theorem Accepts.skipped {only : Option (List String)} {sk : LRec → Bool} {e0 : Int → Option Int}
    {nm : String} {past f : List LRec} {outs : List Added} {names : List String}
    (h : Accepts only sk e0 (some nm) past f outs names) (ht : ¬ HasTable nm)
    (h1 : nm ≠ "IEND") (h2 : nm ≠ "IRECSIZE") (fuel : Nat) (hfuel : f.length ≤ fuel) :
    ∃ r rest r' rest', f = r :: rest ∧ (r' :: rest').length ≤ f.length ∧
      Prog.run (L.reader sk) (skipLoop nm fuel (r.name, r.head)) ⟨r, 0, rest⟩ =
        .ok ((r'.name, r'.head), ⟨r', 0, rest'⟩) ∧
      Accepts only sk e0 none past (r' :: rest') outs names ∧
      eventsAfter none past f = eventsAfter none past (r' :: rest') := by
  have hid : HasTable "IDENT" := by rw [hasTable_iff]; decide +kernel
  have stopHere : ∀ {past r rest outs names} (fuel : Nat), (r :: rest : List LRec).length ≤ fuel →
      r.name ≠ nm → Accepts only sk e0 none past (r :: rest) outs names →
      ∃ r1 rest1 r' rest', (r :: rest) = r1 :: rest1 ∧ (r' :: rest').length ≤ (r :: rest).length ∧
      Prog.run (L.reader sk) (skipLoop nm fuel (r1.name, r1.head)) ⟨r1, 0, rest1⟩ =
        .ok ((r'.name, r'.head), ⟨r', 0, rest'⟩) ∧
      Accepts only sk e0 none past (r' :: rest') outs names ∧
      eventsAfter none past (r :: rest) = eventsAfter none past (r' :: rest') := by
    intro past r rest outs names fuel hf hn ha
    refine ⟨r, rest, r, rest, rfl, Nat.le_refl _, ?_, ha, rfl⟩
    cases fuel with
    | zero => simp at hf
    | succ fuel =>
      simp only [skipLoop]
      rw [if_neg hn]
      rfl
  have key : ∀ {cur past f outs names}, Accepts only sk e0 cur past f outs names →
      cur = some nm → ∀ fuel, f.length ≤ fuel →
      ∃ r rest r' rest', f = r :: rest ∧ (r' :: rest').length ≤ f.length ∧
      Prog.run (L.reader sk) (skipLoop nm fuel (r.name, r.head)) ⟨r, 0, rest⟩ =
        .ok ((r'.name, r'.head), ⟨r', 0, rest'⟩) ∧
      Accepts only sk e0 none past (r' :: rest') outs names ∧
      eventsAfter none past f = eventsAfter none past (r' :: rest') := by
    intro cur past f outs names h
    induction h with
    | @stop cur past r rest h3 h4 =>
      intro _ fuel hf
      exact stopHere fuel hf (by rw [h4.1]; exact h1.symm) (.stop h3 h4)
    | @eof cur past m hm h3 =>
      rintro rfl fuel hf
      exact stopHere fuel hf (fun h => h3 (congrArg some (h.symm.trans hm))) (.eof hm (by simp))
    | @more past r rest o outs names h3 h4 h5 ih =>
      intro he
      have hn : r.name = nm := by simpa using he
      obtain ⟨_, l, _, hl, hln, _⟩ := h4
      exact absurd ⟨l, hl, by rw [hln, hn]⟩ ht
    | @first cur past r rest o outs names h3 h4 h5 h6 h7 h8 h9 _ =>
      rintro rfl fuel hf
      exact stopHere fuel hf (by rintro rfl; exact h3 rfl) (.first (by simp) h4 h5 h6 h7 h8 h9)
    | @ident cur past r rest o outs names h3 h4 h5 h6 h7 _ =>
      rintro rfl fuel hf
      exact stopHere fuel hf (by rw [h3]; rintro rfl; exact ht hid) (.ident h3 h4 h5 h6 h7)
    | @void cur past r rest outs names h3 h4 h5 h6 h7 _ =>
      rintro rfl fuel hf
      exact stopHere fuel hf (by rintro rfl; exact h3 rfl) (.void (by simp) h4 h5 h6 h7)
    | @unselected cur past r rest outs names h3 h4 h5 h6 h7 _ =>
      rintro rfl fuel hf
      exact stopHere fuel hf (by rintro rfl; exact h3 rfl) (.unselected (by simp) h4 h5 h6 h7)
    | @unread cur past r rest outs names h3 h4 h5 h6 h7 h8 h9 h10 h11 _ =>
      rintro rfl fuel hf
      exact stopHere fuel hf (by rintro rfl; exact h3 rfl)
        (.unread (by simp) h4 h5 h6 h7 h8 h9 h10 h11)
    | @unreadMore past r rest outs names h3 h4 h5 h6 h7 h8 ih =>
      intro he fuel hf
      have hn : r.name = nm := by simpa using he
      cases fuel with
      | zero => simp at hf
      | succ fuel =>
        obtain ⟨r1, rest1, r', rest', e1, e2, e3, e4, e5⟩ := ih he fuel (by simpa using hf)
        refine ⟨r, rest, r', rest', rfl, by simp at e2 ⊢; omega, ?_, e4,
          (eventsAfter_skip none past rest (fun h => h4 h.1) h6).trans e5⟩
        simp only [skipLoop]
        rw [if_pos hn, e1]
        rw [Prog.run_bind_ok (a := (r1.name, r1.head)) (s' := ⟨r1, 0, rest1⟩)]
        · exact e3
        · rw [skipRest, Prog.run_call]
          simp [L.reader, L.next, h7]
    | @recsize cur past r rest outs names h3 h4 h5 h6 _ =>
      intro _ fuel hf
      exact stopHere fuel hf (by rw [h4.1]; exact h2.symm) (.recsize h3 h4 h5 h6)
    | @notEnd cur past r rest outs names h3 h4 h5 _ =>
      intro _ fuel hf
      exact stopHere fuel hf (by rw [h4.1]; exact h1.symm) (.notEnd h3 h4 h5)
  exact key h rfl fuel hfuel

end Verif.Parse
