import Verif.Parse.Props
/-!
# Void records: property C67

A record is void if its first field is negative.  Whether a void record leaves a trace in the
output depends on the record before it: behind a record of another type it is skipped, behind one
of its own type it is stored like any other record.
-/

namespace Verif.Parse
open Verif Verif.Seq

section
variable {only : Option (List String)} {sk sk' : LRec → Bool} {e0 : Int → Option Int}
  {a b : List LRec} {v p q : LRec} {outs : List Added} {names : List String} {pl : Place}
  {s : Int} {h0 : H5} {lev dt : String} {ix : Option (Option Int)} {st : St} {D D' : Dec}
  {src src' : Source}

/-- what a record means does not depend on which known record follows it -/
theorem Means.beforeKnown {past : List LRec} {next : Option LRec} {r : LRec} {e : Entry}
    (h : Means e0 past next r e) (he : next = some endMark → ¬ Ragged r)
    (hk : v.name ∈ knownNames) : Means e0 past (some v) r e :=
  h.otherNext he fun _ => ⟨v, rfl, hk⟩

theorem Adds.beforeKnown {past : List LRec} {next : Option LRec} {r : LRec} {o : Added} {x : Bool}
    (h : Adds e0 past next x r o) (he : next = some endMark → ¬ Ragged r)
    (hk : v.name ∈ knownNames) : Adds e0 past (some v) x r o := by
  obtain ⟨e, l, hm, hr⟩ := h
  exact ⟨e, l, hm.beforeKnown he hk, hr⟩

/-- a record that does not continue the block in progress is accepted whatever that block is -/
theorem Accepts.newBlock {cur : Option String} {past : List LRec} {r : LRec} {rest : List LRec}
    (h : Accepts only sk e0 cur past (r :: rest) outs names) (hc : cur ≠ some r.name) :
    Accepts only sk e0 none past (r :: rest) outs names := by
  cases h with
  | stop h1 h2 => exact .stop h1 h2
  | eof hm _ => exact .eof hm (by simp)
  | more => exact absurd rfl hc
  | first _ h2 h3 h4 h5 h6 h7 => exact .first (by simp) h2 h3 h4 h5 h6 h7
  | ident h1 h2 h3 h4 h5 => exact .ident h1 h2 h3 h4 h5
  | void _ h2 h3 h4 h5 => exact .void (by simp) h2 h3 h4 h5
  | unselected _ h2 h3 h4 h5 => exact .unselected (by simp) h2 h3 h4 h5
  | unread _ h2 h3 h4 h5 h6 h7 h8 h9 => exact .unread (by simp) h2 h3 h4 h5 h6 h7 h8 h9
  | unreadMore => exact absurd rfl hc
  | recsize h1 h2 h3 h4 => exact .recsize h1 h2 h3 h4
  | notEnd h1 h2 h3 => exact .notEnd h1 h2 h3

/-- a void record between two blocks adds nothing -/
theorem Accepts.insertVoid (hv : Void v) (hn : v.name ≠ "") (hs : Selected only v.name)
    (hk : v.name ∈ knownNames) (hb : b ≠ []) : ∀ (a : List LRec) {cur : Option String} {past : List LRec}
      {outs : List Added} {names : List String},
      (∀ p, a.getLast? = some p → p.name ≠ v.name ∧ (∀ q, b.head? = some q → q.name ≠ p.name) ∧
        (b.head? = some endMark → ¬ Ragged p)) →
      (a = [] → cur ≠ some v.name ∧ ∀ q, b.head? = some q → cur ≠ some q.name) →
      Accepts only sk e0 cur past (a ++ b) outs names →
      Accepts only sk e0 cur past (a ++ v :: b) outs names := by
  intro a
  induction a with
  | nil =>
    intro cur past outs names _ hc h
    obtain ⟨h1, h2⟩ := hc rfl
    cases b with
    | nil => cases h
    | cons q b => exact .void h1 hn hs hv (h.newBlock (h2 q rfl))
  | cons r a ih =>
    intro cur past outs names hp _ h
    have hp' : ∀ p, a.getLast? = some p →
        p.name ≠ v.name ∧ (∀ q, b.head? = some q → q.name ≠ p.name) ∧
          (b.head? = some endMark → ¬ Ragged p) := by
      intro p hpa
      refine hp p ?_
      cases a with
      | nil => cases hpa
      | cons x a => rw [← hpa, List.getLast?_cons_cons]
    have hc1 : a = [] → some r.name ≠ some v.name ∧
        ∀ q, b.head? = some q → some r.name ≠ some q.name := by
      rintro rfl
      obtain ⟨h1, h2, -⟩ := hp r rfl
      exact ⟨fun h => h1 (Option.some.inj h), fun q hq h => h2 q hq (Option.some.inj h).symm⟩
    have hc0 : a = [] → (none : Option String) ≠ some v.name ∧
        ∀ q, b.head? = some q → (none : Option String) ≠ some q.name :=
      fun _ => ⟨by simp, by simp⟩
    have hadds : ∀ {x o}, Adds e0 past (a ++ b).head? x r o →
        Adds e0 past (a ++ v :: b).head? x r o := by
      intro x o ha
      cases a with
      | nil => exact ha.beforeKnown (hp r rfl).2.2 hk
      | cons y a => exact ha
    rw [List.cons_append] at h ⊢
    generalize hg : r :: (a ++ b) = g at h
    cases h with
    | stop h1 h2 =>
      obtain ⟨rfl, rfl⟩ := List.cons.inj hg
      exact .stop h1 h2
    | eof hm _ =>
      exact absurd (List.append_eq_nil_iff.mp (List.cons.inj hg).2).2 hb
    | more h1 h2 h3 =>
      obtain ⟨rfl, rfl⟩ := List.cons.inj hg
      exact .more h1 (hadds h2) (ih hp' hc1 h3)
    | first h1 h2 h3 h4 h5 h6 h7 =>
      obtain ⟨rfl, rfl⟩ := List.cons.inj hg
      exact .first h1 h2 h3 h4 h5 (hadds h6) (ih hp' hc1 h7)
    | ident h1 h2 h3 h4 h5 =>
      obtain ⟨rfl, rfl⟩ := List.cons.inj hg
      exact .ident h1 h2 h3 (hadds h4) (ih hp' hc0 h5)
    | void h1 h2 h3 h4 h5 =>
      obtain ⟨rfl, rfl⟩ := List.cons.inj hg
      exact .void h1 h2 h3 h4 (ih hp' hc0 h5)
    | unselected h1 h2 h3 h4 h5 =>
      obtain ⟨rfl, rfl⟩ := List.cons.inj hg
      exact .unselected h1 h2 h3 h4 (ih hp' hc0 h5)
    | unread h1 h2 h3 h4 h5 h6 h7 h8 h9 =>
      obtain ⟨rfl, rfl⟩ := List.cons.inj hg
      exact .unread h1 h2 h3 h4 h5 h6 h7 h8 (ih hp' hc1 h9)
    | unreadMore h1 h2 h3 h4 h5 h6 =>
      obtain ⟨rfl, rfl⟩ := List.cons.inj hg
      exact .unreadMore h1 h2 h3 h4 h5 (ih hp' hc1 h6)
    | recsize h1 h2 h3 h4 =>
      obtain ⟨rfl, rfl⟩ := List.cons.inj hg
      exact .recsize h1 h2 h3 (ih hp' hc0 h4)
    | notEnd h1 h2 h3 =>
      obtain ⟨rfl, rfl⟩ := List.cons.inj hg
      exact .notEnd h1 h2 (ih hp' hc0 h3)

/-- **C67** A void record of a known type, put between two records of different types, the first
of which is not of its type, leaves no trace: the file with it and the file without it give the
same output, whatever kind of file they are on disk.  (If the file without it ends behind the first
record, all values of that are there.) -/
theorem void_record_skipped
    (j : Job only sk e0 (a ++ p :: q :: b) outs names pl s h0 lev dt ix)
    (hv : Void v) (hs : Selected only v.name) (hk : v.name ∈ knownNames)
    (hp : p.name ≠ v.name) (hq : q.name ≠ p.name) (hend : q = endMark → ¬ Ragged p)
    (hclean : Clean pl e0 h0 st) (henc : Encoded D sk (a ++ p :: q :: b) src)
    (henc' : Encoded D' sk (a ++ p :: v :: q :: b) src') (B : Nat) :
    ∃ st1 st2, parseSource D B only st src = .ok st1 ∧ parseSource D' B only st src' = .ok st2 ∧
      st1.h5 = st2.h5 := by
  have hn : v.name ≠ "" := by
    intro h
    have : ∀ n ∈ knownNames, n ≠ "" := by decide +kernel
    exact this _ hk h
  have hacc : Accepts only sk e0 none [] (a ++ p :: v :: q :: b) outs names := by
    have := Accepts.insertVoid (b := q :: b) hv hn hs hk (by simp) (a ++ [p]) (cur := none) (past := [])
      (sk := sk) (e0 := e0) (outs := outs) (names := names) ?_ (by simp) (by
        have := j.accepted
        simpa using this)
    · simpa using this
    · intro p' hp'
      rw [List.getLast?_append] at hp'
      simp only [List.getLast?_singleton, Option.some_or, Option.some.injEq] at hp'
      subst hp'
      refine ⟨hp, fun q' hq' => ?_, fun he => hend (by simpa using he)⟩
      simp only [List.head?_cons, Option.some.injEq] at hq'
      subst hq'
      exact hq
  have j' : Job only sk e0 (a ++ p :: v :: q :: b) outs names pl s h0 lev dt ix :=
    { j with accepted := hacc }
  obtain ⟨st1, h1, h2⟩ := j.source hclean B henc
  obtain ⟨st2, h3, h4⟩ := j'.source hclean B henc'
  exact ⟨st1, st2, h1, h3, h2.unique j.accepted.outs_table h4⟩

/-- the records before are taken as they are -/
theorem eventsAfter_append {block : Option String} {past : List LRec} (hp : HasTable p.name)
    (hid : p.name ≠ "IDENT") (hpv : NotVoid p) (hvn : v.name = p.name) :
    ∀ (a : List LRec), (∀ r ∈ a, ¬ EndOfFile r) →
    ∃ past', ⟨past', b.head?, v⟩ ∈ eventsAfter block past (a ++ p :: v :: b) := by
  have hpm : p.name ∈ layouts.map (·.name) := hasTable_iff.mp hp
  have hend : p.name ≠ "IEND" := (hasTable_ne hp).2.1
  intro a
  induction a generalizing block past with
  | nil =>
    intro _
    refine ⟨p :: past, ?_⟩
    rw [List.nil_append, eventsAfter, if_neg (by simp [hend]), if_pos hpm,
      if_neg (by rw [hpv.isVoid]; simp), if_neg hid, eventsAfter, if_neg (by simp [hvn, hend]),
      if_pos (by rw [hvn]; exact hpm), if_neg (by simp [hvn])]
    simp
  | cons r a ih =>
    intro ha
    have hr : ¬ (r.name = "IEND" ∧ r.head.head? = some (.rat 0)) := by
      rintro ⟨h1, h2⟩
      refine ha r (by simp) ⟨h1, ?_⟩
      cases hh : r.head with
      | nil => rw [hh] at h2; cases h2
      | cons x t =>
        rw [hh] at h2
        exact ⟨x, t, rfl, Option.some.inj h2⟩
    have ha' : ∀ r ∈ a, ¬ EndOfFile r := fun r hr => ha r (List.mem_cons_of_mem _ hr)
    rw [List.cons_append, eventsAfter, if_neg hr]
    split
    · split
      · exact ih ha'
      · obtain ⟨past', h⟩ := ih (block := if r.name = "IDENT" then none else some r.name)
          (past := r :: past) ha'
        exact ⟨past', List.mem_cons_of_mem _ h⟩
    · exact ih ha'

/-- **C67** A void record behind a record of its own type is not skipped: it gets a row. -/
theorem void_record_stored
    (j : Job none sk e0 (a ++ p :: v :: b) outs names pl s h0 lev dt ix)
    (ha : ∀ r ∈ a, ¬ EndOfFile r) (hid : p.name ≠ "IDENT") (hpv : NotVoid p)
    (hvn : v.name = p.name) (hclean : Clean pl e0 h0 st)
    (henc : Encoded D sk (a ++ p :: v :: b) src) (B : Nat) :
    ∃ st', parseSource D B none st src = .ok st' ∧ ∀ l ∈ layouts, l.name = p.name →
      ∃ t, st'.h5.tabs (pl.path s, l.name) = some t ∧
        ∃ past, ∃ row ∈ t.rows, RowOf e0 l t ⟨past, b.head?, v⟩ row := by
  obtain ⟨st', h1, h2⟩ := one_row_per_record j hclean henc B
  refine ⟨st', h1, fun l hl hln => ?_⟩
  obtain ⟨past, hm⟩ := eventsAfter_append (b := b) (block := none) (past := []) (v := v)
    ⟨l, hl, hln⟩ hid hpv hvn a ha
  have hm' : (⟨past, b.head?, v⟩ : Event) ∈
      (events [] (a ++ p :: v :: b)).filter fun ev => ev.record.name = l.name := by
    rw [List.mem_filter]
    exact ⟨hm, by simp [hvn, hln]⟩
  obtain ⟨t, h3, _, h4⟩ := h2 l hl (List.ne_nil_of_mem hm')
  obtain ⟨i, hi, he⟩ := List.getElem_of_mem hm'
  have hi' : i < t.rows.length := by rw [← h4.length_eq]; exact hi
  have hrow := (List.forall₂_iff_get.mp h4).2 i hi hi'
  simp only [List.get_eq_getElem, he] at hrow
  exact ⟨t, h3, past, _, List.getElem_mem hi', hrow⟩
end

namespace Demo
/-- a void record -/
def voidRec : LRec := ⟨"GUNIVEC", [.rat (-1), .rat 1, .rat 0, .rat 0], [], 0, [], []⟩

/-- the demo file with a void record in the middle -/
def fileVoid : List LRec := file.take 5 ++ voidRec :: file.drop 5

/-- a void record between the blocks of the demo file is skipped, in both kinds of file -/
example (B : Nat) := void_record_skipped (a := file.take 4) (b := file.drop 6)
  (p := ⟨"GCOORD", [.rat 2, .rat 3, .rat 0, .rat (-1)], [], 0, [], []⟩)
  (q := ⟨"GELMNT1", [.rat 1, .rat 1, .rat 15, .rat 0], [], 8, [.rat 1, .rat 2],
    [.rat 0, .rat 0]⟩) (v := voidRec) job
  (.one (by decide +kernel) (by decide +kernel)) trivial (by decide +kernel) (by decide)
  (by decide) (fun h => absurd h (by decide +kernel)) clean onDisk.1
  (.formatted (encodesT (f := fileVoid) (by decide +kernel))) B

/-- a file with a void node -/
def fileVoid2 : List LRec := [
  ⟨"IDENT", [.rat 1, .rat 5, .rat 3, .rat 0], [], 0, [], []⟩,
  ⟨"GNODE", [.rat 1, .rat 11, .rat 6, .rat 123456], [], 0, [], []⟩,
  ⟨"GNODE", [.rat (-1), .rat 12, .rat 6, .rat 123456], [], 0, [], []⟩,
  ⟨"GCOORD", [.rat (-1), .rat 0, .rat (1/2), .rat 0], [], 0, [], []⟩,
  ⟨"GCOORD", [.rat 1, .rat 3, .rat 0, .rat (-1)], [], 0, [], []⟩,
  ⟨"IEND", [.rat 0, .rat 0, .rat 0, .rat 0], [], 0, [], []⟩]

/-- what is added to the tables -/
def outsVoid2 : List Added := [
  ⟨"IDENT", true, [.sc (.int 1), .sc (.int 5), .sc (.int 3)], []⟩,
  ⟨"GNODE", true, [.sc (.int 1), .sc (.int 11), .sc (.int 6), .sc (.int 123456)], []⟩,
  ⟨"GNODE", false, [.sc (.int (-1)), .sc (.int 12), .sc (.int 6), .sc (.int 123456)], []⟩,
  ⟨"GCOORD", true, [.sc (.int 1), .sc (.flt (.rat 3)), .sc (.flt (.rat 0)),
    .sc (.flt (.rat (-1)))], []⟩]

theorem acceptedVoid2 : Accepts none (fun _ => false) (fun _ => none) none [] fileVoid2 outsVoid2
    ["IDENT", "GNODE", "GCOORD", "IEND"] := by
  have nv : ∀ {n : String} {x : PyF} {t : List PyF} {p sk v d}, x.ltZero = false →
      NotVoid ⟨n, x :: t, p, sk, v, d⟩ := fun h => ⟨_, _, rfl, h⟩
  have fo : ∀ {r : LRec}, r.name ≠ "SCONMESH" → FirstOK r := fun h h' => absurd h' h
  have int : ∀ {x : PyF} (n : Int), x.toInt = .ok n → HasInt x n := fun n h => toInt_hasInt h
  unfold fileVoid2 outsVoid2
  refine .ident rfl trivial (nv (by decide +kernel)) ?_ ?_
  · exact ⟨_, lay "IDENT", .ident (int 1 (by decide +kernel)) (int 5 (by decide +kernel))
      (int 3 (by decide +kernel)), by decide +kernel, rfl, rfl, rfl, by stored, by stored⟩
  refine .first (by simp) (by simp) trivial (nv (by decide +kernel)) (fo (by simp)) ?_ ?_
  · exact ⟨_, lay "GNODE", .fixed (n := 4) (k := 0) (by decide) rfl (by simp), by decide +kernel,
      rfl, rfl, rfl, by stored, by stored⟩
  refine more rfl (by simp) ?_ ?_
  · exact ⟨_, lay "GNODE", .fixed (n := 4) (k := 0) (by decide) rfl (by simp), by decide +kernel,
      rfl, rfl, rfl, by stored, by stored⟩
  refine .void (by simp) (by simp) trivial (.one (by decide +kernel) (by decide +kernel)) ?_
  refine .first (by simp) (by simp) trivial (nv (by decide +kernel)) (fo (by simp)) ?_ ?_
  · exact ⟨_, lay "GCOORD", .fixed (n := 4) (k := 0) (by decide) rfl (by simp), by decide +kernel,
      rfl, rfl, rfl, by stored, by stored⟩
  exact .stop trivial ⟨rfl, _, _, rfl, rfl⟩

theorem jobVoid2 : Job none (fun _ => false) (fun _ => none) fileVoid2 outsVoid2
    ["IDENT", "GNODE", "GCOORD", "IEND"] (.top "" "T") 5 {} "FIRSTLEVEL" "STRUCTURAL" none where
  accepted := acceptedVoid2
  sel := by decide
  gives := ⟨_, rfl, .inl ⟨rfl, rfl⟩⟩
  allows := by
    intro o ho hn
    exfalso
    revert o
    decide +kernel
  hier := trivial
  free := fun _ _ => rfl
  classified := .modAlone (by decide) (by decide +kernel)

/-- the void GNODE is stored, the void GCOORD is not -/
example : (events [] fileVoid2).map (fun ev => (ev.record.name, ev.record.head.head?)) =
    [("IDENT", some (.rat 1)), ("GNODE", some (.rat 1)), ("GNODE", some (.rat (-1))),
      ("GCOORD", some (.rat 1))] := by decide +kernel

example (B : Nat) := void_record_stored (a := fileVoid2.take 1) (b := fileVoid2.drop 3)
  (p := ⟨"GNODE", [.rat 1, .rat 11, .rat 6, .rat 123456], [], 0, [], []⟩)
  (v := ⟨"GNODE", [.rat (-1), .rat 12, .rat 6, .rat 123456], [], 0, [], []⟩) jobVoid2
  (by
    intro r hr h
    have : r = ⟨"IDENT", [.rat 1, .rat 5, .rat 3, .rat 0], [], 0, [], []⟩ := by
      simpa [fileVoid2] using hr
    subst this
    exact absurd h.1 (by decide)) (by decide)
  ⟨_, _, rfl, by decide +kernel⟩ rfl (src := .unformatted (75 :: bytes fileVoid2)) clean
  (.unformatted (encodesU (f := fileVoid2) (by decide +kernel))) B
end Demo

end Verif.Parse
