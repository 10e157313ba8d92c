import Verif.Parse.Refuse
import Verif.Parse.Demo
import Verif.Parse.Props
/-!
# Files that end too early

The first records of a file, alone.  A formatted file is converted as far as it goes; an
unformatted file raises `struct.error` where it ends.
-/

namespace Verif.Parse
open Verif Verif.Seq

section
variable {only : Option (List String)} {sk : LRec → Bool} {e0 : Int → Option Int}

theorem Adds.ahead {past : List LRec} {next next' : Option LRec} {b : Bool} {r : LRec} {o : Added}
    (h : Adds e0 past next b r o) (hr : ¬ Short r) (he : next = some endMark → ¬ Ragged r) :
    Adds e0 past next' b r o := by
  obtain ⟨e, l, h1, h2⟩ := h
  exact ⟨e, l, h1.otherNext he (fun h => absurd h hr), h2⟩

theorem Adds.atEnd {past : List LRec} {next : Option LRec} {b : Bool} {r : LRec} {o : Added}
    (h : Adds e0 past next b r o) : Adds e0 past (some endMark) b r o := by
  obtain ⟨e, l, h1, h2⟩ := h
  exact ⟨e, l, h1.atEnd, h2⟩

/-- the first records of a file that can be converted, and then a record without a name, can be
converted, and give the first rows -/
theorem Accepts.cutBy {b : List LRec} {m : LRec} (hm : m.name = "") :
    ∀ (a : List LRec) {cur : Option String} {past : List LRec} {outs : List Added}
      {names : List String}, Accepts only sk e0 cur past (a ++ b) outs names →
      "" ∉ a.map LRec.name → cur ≠ some "" →
      (∀ r ∈ a.getLast?, ∀ past x o, Adds e0 past b.head? x r o → Adds e0 past (some m) x r o) →
      ∃ o1 o2 n1 n2, outs = o1 ++ o2 ∧ names = n1 ++ n2 ∧
        Accepts only sk e0 cur past (a ++ [m]) o1 n1
  | [], cur, past, outs, names, _, _, hc, _ => ⟨[], outs, [], names, rfl, rfl, .eof hm hc⟩
  | r :: a, cur, past, outs, names, h, he, hc, hl => by
    have hnext : ∀ {past bb o}, Adds e0 past (a ++ b).head? bb r o →
        Adds e0 past (a ++ [m]).head? bb r o := by
      intro past bb o ha
      cases a with
      | nil => exact hl r (by simp) _ _ _ ha
      | cons y a => exact ha
    have he' : "" ∉ a.map LRec.name := fun h => he (List.mem_cons_of_mem _ h)
    have hl' : ∀ r ∈ a.getLast?, ∀ past x o, Adds e0 past b.head? x r o →
        Adds e0 past (some m) x r o := fun y hy => hl y (by
      rw [List.getLast?_cons, hy]
      rfl)
    have hn : ∀ {n : String}, n ≠ "" → some n ≠ some "" := by simp
    generalize hg : r :: a ++ b = g at h
    cases h with
    | stop h1 h2 =>
      obtain ⟨rfl, rfl⟩ := List.cons.inj hg
      exact ⟨[], _, ["IEND"], [], rfl, rfl, .stop h1 h2⟩
    | eof h1 =>
      obtain ⟨rfl, _⟩ := List.cons.inj hg
      exact absurd (by simp [h1]) he
    | more h1 h2 h3 =>
      obtain ⟨rfl, rfl⟩ := List.cons.inj hg
      obtain ⟨o1, o2, n1, n2, rfl, rfl, k⟩ := Accepts.cutBy hm a h3 he' hc hl'
      exact ⟨_ :: o1, o2, n1, n2, rfl, rfl, .more h1 (hnext h2) k⟩
    | first h1 h2 h3 h4 h5 h6 h7 =>
      obtain ⟨rfl, rfl⟩ := List.cons.inj hg
      obtain ⟨o1, o2, n1, n2, rfl, rfl, k⟩ := Accepts.cutBy hm a h7 he'
        (hn (hasTable_ne (adds_table h6)).1) hl'
      exact ⟨_ :: o1, o2, _ :: n1, n2, rfl, rfl, .first h1 h2 h3 h4 h5 (hnext h6) k⟩
    | ident h1 h2 h3 h4 h5 =>
      obtain ⟨rfl, rfl⟩ := List.cons.inj hg
      obtain ⟨o1, o2, n1, n2, rfl, rfl, k⟩ := Accepts.cutBy hm a h5 he' (by simp) hl'
      exact ⟨_ :: o1, o2, _ :: n1, n2, rfl, rfl, .ident h1 h2 h3 (hnext h4) k⟩
    | void h1 h2 h3 h4 h5 =>
      obtain ⟨rfl, rfl⟩ := List.cons.inj hg
      obtain ⟨o1, o2, n1, n2, rfl, rfl, k⟩ := Accepts.cutBy hm a h5 he' (by simp) hl'
      exact ⟨o1, o2, n1, n2, rfl, rfl, .void h1 h2 h3 h4 k⟩
    | unselected h1 h2 h3 h4 h5 =>
      obtain ⟨rfl, rfl⟩ := List.cons.inj hg
      obtain ⟨o1, o2, n1, n2, rfl, rfl, k⟩ := Accepts.cutBy hm a h5 he' (by simp) hl'
      exact ⟨o1, o2, n1, n2, rfl, rfl, .unselected h1 h2 h3 h4 k⟩
    | unread h1 h2 h3 h4 h5 h6 h7 h8 h9 =>
      obtain ⟨rfl, rfl⟩ := List.cons.inj hg
      obtain ⟨o1, o2, n1, n2, rfl, rfl, k⟩ := Accepts.cutBy hm a h9 he' (hn h2) hl'
      exact ⟨o1, o2, n1, n2, rfl, rfl, .unread h1 h2 h3 h4 h5 h6 h7 h8 k⟩
    | unreadMore h1 h2 h3 h4 h5 h6 =>
      obtain ⟨rfl, rfl⟩ := List.cons.inj hg
      obtain ⟨o1, o2, n1, n2, rfl, rfl, k⟩ := Accepts.cutBy hm a h6 he' (hn h1) hl'
      exact ⟨o1, o2, n1, n2, rfl, rfl, .unreadMore h1 h2 h3 h4 h5 k⟩
    | recsize h1 h2 h3 h4 =>
      obtain ⟨rfl, rfl⟩ := List.cons.inj hg
      obtain ⟨o1, o2, n1, n2, rfl, rfl, k⟩ := Accepts.cutBy hm a h4 he' (by simp) hl'
      exact ⟨o1, o2, _ :: n1, n2, rfl, rfl, .recsize h1 h2 h3 k⟩
    | notEnd h1 h2 h3 =>
      obtain ⟨rfl, rfl⟩ := List.cons.inj hg
      obtain ⟨o1, o2, n1, n2, rfl, rfl, k⟩ := Accepts.cutBy hm a h3 he' (by simp) hl'
      exact ⟨o1, o2, _ :: n1, n2, rfl, rfl, .notEnd h1 h2 k⟩

/-- the first records of a file that can be converted, and then the end of a formatted file, can be
converted, and give the first rows -/
theorem Accepts.cut {b : List LRec} (a : List LRec) {cur : Option String} {past : List LRec}
    {outs : List Added} {names : List String}
    (h : Accepts only sk e0 cur past (a ++ b) outs names) (he : "" ∉ a.map LRec.name)
    (hc : cur ≠ some "") :
    ∃ o1 o2 n1 n2, outs = o1 ++ o2 ∧ names = n1 ++ n2 ∧
      Accepts only sk e0 cur past (a ++ [endMark]) o1 n1 :=
  Accepts.cutBy rfl a h he hc fun _ _ _ _ _ ha => ha.atEnd

/-- what is known of the conversion that stops behind the record `r`, at the end of the file -/
structure EndsBehind (only : Option (List String)) (r : LRec) (outs : List Added) (c : Stop) :
    Prop where
  record : c.record = endMark
  opened : c.opened = false
  /-- a record that is converted belongs to a block that is not complete; IDENT is no block -/
  inside : HasTable r.name → Selected only r.name → NotVoid r →
    outs ≠ [] ∧ (c.inside = true ↔ r.name ≠ "IDENT")
  /-- other records are behind the last block -/
  outside : ¬ (HasTable r.name ∧ Selected only r.name) → c.inside = false

theorem EndsBehind.cons {r : LRec} {outs : List Added} {c : Stop}
    (h : EndsBehind only r outs c) (o : Added) : EndsBehind only r (o :: outs) c :=
  ⟨h.record, h.opened, fun h1 h2 h3 => ⟨by simp, (h.inside h1 h2 h3).2⟩, h.outside⟩

/-- the first records of a file that can be converted, without the last one of the file, are not
those of an unformatted file that can be converted -/
theorem Accepts.ends {r : LRec} {b : List LRec} (hname : r.name ≠ "")
    (hlast : HasTable r.name ∧ Selected only r.name ∨ HeaderOnly r)
    (hfin : ¬ (EndOfFile r ∧ Selected only r.name)) (hr : ¬ Short r)
    (hcut : b.head? = some endMark → ¬ Ragged r) :
    ∀ (a : List LRec) {cur : Option String} {past : List LRec} {outs : List Added}
      {names : List String}, Accepts only sk e0 cur past (a ++ r :: b) outs names →
      (∀ x ∈ a, ¬ (EndOfFile x ∧ Selected only x.name)) →
      (∀ nm, cur = some nm → nm ≠ "IDENT" ∧ Selected only nm) →
      ∃ o1 o2 c, outs = o1 ++ o2 ∧
        Refuses only sk e0 cur past (a ++ [r]) o1 .structError c ∧ EndsBehind only r o1 c ∧
        ∃ cur' past' names', Accepts only sk e0 cur' past' b o2 names'
  | [], cur, past, outs, names, h, _, hc => by
    rw [List.nil_append] at h
    have block : ∀ {o : Added} {past' : List LRec}, HasTable r.name → Selected only r.name →
        r.name ≠ "IDENT" →
        EndsBehind only r [o] ⟨endMark, past', true, false⟩ := fun h1 h2 h3 =>
      ⟨rfl, rfl, fun _ _ _ => ⟨by simp, by simp [h3]⟩, fun h => absurd ⟨h1, h2⟩ h⟩
    have over : ∀ {past' : List LRec}, (¬ (HasTable r.name ∧ Selected only r.name) ∨ Void r) →
        EndsBehind only r [] ⟨endMark, past', false, false⟩ := by
      refine fun h => ⟨rfl, rfl, fun h1 h2 h3 => ?_, fun _ => rfl⟩
      rcases h with h | h
      · exact absurd ⟨h1, h2⟩ h
      · obtain ⟨x, t, e1, e2⟩ := h3
        cases h with
        | one h' _ =>
          obtain ⟨rfl, _⟩ := List.cons.inj e1
          rw [h'] at e2; cases e2
        | two =>
          obtain ⟨rfl, _⟩ := List.cons.inj e1
          exact absurd e2 (by decide +kernel)
    have hnot : ¬ (HasTable r.name ∧ Selected only r.name) → HeaderOnly r :=
      fun h => hlast.resolve_left h
    generalize hg : r :: b = g at h
    cases h with
    | stop h1 h2 =>
      obtain ⟨rfl, rfl⟩ := List.cons.inj hg
      exact absurd ⟨h2, by rw [h2.1]; exact h1⟩ hfin
    | eof hm =>
      obtain ⟨rfl, rfl⟩ := List.cons.inj hg
      exact absurd hm hname
    | more h1 h2 h3 =>
      obtain ⟨rfl, rfl⟩ := List.cons.inj hg
      exact ⟨[_], _, _, rfl, .more h1 (h2.ahead hr hcut) (.ends (adds_table h2)),
        block (adds_table h2) (hc _ rfl).2 h1, _, _, _, h3⟩
    | first h1 h2 h3 h4 h5 h6 h7 =>
      obtain ⟨rfl, rfl⟩ := List.cons.inj hg
      exact ⟨[_], _, _, rfl, .first h1 h2 h3 h4 h5 (h6.ahead hr hcut) (.ends (adds_table h6)),
        block (adds_table h6) h3 h2, _, _, _, h7⟩
    | ident h1 h2 h3 h4 h5 =>
      obtain ⟨rfl, rfl⟩ := List.cons.inj hg
      exact ⟨[_], _, _, rfl, .identEnds (fun h => (hc _ h).1 h1) h1 h2 h3 (h4.ahead hr hcut),
        ⟨rfl, rfl, fun _ _ _ => ⟨by simp, by simp [h1]⟩, fun _ => rfl⟩, _, _, _, h5⟩
    | void h1 h2 h3 h4 h5 =>
      obtain ⟨rfl, rfl⟩ := List.cons.inj hg
      exact ⟨[], _, _, rfl, .passEnds (.void h1 h2 h3 h4) (.inr ⟨h1, h3, h4⟩), over (.inr h4), _, _, _, h5⟩
    | unselected h1 h2 h3 h4 h5 =>
      obtain ⟨rfl, rfl⟩ := List.cons.inj hg
      have hx : ¬ (HasTable r.name ∧ Selected only r.name) := fun h => h3 h.2
      exact ⟨[], _, _, rfl, .passEnds (.unselected h1 h2 h3 h4) (.inl (hnot hx)), over (.inl hx), _, _, _, h5⟩
    | unread h1 h2 h3 h4 h5 h6 h7 h8 h9 =>
      obtain ⟨rfl, rfl⟩ := List.cons.inj hg
      have hx : ¬ (HasTable r.name ∧ Selected only r.name) := fun h => h5 h.1
      exact ⟨[], _, _, rfl, .passEnds (.unread h1 h2 h3 h4 h5 h6 h7 h8) (.inl (hnot hx)),
        over (.inl hx), _, _, _, h9⟩
    | unreadMore h1 h2 h3 h4 h5 h6 =>
      obtain ⟨rfl, rfl⟩ := List.cons.inj hg
      have hx : ¬ (HasTable r.name ∧ Selected only r.name) := fun h => h4 h.1
      exact ⟨[], _, _, rfl, .passEnds (.unreadMore h1 h2 h3 h4 h5) (.inl (hnot hx)),
        over (.inl hx), _, _, _, h6⟩
    | recsize h1 h2 h3 h4 =>
      obtain ⟨rfl, rfl⟩ := List.cons.inj hg
      have hx : ¬ (HasTable r.name ∧ Selected only r.name) := fun h => (hasTable_ne h.1).2.2 h2.1
      exact ⟨[], _, _, rfl, .passEnds (.recsize h1 h2 h3) (.inl (hnot hx)), over (.inl hx), _, _, _, h4⟩
    | notEnd h1 h2 h3 =>
      obtain ⟨rfl, rfl⟩ := List.cons.inj hg
      have hx : ¬ (HasTable r.name ∧ Selected only r.name) := fun h => (hasTable_ne h.1).2.1 h2.1
      exact ⟨[], _, _, rfl, .passEnds (.notEnd h1 h2) (.inl (hnot hx)), over (.inl hx), _, _, _, h3⟩
  | x :: a, cur, past, outs, names, h, hend, hc => by
    have hend' : ∀ x ∈ a, ¬ (EndOfFile x ∧ Selected only x.name) :=
      fun y hy => hend y (List.mem_cons_of_mem _ hy)
    have hnext : (a ++ r :: b).head? = (a ++ [r]).head? := by cases a <;> rfl
    have hnone : ∀ nm, none = some nm → nm ≠ "IDENT" ∧ Selected only nm := by simp
    have hsome : ∀ {n : String}, n ≠ "IDENT" → Selected only n →
        ∀ nm, some n = some nm → nm ≠ "IDENT" ∧ Selected only nm := by
      rintro n h1 h2 nm ⟨⟩
      exact ⟨h1, h2⟩
    have hnt : ∀ {n : String}, ¬ HasTable n → n ≠ "IDENT" := by
      rintro n hn rfl
      exact hn (hasTable_iff.mpr (by decide +kernel))
    generalize hg : x :: a ++ r :: b = g at h
    cases h with
    | stop h1 h2 =>
      obtain ⟨rfl, rfl⟩ := List.cons.inj hg
      exact absurd ⟨h2, by rw [h2.1]; exact h1⟩ (hend _ List.mem_cons_self)
    | eof =>
      have := (List.cons.inj hg).2
      simp at this
    | more h1 h2 h3 =>
      obtain ⟨rfl, rfl⟩ := List.cons.inj hg
      obtain ⟨o1, o2, c, rfl, k, hk⟩ := Accepts.ends hname hlast hfin hr hcut a h3 hend' hc
      rw [List.append_eq, hnext] at h2
      exact ⟨_ :: o1, o2, c, rfl, .more h1 h2 k, hk.1.cons _, hk.2⟩
    | first h1 h2 h3 h4 h5 h6 h7 =>
      obtain ⟨rfl, rfl⟩ := List.cons.inj hg
      obtain ⟨o1, o2, c, rfl, k, hk⟩ := Accepts.ends hname hlast hfin hr hcut a h7 hend' (hsome h2 h3)
      rw [List.append_eq, hnext] at h6
      exact ⟨_ :: o1, o2, c, rfl, .first h1 h2 h3 h4 h5 h6 k, hk.1.cons _, hk.2⟩
    | ident h1 h2 h3 h4 h5 =>
      obtain ⟨rfl, rfl⟩ := List.cons.inj hg
      obtain ⟨o1, o2, c, rfl, k, hk⟩ := Accepts.ends hname hlast hfin hr hcut a h5 hend' hnone
      rw [List.append_eq, hnext] at h4
      exact ⟨_ :: o1, o2, c, rfl, .ident (fun h => (hc _ h).1 h1) h1 h2 h3 h4 k, hk.1.cons _, hk.2⟩
    | void h1 h2 h3 h4 h5 =>
      obtain ⟨rfl, rfl⟩ := List.cons.inj hg
      obtain ⟨o1, o2, c, e1, k, hk⟩ := Accepts.ends hname hlast hfin hr hcut a h5 hend' hnone
      exact ⟨o1, o2, c, e1, .pass (.void h1 h2 h3 h4) k, hk⟩
    | unselected h1 h2 h3 h4 h5 =>
      obtain ⟨rfl, rfl⟩ := List.cons.inj hg
      obtain ⟨o1, o2, c, e1, k, hk⟩ := Accepts.ends hname hlast hfin hr hcut a h5 hend' hnone
      exact ⟨o1, o2, c, e1, .pass (.unselected h1 h2 h3 h4) k, hk⟩
    | unread h1 h2 h3 h4 h5 h6 h7 h8 h9 =>
      obtain ⟨rfl, rfl⟩ := List.cons.inj hg
      obtain ⟨o1, o2, c, e1, k, hk⟩ := Accepts.ends hname hlast hfin hr hcut a h9 hend' (hsome (hnt h5) h7)
      exact ⟨o1, o2, c, e1, .pass (.unread h1 h2 h3 h4 h5 h6 h7 h8) k, hk⟩
    | unreadMore h1 h2 h3 h4 h5 h6 =>
      obtain ⟨rfl, rfl⟩ := List.cons.inj hg
      obtain ⟨o1, o2, c, e1, k, hk⟩ := Accepts.ends hname hlast hfin hr hcut a h6 hend' hc
      exact ⟨o1, o2, c, e1, .pass (.unreadMore h1 h2 h3 h4 h5) k, hk⟩
    | recsize h1 h2 h3 h4 =>
      obtain ⟨rfl, rfl⟩ := List.cons.inj hg
      obtain ⟨o1, o2, c, e1, k, hk⟩ := Accepts.ends hname hlast hfin hr hcut a h4 hend' hnone
      exact ⟨o1, o2, c, e1, .pass (.recsize h1 h2 h3) k, hk⟩
    | notEnd h1 h2 h3 =>
      obtain ⟨rfl, rfl⟩ := List.cons.inj hg
      obtain ⟨o1, o2, c, e1, k, hk⟩ := Accepts.ends hname hlast hfin hr hcut a h3 hend' hnone
      exact ⟨o1, o2, c, e1, .pass (.notEnd h1 h2) k, hk⟩

theorem unformatted_names {D : Dec} {z : Bytes} {f : List LRec} {bs : Bytes}
    (h : U.Encodes D sk z f bs) : ∀ r ∈ f, NameOK r.name ∨ r = stopMark := by
  induction h with
  | nil => simp
  | empty => simp
  | cut => simp
  | cons h1 _ _ _ _ ih =>
    intro r hr
    rcases List.mem_cons.mp hr with rfl | hr
    · exact .inl h1.1
    · exact ih r hr

theorem formatted_names {D : Dec} {z : Str} {f : List LRec} {t : Str}
    (h : T.Encodes D sk z f t) : ∀ r ∈ f, NameOK r.name ∨ r = endMark := by
  induction h with
  | nil => simp
  | eof => simp
  | cons h1 _ _ _ ih =>
    intro r hr
    rcases List.mem_cons.mp hr with rfl | hr
    · exact .inl h1.1
    · exact ih r hr

theorem formatted_named {D : Dec} {z : Str} {a b : List LRec} {t : Str}
    (h : T.Encodes D sk z (a ++ b) t) (he : endMark ∉ a) : "" ∉ a.map LRec.name := fun hm => by
  obtain ⟨x, hx, hn⟩ := List.mem_map.mp hm
  rcases formatted_names h x (by simp [hx]) with k | rfl
  · exact k.1 (by rw [hn]; rfl)
  · exact he hx

/-- the first records of an unformatted file are on the first bytes of it -/
theorem unformatted_first {D : Dec} {z : Bytes} {b : List LRec} :
    ∀ (a : List LRec) {bs : Bytes}, U.Encodes D sk z (a ++ b) bs →
      ∃ bs1 bs2, bs = bs1 ++ bs2 ∧ U.Encodes D sk [] a bs1
  | [], bs, _ => ⟨[], bs, rfl, .nil⟩
  | r :: a, bs, h => by
    generalize hg : r :: a ++ b = g at h
    cases h with
    | nil => cases hg
    | empty =>
      obtain ⟨rfl, hg'⟩ := List.cons.inj hg
      obtain ⟨rfl, -⟩ := List.append_eq_nil_iff.mp hg'
      exact ⟨_, z, rfl, .empty (t := _)⟩
    | cut =>
      obtain ⟨rfl, hg'⟩ := List.cons.inj hg
      obtain ⟨rfl, -⟩ := List.append_eq_nil_iff.mp hg'
      exact ⟨_, [], (List.append_nil _).symm, .cut rfl⟩
    | cons h1 h2 h3 h4 h5 =>
      obtain ⟨rfl, rfl⟩ := List.cons.inj hg
      obtain ⟨bs1, bs2, rfl, k⟩ := unformatted_first a h5
      refine ⟨_, bs2, (List.append_assoc _ _ _).symm, .cons h1 h2 h3 (fun e n hn => h4 e n ?_) k⟩
      cases a with
      | nil => simp at hn
      | cons x a => exact hn

/-- the first records of a formatted file are on the first lines of it -/
theorem formatted_first {D : Dec} {z : Str} {b : List LRec} (hb : b ≠ []) :
    ∀ (a : List LRec) {t : Str}, T.Encodes D sk z (a ++ b) t → endMark ∉ a →
      (∀ r ∈ a.getLast?, sk r = true → ∃ x xs n, r.head = x :: xs ∧ x.toInt = .ok n) →
      ∃ t1 t2, t = t1 ++ t2 ∧ T.Encodes D sk [] (a ++ [endMark]) t1
  | [], t, _, _, _ => ⟨[], t, rfl, .eof rfl⟩
  | r :: a, t, h, he, hs => by
    have he' : endMark ∉ a := fun h => he (List.mem_cons_of_mem _ h)
    generalize hg : r :: a ++ b = g at h
    cases h with
    | nil => cases hg
    | eof =>
      obtain ⟨rfl, _⟩ := List.cons.inj hg
      exact absurd List.mem_cons_self he
    | cons h1 h2 h4 h5 =>
      obtain ⟨rfl, rfl⟩ := List.cons.inj hg
      cases a with
      | nil =>
        obtain ⟨t1, t2, rfl, k⟩ := formatted_first hb [] h5 he' (by simp)
        refine ⟨_, t2, (List.append_assoc _ _ _).symm, .cons h1 h2 (fun e n hn => ?_) k⟩
        obtain ⟨x, xs, n', e1, e2⟩ := hs r (by simp) e
        obtain rfl : endMark = n := by simpa using hn
        obtain ⟨y, b, rfl⟩ := List.exists_cons_of_ne_nil hb
        cases h4 e y (by simp) with
        | negative h0 t k1 k2 k3 k4 => exact .negative h0 t k1 k2 k3 k4
        | minusFive h0 t c fs k1 k2 k3 k4 k5 => exact .minusFive h0 t c fs k1 k2 k3 k4 k5
        | text h0 h1 h2 h3 t p q k1 k2 k3 k4 k5 k6 =>
          exact .text h0 h1 h2 h3 t p q k1 k2 k3 k4 k5 k6
        | blankLed h0 t k1 k2 k3 k4 k5 => exact .blankLed h0 t k1 k2 k3 k4 k5
        | alone h0 t k1 k2 k3 k4 k5 =>
          rw [k1] at e1
          obtain ⟨rfl, rfl⟩ := List.cons.inj e1
          exact .last h0 t n' k1 k2 k3 k4 e2 rfl
        | last h0 t m k1 k2 k3 k4 k5 k6 => exact .last h0 t m k1 k2 k3 k4 k5 rfl
      | cons x a =>
        obtain ⟨t1, t2, rfl, k⟩ := formatted_first hb (x :: a) h5 he' (by simpa using hs)
        exact ⟨_, t2, (List.append_assoc _ _ _).symm, .cons h1 h2 (fun e n hn => h4 e n hn) k⟩

variable {D : Dec} {pl : Place} {s : Int} {h0 : H5} {st : St} {lev dt : String}
  {ix : Option (Option Int)}

/-- **C76** A formatted file that ends early, behind a record, is converted: its lines are the first
lines of the file, its records get the rows they get from the whole file, and nothing is raised. -/
theorem formatted_cut {a b : List LRec} {outs : List Added} {names : List String} {z t : Str}
    (hacc : Accepts only sk e0 none [] (a ++ b) outs names) (henc : T.Encodes D sk z (a ++ b) t)
    (hb : b ≠ []) (he : endMark ∉ a)
    (hskip : ∀ r ∈ a.getLast?, sk r = true → ∃ x xs n, r.head = x :: xs ∧ x.toInt = .ok n) :
    ∃ t1 t2 o1 o2 n1 n2, t = t1 ++ t2 ∧ outs = o1 ++ o2 ∧ names = n1 ++ n2 ∧
      T.Encodes D sk [] (a ++ [endMark]) t1 ∧
      Accepts only sk e0 none [] (a ++ [endMark]) o1 n1 ∧
      (s ≠ 0 → GivesType s o1 → pl.Allows s o1 → pl.In h0 →
        (∀ l ∈ layouts, h0.tabs (pl.path s, l.name) = none) → Classified o1 pl lev dt ix →
        Clean pl e0 h0 st → ∀ B, ∃ st', parseSource D B only st (.formatted t1) = .ok st' ∧
          Converted o1 n1 pl s h0 lev dt ix st'.h5) := by
  obtain ⟨o1, o2, n1, n2, e1, e2, k⟩ := Accepts.cut a hacc (formatted_named henc he) (by simp)
  obtain ⟨t1, t2, e3, k1⟩ := formatted_first hb a henc he hskip
  exact ⟨t1, t2, o1, o2, n1, n2, e3, e1, e2, k1, k, fun h1 h2 h3 h4 h5 h6 h7 B =>
    Job.source ⟨k, h1, h2, h3, h4, h5, h6⟩ h7 B (.formatted k1)⟩

/-- **C76** An unformatted file that ends early is refused with `struct.error`, although its bytes
are the first bytes of a file that is converted.  It leaves the tables of the records in front of
the last block, and of the last block what was written before.  The last record is one that is
converted, or consists of its header. -/
theorem unformatted_cut {a b : List LRec} {r : LRec} {outs : List Added} {names : List String}
    {z bs : Bytes} (hacc : Accepts only sk e0 none [] (a ++ r :: b) outs names)
    (henc : U.Encodes D sk z (a ++ r :: b) bs)
    (hlast : HasTable r.name ∧ Selected only r.name ∨ HeaderOnly r) (hr : ¬ Short r)
    (hend : ∀ x ∈ a ++ [r], ¬ (EndOfFile x ∧ Selected only x.name)) :
    ∃ bs1 bs2 o1 o2 c, bs = bs1 ++ bs2 ∧ outs = o1 ++ o2 ∧
      U.Encodes D sk [] (a ++ [r]) bs1 ∧ EndsBehind only r o1 c ∧
      Refuses only sk e0 none [] (a ++ [r]) o1 .structError c ∧
      (s ≠ 0 → GivesType s o1 → pl.Allows s o1 → pl.In h0 →
        (∀ l ∈ layouts, h0.tabs (pl.path s, l.name) = none) → Clean pl e0 h0 st → ∀ B k,
        parseSource D B only st (.unformatted (k :: bs1)) = .error .structError ∧
        LeftBehind B c o1 e0 h0 (pl.path s) (sourceLeft D B only st (.unformatted (k :: bs1))).h5
          (sourceLeft D B only st (.unformatted (k :: bs1))).elem) := by
  have hg : b.head? = some endMark → ¬ Ragged r := fun h => by
    obtain ⟨rs, rfl⟩ := List.head?_eq_some_iff.mp h
    have := unformatted_names henc endMark (by simp)
    rcases this with h | h
    · exact absurd rfl h.1
    · cases h
  have hname : r.name ≠ "" := by
    rcases unformatted_names henc r (by simp) with h | rfl
    · exact fun e => h.1 (by rw [e]; rfl)
    · rcases hlast with h | h
      · exact (hasTable_ne h.1).1
      · exact absurd rfl h.2.2.1
  obtain ⟨o1, o2, c, e1, k, k1, -⟩ := Accepts.ends hname hlast (hend r (by simp)) hr hg a hacc
    (fun x hx => hend x (by simp [hx])) (by simp)
  obtain ⟨bs1, bs2, e3, k4⟩ := unformatted_first (b := b) (a ++ [r]) (by simpa using henc)
  exact ⟨bs1, bs2, o1, o2, c, e3, e1, k4, k1, k, fun h1 h2 h3 h4 h5 h6 B _ =>
    ⟨wrong_record_refused k h1 h2 h3 (k.fits _) h4 h5 h6 B (.ends k4),
      wrong_record_left k h1 h2 h3 (k.fits _) h4 h5 h6 B (.ends k4)⟩⟩

end

namespace Demo

/-- identification and two nodes -/
def cutFile : List LRec := file.take 3

/-- what is added to the tables -/
def cutOuts : List Added := outs.take 3

theorem cutSplit : file = cutFile ++ file.drop 3 := (List.take_append_drop 3 file).symm

theorem notShort {r : LRec} (h : (optionalTypes.all fun t => t.1 != r.name) = true) : ¬ Short r := by
  rintro ⟨n, m, hm, -⟩
  have := List.all_eq_true.mp h _ hm
  simp at this

/-- the hypotheses of `formatted_cut` and of `unformatted_cut` are met -/
example : (∃ t1 t2 o1 o2 n1 n2, text file = t1 ++ t2 ∧ outs = o1 ++ o2 ∧ names = n1 ++ n2 ∧
      T.Encodes Dec.std (fun _ => false) [] (cutFile ++ [endMark]) t1) ∧
    ∃ bs1 bs2 o1 o2, bytes file = bs1 ++ bs2 ∧ outs = o1 ++ o2 ∧ o1 ≠ [] ∧
      U.Encodes Dec.std (fun _ => false) [] cutFile bs1 := by
  constructor
  · obtain ⟨t1, t2, o1, o2, n1, n2, k1, k2, k3, k4, -⟩ := formatted_cut (D := Dec.std) (z := [])
      (a := cutFile) (b := file.drop 3) (s := 5) (pl := .top "" "T") (h0 := {}) (st := {})
      (lev := "FIRSTLEVEL") (dt := "STRUCTURAL") (ix := none)
      (cutSplit ▸ accepted fun _ => false) (encodesT (f := file) (by decide +kernel))
      (by decide +kernel) (by decide +kernel) (fun _ _ h => by cases h)
    exact ⟨t1, t2, o1, o2, n1, n2, k1, k2, k3, k4⟩
  · obtain ⟨bs1, bs2, o1, o2, c, k1, k2, k3, k4, -⟩ := unformatted_cut (D := Dec.std) (z := [])
      (a := file.take 2) (r := file[2]) (b := file.drop 3) (s := 5) (pl := .top "" "T") (h0 := {})
      (st := {}) (accepted fun _ => false) (encodesU (f := file) (by decide +kernel))
      (.inl ⟨hasTable_iff.mpr (by decide +kernel), trivial⟩)
      (notShort (by decide +kernel)) (by
        intro x hx h
        have : ∀ x ∈ file.take 2 ++ [file[2]], x.name ≠ "IEND" := by decide +kernel
        exact this x hx h.1.1)
    exact ⟨bs1, bs2, o1, o2, k1, k2, (k4.inside (hasTable_iff.mpr (by decide +kernel)) trivial
      ⟨_, _, rfl, by decide +kernel⟩).1, k3⟩

theorem cutAcceptedBy (sk : LRec → Bool) {m : LRec} (hm : m.name = "") :
    Accepts none sk (fun _ => none) none [] (cutFile ++ [m]) cutOuts ["IDENT", "GNODE"] := by
  have nv : ∀ {n : String} {x : PyF} {t : List PyF} {p sk v d}, x.ltZero = false →
      NotVoid ⟨n, x :: t, p, sk, v, d⟩ := fun h => ⟨_, _, rfl, h⟩
  have int : ∀ {x : PyF} (n : Int), x.toInt = .ok n → HasInt x n := fun n h => toInt_hasInt h
  refine .ident rfl trivial (nv (by decide +kernel)) ?_ ?_
  · exact ⟨_, lay "IDENT", .ident (int 1 (by decide +kernel)) (int 5 (by decide +kernel))
      (int 3 (by decide +kernel)), by decide +kernel, rfl, rfl, rfl, by stored, by stored⟩
  refine .first (by simp) (by decide) trivial (nv (by decide +kernel))
    (fun h => absurd h (by decide)) ?_ ?_
  · exact ⟨_, lay "GNODE", .fixed (n := 4) (k := 0) (by decide) rfl (by simp), by decide +kernel,
      rfl, rfl, rfl, by stored, by stored⟩
  refine more rfl (by decide) ?_ ?_
  · exact ⟨_, lay "GNODE", .fixed (n := 4) (k := 0) (by decide) rfl (by simp), by decide +kernel,
      rfl, rfl, rfl, by stored, by stored⟩
  exact .eof hm (by decide)

theorem cutAccepted (sk : LRec → Bool) : Accepts none sk (fun _ => none) none []
    (cutFile ++ [endMark]) cutOuts ["IDENT", "GNODE"] := cutAcceptedBy sk rfl

theorem encodesCut {f : List LRec} (h : f.all okT = true) :
    T.Encodes Dec.std (fun _ => false) [] (f ++ [endMark]) (text f) := by
  have := encodesT_append h (.eof rfl)
  rwa [List.append_nil] at this

/-- both nodes are converted although the formatted file ends behind them -/
example : ∃ st', parseSource Dec.std 10000 none { g := { filetypeid := "T" } }
      (.formatted (text cutFile)) = .ok st' ∧
    st'.h5.tabs (["T5"], "GNODE") =
      some ((contents (lay "GNODE") cutOuts).table (lay "GNODE")) := by
  have job : Job none (fun _ => false) (fun _ => none) (cutFile ++ [endMark]) cutOuts
      ["IDENT", "GNODE"] (.top "" "T") 5 {} "FIRSTLEVEL" "STRUCTURAL" none :=
    { accepted := cutAccepted _
      sel := by decide
      gives := ⟨_, rfl, .inl ⟨rfl, rfl⟩⟩
      allows := by
        intro o ho hn
        exfalso
        revert o
        decide +kernel
      hier := trivial
      free := fun _ _ => rfl
      classified := .modAlone (by decide) (by decide +kernel) }
  obtain ⟨st', k1, k2⟩ := job.source clean 10000 (.formatted (encodesCut (by decide +kernel)))
  exact ⟨st', k1, k2.tables.1 (lay "GNODE") (by decide +kernel) (by decide +kernel)⟩

/-- the unformatted file is refused; of the nodes nothing is written, the table is there -/
example : parseSource Dec.std 10000 none { g := { filetypeid := "T" } }
      (.unformatted (75 :: bytes cutFile)) = .error .structError ∧
    (sourceLeft Dec.std 10000 none { g := { filetypeid := "T" } }
      (.unformatted (75 :: bytes cutFile))).h5.tabs (["T5"], "GNODE") =
      some ((contents (lay "GNODE") []).table (lay "GNODE")) := by
  have enc : EncodedTo Dec.std (fun _ => false) cutFile .structError
    (.unformatted (75 :: bytes cutFile)) := .ends (encodesU (by decide +kernel))
  have h : Refuses none (fun _ => false) (fun _ => none) none [] cutFile cutOuts .structError
      ⟨endMark, cutFile.reverse, true, false⟩ := by
    have nv : ∀ {n : String} {x : PyF} {t : List PyF} {p sk v d}, x.ltZero = false →
        NotVoid ⟨n, x :: t, p, sk, v, d⟩ := fun h => ⟨_, _, rfl, h⟩
    have int : ∀ {x : PyF} (n : Int), x.toInt = .ok n → HasInt x n := fun n h => toInt_hasInt h
    refine .ident (by simp) rfl trivial (nv (by decide +kernel)) ?_ ?_
    · exact ⟨_, lay "IDENT", .ident (int 1 (by decide +kernel)) (int 5 (by decide +kernel))
        (int 3 (by decide +kernel)), by decide +kernel, rfl, rfl, rfl, by stored, by stored⟩
    refine .first (by simp) (by decide) trivial (nv (by decide +kernel))
      (fun h => absurd h (by decide)) ?_ ?_
    · exact ⟨_, lay "GNODE", .fixed (n := 4) (k := 0) (by decide) rfl (by simp), by decide +kernel,
        rfl, rfl, rfl, by stored, by stored⟩
    refine .more (r := file[2]) (by decide) ?_ (.ends (hasTable_iff.mpr (by decide +kernel)))
    exact ⟨_, lay "GNODE", .fixed (n := 4) (k := 0) (by decide) rfl (by simp), by decide +kernel,
      rfl, rfl, rfl, by stored, by stored⟩
  have ha : Place.Allows (.top "" "T") 5 cutOuts := by
    intro o ho hn
    exfalso
    revert o
    decide +kernel
  have hg : GivesType 5 cutOuts := ⟨_, rfl, .inl ⟨rfl, rfl⟩⟩
  have hl := wrong_record_left h (by decide) hg ha (h.fits _) trivial (fun _ _ => rfl) clean 10000 enc
  exact ⟨wrong_record_refused h (by decide) hg ha (h.fits _) trivial (fun _ _ => rfl) clean 10000 enc,
    hl.tables (lay "GNODE") (by decide +kernel) (.inl (by decide +kernel))⟩

end Demo

end Verif.Parse
