import Verif.Parse.TraceSpec
import Verif.Parse.FileTheorem
/-!
# Rows of the tables and records of the file
-/

namespace Verif.Parse
open Verif Verif.Seq

theorem Accepts.trace {only : Option (List String)} {sk : LRec → Bool} {e0 : Int → Option Int}
    {cur : Option String} {past f : List LRec} {outs : List Added} {names : List String}
    (h : Accepts only sk e0 cur past f outs names) :
    ∃ tr : List Event, (tr.map (·.record)).Sublist f ∧
      List.Forall₂ (fun ev o => Adds e0 ev.past ev.next o.first ev.record o) tr outs := by
  induction h with
  | stop => exact ⟨[], List.nil_sublist _, .nil⟩
  | eof => exact ⟨[], List.nil_sublist _, .nil⟩
  | @more past r rest o outs names hn ha _ ih =>
    obtain ⟨tr, h1, h2⟩ := ih
    refine ⟨⟨past, rest.head?, r⟩ :: tr, h1.cons_cons _, .cons ?_ h2⟩
    rw [adds_first ha]; exact ha
  | @first cur past r rest o outs names _ _ _ _ _ ha _ ih =>
    obtain ⟨tr, h1, h2⟩ := ih
    refine ⟨⟨past, rest.head?, r⟩ :: tr, h1.cons_cons _, .cons ?_ h2⟩
    rw [adds_first ha]; exact ha
  | @ident cur past r rest o outs names _ _ _ ha _ ih =>
    obtain ⟨tr, h1, h2⟩ := ih
    refine ⟨⟨past, rest.head?, r⟩ :: tr, h1.cons_cons _, .cons ?_ h2⟩
    rw [adds_first ha]; exact ha
  | void _ _ _ _ _ ih => obtain ⟨tr, h1, h2⟩ := ih; exact ⟨tr, h1.cons _, h2⟩
  | unselected _ _ _ _ _ ih => obtain ⟨tr, h1, h2⟩ := ih; exact ⟨tr, h1.cons _, h2⟩
  | unread _ _ _ _ _ _ _ _ _ ih => obtain ⟨tr, h1, h2⟩ := ih; exact ⟨tr, h1.cons _, h2⟩
  | unreadMore _ _ _ _ _ _ ih => obtain ⟨tr, h1, h2⟩ := ih; exact ⟨tr, h1.cons _, h2⟩
  | recsize _ _ _ _ ih => obtain ⟨tr, h1, h2⟩ := ih; exact ⟨tr, h1.cons _, h2⟩
  | notEnd _ _ _ ih => obtain ⟨tr, h1, h2⟩ := ih; exact ⟨tr, h1.cons _, h2⟩

theorem Void.isVoid {r : LRec} (h : Void r) : isVoid r = true := by
  cases h with
  | one h => exact h
  | two => rfl

theorem NotVoid.isVoid {r : LRec} (h : NotVoid r) : isVoid r = false := by
  obtain ⟨x, t, h1, h2⟩ := h
  unfold Parse.isVoid
  rw [h1]
  exact h2

/-- the records that get a row, each with whether it goes on with the block before it -/
def flagged (block : Option String) (past : List LRec) : List LRec → List (Event × Bool)
  | [] => []
  | r :: rest =>
    if r.name = "IEND" ∧ r.head.head? = some (.rat 0) then []
    else if r.name ∈ layouts.map (·.name) then
      if isVoid r = true ∧ block ≠ some r.name then flagged none past rest
      else (⟨past, rest.head?, r⟩, decide (block = some r.name)) ::
        flagged (if r.name = "IDENT" then none else some r.name) (r :: past) rest
    else flagged none past rest

theorem flagged_events (f : List LRec) : ∀ (block : Option String) (past : List LRec),
    (flagged block past f).map Prod.fst = eventsAfter block past f := by
  induction f with
  | nil => intro _ _; rfl
  | cons r rest ih =>
    intro block past
    unfold flagged eventsAfter
    split_ifs <;> simp [ih]

/-- without a selection, every record of a type with a table is added, but for void records that do
not continue a block -/
theorem Accepts.complete {sk : LRec → Bool} {e0 : Int → Option Int}
    {cur : Option String} {past f : List LRec} {outs : List Added} {names : List String}
    (h : Accepts none sk e0 cur past f outs names) :
    ∀ block : Option String, (∀ n, HasTable n → (block = some n ↔ cur = some n)) →
    cur ≠ some "IDENT" →
    List.Forall₂ (fun (ev : Event × Bool) o => Adds e0 ev.1.past ev.1.next (!ev.2) ev.1.record o)
      (flagged block past f) outs := by
  have hname : ∀ r : LRec, r.name ≠ "IEND" → ¬ (r.name = "IEND" ∧ r.head.head? = some (.rat 0)) :=
    fun r h1 h2 => h1 h2.1
  have table : ∀ {past : List LRec} {next : Option LRec} {b : Bool} {r : LRec} {o : Added}
      {rest : List LRec} {block : Option String}, Adds e0 past next b r o →
      (Parse.isVoid r = false ∨ block = some r.name) →
      flagged block past (r :: rest) = (⟨past, rest.head?, r⟩, decide (block = some r.name)) ::
        flagged (if r.name = "IDENT" then none else some r.name) (r :: past) rest := by
    intro past next b r o rest block ha hb
    have ht := adds_table ha
    rw [flagged, if_neg (hname r (hasTable_ne ht).2.1), if_pos (hasTable_iff.mp ht), if_neg]
    rintro ⟨h1, h2⟩
    rcases hb with hb | hb
    · rw [h1] at hb; cases hb
    · exact h2 hb
  have skip : ∀ (block : Option String) (past : List LRec) (r : LRec) (rest : List LRec),
      ¬ (r.name = "IEND" ∧ r.head.head? = some (.rat 0)) → ¬ HasTable r.name →
      flagged block past (r :: rest) = flagged none past rest := by
    intro block past r rest h1 h2
    rw [flagged, if_neg h1, if_neg fun h3 => h2 (hasTable_iff.mpr h3)]
  have noTable : ∀ {n : String}, n = "IEND" ∨ n = "IRECSIZE" → ¬ HasTable n := by
    intro n hn ht
    rcases hn with rfl | rfl
    · exact (hasTable_ne ht).2.1 rfl
    · exact (hasTable_ne ht).2.2 rfl
  have unread : ∀ {m : String}, ¬ HasTable m → ∀ n, HasTable n → (none = some n ↔ some m = some n) := by
    intro m hm n hn
    simp only [reduceCtorEq, Option.some.injEq, false_iff]
    rintro rfl
    exact hm hn
  induction h with
  | stop _ he =>
    intro block _ _
    obtain ⟨h1, x, t, h2, h3⟩ := he
    simp [flagged, h1, h2, h3]
  | eof hm =>
    intro block _ _
    rw [skip _ _ _ _ (fun h => absurd (hm.symm.trans h.1) (by decide)) (by rw [hm]; exact no_table_empty)]
    exact .nil
  | more hn ha _ ih =>
    intro block hb _
    have hbl := (hb _ (adds_table ha)).mpr rfl
    rw [table ha (.inr hbl), if_neg hn]
    exact .cons (by simpa [hbl] using ha) (ih _ (fun _ _ => Iff.rfl) (by simpa using hn))
  | first hcur hn _ hv _ ha _ ih =>
    intro block hb _
    have hbl := mt (hb _ (adds_table ha)).mp hcur
    rw [table ha (.inl hv.isVoid), if_neg hn]
    exact .cons (by simpa [hbl] using ha) (ih _ (fun _ _ => Iff.rfl) (by simpa using hn))
  | ident hn _ hv ha _ ih =>
    intro block hb hid
    have hbl := mt (hb _ (adds_table ha)).mp (by rw [hn]; exact hid)
    rw [table ha (.inl hv.isVoid), if_pos hn]
    exact .cons (by simpa [hbl] using ha) (ih _ (fun _ _ => Iff.rfl) (by simp))
  | @void cur past r rest outs names hcur _ _ hvoid _ ih =>
    intro block hb _
    have hend : ¬ (r.name = "IEND" ∧ r.head.head? = some (.rat 0)) := by
      rintro ⟨_, hx⟩
      have := hvoid.isVoid
      unfold Parse.isVoid at this
      cases hh : r.head with
      | nil => rw [hh] at this; cases this
      | cons x t =>
        rw [hh] at this hx
        simp only [List.head?_cons, Option.some.injEq] at hx
        subst hx
        exact absurd (show (PyF.rat 0).ltZero = true from this) (by decide)
    by_cases ht : HasTable r.name
    · rw [flagged, if_neg hend, if_pos (hasTable_iff.mp ht),
        if_pos ⟨hvoid.isVoid, mt (hb _ ht).mp hcur⟩]
      exact ih _ (fun _ _ => Iff.rfl) (by simp)
    · rw [skip _ _ _ _ hend ht]
      exact ih _ (fun _ _ => Iff.rfl) (by simp)
  | unselected _ _ hs _ _ ih => exact absurd trivial hs
  | unread _ _ h1 _ ht _ _ _ _ ih =>
    intro block _ _
    rw [skip _ _ _ _ (hname _ h1) ht]; exact ih _ (unread ht) fun h => ht (hasTable_iff.mpr (by rw [Option.some.inj h]; decide +kernel))
  | unreadMore _ h1 _ ht _ _ ih =>
    intro block _ _
    rw [skip _ _ _ _ (hname _ h1) ht]; exact ih _ (unread ht) fun h => ht (hasTable_iff.mpr (by rw [Option.some.inj h]; decide +kernel))
  | recsize _ hr _ _ ih =>
    intro block _ _
    rw [skip _ _ _ _ (hname _ (by rw [hr.1]; decide)) (noTable (.inr hr.1))]
    exact ih _ (fun _ _ => Iff.rfl) (by simp)
  | @notEnd _ _ r _ _ _ _ hr _ ih =>
    intro block _ _
    have : ¬ (r.name = "IEND" ∧ r.head.head? = some (.rat 0)) := by
      rintro ⟨_, hx⟩
      obtain ⟨_, _, _, y, u, hy, hne, _⟩ := hr
      rw [hy] at hx
      simp only [List.head?_cons, Option.some.injEq] at hx
      exact hne hx
    rw [skip _ _ _ _ this (noTable (.inl hr.1))]
    exact ih _ (fun _ _ => Iff.rfl) (by simp)

theorem Accepts.events {sk : LRec → Bool} {e0 : Int → Option Int} {f : List LRec}
    {outs : List Added} {names : List String} (h : Accepts none sk e0 none [] f outs names) :
    List.Forall₂ (fun ev o => Adds e0 ev.past ev.next o.first ev.record o) (events [] f) outs :=
  (by
    have h' := h.complete none (fun _ _ => Iff.rfl) (by simp)
    have he : Parse.events [] f = (flagged none [] f).map Prod.fst := (flagged_events f none []).symm
    rw [he, List.forall₂_map_left_iff]
    exact List.Forall₂.imp (fun ev o ha => by rw [adds_first ha]; exact ha) h')

/-- without a selection these are all records -/
theorem selectedAfter_none (f : List LRec) : ∀ (block : Option String) (past : List LRec),
    selectedAfter none block past f = eventsAfter block past f := by
  induction f with
  | nil => intro _ _; rfl
  | cons r rest ih =>
    intro block past
    unfold selectedAfter eventsAfter
    rw [if_neg (by simp [Selected])]
    simp only [ih]

theorem selectedEvents_none (f : List LRec) : selectedEvents none f = events [] f :=
  selectedAfter_none f none []

theorem selectedAfter_sublist (only : Option (List String)) (f : List LRec) :
    ∀ (block : Option String) (past : List LRec),
      ((selectedAfter only block past f).map Event.record).Sublist f := by
  induction f with
  | nil => intro _ _; exact List.nil_sublist _
  | cons r rest ih =>
    intro block past
    unfold selectedAfter
    split_ifs
    · exact List.nil_sublist _
    all_goals first | exact (ih _ _).cons_cons _ | exact (ih _ _).cons _

/-- every record of a selected type with a table is added, but for void records that do not continue
a block -/
theorem Accepts.selectedAfter {only : Option (List String)} {sk : LRec → Bool}
    {e0 : Int → Option Int} {cur : Option String} {past f : List LRec} {outs : List Added}
    {names : List String} (h : Accepts only sk e0 cur past f outs names) :
    ∀ block : Option String, (∀ n, HasTable n → (block = some n ↔ cur = some n)) →
    cur ≠ some "IDENT" → (∀ n, cur = some n → Selected only n) →
    List.Forall₂ (fun (ev : Event) o => Adds e0 ev.past ev.next o.first ev.record o)
      (Parse.selectedAfter only block past f) outs := by
  have hname : ∀ r : LRec, r.name ≠ "IEND" → ¬ (r.name = "IEND" ∧ r.head.head? = some (.rat 0)) :=
    fun r h1 h2 => h1 h2.1
  have table : ∀ {past : List LRec} {next : Option LRec} {b : Bool} {r : LRec} {o : Added}
      {rest : List LRec} {block : Option String}, Selected only r.name → Adds e0 past next b r o →
      (Parse.isVoid r = false ∨ block = some r.name) →
      Parse.selectedAfter only block past (r :: rest) = ⟨past, rest.head?, r⟩ ::
        Parse.selectedAfter only (if r.name = "IDENT" then none else some r.name) (r :: past) rest := by
    intro past next b r o rest block hs ha hb
    have ht := adds_table ha
    rw [Parse.selectedAfter, if_neg (not_not.mpr hs), if_neg (hname r (hasTable_ne ht).2.1),
      if_pos (hasTable_iff.mp ht), if_neg]
    rintro ⟨h1, h2⟩
    rcases hb with hb | hb
    · rw [h1] at hb; cases hb
    · exact h2 hb
  have skip : ∀ (block : Option String) (past : List LRec) (r : LRec) (rest : List LRec),
      ¬ (r.name = "IEND" ∧ r.head.head? = some (.rat 0)) → ¬ HasTable r.name →
      Parse.selectedAfter only block past (r :: rest) = Parse.selectedAfter only none past rest := by
    intro block past r rest h1 h2
    rw [Parse.selectedAfter, if_neg h1, if_neg fun h3 => h2 (hasTable_iff.mpr h3), ite_self]
  have noTable : ∀ {n : String}, n = "IEND" ∨ n = "IRECSIZE" → ¬ HasTable n := by
    intro n hn ht
    rcases hn with rfl | rfl
    · exact (hasTable_ne ht).2.1 rfl
    · exact (hasTable_ne ht).2.2 rfl
  have unread : ∀ {m : String}, ¬ HasTable m → ∀ n, HasTable n → (none = some n ↔ some m = some n) := by
    intro m hm n hn
    simp only [reduceCtorEq, Option.some.injEq, false_iff]
    rintro rfl
    exact hm hn
  have add : ∀ {past : List LRec} {next : Option LRec} {b : Bool} {r : LRec} {o : Added},
      Adds e0 past next b r o → Adds e0 past next o.first r o := by
    intro past next b r o ha
    rw [adds_first ha]; exact ha
  induction h with
  | stop hs he =>
    intro block _ _ _
    obtain ⟨h1, x, t, h2, h3⟩ := he
    rw [Parse.selectedAfter, if_neg (by rw [h1]; exact not_not.mpr hs),
      if_pos ⟨h1, by rw [h2, List.head?_cons, h3]⟩]
    exact .nil
  | eof hm =>
    intro block _ _ _
    rw [skip _ _ _ _ (fun h => absurd (hm.symm.trans h.1) (by decide)) (by rw [hm]; exact no_table_empty)]
    exact .nil
  | more hn ha _ ih =>
    intro block hb _ hs
    have hbl := (hb _ (adds_table ha)).mpr rfl
    rw [table (hs _ rfl) ha (.inr hbl), if_neg hn]
    exact .cons (add ha) (ih _ (fun _ _ => Iff.rfl) (by simpa using hn) hs)
  | first hcur hn hs hv _ ha _ ih =>
    intro block hb _ _
    rw [table hs ha (.inl hv.isVoid), if_neg hn]
    exact .cons (add ha) (ih _ (fun _ _ => Iff.rfl) (by simpa using hn)
      fun n h => by rw [← Option.some.inj h]; exact hs)
  | ident hn hs hv ha _ ih =>
    intro block hb hid _
    rw [table hs ha (.inl hv.isVoid), if_pos hn]
    exact .cons (add ha) (ih _ (fun _ _ => Iff.rfl) (by simp) (by simp))
  | @void cur past r rest outs names hcur _ hs hvoid _ ih =>
    intro block hb _ _
    have hend : ¬ (r.name = "IEND" ∧ r.head.head? = some (.rat 0)) := by
      rintro ⟨_, hx⟩
      have := hvoid.isVoid
      unfold Parse.isVoid at this
      cases hh : r.head with
      | nil => rw [hh] at this; cases this
      | cons x t =>
        rw [hh] at this hx
        simp only [List.head?_cons, Option.some.injEq] at hx
        subst hx
        exact absurd (show (PyF.rat 0).ltZero = true from this) (by decide)
    by_cases ht : HasTable r.name
    · rw [Parse.selectedAfter, if_neg (not_not.mpr hs), if_neg hend, if_pos (hasTable_iff.mp ht),
        if_pos ⟨hvoid.isVoid, mt (hb _ ht).mp hcur⟩]
      exact ih _ (fun _ _ => Iff.rfl) (by simp) (by simp)
    · rw [skip _ _ _ _ hend ht]
      exact ih _ (fun _ _ => Iff.rfl) (by simp) (by simp)
  | unselected _ _ hs _ _ ih =>
    intro block _ _ _
    rw [Parse.selectedAfter, if_pos hs]
    exact ih _ (fun _ _ => Iff.rfl) (by simp) (by simp)
  | unread _ _ h1 _ ht _ hs _ _ ih =>
    intro block _ _ _
    rw [skip _ _ _ _ (hname _ h1) ht]
    exact ih _ (unread ht)
      (fun h => ht (hasTable_iff.mpr (by rw [Option.some.inj h]; decide +kernel)))
      fun n h => by rw [← Option.some.inj h]; exact hs
  | unreadMore _ h1 _ ht _ _ ih =>
    intro block _ _ hs
    rw [skip _ _ _ _ (hname _ h1) ht]
    exact ih _ (unread ht)
      (fun h => ht (hasTable_iff.mpr (by rw [Option.some.inj h]; decide +kernel))) hs
  | recsize _ hr _ _ ih =>
    intro block _ _ _
    rw [skip _ _ _ _ (hname _ (by rw [hr.1]; decide)) (noTable (.inr hr.1))]
    exact ih _ (fun _ _ => Iff.rfl) (by simp) (by simp)
  | @notEnd _ _ r _ _ _ _ hr _ ih =>
    intro block _ _ _
    have : ¬ (r.name = "IEND" ∧ r.head.head? = some (.rat 0)) := by
      rintro ⟨_, hx⟩
      obtain ⟨_, _, _, y, u, hy, hne, _⟩ := hr
      rw [hy] at hx
      simp only [List.head?_cons, Option.some.injEq] at hx
      exact hne hx
    rw [skip _ _ _ _ this (noTable (.inl hr.1))]
    exact ih _ (fun _ _ => Iff.rfl) (by simp) (by simp)

theorem Accepts.selectedEvents {only : Option (List String)} {sk : LRec → Bool}
    {e0 : Int → Option Int} {f : List LRec} {outs : List Added} {names : List String}
    (h : Accepts only sk e0 none [] f outs names) :
    List.Forall₂ (fun ev o => Adds e0 ev.past ev.next o.first ev.record o)
      (Parse.selectedEvents only f) outs :=
  h.selectedAfter none (fun _ _ => Iff.rfl) (by simp) (by simp)

/-! ### slices -/

/-- arrays only grow -/
def Grows (a b : Acc) : Prop :=
  ∀ (j : Nat) (x : List Cell), a.arrs[j]? = some x → ∃ more, b.arrs[j]? = some (x ++ more)

theorem Grows.refl (a : Acc) : Grows a a := fun _ x h => ⟨[], by simpa using h⟩

theorem Grows.trans {a b c : Acc} (h1 : Grows a b) (h2 : Grows b c) : Grows a c := by
  intro j x hx
  obtain ⟨m, hm⟩ := h1 j x hx
  obtain ⟨m', hm'⟩ := h2 j _ hm
  exact ⟨m ++ m', by rw [hm', List.append_assoc]⟩

theorem Acc.add_grows {t : Acc} {b : Bool} {cells : List Cell} {items : List (Option (List Cell))}
    (h : items.length = t.arrs.length) : Grows t (t.add b cells items) := by
  intro j x hx
  obtain ⟨hj, _⟩ := List.getElem?_eq_some_iff.mp hx
  have hi : items[j]? = some items[j] := List.getElem?_eq_getElem (by omega)
  simp only [Acc.add, List.getElem?_zipWith, hx, hi]
  cases items[j] with
  | none => exact ⟨[], by simp⟩
  | some cs => exact ⟨cs, rfl⟩

theorem foldl_grows (os : List Added) : ∀ t : Acc, (∀ o ∈ os, o.items.length = t.arrs.length) →
    Grows t (os.foldl (fun t o => t.add o.first o.cells o.items) t) := by
  induction os with
  | nil => intro t _; exact Grows.refl t
  | cons o os ih =>
    intro t h
    refine (Acc.add_grows (h o (by simp))).trans (ih _ fun o' ho' => ?_)
    rw [h o' (by simp [ho'])]
    exact (Acc.add_length rfl (h o (by simp))).symm

theorem limits_get {l : List (Nat × Nat)} {j : Nat} {p : Nat × Nat} (h : l[j]? = some p) :
    (limits l)[2 * j]? = some (.sc (.int p.1)) ∧ (limits l)[2 * j + 1]? = some (.sc (.int p.2)) := by
  induction l generalizing j with
  | nil => simp at h
  | cons q l ih =>
    cases j with
    | zero =>
      simp only [List.getElem?_cons_zero, Option.some.injEq] at h
      subst h
      simp [limits]
    | succ j =>
      simp only [List.getElem?_cons_succ] at h
      obtain ⟨h1, h2⟩ := ih h
      have he : limits (q :: l) = [.sc (.int q.1), .sc (.int q.2)] ++ limits l := rfl
      rw [he, List.getElem?_append_right (by simp), List.getElem?_append_right (by simp; omega)]
      refine ⟨?_, ?_⟩
      · rw [← h1]; congr 1
      · rw [← h2]; congr 1

theorem limits_length (l : List (Nat × Nat)) : (limits l).length = 2 * l.length := by
  induction l with
  | nil => rfl
  | cons q l ih => simp [limits] at ih ⊢; omega

/-- the new row selects the record's items -/
theorem Acc.add_slice {t : Acc} {b : Bool} {cells : List Cell} {items : List (Option (List Cell))}
    (h : items.length = t.arrs.length) (hl : t.last.length = t.arrs.length) {j : Nat}
    {cs : List Cell} (hj : items[j]? = some (some cs)) {final : Acc}
    (hg : Grows (t.add b cells items) final) :
    ∃ arr, final.arrs[j]? = some arr ∧
      Slice (cells ++ limits (t.add b cells items).last) (cells.length + 2 * j) arr cs := by
  obtain ⟨hlt, _⟩ := List.getElem?_eq_some_iff.mp hj
  have ha : t.arrs[j]? = some t.arrs[j] := List.getElem?_eq_getElem (by omega)
  have hnew : (t.add b cells items).arrs[j]? = some (t.arrs[j] ++ cs) := by
    simp only [Acc.add, List.getElem?_zipWith, ha, hj]
  obtain ⟨more, hm⟩ := hg j _ hnew
  refine ⟨_, hm, ?_⟩
  have hprev : ∀ pr : List (Nat × Nat), pr.length = t.arrs.length → ∃ p,
      (List.zipWith (fun (p : List Cell × (Nat × Nat)) i => interval p.1.length p.2 i)
        (t.arrs.zip pr) items)[j]? = some (interval t.arrs[j].length p (some cs)) := by
    intro pr hpr
    have hp : pr[j]? = some pr[j] := List.getElem?_eq_getElem (by omega)
    refine ⟨pr[j], ?_⟩
    simp only [List.getElem?_zipWith, List.zip, ha, hj, hp]
  have hlast : ∃ p, (t.add b cells items).last[j]? = some (interval t.arrs[j].length p (some cs)) := by
    cases b
    · exact hprev t.last hl
    · exact hprev _ (by simp)
  obtain ⟨p, hp⟩ := hlast
  obtain ⟨h1, h2⟩ := limits_get hp
  have e1 : (cells ++ limits (t.add b cells items).last)[cells.length + 2 * j]? =
      (limits (t.add b cells items).last)[2 * j]? := by
    rw [List.getElem?_append_right (by omega)]; congr 1; omega
  have e2 : (cells ++ limits (t.add b cells items).last)[cells.length + 2 * j + 1]? =
      (limits (t.add b cells items).last)[2 * j + 1]? := by
    rw [List.getElem?_append_right (by omega)]; congr 1; omega
  unfold Slice HasField
  rw [e1, e2, h1, h2]
  cases cs with
  | nil => exact ⟨0, 0, rfl, rfl, by simp⟩
  | cons c cs =>
    refine ⟨t.arrs[j].length, t.arrs[j].length + (c :: cs).length, rfl, rfl, ?_⟩
    rw [List.append_assoc, List.drop_append_of_le_length (by omega), List.drop_length,
      List.nil_append, Nat.add_sub_cancel_left, List.take_append_of_le_length (by omega),
      List.take_length]

theorem foldl_slices (n : Nat) (os : List Added) : ∀ t : Acc, t.arrs.length = n →
    t.last.length = n → (∀ o ∈ os, o.items.length = n) →
    ∃ rows, (os.foldl (fun t o => t.add o.first o.cells o.items) t).rows = t.rows ++ rows ∧
      List.Forall₂ (fun (o : Added) (row : List Cell) => row.length = o.cells.length + 2 * n ∧
        row.take o.cells.length = o.cells ∧
        ∀ j cs, o.items[j]? = some (some cs) →
          ∃ arr, (os.foldl (fun t o => t.add o.first o.cells o.items) t).arrs[j]? = some arr ∧
            Slice row (o.cells.length + 2 * j) arr cs) os rows := by
  induction os with
  | nil => intro t _ _ _; exact ⟨[], by simp, .nil⟩
  | cons o os ih =>
    intro t ht hl h
    have ho := h o (by simp)
    have ht' : (t.add o.first o.cells o.items).arrs.length = n := Acc.add_length ht ho
    have hl' : (t.add o.first o.cells o.items).last.length = n := by
      unfold Acc.add
      cases o.first <;> simp [ht, hl, ho]
    obtain ⟨rows, h1, h2⟩ := ih _ ht' hl' fun o' ho' => h o' (by simp [ho'])
    refine ⟨(o.cells ++ limits (t.add o.first o.cells o.items).last) :: rows, ?_, .cons ⟨?_, ?_, ?_⟩ h2⟩
    · rw [List.foldl_cons, h1]
      simp [Acc.add]
    · rw [List.length_append, limits_length, hl']
    · simp
    · intro j cs hj
      refine Acc.add_slice (by omega) (by omega) hj ?_
      exact foldl_grows os _ fun o' ho' => by rw [ht']; exact h o' (by simp [ho'])

theorem contents_slices {l : Layout} {outs : List Added} (h : ItemsOK outs) (hl : l ∈ layouts) :
    List.Forall₂ (fun (o : Added) (row : List Cell) =>
        row.length = o.cells.length + 2 * l.arrs.length ∧ row.take o.cells.length = o.cells ∧
        ∀ j cs, o.items[j]? = some (some cs) →
          ∃ arr, (contents l outs).arrs[j]? = some arr ∧
            Slice row (o.cells.length + 2 * j) arr cs)
      (ofType l.name outs) (contents l outs).rows := by
  obtain ⟨rows, h1, h2⟩ := foldl_slices l.arrs.length (ofType l.name outs) (Acc.start l)
    (by simp [Acc.start]) (by simp [Acc.start])
    (fun o ho => by
      have ho' : o ∈ outs ∧ o.name = l.name := by simpa [ofType] using ho
      exact h l hl o ho'.1 ho'.2)
  rw [contents_eq, h1]
  simpa [Acc.start] using h2

end Verif.Parse
