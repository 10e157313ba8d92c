import Verif.Parse.MeansInv
/-!
# Selected record types; the list of record names
-/

namespace Verif.Parse
open Verif Verif.Seq

/-! ### selections -/

/-- the records of selected types -/
def keepR (l : List String) (f : List LRec) : List LRec := f.filter fun r => r.name ∈ l
/-- the additions of selected types -/
def keepO (l : List String) (outs : List Added) : List Added := outs.filter fun o => o.name ∈ l

theorem latest_keep {α : Type} {P : LRec → α → Prop} {l : List String}
    (hP : ∀ r a, P r a → r.name ∈ l) {past : List LRec} {a : α} (h : Latest P past a) :
    Latest P (keepR l past) a := by
  induction h with
  | @here r past a h =>
    unfold keepR
    rw [List.filter_cons_of_pos (by simpa using hP r a h)]
    exact .here h
  | @earlier r past a hn _ ih =>
    unfold keepR at ih ⊢
    by_cases hr : r.name ∈ l
    · rw [List.filter_cons_of_pos (by simpa using hr)]; exact .earlier hn ih
    · rw [List.filter_cons_of_neg (by simpa using hr)]; exact ih

theorem never_keep {α : Type} {P : LRec → α → Prop} {l : List String} {past : List LRec}
    (h : Never P past) : Never P (keepR l past) :=
  fun r hr a => h r (List.mem_filter.mp hr).1 a

theorem means_keep {e0 : Int → Option Int} {past : List LRec} {next : Option LRec} {r : LRec}
    {e : Entry} {l : List String} (hc : ∀ p ∈ needs, p.1 ∈ l → p.2 ∈ l) (hr : r.name ∈ l)
    (h : Means e0 past next r e) :
    Means e0 (keepR l past) next r e := by
  have need : ∀ {a b : String}, (a, b) ∈ needs → r.name = a → b ∈ l := by
    intro a b hab ha
    exact hc _ hab (by rw [← ha]; exact hr)
  refine h.change (fun hn {k t} ht => ?_) (fun hn {i} => ?_) (fun hn {i n} ht => ?_)
    (fun hn {i j n} ht => ?_) (fun hn {k n} ht => ?_)
  · have hd : ∀ r a, DeclType k r a → r.name ∈ l := by
      rintro r a ⟨h1, _⟩; rw [h1]; exact need (by decide) hn
    rcases ht with ht | ⟨h1, h2⟩
    · exact .inl (latest_keep hd ht)
    · exact .inr ⟨never_keep h1, h2⟩
  · have hd : ∀ r a, DeclGrid i r a → r.name ∈ l := by
      rintro r a ⟨p, h1, _⟩; rw [h1.1]; exact need (by decide) hn
    exact ⟨fun h => latest_keep hd h, never_keep⟩
  · refine latest_keep (P := DeclCplx i) ?_ ht
    rintro r a ⟨h1, _⟩
    rw [h1]
    simp only [List.mem_cons, List.not_mem_nil, or_false] at hn
    rcases hn with (hn | hn | hn) | (hn | hn | hn) <;> exact need (by decide) hn
  · refine latest_keep (P := DeclNsp i j) ?_ ht
    rintro r a ⟨p, h1, _⟩
    rw [h1.1]
    simp only [List.mem_cons, List.not_mem_nil, or_false] at hn
    rcases hn with hn | hn | hn <;> exact need (by decide) hn
  · refine latest_keep (P := DeclLen r.name k) ?_ ht
    rintro r' a ⟨h1, _⟩
    have : (r.name, r'.name) ∈ needs := by
      unfold Defines at h1
      simp only [List.mem_cons, List.not_mem_nil, or_false, Prod.mk.injEq] at h1
      rcases h1 with ⟨h2, h3⟩ | ⟨h2, h3⟩ | ⟨h2, h3⟩ <;> rw [h2, h3] <;> decide
    exact need this rfl

theorem adds_keep {e0 : Int → Option Int} {past : List LRec} {next : Option LRec} {b : Bool}
    {r : LRec} {o : Added} {l : List String} (hc : ∀ p ∈ needs, p.1 ∈ l → p.2 ∈ l) (hr : r.name ∈ l)
    (h : Adds e0 past next b r o) : Adds e0 (keepR l past) next b r o := by
  obtain ⟨e, l', hm, rest⟩ := h
  exact ⟨e, l', means_keep hc hr hm, rest⟩

/-- the current block, if its type is selected -/
def keepC (l : List String) : Option String → Option String
  | some n => if n ∈ l then some n else none
  | none => none

theorem keepC_ne {l : List String} {cur : Option String} {n : String} (h : cur ≠ some n) :
    keepC l cur ≠ some n := by
  cases cur with
  | none => simp [keepC]
  | some c => simp only [keepC]; split <;> simp_all

theorem Accepts.select {sk : LRec → Bool} {e0 : Int → Option Int} {cur : Option String}
    {past f : List LRec} {outs : List Added} {names : List String}
    (h : Accepts none sk e0 cur past f outs names) {l : List String} (hc : Closed l)
    (hsk : ∀ r ∈ f, r.name ∉ l → sk r = true) :
    Accepts (some l) sk e0 (keepC l cur) (keepR l past) f (keepO l outs)
      (names.filter fun n => n ∈ l) := by
  have hiend : "IEND" ∈ l := hc.2 _ (by decide)
  induction h with
  | stop _ he =>
    simp only [keepO, List.filter_nil]
    rw [List.filter_cons_of_pos (by simpa using hiend), List.filter_nil]
    exact .stop hiend he
  | eof hm h => exact .eof hm (keepC_ne h)
  | @more past r rest o outs names hn ha _ ih =>
    have ih := ih fun r hr => hsk r (by simp [hr])
    have hne := (hasTable_ne (adds_table ha)).1
    unfold keepO keepR keepC at ih ⊢
    by_cases hr : r.name ∈ l
    · simp only [hr, if_true] at ih ⊢
      rw [List.filter_cons_of_pos (by simpa [adds_name ha] using hr)]
      rw [List.filter_cons_of_pos (by simpa using hr)] at ih
      exact .more hn (adds_keep hc.1 hr ha) ih
    · simp only [hr, if_false] at ih ⊢
      rw [List.filter_cons_of_neg (by simpa [adds_name ha] using hr)]
      rw [List.filter_cons_of_neg (by simpa using hr)] at ih
      exact .unselected (by simp) hne hr (hsk r (by simp) hr) ih
  | @first cur past r rest o outs names hcur hn _ hv hf ha _ ih =>
    have ih := ih fun r hr => hsk r (by simp [hr])
    have hne := (hasTable_ne (adds_table ha)).1
    have hcur' := keepC_ne (l := l) hcur
    unfold keepO keepR at ih ⊢
    by_cases hr : r.name ∈ l
    · simp only [keepC, hr, if_true] at ih
      rw [List.filter_cons_of_pos (by simpa [adds_name ha] using hr),
        List.filter_cons_of_pos (by simpa using hr)]
      rw [List.filter_cons_of_pos (by simpa using hr)] at ih
      exact .first hcur' hn hr hv hf (adds_keep hc.1 hr ha) ih
    · simp only [keepC, hr, if_false] at ih
      rw [List.filter_cons_of_neg (by simpa [adds_name ha] using hr),
        List.filter_cons_of_neg (by simpa using hr)]
      rw [List.filter_cons_of_neg (by simpa using hr)] at ih
      exact .unselected hcur' hne hr (hsk r (by simp) hr) ih
  | @ident cur past r rest o outs names hn _ hv ha _ ih =>
    have ih := ih fun r hr => hsk r (by simp [hr])
    have hr : r.name ∈ l := by rw [hn]; exact hc.2 _ (by decide)
    unfold keepO keepR at ih ⊢
    rw [List.filter_cons_of_pos (by simpa [adds_name ha] using hr),
      List.filter_cons_of_pos (by simpa using hr)]
    rw [List.filter_cons_of_pos (by simpa using hr)] at ih
    exact .ident hn hr hv (adds_keep hc.1 hr ha) ih
  | @void cur past r rest outs names hcur hne _ hv _ ih =>
    have ih := ih fun r hr => hsk r (by simp [hr])
    by_cases hr : r.name ∈ l
    · exact .void (keepC_ne hcur) hne hr hv ih
    · exact .unselected (keepC_ne hcur) hne hr (hsk r (by simp) hr) ih
  | unselected _ _ hs _ _ ih => exact absurd trivial hs
  | @unread cur past r rest outs names hcur hne h1 h2 ht hv _ hs _ ih =>
    have ih := ih fun r hr => hsk r (by simp [hr])
    by_cases hr : r.name ∈ l
    · simp only [keepC, hr, if_true] at ih
      exact .unread (keepC_ne hcur) hne h1 h2 ht hv hr hs ih
    · simp only [keepC, hr, if_false] at ih
      exact .unselected (keepC_ne hcur) hne hr hs ih
  | @unreadMore past r rest outs names hne h1 h2 ht hs _ ih =>
    have ih := ih fun r hr => hsk r (by simp [hr])
    unfold keepC at ih ⊢
    by_cases hr : r.name ∈ l
    · simp only [hr, if_true] at ih ⊢
      exact .unreadMore hne h1 h2 ht hs ih
    · simp only [hr, if_false] at ih ⊢
      exact .unselected (by simp) hne hr hs ih
  | @recsize cur past r rest outs names hs h1 hv _ ih =>
    have ih := ih fun r hr => hsk r (by simp [hr])
    by_cases hr : r.name ∈ l
    · rw [List.filter_cons_of_pos (by simpa using hr)]
      exact .recsize hr h1 hv ih
    · rw [List.filter_cons_of_neg (by simpa using hr)]
      by_cases hcur : keepC l cur = some r.name
      · exfalso
        cases cur with
        | none => simp [keepC] at hcur
        | some c =>
          simp only [keepC] at hcur
          split at hcur
          · rename_i hcl
            cases hcur
            exact hr hcl
          · cases hcur
      · exact .unselected hcur (by rw [h1.1]; decide) hr (hsk r (by simp) hr) ih
  | @notEnd cur past r rest outs names hs h1 _ ih =>
    have ih := ih fun r hr => hsk r (by simp [hr])
    have hr : r.name ∈ l := by rw [h1.1]; exact hiend
    rw [List.filter_cons_of_pos (by simpa using hr)]
    exact .notEnd hr h1 ih

/-! ### earlier files -/

theorem Accepts.any_history {only : Option (List String)} {sk : LRec → Bool} {cur : Option String}
    {past f : List LRec} {outs : List Added} {names : List String}
    (h : Accepts only sk (fun _ => none) cur past f outs names) (e0 : Int → Option Int) :
    Accepts only sk e0 cur past f outs names := by
  have ha : ∀ {past : List LRec} {next : Option LRec} {b : Bool} {r : LRec} {o : Added},
      Adds (fun _ => none) past next b r o → Adds e0 past next b r o := by
    rintro past next b r o ⟨e, l', hm, rest⟩
    exact ⟨e, l', hm.any_history e0, rest⟩
  induction h with
  | stop h1 h2 => exact .stop h1 h2
  | eof hm h => exact .eof hm h
  | more h1 h2 _ ih => exact .more h1 (ha h2) ih
  | first h1 h2 h3 h4 h5 h6 _ ih => exact .first h1 h2 h3 h4 h5 (ha h6) ih
  | ident h1 h2 h3 h4 _ ih => exact .ident h1 h2 h3 (ha h4) ih
  | void h1 h2 h3 h4 _ ih => exact .void h1 h2 h3 h4 ih
  | unselected h1 h2 h3 h4 _ ih => exact .unselected h1 h2 h3 h4 ih
  | unread h1 h2 h3 h4 h5 h6 h7 h8 _ ih => exact .unread h1 h2 h3 h4 h5 h6 h7 h8 ih
  | unreadMore h1 h2 h3 h4 h5 _ ih => exact .unreadMore h1 h2 h3 h4 h5 ih
  | recsize h1 h2 h3 _ ih => exact .recsize h1 h2 h3 ih
  | notEnd h1 h2 _ ih => exact .notEnd h1 h2 ih

/-! ### names of records -/

/-- the types with a table appear for the first time in the same order -/
def SameOrder (a b : List String) : Prop :=
  ∀ x y, HasTable x → HasTable y → (a.idxOf x < a.idxOf y ↔ b.idxOf x < b.idxOf y)

theorem SameOrder.cons {a b : List String} (h : SameOrder a b) (c : String) :
    SameOrder (c :: a) (c :: b) := by
  intro x y hx hy
  have := h x y hx hy
  by_cases h1 : c = x
  · subst h1
    by_cases h2 : c = y
    · subst h2; simp
    · rw [List.idxOf_cons_self, List.idxOf_cons_self, List.idxOf_cons_ne _ h2,
        List.idxOf_cons_ne _ h2]
      omega
  · by_cases h2 : c = y
    · subst h2; simp
    · rw [List.idxOf_cons_ne _ h2, List.idxOf_cons_ne _ h2, List.idxOf_cons_ne _ h1,
        List.idxOf_cons_ne _ h1]
      omega

theorem SameOrder.left {a b : List String} (h : SameOrder a b) {c : String} (hc : ¬ HasTable c) :
    SameOrder (c :: a) b := by
  intro x y hx hy
  have := h x y hx hy
  have h1 : c ≠ x := by rintro rfl; exact hc hx
  have h2 : c ≠ y := by rintro rfl; exact hc hy
  rw [List.idxOf_cons_ne _ h1, List.idxOf_cons_ne _ h2]
  omega

theorem SameOrder.unleft {a b : List String} {c : String} (h : SameOrder (c :: a) (c :: b))
    (hc : ¬ HasTable c) : SameOrder a b := by
  intro x y hx hy
  have := h x y hx hy
  have h1 : c ≠ x := by rintro rfl; exact hc hx
  have h2 : c ≠ y := by rintro rfl; exact hc hy
  rw [List.idxOf_cons_ne _ h1, List.idxOf_cons_ne _ h2, List.idxOf_cons_ne _ h1,
    List.idxOf_cons_ne _ h2] at this
  omega

theorem SameOrder.double {a b : List String} {c : String} (h : SameOrder (c :: a) (c :: b)) :
    SameOrder (c :: a) (c :: c :: b) := by
  intro x y hx hy
  have := h x y hx hy
  by_cases h1 : c = x
  · subst h1
    by_cases h2 : c = y
    · subst h2; simp
    · rw [List.idxOf_cons_self, List.idxOf_cons_self, List.idxOf_cons_ne _ h2,
        List.idxOf_cons_ne _ h2]
      omega
  · by_cases h2 : c = y
    · subst h2; simp
    · rw [List.idxOf_cons_ne _ h2, List.idxOf_cons_ne _ h1, List.idxOf_cons_ne _ h2,
        List.idxOf_cons_ne _ h1] at this
      rw [List.idxOf_cons_ne _ h2, List.idxOf_cons_ne _ h1, List.idxOf_cons_ne _ h2,
        List.idxOf_cons_ne _ h1, List.idxOf_cons_ne _ h2, List.idxOf_cons_ne _ h1]
      omega

theorem SameOrder.pre {a b : List String} (h : SameOrder a b) (l : List String) :
    SameOrder (l ++ a) (l ++ b) := by
  induction l with
  | nil => exact h
  | cons c l ih => exact ih.cons c

theorem SameOrder.drop {a b : List String} {l : List String} (hl : ∀ c ∈ l, ¬ HasTable c)
    (h : SameOrder (l ++ a) (l ++ b)) : SameOrder a b := by
  induction l with
  | nil => exact h
  | cons c l ih =>
    exact ih (fun c hc => hl c (by simp [hc])) (SameOrder.unleft h (hl c (by simp)))

theorem noTable_end {n : String} (hn : n = "IEND" ∨ n = "IRECSIZE") : ¬ HasTable n := by
  intro ht
  rcases hn with rfl | rfl
  · exact (hasTable_ne ht).2.1 rfl
  · exact (hasTable_ne ht).2.2 rfl

/-- order of the names and of the additions -/
theorem Accepts.order {only : Option (List String)} {sk : LRec → Bool} {e0 : Int → Option Int}
    {cur : Option String} {past f : List LRec} {outs : List Added} {names : List String}
    (h : Accepts only sk e0 cur past f outs names) :
    SameOrder (cur.toList ++ names) (cur.toList ++ outs.map (·.name)) := by
  induction h with
  | stop => exact (SameOrder.left (fun _ _ _ _ => Iff.rfl) (noTable_end (.inl rfl))).pre _
  | eof => exact fun _ _ _ _ => Iff.rfl
  | more _ ha _ ih =>
    simp only [Option.toList_some, List.cons_append, List.nil_append, List.map_cons,
      adds_name ha] at ih ⊢
    exact ih.double
  | first _ _ _ _ _ ha _ ih =>
    simp only [Option.toList_some, List.cons_append, List.nil_append] at ih
    simp only [List.map_cons, adds_name ha]
    exact ih.pre _
  | ident _ _ _ ha _ ih =>
    simp only [Option.toList_none, List.nil_append] at ih
    simp only [List.map_cons, adds_name ha]
    exact (ih.cons _).pre _
  | void _ _ _ _ _ ih => exact SameOrder.pre ih _
  | unselected _ _ _ _ _ ih => exact SameOrder.pre ih _
  | unread _ _ _ _ ht _ _ _ _ ih =>
    simp only [Option.toList_some, List.cons_append, List.nil_append] at ih
    exact (ih.unleft ht).pre _
  | unreadMore _ _ _ ht _ _ ih => exact ih
  | recsize _ hr _ _ ih => exact (SameOrder.left ih (noTable_end (.inr hr.1))).pre _
  | notEnd _ hr _ ih => exact (SameOrder.left ih (noTable_end (.inl hr.1))).pre _

/-- which names -/
theorem Accepts.named {only : Option (List String)} {sk : LRec → Bool} {e0 : Int → Option Int}
    {cur : Option String} {past f : List LRec} {outs : List Added} {names : List String}
    (h : Accepts only sk e0 cur past f outs names) :
    (∀ n, HasTable n → (n ∈ cur.toList ++ names ↔ n ∈ cur.toList ++ outs.map (·.name))) ∧
    (∀ n ∈ names, HasTable n ∨ n = "IEND" ∨ n = "IRECSIZE") ∧
    ("IEND" ∈ names ∨ "" ∈ f.map LRec.name) := by
  have iend : ∀ {n : String}, HasTable n → n ≠ "IEND" := fun h => (hasTable_ne h).2.1
  have irec : ∀ {n : String}, HasTable n → n ≠ "IRECSIZE" := fun h => (hasTable_ne h).2.2
  induction h with
  | stop =>
    refine ⟨fun n hn => ?_, by simp, by simp⟩
    simp [iend hn]
  | eof hm => exact ⟨fun n hn => Iff.rfl, by simp, .inr (by simp [hm])⟩
  | more _ ha _ ih =>
    obtain ⟨i1, i2, i3⟩ := ih
    refine ⟨fun n hn => ?_, i2, i3.imp id fun h => by simp [h]⟩
    have := i1 n hn
    simp only [Option.toList_some, List.cons_append, List.nil_append, List.mem_cons, List.map_cons,
      adds_name ha] at this ⊢
    tauto
  | first _ _ _ _ _ ha _ ih =>
    obtain ⟨i1, i2, i3⟩ := ih
    refine ⟨fun n hn => ?_, ?_, i3.imp (fun h => by simp [h]) fun h => by simp [h]⟩
    · have := i1 n hn
      simp only [Option.toList_some, List.cons_append, List.nil_append, List.mem_cons, List.map_cons,
        adds_name ha, List.mem_append] at this ⊢
      tauto
    · intro n hn
      simp only [List.mem_cons] at hn
      rcases hn with rfl | hn
      · exact .inl (adds_table ha)
      · exact i2 n hn
  | ident _ _ _ ha _ ih =>
    obtain ⟨i1, i2, i3⟩ := ih
    refine ⟨fun n hn => ?_, ?_, i3.imp (fun h => by simp [h]) fun h => by simp [h]⟩
    · have := i1 n hn
      simp only [Option.toList_none, List.nil_append, List.mem_cons, List.map_cons,
        adds_name ha, List.mem_append] at this ⊢
      tauto
    · intro n hn
      simp only [List.mem_cons] at hn
      rcases hn with rfl | hn
      · exact .inl (adds_table ha)
      · exact i2 n hn
  | void _ _ _ _ _ ih =>
    obtain ⟨i1, i2, i3⟩ := ih
    refine ⟨fun n hn => ?_, i2, i3.imp id fun h => by simp [h]⟩
    have := i1 n hn
    simp only [Option.toList_none, List.nil_append, List.mem_append] at this ⊢
    tauto
  | unselected _ _ _ _ _ ih =>
    obtain ⟨i1, i2, i3⟩ := ih
    refine ⟨fun n hn => ?_, i2, i3.imp id fun h => by simp [h]⟩
    have := i1 n hn
    simp only [Option.toList_none, List.nil_append, List.mem_append] at this ⊢
    tauto
  | @unread _ _ r _ _ _ _ _ _ _ ht _ _ _ _ ih =>
    obtain ⟨i1, i2, i3⟩ := ih
    refine ⟨fun n hn => ?_, i2, i3.imp id fun h => by simp [h]⟩
    have := i1 n hn
    have hne : n ≠ r.name := by rintro rfl; exact ht hn
    simp only [Option.toList_some, List.cons_append, List.nil_append, List.mem_cons, hne,
      false_or, List.mem_append] at this ⊢
    tauto
  | unreadMore _ _ _ ht _ _ ih => exact ⟨ih.1, ih.2.1, ih.2.2.imp id fun h => by simp [h]⟩
  | @recsize _ _ r _ _ _ _ hr _ _ ih =>
    obtain ⟨i1, i2, i3⟩ := ih
    refine ⟨fun n hn => ?_, ?_, i3.imp (fun h => by simp [h]) fun h => by simp [h]⟩
    · have := i1 n hn
      have hne : n ≠ r.name := by rw [hr.1]; exact irec hn
      simp only [Option.toList_none, List.nil_append, List.mem_append, List.mem_cons, hne,
        false_or] at this ⊢
      tauto
    · intro n hn
      simp only [List.mem_cons] at hn
      rcases hn with rfl | hn
      · exact .inr (.inr hr.1)
      · exact i2 n hn
  | @notEnd _ _ r _ _ _ _ hr _ ih =>
    obtain ⟨i1, i2, i3⟩ := ih
    refine ⟨fun n hn => ?_, ?_, i3.imp (fun h => by simp [h]) fun h => by simp [h]⟩
    · have := i1 n hn
      have hne : n ≠ r.name := by rw [hr.1]; exact iend hn
      simp only [Option.toList_none, List.nil_append, List.mem_append, List.mem_cons, hne,
        false_or] at this ⊢
      tauto
    · intro n hn
      simp only [List.mem_cons] at hn
      rcases hn with rfl | hn
      · exact .inr (.inl hr.1)
      · exact i2 n hn

/-- only names of records of the file are listed -/
theorem Accepts.names_sub {only : Option (List String)} {sk : LRec → Bool} {e0 : Int → Option Int}
    {cur : Option String} {past f : List LRec} {outs : List Added} {names : List String}
    (h : Accepts only sk e0 cur past f outs names) : ∀ n ∈ names, n ∈ f.map LRec.name := by
  induction h with
  | stop _ h => simp [h.1]
  | eof => simp
  | more _ _ _ ih | void _ _ _ _ _ ih | unselected _ _ _ _ _ ih | unread _ _ _ _ _ _ _ _ _ ih
  | unreadMore _ _ _ _ _ _ ih =>
    intro n hn
    exact List.mem_cons_of_mem _ (ih n hn)
  | first _ _ _ _ _ _ _ ih | ident _ _ _ _ _ ih | recsize _ _ _ _ ih | notEnd _ _ _ ih =>
    intro n hn
    rcases List.mem_cons.mp hn with rfl | hn
    · simp
    · exact List.mem_cons_of_mem _ (ih n hn)

end Verif.Parse
