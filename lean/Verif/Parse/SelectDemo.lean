import Verif.Parse.Props
/-!
# Conversion of selected record types: the hypotheses of `only_selects` and
`one_row_per_selected_record` can be met

The file of `Demo` with `only=['IDENT', 'HIERARCH', 'GNODE', 'GELMNT1', 'IEND']`: the coordinates,
the element reference and the section are passed over, in the file of either kind.
-/

namespace Verif.Parse.Demo
open Verif Verif.Seq Verif.Parse

/-- the selection -/
def wanted : List String := ["IDENT", "HIERARCH", "GNODE", "GELMNT1", "IEND"]

/-- the records to be passed over -/
def passed (r : LRec) : Bool := decide (r.name ∉ wanted)

/-- can a record be passed over, with the record `next` behind it? -/
def okSkip (body : List Bytes) (r : LRec) (next : String) : Bool :=
  decide (r.head.head?.map PyF.ltZero = some false) && decide (r.name.toList.take 2 ≠ ['T', 'D']) &&
    (decide (body = [] ∧ next ∈ knownNames) ||
      (decide (body ≠ []) && body.all fun c => decide (c.take 8 = List.replicate 8 32)))

/-- the same for lines -/
def okSkipT (body : List Str) (r : LRec) (next : String) : Bool :=
  decide (r.head.head?.map PyF.ltZero = some false) && decide (r.name.toList.take 2 ≠ ['T', 'D']) &&
    (decide (body = [] ∧ next ∈ knownNames) ||
      (decide (body ≠ []) && body.all fun c => decide (c.take 8 = List.replicate 8 ' ')))

theorem skippableU {body : List Bytes} {r : LRec} {next : String} (h : okSkip body r next = true) :
    U.Skippable Dec.std r body next := by
  simp only [okSkip, Bool.and_eq_true, Bool.or_eq_true, decide_eq_true_eq, List.all_eq_true] at h
  obtain ⟨⟨h1, h2'⟩, h3⟩ := h
  have h2 : ¬ isTD r.name := by
    rintro ⟨t, ht⟩
    rw [ht] at h2'
    exact h2' rfl
  obtain ⟨h0, t, hh, hv⟩ : ∃ h0 t, r.head = h0 :: t ∧ h0.ltZero = false := by
    cases hr : r.head with
    | nil => rw [hr] at h1; cases h1
    | cons x t => rw [hr] at h1; exact ⟨x, t, rfl, by simpa using h1⟩
  rcases h3 with ⟨h3, h4⟩ | ⟨h3, h4⟩
  · exact .alone h0 t hh hv h2 h3 h4
  · exact .blankLed h0 t hh hv h2 h3 fun c hc =>
      ⟨c.drop 8, by rw [← h4 c hc, List.take_append_drop]⟩

theorem skippableT {body : List Str} {r : LRec} {next : String} (h : okSkipT body r next = true) :
    T.Skippable Dec.std r body next := by
  simp only [okSkipT, Bool.and_eq_true, Bool.or_eq_true, decide_eq_true_eq, List.all_eq_true] at h
  obtain ⟨⟨h1, h2'⟩, h3⟩ := h
  have h2 : ¬ isTD r.name := by
    rintro ⟨t, ht⟩
    rw [ht] at h2'
    exact h2' rfl
  obtain ⟨h0, t, hh, hv⟩ : ∃ h0 t, r.head = h0 :: t ∧ h0.ltZero = false := by
    cases hr : r.head with
    | nil => rw [hr] at h1; cases h1
    | cons x t => rw [hr] at h1; exact ⟨x, t, rfl, by simpa using h1⟩
  rcases h3 with ⟨h3, h4⟩ | ⟨h3, h4⟩
  · exact .alone h0 t hh hv h2 h3 h4
  · exact .blankLed h0 t hh hv h2 h3 fun c hc =>
      ⟨c.drop 8, by rw [← h4 c hc, List.take_append_drop]⟩

/-- all records that are passed over can be -/
def skipsU (sk : LRec → Bool) : List LRec → Bool
  | [] => true
  | r :: rs => (!sk r || match rs.head? with
      | none => true
      | some n => okSkip (bodyU r) r n.name) && skipsU sk rs

/-- the same for lines -/
def skipsT (sk : LRec → Bool) : List LRec → Bool
  | [] => true
  | r :: rs => (!sk r || match rs.head? with
      | none => true
      | some n => okSkipT (bodyT r) r n.name) && skipsT sk rs

theorem encodesU_skip {sk : LRec → Bool} {f : List LRec} (h : f.all okU = true)
    (hs : skipsU sk f = true) : U.Encodes Dec.std sk [] f (bytes f) := by
  induction f with
  | nil => exact .nil
  | cons r rs ih =>
    simp only [List.all_cons, Bool.and_eq_true] at h
    obtain ⟨h, hrs⟩ := h
    rw [skipsU, Bool.and_eq_true] at hs
    have hskip : sk r = true → ∀ n ∈ rs.head?, U.Skippable Dec.std r (bodyU r) n.name := by
      intro hk n hn
      have := hs.1
      rw [hk, Option.mem_def.mp hn] at this
      exact skippableU (by simpa using this)
    simp only [okU, Bool.and_eq_true, Bool.or_eq_true, decide_eq_true_eq, List.all_eq_true] at h
    obtain ⟨⟨⟨⟨⟨⟨⟨⟨h1, h2⟩, h3⟩, h4⟩, h5⟩, h6⟩, h8⟩, h9⟩, h7⟩ := h
    rw [bytes]
    refine .cons (c := headU r) (body := bodyU r) ⟨⟨h1, h2, h3⟩, _, rfl, h4⟩ ?_
      (frames_of h7) hskip (ih hrs hs.2)
    refine ⟨r.pre.map segU, _, rfl, ?_, ?_⟩
    · rw [List.forall₂_map_right_iff]
      refine List.forall₂_same.mpr fun s hs => ?_
      have := h5 s hs
      cases s with
      | recd k fs => exact ⟨_, rfl, by simpa using this⟩
      | text t => exact ⟨fun c hc => by simpa using List.all_eq_true.mp this c hc, rfl⟩
    · refine ⟨chunks 9 (r.vals ++ r.pad), ?_, h6, fun hp => ?_⟩
      · rw [List.forall₂_map_left_iff]
        exact List.forall₂_same.mpr fun c hc => ⟨_, rfl, h8 c hc⟩
      · rcases h9 with h9 | h9
        · exact absurd (by rw [h9]; rfl) hp
        · exact h9

theorem encodesT_skip {sk : LRec → Bool} {f : List LRec} (h : f.all okT = true)
    (hs : skipsT sk f = true) : T.Encodes Dec.std sk [] f (text f) := by
  induction f with
  | nil => exact .nil
  | cons r rs ih =>
    simp only [List.all_cons, Bool.and_eq_true] at h
    obtain ⟨h, hrs⟩ := h
    rw [skipsT, Bool.and_eq_true] at hs
    have hskip : sk r = true → ∀ n ∈ rs.head?, T.Skippable Dec.std r (bodyT r) n.name := by
      intro hk n hn
      have := hs.1
      rw [hk, Option.mem_def.mp hn] at this
      exact skippableT (by simpa using this)
    simp only [okT, Bool.and_eq_true, Bool.or_eq_true, decide_eq_true_eq, List.all_eq_true] at h
    obtain ⟨⟨⟨⟨⟨⟨h1, h2⟩, h3⟩, h4'⟩, h4⟩, h5⟩, h6⟩ := h
    rw [text]
    refine .cons (c := headT r) (body := bodyT r) ⟨⟨h1, h2, h3⟩, _, rfl, h4', h4⟩ ?_
      hskip (ih hrs hs.2)
    refine ⟨r.pre.map segT, _, rfl, ?_, ?_⟩
    · rw [List.forall₂_map_right_iff]
      refine List.forall₂_same.mpr fun s hs => ?_
      have := h5 s hs
      cases s with
      | recd k fs =>
        simp only [Bool.and_eq_true, decide_eq_true_eq] at this
        exact ⟨_, rfl, this.1, this.2⟩
      | text t => exact ⟨fun c hc => by simpa using List.all_eq_true.mp this c hc, rfl⟩
    · rcases h6 with ⟨hv, hp⟩ | ⟨⟨⟨hv, hl⟩, hn⟩, hd⟩
      · rw [if_pos hv, hv, hp]
        exact ⟨[], .nil, rfl, by simp, by simp, fun h => absurd rfl h⟩
      · rw [if_neg hv]
        refine ⟨[r.vals ++ r.pad], .cons ⟨_, rfl, hn, hd⟩ .nil, by simp, by simp, ?_, fun _ => ?_⟩
        · simpa using hl
        · simpa using List.length_pos_iff.mpr hv

/-- the file on disk, in both kinds, with the records that are passed over -/
theorem onDiskPassed : Encoded Dec.std passed file (.unformatted (75 :: bytes file)) ∧
    Encoded Dec.std passed file (.formatted (text file)) :=
  ⟨.unformatted (encodesU_skip (by decide +kernel) (by decide +kernel)),
    .formatted (encodesT_skip (by decide +kernel) (by decide +kernel))⟩

theorem jobPassed : Job none passed (fun _ => none) file outs names (.top "" "T") 5 {}
    "FIRSTLEVEL" "STRUCTURAL" none :=
  { job with accepted := accepted _ }

theorem wanted_closed : Closed wanted := by
  constructor <;> decide +kernel

theorem wanted_or_passed : ∀ r ∈ file, r.name ∉ wanted → passed r = true :=
  fun _ _ h => by simpa [passed] using h

/-- the hypotheses of **C13** are met by the file in both kinds -/
example (B : Nat) := only_selects jobPassed wanted_closed wanted_or_passed clean onDiskPassed.1 B
example (B : Nat) := only_selects jobPassed wanted_closed wanted_or_passed clean onDiskPassed.2 B

/-- a selection of its own: two nodes and an element get rows, coordinates and the section do not -/
example (B : Nat) := one_row_per_selected_record (jobPassed.select wanted_closed wanted_or_passed)
  clean onDiskPassed.1 B
example : (selectedEvents (some wanted) file).map (·.record.name) =
    ["IDENT", "GNODE", "GNODE", "GELMNT1"] := by decide +kernel

end Verif.Parse.Demo
