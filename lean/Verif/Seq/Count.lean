import Verif.Seq.Props
/-!
# Counting the records of padded unformatted files (C49)

`U.recordcount_raises` says that counting raises on unformatted files that end with their last
record.  Writers that fill the last disk block with zeros are common; on such files counting works.
-/

namespace Verif.Seq

/-- skipping the last record of an unformatted file that is followed by a zero byte gives the blank
name -/
theorem U.skip_last_padded {D : Dec} {r : LRec} {n : Int} (h : LastOK r)
    (hn : ∀ x ∈ r.head.head?, x.toInt = .ok n) (h4 : n ≤ 4) (w : Bytes) (fr : List PyF)
    (hr : Bool) :
    ∃ s', skipRestofrecord (U.fileOps D) r.name r.head ⟨0 :: w, hr, fr⟩ = .ok (("", []), s') := by
  obtain ⟨_, _, htd, h0, t, m, he, hneg, hint⟩ := h
  rw [he] at hn
  have hint : h0.toInt = .ok n := hn h0 rfl
  have hS : ∀ fr : List PyF, ∀ hr : Bool, (U.fileOps D).readString ⟨0 :: w, hr, fr⟩ =
      .ok ([], ⟨w.drop 1, false, fr⟩) := by
    intro fr hr
    rfl
  have hb : (U.fileOps D).blankLed [] = false := rfl
  have ha : (U.fileOps D).allowedLed [] = false := by
    simp only [U.fileOps, List.take_nil]
    exact allowedB_nil
  have hF : ∃ fr', (U.fileOps D).readFloats (n - 4) 0 ⟨0 :: w, false, fr⟩ =
      .ok ([], ⟨0 :: w, false, fr'⟩) := by
    by_cases h0 : n - 4 = 0
    · exact ⟨fr, by show U.readFloats D _ _ _ = _; simp only [U.readFloats, h0, if_true]⟩
    · refine ⟨[], ?_⟩
      have hlt : ¬ (n - 4 > 0) := by omega
      show U.readFloats D _ _ _ = _
      simp only [U.readFloats, h0, if_false, Bool.false_eq_true, List.length_nil, Nat.cast_zero,
        Int.sub_zero, hlt, finishFloats]
      have hd : pyDrop ([] : List PyF) (n - 4) = [] := by simp [pyDrop]
      have ht : pyTake ([] : List PyF) (n - 4) = [] := by simp [pyTake]
      rw [hd, ht]
      rfl
  obtain ⟨fr', hF⟩ := hF
  have hH : (U.fileOps D).readHeader ⟨0 :: w, false, fr'⟩ = .ok (("", []), ⟨w.drop 1, false, fr'⟩) := by
    show U.readHeader D _ = _
    rfl
  refine ⟨⟨w.drop 1, false, fr'⟩, ?_⟩
  simp only [skipRestofrecord, he, pyIdx, List.getElem?_cons_zero, bind_ok, hneg,
    Bool.false_eq_true, if_false, mt (isTD_iff _).mp htd, hS, hb, ha, hint, hF, hH]

/-- **C49** (unformatted, padded): on an unformatted file of records that can be skipped and a last
record without continuation and with a first value of at most 4 (`IEND` has 0), followed by a zero
byte and anything else, every name is counted as often as it heads a record, and the blank name once. -/
theorem U.recordcount_padded {D : Dec} {f : List LRec} {last : LRec} {w bs : Bytes} {m : Int}
    (k : UInt8) (henc : U.Encodes D (fun _ => true) (0 :: w) (f ++ [last]) bs) (hlast : LastOK last)
    (hm : ∀ x ∈ last.head.head?, x.toInt = .ok m) (h4 : m ≤ 4) :
    ∃ recs s, getRecordcount (U.fileOps D) (U.openFile (k :: bs)) = .ok (recs, s) ∧
      Counts recs ((f ++ [last]).map LRec.name ++ [""]) := by
  have key : ∀ (g : List LRec) (s : UState) (r : LRec) (fuel : Nat)
      (recs : List (String × Nat)) (names : List String),
      (g ++ [last]).head? = some r → r.name ≠ "" →
      U.Rel D (fun _ => true) (0 :: w) s { cur := r, ops := 0, rest := (g ++ [last]).tail } →
      g.length + 2 ≤ fuel → Counts recs names →
      ∃ out s', countLoop (U.fileOps D) fuel r.name r.head recs s = .ok (out, s') ∧
        Counts out (names ++ ((g ++ [last]).tail.map LRec.name ++ [""])) := by
    intro g
    induction g with
    | nil =>
      intro s r fuel recs names hr hne hrel hfuel hc
      simp only [List.nil_append, List.head?_cons, Option.some.injEq] at hr
      subst hr
      obtain ⟨fuel, rfl⟩ : ∃ k, fuel = k + 2 := ⟨fuel - 2, by simp at hfuel; omega⟩
      have hrem := hrel.rem_of_done hlast.1 hlast.2.1
      obtain ⟨rem, hasr, fr⟩ := s
      simp only [List.nil_append, List.tail_cons] at hrem
      cases hrem
      obtain ⟨s', hs⟩ := U.skip_last_padded (D := D) hlast hm h4 w fr hasr
      refine ⟨bump "" recs, s', ?_, ?_⟩
      · simp only [countLoop, hne, if_false, hs, if_true]
      · simpa using hc.bump ""
    | cons a g ih =>
      intro s r fuel recs names hr hne hrel hfuel hc
      simp only [List.cons_append, List.head?_cons, Option.some.injEq, List.tail_cons] at hr hrel
      subst hr
      obtain ⟨fuel, rfl⟩ : ∃ k, fuel = k + 1 := ⟨fuel - 1, by simp at hfuel; omega⟩
      obtain ⟨n, rs, hn⟩ : ∃ n rs, g ++ [last] = n :: rs := by
        cases g with
        | nil => exact ⟨last, [], rfl⟩
        | cons x g => exact ⟨x, g ++ [last], rfl⟩
      obtain ⟨s', h1, h2⟩ := U.skip_rel (r := n) (rs := rs) hrel rfl rfl hn
      have hname : n.name ≠ "" := by
        obtain ⟨_, _, _, _, _, _, _, henc', _⟩ := hrel
        rw [hn] at henc'
        exact Encodes_names_U henc' hlast hn
      obtain ⟨out, s'', h3, h5⟩ := ih s' n fuel (bump n.name recs) (names ++ [n.name])
        (by rw [hn]; rfl) hname (by rw [hn]; exact h2) (by simp at hfuel; omega) (hc.bump n.name)
      refine ⟨out, s'', ?_, ?_⟩
      · simp only [countLoop, hne, if_false, h1, h3]
      · rw [List.cons_append, List.tail_cons, hn, List.map_cons]
        rw [hn] at h5
        simpa using h5
  obtain ⟨r, rs, hr⟩ : ∃ n rs, f ++ [last] = n :: rs := by
    cases f with
    | nil => exact ⟨last, [], rfl⟩
    | cons x g => exact ⟨x, g ++ [last], rfl⟩
  have hlen := henc.length_le
  have hne : r.name ≠ "" := by rw [hr] at henc; exact Encodes_names_U henc hlast hr
  rw [hr] at henc
  obtain ⟨s', h1, h2⟩ := U.readHeader_encodes henc false []
  obtain ⟨out, s'', h3, h5⟩ := key f s' r ((U.openFile (k :: bs)).rem.length + 2) [(r.name, 1)]
    [r.name] (by rw [hr]; rfl) hne (by rw [hr]; exact h2)
    (by simp [U.openFile] at hlen ⊢; omega) (counts_single r.name)
  refine ⟨out, s'', ?_, ?_⟩
  · have hH : (U.fileOps D).readHeader (U.openFile (k :: bs)) = .ok ((r.name, r.head), s') := h1
    simp only [getRecordcount, hH, h3]
  · rw [hr] at h5 ⊢
    simpa using h5

/-- the hypotheses hold for a file with `GNODE` and `IEND`, padded with zeros -/
example : U.Encodes Dec.std (fun _ => true) (0 :: [0, 0])
    ([⟨"GNODE", [.rat 1], [], 0, [], []⟩] ++ [⟨"IEND", [.rat 0], [], 0, [], []⟩])
    ((12 :: ([71, 78, 79, 68, 69, 32, 32, 32, 0, 0, 128, 63] ++ [12]) ++ []) ++
      ((12 :: ([73, 69, 78, 68, 32, 32, 32, 32, 0, 0, 0, 0] ++ [12]) ++ []) ++ [0, 0, 0])) := by
  refine .cons ⟨⟨by decide +kernel, by decide +kernel, by decide +kernel⟩, [0, 0, 128, 63],
      by decide +kernel, by
        have : Dec.std.f32 0 0 128 63 = .rat 1 := by decide +kernel
        simp only [U.tofloatrec, this]⟩ ⟨[], [], rfl, .nil, [], .nil, rfl, by simp⟩
    (.cons ⟨12, 12, rfl, by decide +kernel⟩ .nil)
    (fun _ n hn => .alone (.rat 1) [] rfl (by decide +kernel) (by rintro ⟨r, h⟩; simp at h) rfl ?_)
    (.cons ⟨⟨by decide +kernel, by decide +kernel, by decide +kernel⟩, [0, 0, 0, 0],
      by decide +kernel, by
        have : Dec.std.f32 0 0 0 0 = .rat 0 := by decide +kernel
        simp only [U.tofloatrec, this]⟩ ⟨[], [], rfl, .nil, [], .nil, rfl, by simp⟩
    (.cons ⟨12, 12, rfl, by decide +kernel⟩ .nil) (fun _ n hn => by simp at hn) .nil)
  cases hn
  decide +kernel

/-- concrete case: `IEND` alone, with and without a zero byte behind it -/
example :
    observed (getRecordcount (U.fileOps Dec.std) (U.openFile
      ([75, 12] ++ [73, 69, 78, 68, 32, 32, 32, 32, 0, 0, 0, 0] ++ [12, 0, 255]))) =
      .ok [("IEND", 1), ("", 1)] ∧
    observed (getRecordcount (U.fileOps Dec.std) (U.openFile
      ([75, 12] ++ [73, 69, 78, 68, 32, 32, 32, 32, 0, 0, 0, 0] ++ [12]))) =
      .error .structError := by
  constructor <;> decide +kernel

end Verif.Seq
