import Verif.Seq.SameView
import Verif.Seq.Writer
/-!
# Properties of the sequential file readers (C01 - C05, C48, C49)
-/

namespace Verif.Seq

/-! ## C02: framing of unformatted records -/

namespace U

/-- `n` calls of `read_stringrec`, collecting the results -/
def readPayloads : Nat → UState → Except Err (List Bytes × UState)
  | 0, s => .ok ([], s)
  | n + 1, s =>
    match readStringrec s with
    | .error e => .error e
    | .ok (c, s1) =>
      match readPayloads n s1 with
      | .error e => .error e
      | .ok (cs, s2) => .ok (c :: cs, s2)

/-- **C02** (round trip): reading as many records as were framed returns the payloads in order and
stops exactly behind the last frame, whatever the frame bytes and whatever follows. -/
theorem framing_roundtrip {ps : List Bytes} {bs : Bytes} (h : Frames ps bs) (rest : Bytes)
    (hr : Bool) (fr : List PyF) :
    ∃ s', readPayloads ps.length ⟨bs ++ rest, hr, fr⟩ = .ok (ps, s') ∧ s'.rem = rest := by
  induction h generalizing hr with
  | nil => exact ⟨⟨rest, hr, fr⟩, rfl, rfl⟩
  | cons h1 h2 ih =>
    obtain ⟨s', h3, h4⟩ := ih false
    refine ⟨s', ?_, h4⟩
    simp only [List.length_cons, readPayloads, List.append_assoc, readStringrec_frame h1, h3]

/-- **C02** (end of file): one more read raises. -/
theorem framing_end {ps : List Bytes} {bs : Bytes} (h : Frames ps bs) (hr : Bool)
    (fr : List PyF) : readPayloads (ps.length + 1) ⟨bs, hr, fr⟩ = .error .structError := by
  induction h generalizing hr with
  | nil => rfl
  | cons h1 h2 ih =>
    have := ih false
    rw [List.length_cons, readPayloads, readStringrec_frame h1]
    simp only
    rw [this]

/-- **C02** (every payload of at most 128 bytes can be framed, with length byte 128 or 129 for the
longest ones and with any trailing byte) -/
theorem framing_exists (c : Bytes) (h : c.length ≤ 128) (t : UInt8) :
    Frame c (UInt8.ofNat c.length :: (c ++ [t])) ∧
      (c.length = 128 → Frame c (129 :: (c ++ [t]))) := by
  constructor
  · refine ⟨_, t, rfl, ?_⟩
    have h1 : (UInt8.ofNat c.length).toNat = c.length := by
      rw [UInt8.toNat_ofNat']; omega
    rw [if_neg, h1]
    intro he
    have := congrArg UInt8.toNat he
    rw [h1] at this
    have h129 : (129 : UInt8).toNat = 129 := rfl
    omega
  · intro h
    exact ⟨129, t, rfl, by simpa using h⟩

/-- **C02** (a record cut off by the end of the file): what is left of it is returned, without
any byte that is not on the file. -/
theorem framing_truncated {c : Bytes} (l : UInt8)
    (hl : c.length < (if l = 129 then 128 else l.toNat)) (hr : Bool) (fr : List PyF) :
    readStringrec ⟨l :: c, hr, fr⟩ = .ok (c, ⟨[], false, fr⟩) := by
  simp only [readStringrec]
  rw [List.take_of_length_le (Nat.le_of_lt hl), List.drop_of_length_le (Nat.le_of_lt hl)]
  rfl

/-- concrete case: two records, the second with 128 bytes announced as 129 -/
example : Frames [[65, 66], List.replicate 128 7]
    ([2, 65, 66, 0] ++ ((129 :: (List.replicate 128 7 ++ [9])) ++ [])) :=
  .cons ⟨2, 0, rfl, rfl⟩ (.cons ⟨129, 9, rfl, by simp⟩ .nil)

/-! ## C01: values do not depend on the chunking -/

/-- a sequence of `read_floats(n)` calls -/
def readMany (D : Dec) (k : Nat) : List Nat → UState → Except Err (List (List PyF) × UState)
  | [], s => .ok ([], s)
  | n :: ns, s =>
    match readFloats D n k s with
    | .error e => .error e
    | .ok (fs, s1) =>
      match readMany D k ns s1 with
      | .error e => .error e
      | .ok (r, s2) => .ok (fs :: r, s2)

/-- the state holds the values `vals` (in the leftover buffer and on unread records) -/
def Holds (D : Dec) (k : Nat) (s : UState) (vals : List PyF) : Prop :=
  ∃ cs vss fb rb, s.rem = fb ++ rb ∧ Frames cs fb ∧ List.Forall₂ (Chunk D k) cs vss ∧
    lead s ++ vss.flatten = vals

theorem readFloats_holds {D : Dec} {k n : Nat} {s : UState} {vals : List PyF}
    (h : Holds D k s vals) (hn : n ≤ vals.length) :
    ∃ s', readFloats D n k s = .ok (vals.take n, s') ∧ Holds D k s' (vals.drop n) := by
  by_cases h0 : n = 0
  · subst h0
    exact ⟨s, by simp [readFloats], by simpa using h⟩
  obtain ⟨cs, vss, fb, rb, hrem, hfr, hcs, rfl⟩ := h
  have hne : (n : Int) ≠ 0 := by omega
  obtain ⟨rem, hasr, frest⟩ := s
  simp only at hrem
  subst hrem
  generalize hL : lead ⟨fb ++ rb, hasr, frest⟩ = L at hn ⊢
  have hL' : (if hasr = true then frest else []) = L := hL
  by_cases hread : (n : Int) - L.length > 0
  · obtain ⟨v1, v2, cs2, b2, rfl, hc2, hf2, hge, hrun⟩ :=
      readLoop_chunks (D := D) hcs hfr rb ((n : Int) - L.length).toNat ((fb ++ rb).length + 2)
        [] hasr frest (by simp only [List.length_append, List.nil_append] at hn ⊢; omega)
        (by have := hfr.length_le; simp only [List.length_append]; omega)
        (Or.inl (by simp only [List.length_nil]; omega))
    rw [List.nil_append] at hge hrun
    have hle : n ≤ (L ++ v1.flatten).length := by simp only [List.length_append]; omega
    refine ⟨(finishFloats (n : Int) (L ++ v1.flatten) ⟨b2 ++ rb, false, frest⟩).2, ?_, ?_⟩
    · unfold readFloats
      rw [if_neg hne]
      simp only [hL']
      rw [if_pos hread, hrun]
      simp only [finishFloats, pyTake_nat, List.flatten_append]
      rw [← List.append_assoc, List.take_append_of_le_length hle]
    · refine ⟨cs2, v2, b2, rb, rfl, hf2, hc2, ?_⟩
      have hdr : (L ++ (v1 ++ v2).flatten).drop n = (L ++ v1.flatten).drop n ++ v2.flatten := by
        rw [List.flatten_append, ← List.append_assoc, List.drop_append_of_le_length hle]
      rw [hdr]
      congr 1
      simp only [lead, finishFloats, pyDrop_nat]
      by_cases hz : ((L ++ v1.flatten).drop n).length > 0
      · simp only [if_pos hz, if_true]
      · simp only [if_neg hz, Bool.false_eq_true, if_false]
        exact (List.length_eq_zero_iff.mp (by omega)).symm
  · have hle : n ≤ L.length := by omega
    refine ⟨(finishFloats (n : Int) L ⟨fb ++ rb, hasr, frest⟩).2, ?_, ?_⟩
    · unfold readFloats
      rw [if_neg hne]
      simp only [hL']
      rw [if_neg hread]
      simp only [finishFloats, pyTake_nat]
      rw [List.take_append_of_le_length hle]
    · have hhas : hasr = true := by
        by_contra hc
        rw [if_neg hc] at hL'
        subst hL'
        simp at hle
        exact h0 hle
      refine ⟨cs, vss, fb, rb, rfl, hfr, hcs, ?_⟩
      rw [List.drop_append_of_le_length hle]
      congr 1
      simp only [lead, finishFloats, pyDrop_nat, hhas]
      simp

/-- **C01**: any sequence of requests on records of floats returns the values of the file in file
order, without loss, duplication or reordering, however the values are distributed over physical
records. -/
theorem read_floats_in_order {D : Dec} {k : Nat} {cs : List Bytes} {vss : List (List PyF)}
    {fb : Bytes} (hf : Frames cs fb) (hc : List.Forall₂ (Chunk D k) cs vss) (rest : Bytes)
    (fr : List PyF) (ns : List Nat) (hsum : ns.sum ≤ vss.flatten.length) :
    ∃ out s', readMany D k ns ⟨fb ++ rest, false, fr⟩ = .ok (out, s') ∧
      out.flatten = vss.flatten.take ns.sum ∧ out.map List.length = ns := by
  have key : ∀ (ns : List Nat) (s : UState) (vals : List PyF), Holds D k s vals →
      ns.sum ≤ vals.length → ∃ out s', readMany D k ns s = .ok (out, s') ∧
        out.flatten = vals.take ns.sum ∧ out.map List.length = ns := by
    intro ns
    induction ns with
    | nil => intro s vals _ _; exact ⟨[], s, rfl, by simp, rfl⟩
    | cons n ns ih =>
      intro s vals hv hs
      simp only [List.sum_cons] at hs
      obtain ⟨s1, h1, h2⟩ := readFloats_holds hv (n := n) (by omega)
      obtain ⟨out, s', h3, h4, h5⟩ := ih s1 _ h2 (by rw [List.length_drop]; omega)
      refine ⟨vals.take n :: out, s', ?_, ?_, ?_⟩
      · simp only [readMany, h1, h3]
      · rw [List.flatten_cons, h4, List.sum_cons, List.take_add]
      · rw [List.map_cons, h5, List.length_take, Nat.min_eq_left (by omega)]
  exact key ns _ _ ⟨cs, vss, fb, rest, rfl, hf, hc, by simp [lead]⟩ hsum

/-- two lists of lists with the same lengths and the same concatenation are equal -/
theorem flatten_lengths_inj {β : Type} {a b : List (List β)} (h1 : a.flatten = b.flatten)
    (h2 : a.map List.length = b.map List.length) : a = b := by
  induction a generalizing b with
  | nil => cases b with
    | nil => rfl
    | cons y b => simp at h2
  | cons x a ih =>
    cases b with
    | nil => simp at h2
    | cons y b =>
      simp only [List.map_cons, List.cons.injEq, List.flatten_cons] at h1 h2
      obtain ⟨h3, h4⟩ := List.append_inj h1 h2.1
      rw [h3, ih h4 h2.2]

/-- **C01** (chunking is irrelevant): two files holding the same values in differently sized
physical records (also with different numbers of leading blanks) answer every request sequence
alike. -/
theorem chunking_irrelevant {D : Dec} {k k' : Nat} {cs cs' : List Bytes}
    {vss vss' : List (List PyF)} {fb fb' : Bytes}
    (hf : Frames cs fb) (hc : List.Forall₂ (Chunk D k) cs vss)
    (hf' : Frames cs' fb') (hc' : List.Forall₂ (Chunk D k') cs' vss')
    (heq : vss.flatten = vss'.flatten) (rest rest' : Bytes) (fr fr' : List PyF) (ns : List Nat)
    (hsum : ns.sum ≤ vss.flatten.length) :
    ∃ out s s', readMany D k ns ⟨fb ++ rest, false, fr⟩ = .ok (out, s) ∧
      readMany D k' ns ⟨fb' ++ rest', false, fr'⟩ = .ok (out, s') := by
  obtain ⟨out, s, h1, h2, h3⟩ := read_floats_in_order hf hc rest fr ns hsum
  obtain ⟨out', s', h1', h2', h3'⟩ := read_floats_in_order hf' hc' rest' fr' ns
    (by rw [← heq]; exact hsum)
  have : out = out' := flatten_lengths_inj (by rw [h2, h2', heq]) (by rw [h3, h3'])
  subst this
  exact ⟨out, s, s', h1, h1'⟩

theorem readLoop_exhausted {D : Dec} {k need : Nat} {cs : List Bytes} {vss : List (List PyF)}
    (h : List.Forall₂ (Chunk D k) cs vss) {bs : Bytes} (hf : Frames cs bs) (fuel : Nat)
    (acc : List PyF) (hr : Bool) (fr : List PyF) (hfuel : cs.length < fuel)
    (hneed : (acc ++ vss.flatten).length < need) :
    readLoop D k need fuel acc ⟨bs, hr, fr⟩ = .error .structError := by
  induction h generalizing bs fuel acc hr with
  | nil =>
    cases hf
    obtain ⟨fuel, rfl⟩ := Nat.exists_eq_succ_of_ne_zero (by omega : fuel ≠ 0)
    have hn : acc.length < need := by simpa using hneed
    simp [readLoop, hn, readFloatrec, readStringrec]
  | cons hc hcs ih =>
    rename_i c vs cs vss
    obtain ⟨fuel, rfl⟩ := Nat.exists_eq_succ_of_ne_zero (by omega : fuel ≠ 0)
    obtain ⟨b, bs', rfl, h1, h2⟩ := hf.cons_inv
    have hn : acc.length < need := by
      simp only [List.length_append] at hneed
      omega
    rw [readLoop, if_pos hn, readFloatrec_chunk hc h1]
    simp only
    exact ih h2 fuel (acc ++ vs) false (by simpa using hfuel) (by simpa using hneed)

/-- **C01** (not enough values): asking for more values than are left on the file raises; no
value is invented. -/
theorem read_floats_exhausted {D : Dec} {k : Nat} {cs : List Bytes} {vss : List (List PyF)}
    {fb : Bytes} (hf : Frames cs fb) (hc : List.Forall₂ (Chunk D k) cs vss) (fr : List PyF)
    (n : Nat) (h : vss.flatten.length < n) :
    readFloats D n k ⟨fb, false, fr⟩ = .error .structError := by
  unfold readFloats
  rw [if_neg (by omega)]
  simp only [Bool.false_eq_true, if_false, List.length_nil, Int.natCast_zero, Int.sub_zero,
    Int.toNat_natCast]
  rw [if_pos (by omega), readLoop_exhausted hc hf]
  · have := hf.length_le; omega
  · simpa using h

/-- concrete case: the three values 1, -5, 1 in chunks 2+1 or 1+1+1, requests 1, 0, 2 -/
example : readMany Dec.std 0 [1, 0, 2]
      ⟨[8, 0,0,128,63, 0,0,160,192, 8, 4, 0,0,128,63, 4], false, []⟩ =
    .ok ([[.rat 1], [], [.rat (-5), .rat 1]], ⟨[], false, []⟩) := by decide +kernel
example : Chunk Dec.std 0 [0,0,128,63, 0,0,160,192] [.rat 1, .rat (-5)] ∧
    Frame [0,0,128,63, 0,0,160,192] [8, 0,0,128,63, 0,0,160,192, 8] :=
  ⟨⟨_, rfl, by decide +kernel⟩, ⟨8, 8, rfl, rfl⟩⟩

end U

/-! ## C03: formatted files -/

namespace T

/-- a sequence of `read_floats(n)` calls -/
def readMany (D : Dec) (k : Nat) : List Nat → TState → Except Err (List (List PyF) × TState)
  | [], s => .ok ([], s)
  | n :: ns, s =>
    match readFloats D n k s with
    | .error e => .error e
    | .ok (fs, s1) =>
      match readMany D k ns s1 with
      | .error e => .error e
      | .ok (r, s2) => .ok (fs :: r, s2)

/-- reading a number of lines of any filling -/
theorem readLines_any {D : Dec} {k : Nat} {cs : List Str} {vss : List (List PyF)}
    (h : List.Forall₂ (Chunk D) cs vss) (r : Str) (acc : List PyF) (hr : Bool) (fr : List PyF) :
    ∃ hr', readLines D k cs.length acc ⟨unlines cs ++ r, hr, fr⟩ =
      .ok (acc ++ vss.flatten, ⟨r, hr', fr⟩) ∧ (cs ≠ [] → hr' = false) := by
  induction h generalizing acc hr with
  | nil => exact ⟨hr, by simp [readLines, unlines], fun h => absurd rfl h⟩
  | cons hc hcs ih =>
    rename_i c vs cs vss
    obtain ⟨hr', h1, h2⟩ := ih (acc ++ vs) false
    refine ⟨hr', ?_, ?_⟩
    · have e : unlines (c :: cs) ++ r = c ++ '\n' :: (unlines cs ++ r) := by simp [unlines]
      rw [List.length_cons, readLines, e, readFloatrec_chunk hc]
      simp only
      rw [h1]
      simp
    · intro _
      by_cases hcs' : cs = []
      · subst hcs'
        cases hcs
        simp only [List.length_nil, readLines, unlines, List.nil_append] at h1
        injection h1 with h1
        injection h1 with _ h1
        injection h1 with _ h1 _
        exact h1.symm
      · exact h2 hcs'

/-- **C03** (exact effect of a request): with `L` values left over from the previous request, a
request for `n > |L|` values reads exactly `ceil((n - |L|)/4)` lines - whatever their filling -,
returns the first `n` of the leftover and the read values (fewer if these lines hold fewer) and
keeps the others for the next request.  No value of a later line is touched. -/
theorem read_floats_lines {D : Dec} {k : Nat} {cs : List Str} {vss : List (List PyF)}
    (h : List.Forall₂ (Chunk D) cs vss) (L : List PyF) (n : Nat) (hn : L.length < n)
    (hlen : cs.length = (n - L.length + 3) / 4) (r : Str) (hr : Bool) (fr : List PyF)
    (hL : L = if hr then fr else []) :
    readFloats D n k ⟨unlines cs ++ r, hr, fr⟩ =
      .ok ((L ++ vss.flatten).take n,
        ⟨r, decide (n < (L ++ vss.flatten).length), (L ++ vss.flatten).drop n⟩) := by
  obtain ⟨hr', h1, h2⟩ := readLines_any (k := k) h r [] hr fr
  have hne : cs ≠ [] := by
    intro hc
    rw [hc, List.length_nil] at hlen
    omega
  have := h2 hne
  subst this
  unfold readFloats
  rw [if_neg (by omega)]
  simp only [← hL]
  rw [if_pos (by omega)]
  have hm : (((n : Int) - L.length).toNat + 3) / 4 = cs.length := by
    rw [hlen]
    congr 2
    omega
  rw [hm, h1]
  simp only [finishFloats, pyTake_nat, pyDrop_nat, List.nil_append, List.length_drop]
  congr 2
  by_cases hx : n < (L ++ vss.flatten).length
  · have : (L ++ vss.flatten).length - n > 0 := by omega
    rw [if_pos this, decide_eq_true hx]
  · have : ¬ (L ++ vss.flatten).length - n > 0 := by omega
    rw [if_neg this, decide_eq_false hx]

/-- the state holds the values `vals` (in the leftover buffer and on unread lines) -/
def Holds (D : Dec) (s : TState) (vals : List PyF) : Prop :=
  ∃ cs vss rb, s.rem = unlines cs ++ rb ∧ Filled vss ∧ List.Forall₂ (Chunk D) cs vss ∧
    lead s ++ vss.flatten = vals

theorem readFloats_holds {D : Dec} {k n : Nat} {s : TState} {vals : List PyF}
    (h : Holds D s vals) (hn : n ≤ vals.length) :
    ∃ s', readFloats D n k s = .ok (vals.take n, s') ∧ Holds D s' (vals.drop n) := by
  by_cases h0 : n = 0
  · subst h0
    exact ⟨s, by simp [readFloats], by simpa using h⟩
  obtain ⟨cs, vss, rb, hrem, hfill, hcs, rfl⟩ := h
  have hne : (n : Int) ≠ 0 := by omega
  obtain ⟨rem, hasr, frest⟩ := s
  simp only at hrem
  subst hrem
  generalize hL : lead ⟨unlines cs ++ rb, hasr, frest⟩ = L at hn ⊢
  have hL' : (if hasr = true then frest else []) = L := hL
  by_cases hread : (n : Int) - L.length > 0
  · obtain ⟨v1, v2, cs2, rfl, hc2, hf2, hge, hrun⟩ :=
      readLines_chunks (D := D) (k := k) hcs hfill rb ((n : Int) - L.length).toNat
        [] hasr frest (by simp only [List.length_append] at hn ⊢; omega) (Or.inl (by omega))
    rw [List.nil_append] at hrun
    have hle : n ≤ (L ++ v1.flatten).length := by simp only [List.length_append]; omega
    refine ⟨(finishFloats (n : Int) (L ++ v1.flatten) ⟨unlines cs2 ++ rb, false, frest⟩).2,
      ?_, ?_⟩
    · unfold readFloats
      rw [if_neg hne]
      simp only [hL']
      rw [if_pos hread, hrun]
      simp only [finishFloats, pyTake_nat, List.flatten_append]
      rw [← List.append_assoc, List.take_append_of_le_length hle]
    · refine ⟨cs2, v2, rb, rfl, hf2, hc2, ?_⟩
      have hdr : (L ++ (v1 ++ v2).flatten).drop n = (L ++ v1.flatten).drop n ++ v2.flatten := by
        rw [List.flatten_append, ← List.append_assoc, List.drop_append_of_le_length hle]
      rw [hdr]
      congr 1
      simp only [lead, finishFloats, pyDrop_nat]
      by_cases hz : ((L ++ v1.flatten).drop n).length > 0
      · simp only [if_pos hz, if_true]
      · simp only [if_neg hz, Bool.false_eq_true, if_false]
        exact (List.length_eq_zero_iff.mp (by omega)).symm
  · have hle : n ≤ L.length := by omega
    refine ⟨(finishFloats (n : Int) L ⟨unlines cs ++ rb, hasr, frest⟩).2, ?_, ?_⟩
    · unfold readFloats
      rw [if_neg hne]
      simp only [hL']
      rw [if_neg hread]
      simp only [finishFloats, pyTake_nat]
      rw [List.take_append_of_le_length hle]
    · have hhas : hasr = true := by
        by_contra hc
        rw [if_neg hc] at hL'
        subst hL'
        simp at hle
        exact h0 hle
      refine ⟨cs, vss, rb, rfl, hfill, hcs, ?_⟩
      rw [List.drop_append_of_le_length hle]
      congr 1
      simp only [lead, finishFloats, pyDrop_nat, hhas]
      simp

/-- **C03**: on lines of four fields each (the last one possibly fewer) any sequence of requests
within the record returns its values in order. -/
theorem read_floats_in_order {D : Dec} {k : Nat} {cs : List Str} {vss : List (List PyF)}
    (hc : List.Forall₂ (Chunk D) cs vss) (hfull : ∀ vs ∈ vss.dropLast, vs.length = 4)
    (hmax : ∀ vs ∈ vss, vs.length ≤ 4) (rest : Str) (fr : List PyF) (ns : List Nat)
    (hsum : ns.sum ≤ vss.flatten.length) :
    ∃ out s', readMany D k ns ⟨unlines cs ++ rest, false, fr⟩ = .ok (out, s') ∧
      out.flatten = vss.flatten.take ns.sum ∧ out.map List.length = ns := by
  have key : ∀ (ns : List Nat) (s : TState) (vals : List PyF), Holds D s vals →
      ns.sum ≤ vals.length → ∃ out s', readMany D k ns s = .ok (out, s') ∧
        out.flatten = vals.take ns.sum ∧ out.map List.length = ns := by
    intro ns
    induction ns with
    | nil => intro s vals _ _; exact ⟨[], s, rfl, by simp, rfl⟩
    | cons n ns ih =>
      intro s vals hv hs
      simp only [List.sum_cons] at hs
      obtain ⟨s1, h1, h2⟩ := readFloats_holds (k := k) hv (n := n) (by omega)
      obtain ⟨out, s', h3, h4, h5⟩ := ih s1 _ h2 (by rw [List.length_drop]; omega)
      refine ⟨vals.take n :: out, s', ?_, ?_, ?_⟩
      · simp only [readMany, h1, h3]
      · rw [List.flatten_cons, h4, List.sum_cons, List.take_add]
      · rw [List.map_cons, h5, List.length_take, Nat.min_eq_left (by omega)]
  exact key ns _ _ ⟨cs, vss, rest, rfl, ⟨hfull, hmax⟩, hc, by simp [lead]⟩ hsum

/-- concrete case: five values on two lines, requests 3, 2; a third request for three values with
only two lines left gets the remaining prefix -/
example : readMany Dec.std 0 [3, 2] ⟨("                       1               2               3               4\n" ++
      "                       5\nGNODE   ").toList, false, []⟩ =
    .ok ([[.rat 1, .rat 2, .rat 3], [.rat 4, .rat 5]], ⟨"GNODE   ".toList, false, []⟩) := by
  decide +kernel
example : Chunk Dec.std "                       1               2".toList [.rat 1, .rat 2] :=
  ⟨"               1               2".toList, by decide +kernel, by decide +kernel,
    by decide +kernel⟩

end T

/-! ## C04: unread values never leak into the next record -/

/-- what a caller sees of a run: the answers or the exception -/
def observed {σ β : Type} (x : Except Err (β × σ)) : Except Err β :=
  match x with
  | .ok (a, _) => .ok a
  | .error e => .error e

theorem SameRes.observed {α β : Type} {x y : Except Err (β × FState α)} (h : SameRes x y) :
    observed x = Seq.observed y := by
  rcases h with ⟨e, rfl, rfl⟩ | ⟨a, s, s', rfl, rfl, _⟩ <;> rfl

/-- **C04** (unformatted): take any state of the file object, with any leftover values of any
earlier record.  Reading a header and doing anything afterwards (any program of file calls that
may depend on the answers) gives the same answers or the same exception as on a fresh file object
standing at the same place. -/
theorem U.header_discards_leftover {β : Type} (D : Dec) (rem : Bytes) (hr : Bool)
    (fr : List PyF) (p : String × List PyF → Prog β) :
    observed ((Prog.op .header p).run (U.reader D) ⟨rem, hr, fr⟩) =
      observed ((Prog.op .header p).run (U.reader D) ⟨rem, false, []⟩) := by
  have h : SameRes (U.readHeader D ⟨rem, hr, fr⟩) (U.readHeader D ⟨rem, false, []⟩) := by
    cases rem with
    | nil => exact .error _
    | cons l r =>
      simp only [U.readHeader, U.readStringrec, bind_ok]
      exact .bindPure (U.asHeader D _) fun x => .ok x ⟨rfl, rfl, fun h => by cases h⟩
  apply SameRes.observed
  simp only [Prog.run, U.reader]
  rcases h with ⟨e, h1, h2⟩ | ⟨a, t, t', h1, h2, h3⟩
  · rw [h1, h2]; exact .error e
  · rw [h1, h2]; exact run_respects (U.step_respects D) (p a) t t' h3

/-- **C04** (formatted) -/
theorem T.header_discards_leftover {β : Type} (D : Dec) (rem : Str) (hr : Bool)
    (fr : List PyF) (p : String × List PyF → Prog β) :
    observed ((Prog.op .header p).run (T.reader D) ⟨rem, hr, fr⟩) =
      observed ((Prog.op .header p).run (T.reader D) ⟨rem, false, []⟩) := by
  have h : SameRes (T.readHeader D ⟨rem, hr, fr⟩) (T.readHeader D ⟨rem, false, []⟩) := by
    simp only [T.readHeader, T.readStringrec, bind_ok]
    exact .bindPure (T.asHeader D _) fun x => .ok x ⟨rfl, rfl, fun h => by cases h⟩
  apply SameRes.observed
  simp only [Prog.run, T.reader]
  rcases h with ⟨e, h1, h2⟩ | ⟨a, t, t', h1, h2, h3⟩
  · rw [h1, h2]; exact .error e
  · rw [h1, h2]; exact run_respects (T.step_respects D) (p a) t t' h3

/-- **C04** (contents, unformatted): the header read is the next physical record, and the request
after it starts with the values physically behind that header - for every leftover state. -/
theorem U.header_then_floats {D : Dec} {k : Nat} {r : LRec} {c b : Bytes} {cs : List Bytes}
    {vss : List (List PyF)} {fb : Bytes} (hh : Head D r c) (hb : Frame c b) (hf : Frames cs fb)
    (hc : List.Forall₂ (Chunk D k) cs vss) (rest : Bytes) (hr : Bool) (fr : List PyF) (n : Nat)
    (hn : n ≤ vss.flatten.length) :
    observed ((Prog.op .header fun h => Prog.op (.floats n k) fun v => .ret (h, v)).run (U.reader D)
      ⟨b ++ (fb ++ rest), hr, fr⟩) = .ok ((r.name, r.head), vss.flatten.take n) := by
  have e : U.readHeader D ⟨b ++ (fb ++ rest), hr, fr⟩ =
      .ok ((r.name, r.head), ⟨fb ++ rest, false, fr⟩) := by
    obtain ⟨hname, fb, rfl, hfl⟩ := hh
    have hlen : ((nameField r.name).map toByte).length = 8 := by
      rw [List.length_map, nameField_length hname]
    simp only [U.readHeader, U.readStringrec_frame hb, bind_ok, U.asHeader]
    rw [List.take_left' hlen, List.drop_left' hlen, decode_nameField hname, bind_ok, hfl,
      bind_ok, strip_nameField hname, String.ofList_toList]
    rfl
  obtain ⟨s', h1, _⟩ := U.readFloats_holds (D := D) (k := k) (n := n)
    ⟨cs, vss, fb, rest, rfl, hf, hc, rfl⟩ (s := ⟨fb ++ rest, false, fr⟩)
    (by simpa [U.lead] using hn)
  simp only [Prog.run, U.reader, e, h1]
  simp [observed, U.lead]

/-- **C04** (contents, formatted) -/
theorem T.header_then_floats {D : Dec} {k : Nat} {r : LRec} {c : Str} {cs : List Str}
    {vss : List (List PyF)} (hh : Head D r c) (hc : List.Forall₂ (Chunk D) cs vss)
    (hfull : ∀ vs ∈ vss.dropLast, vs.length = 4) (hmax : ∀ vs ∈ vss, vs.length ≤ 4)
    (rest : Str) (hr : Bool) (fr : List PyF) (n : Nat) (hn : n ≤ vss.flatten.length) :
    observed ((Prog.op .header fun h => Prog.op (.floats n k) fun v => .ret (h, v)).run (T.reader D)
      ⟨c ++ '\n' :: (unlines cs ++ rest), hr, fr⟩) =
        .ok ((r.name, r.head), vss.flatten.take n) := by
  have e : T.readHeader D ⟨c ++ '\n' :: (unlines cs ++ rest), hr, fr⟩ =
      .ok ((r.name, r.head), ⟨unlines cs ++ rest, false, fr⟩) := by
    have hnl := Head.noNl hh
    obtain ⟨hname, fb, rfl, _, hfl⟩ := hh
    have hlen : (nameField r.name).length = 8 := nameField_length hname
    simp only [T.readHeader, T.readStringrec_line hnl, bind_ok, T.asHeader]
    rw [List.take_left' hlen, List.drop_left' hlen, hfl, bind_ok, strip_nameField hname,
      String.ofList_toList]
    rfl
  obtain ⟨s', h1, _⟩ := T.readFloats_holds (D := D) (k := k) (n := n)
    (s := ⟨unlines cs ++ rest, false, fr⟩) ⟨cs, vss, rest, rfl, ⟨hfull, hmax⟩, hc, rfl⟩
    (by simpa [T.lead] using hn)
  simp only [Prog.run, T.reader, e, h1]
  simp [observed, T.lead]

/-- concrete case: leftover 7, 8 of an earlier record; header `GNODE 1`, then the value 2 -/
example : observed ((Prog.op .header fun h => Prog.op (.floats 1 0) fun v => .ret (h, v)).run
    (T.reader Dec.std)
    ⟨"GNODE                  1\n                       2\n".toList, true, [.rat 7, .rat 8]⟩) =
    .ok (("GNODE", [.rat 1]), [.rat 2]) := by decide +kernel

/-! ## C05: skipping lands on the next record -/

/-- **C05** (unformatted): a record `r` of one of the layouts listed in `U.Skippable` (any number
of continuation records, any chunking), followed by a record `n`.  Reading the header of `r` and
skipping the rest returns the header of `n`, and everything done afterwards behaves as on the
logical record `n`. -/
theorem U.skip_lands_on_next {β : Type} {D : Dec} {z bs : Bytes} {sk : LRec → Bool} {r n : LRec}
    {rs : List LRec} (henc : U.Encodes D sk z (r :: n :: rs) bs) (hsk : sk r = true)
    (k : UInt8) (p : Prog β) {a : β} {t : LState}
    (hp : p.run (L.reader sk) { cur := n, ops := 0, rest := rs } = .ok (a, t)) :
    ∃ s, (Prog.op .header fun h => Prog.op (.skip h.1 h.2) fun h' => p.bind fun a =>
        .ret (h, h', a)).run (U.reader D) (U.openFile (k :: bs)) =
      .ok (((r.name, r.head), (n.name, n.head), a), s) := by
  have h1 : (Prog.op .header fun h => Prog.op (.skip h.1 h.2) fun h' => p.bind fun a =>
        .ret (h, h', a)).run (L.reader sk) (L.openFile (r :: n :: rs)) =
      .ok (((r.name, r.head), (n.name, n.head), a), t) := by
    have a1 : (L.reader sk).step .header (L.openFile (r :: n :: rs)) =
        .ok ((r.name, r.head), { cur := r, ops := 0, rest := n :: rs }) := by
      simp [L.reader, L.openFile, L.next]
    have a2 : (L.reader sk).step (.skip r.name r.head) { cur := r, ops := 0, rest := n :: rs } =
        .ok ((n.name, n.head), { cur := n, ops := 0, rest := rs }) := by
      simp [L.reader, L.next, hsk]
    simp only [Prog.run, a1, a2]
    rw [Prog.run_bind_ok hp]
    rfl
  obtain ⟨s', h2, _⟩ := Prog.run_sim (U.simulates D sk z) _ (U.rel_open k henc) h1
  exact ⟨s', h2⟩

/-- **C05** (formatted) -/
theorem T.skip_lands_on_next {β : Type} {D : Dec} {z bs : Str} {sk : LRec → Bool} {r n : LRec}
    {rs : List LRec} (henc : T.Encodes D sk z (r :: n :: rs) bs) (hsk : sk r = true)
    (p : Prog β) {a : β} {t : LState}
    (hp : p.run (L.reader sk) { cur := n, ops := 0, rest := rs } = .ok (a, t)) :
    ∃ s, (Prog.op .header fun h => Prog.op (.skip h.1 h.2) fun h' => p.bind fun a =>
        .ret (h, h', a)).run (T.reader D) (T.openFile bs) =
      .ok (((r.name, r.head), (n.name, n.head), a), s) := by
  have h1 : (Prog.op .header fun h => Prog.op (.skip h.1 h.2) fun h' => p.bind fun a =>
        .ret (h, h', a)).run (L.reader sk) (L.openFile (r :: n :: rs)) =
      .ok (((r.name, r.head), (n.name, n.head), a), t) := by
    have a1 : (L.reader sk).step .header (L.openFile (r :: n :: rs)) =
        .ok ((r.name, r.head), { cur := r, ops := 0, rest := n :: rs }) := by
      simp [L.reader, L.openFile, L.next]
    have a2 : (L.reader sk).step (.skip r.name r.head) { cur := r, ops := 0, rest := n :: rs } =
        .ok ((n.name, n.head), { cur := n, ops := 0, rest := rs }) := by
      simp [L.reader, L.next, hsk]
    simp only [Prog.run, a1, a2]
    rw [Prog.run_bind_ok hp]
    rfl
  obtain ⟨s', h2, _⟩ := Prog.run_sim (T.simulates D sk z) _ (T.rel_open henc) h1
  exact ⟨s', h2⟩

/-- **C05** (exact position, unformatted): behind the skipped record stands a header record and
then arbitrary bytes `z`: after skipping, exactly `z` is unread. -/
theorem U.skip_position {D : Dec} {r n : LRec} {c c' b b' z : Bytes} {body : List Bytes}
    (hh : U.Head D r c) (hbody : U.Body D r body) (hfr : U.Frames (c :: body) b)
    (hskip : U.Skippable D r body n.name) (hn : U.Head D n c') (hb' : U.Frame c' b')
    (hr : Bool) (fr : List PyF) :
    ∃ s1 s2, U.readHeader D ⟨b ++ (b' ++ z), hr, fr⟩ = .ok ((r.name, r.head), s1) ∧
      skipRestofrecord (U.fileOps D) r.name r.head s1 = .ok ((n.name, n.head), s2) ∧
      s2.rem = z ∧ s2.hasrest = false := by
  have henc : U.Encodes D (fun _ => true) z
      [r, { name := n.name, head := n.head }] (b ++ (b' ++ z)) := by
    refine .cons hh hbody hfr (fun _ m hm => ?_) ?_
    · simp only [List.head?_cons, Option.mem_some_iff] at hm
      subst hm
      exact hskip
    · have hb0 : U.Frames [c'] b' := by
        have := U.Frames.cons hb' .nil
        rwa [List.append_nil] at this
      refine .cons (body := []) hn ⟨[], [], rfl, .nil, [], .nil, rfl, fun h => absurd rfl h⟩ hb0
        (fun _ m hm => by cases hm) .nil
  obtain ⟨s1, h1, h2⟩ := U.readHeader_encodes henc hr fr
  obtain ⟨s2, h3, h4⟩ := U.skip_rel h2 rfl rfl rfl
  refine ⟨s1, s2, h1, h3, ?_, ?_⟩
  · have := h4.rem_of_done rfl rfl
    generalize s2.rem = x at this
    cases this
    rfl
  · obtain ⟨_, _, _, _, _, _, _, _, _, _, _, _, _, h5, _⟩ := h4
    exact (h5 rfl).1

/-- **C05** (exact position, formatted) -/
theorem T.skip_position {D : Dec} {r n : LRec} {c c' z : Str} {body : List Str}
    (hh : T.Head D r c) (hbody : T.Body D r body)
    (hskip : T.Skippable D r body n.name) (hn : T.Head D n c') (hr : Bool) (fr : List PyF) :
    ∃ s1 s2, T.readHeader D ⟨T.unlines (c :: body) ++ (c' ++ '\n' :: z), hr, fr⟩ =
        .ok ((r.name, r.head), s1) ∧
      skipRestofrecord (T.fileOps D) r.name r.head s1 = .ok ((n.name, n.head), s2) ∧
      s2.rem = z ∧ s2.hasrest = false := by
  have henc : T.Encodes D (fun _ => true) z
      [r, { name := n.name, head := n.head }] (T.unlines (c :: body) ++ (c' ++ '\n' :: z)) := by
    refine .cons hh hbody (fun _ m hm => ?_) ?_
    · simp only [List.head?_cons, Option.mem_some_iff] at hm
      subst hm
      exact hskip
    · have := T.Encodes.cons (D := D) (sk := fun _ => true) (z := z) (rs := [])
        (r := { name := n.name, head := n.head }) (body := []) (c := c') hn
        ⟨[], [], rfl, .nil, [], .nil, rfl, by simp, by simp, fun h => absurd rfl h⟩
        (fun _ m hm => by cases hm) .nil
      simpa [T.unlines] using this
  obtain ⟨s1, h1, h2⟩ := T.readHeader_encodes henc hr fr
  obtain ⟨s2, h3, h4⟩ := T.skip_rel h2 rfl rfl rfl
  refine ⟨s1, s2, h1, h3, ?_, ?_⟩
  · have := h4.rem_of_done rfl rfl
    generalize s2.rem = x at this
    cases this
    rfl
  · obtain ⟨_, _, _, _, _, _, _, _, _, _, _, _, h5, _⟩ := h4
    exact (h5 rfl).1

/-- concrete cases: an unimplemented record `MISTEL` with two blank-led continuation lines, and
one without continuation, both in front of `GNODE` -/
example : T.Skippable Dec.std ⟨"MISTEL", [.rat 1], [], 0, [.rat 2, .rat 3], []⟩
    ["                       2".toList, "                       3".toList] "GNODE" :=
  .blankLed (.rat 1) [] rfl (by decide +kernel) (by rintro ⟨r, h⟩; simp at h) (by simp)
    (by
      intro c hc
      rcases List.mem_cons.mp hc with rfl | hc
      · exact ⟨"               2".toList, by decide +kernel⟩
      · rcases List.mem_cons.mp hc with rfl | hc
        · exact ⟨"               3".toList, by decide +kernel⟩
        · cases hc)
example : U.Skippable Dec.std ⟨"MISTEL", [.rat 1], [], 0, [], []⟩ [] "GNODE" :=
  .alone (.rat 1) [] rfl (by decide +kernel) (by rintro ⟨r, h⟩; simp at h) rfl
    (by decide +kernel)

/-! ## C49: counting records -/

/-- `recs` counts the occurrences of each name in `names` -/
def Counts (recs : List (String × Nat)) (names : List String) : Prop :=
  (recs.map Prod.fst).Nodup ∧ ∀ nm n, (nm, n) ∈ recs ↔ nm ∈ names ∧ n = names.count nm

theorem bump_keys (name : String) (recs : List (String × Nat)) :
    ∀ k, k ∈ (bump name recs).map Prod.fst ↔ k ∈ recs.map Prod.fst ∨ k = name := by
  intro k
  induction recs with
  | nil => simp [bump]
  | cons p recs ih =>
    obtain ⟨a, n⟩ := p
    simp only [bump]
    split
    · rename_i h
      subst h
      simp only [List.map_cons, List.mem_cons]
      constructor
      · rintro (h | h)
        · exact Or.inl (Or.inl h)
        · exact Or.inl (Or.inr h)
      · rintro ((h | h) | h)
        · exact Or.inl h
        · exact Or.inr h
        · exact Or.inl h
    · simp only [List.map_cons, List.mem_cons, ih]
      constructor
      · rintro (h | h | h)
        · exact Or.inl (Or.inl h)
        · exact Or.inl (Or.inr h)
        · exact Or.inr h
      · rintro ((h | h) | h)
        · exact Or.inl h
        · exact Or.inr (Or.inl h)
        · exact Or.inr (Or.inr h)

theorem bump_mem {name : String} {recs : List (String × Nat)} (hnd : (recs.map Prod.fst).Nodup)
    (nm : String) (n : Nat) :
    (nm, n) ∈ bump name recs ↔
      (nm ≠ name ∧ (nm, n) ∈ recs) ∨
      (nm = name ∧ ((name ∉ recs.map Prod.fst ∧ n = 1) ∨ ∃ m, (name, m) ∈ recs ∧ n = m + 1)) := by
  induction recs with
  | nil =>
    simp only [bump, List.mem_singleton, Prod.mk.injEq, List.map_nil, List.not_mem_nil,
      and_false, false_or, not_false_eq_true, true_and, exists_const, or_false, false_and]
  | cons p recs ih =>
    obtain ⟨a, k⟩ := p
    simp only [List.map_cons, List.nodup_cons] at hnd
    have ih := ih hnd.2
    simp only [bump]
    split
    · rename_i h
      subst h
      simp only [List.mem_cons, Prod.mk.injEq, List.map_cons]
      constructor
      · rintro (⟨rfl, rfl⟩ | h)
        · exact Or.inr ⟨rfl, Or.inr ⟨k, Or.inl ⟨trivial, rfl⟩, rfl⟩⟩
        · by_cases hc : nm = a
          · subst hc
            exact absurd (List.mem_map.mpr ⟨_, h, rfl⟩) hnd.1
          · exact Or.inl ⟨hc, Or.inr h⟩
      · rintro (⟨h1, ⟨h2, _⟩ | h2⟩ | ⟨rfl, ⟨h, _⟩ | ⟨m, ⟨_, rfl⟩ | h, rfl⟩⟩)
        · exact absurd h2 h1
        · exact Or.inr h2
        · exact absurd (Or.inl trivial) h
        · exact Or.inl ⟨rfl, rfl⟩
        · exact absurd (List.mem_map.mpr ⟨_, h, rfl⟩) hnd.1
    · rename_i h
      simp only [List.mem_cons, Prod.mk.injEq, ih, List.map_cons]
      constructor
      · rintro (⟨rfl, rfl⟩ | ⟨h1, h2⟩ | ⟨rfl, ⟨h1, h2⟩ | ⟨m, h1, h2⟩⟩)
        · exact Or.inl ⟨h, Or.inl ⟨rfl, rfl⟩⟩
        · exact Or.inl ⟨h1, Or.inr h2⟩
        · exact Or.inr ⟨rfl, Or.inl ⟨fun hc => by
            rcases hc with hc | hc
            · exact h hc.symm
            · exact h1 hc, h2⟩⟩
        · exact Or.inr ⟨rfl, Or.inr ⟨m, Or.inr h1, h2⟩⟩
      · rintro (⟨h1, ⟨h2, h3⟩ | h2⟩ | ⟨rfl, ⟨h1, h2⟩ | ⟨m, ⟨h1, _⟩ | h1, h2⟩⟩)
        · exact Or.inl ⟨h2, h3⟩
        · exact Or.inr (Or.inl ⟨h1, h2⟩)
        · exact Or.inr (Or.inr ⟨rfl, Or.inl ⟨fun hc => h1 (Or.inr hc), h2⟩⟩)
        · exact absurd h1.symm h
        · exact Or.inr (Or.inr ⟨rfl, Or.inr ⟨m, h1, h2⟩⟩)

theorem Counts.bump {recs : List (String × Nat)} {names : List String} (h : Counts recs names)
    (name : String) : Counts (bump name recs) (names ++ [name]) := by
  obtain ⟨hnd, hm⟩ := h
  have hkey : ∀ k, k ∈ recs.map Prod.fst ↔ k ∈ names := by
    intro k
    constructor
    · intro hk
      obtain ⟨⟨a, n⟩, h1, rfl⟩ := List.mem_map.mp hk
      exact ((hm a n).mp h1).1
    · intro hk
      exact List.mem_map.mpr ⟨(k, names.count k), (hm _ _).mpr ⟨hk, rfl⟩, rfl⟩
  refine ⟨?_, ?_⟩
  · clear hm hkey
    induction recs with
    | nil => simp [Seq.bump]
    | cons p recs ih =>
      obtain ⟨a, k⟩ := p
      simp only [List.map_cons, List.nodup_cons] at hnd
      simp only [Seq.bump]
      split
      · simp only [List.map_cons, List.nodup_cons]; exact hnd
      · rename_i h
        simp only [List.map_cons, List.nodup_cons]
        refine ⟨?_, ih hnd.2⟩
        rw [bump_keys]
        rintro (hc | hc)
        · exact hnd.1 hc
        · exact h hc
  · intro nm n
    rw [bump_mem hnd, List.mem_append, List.mem_singleton, List.count_append]
    by_cases hc : nm = name
    · subst hc
      simp only [ne_eq, not_true_eq_false, false_and, true_and, false_or, or_true,
        List.count_singleton_self, hkey]
      constructor
      · rintro (⟨h1, rfl⟩ | ⟨m, h1, rfl⟩)
        · rw [List.count_eq_zero_of_not_mem h1]
        · rw [((hm _ _).mp h1).2]
      · intro h1
        by_cases hin : nm ∈ names
        · exact Or.inr ⟨_, (hm _ _).mpr ⟨hin, rfl⟩, h1⟩
        · rw [List.count_eq_zero_of_not_mem hin] at h1
          exact Or.inl ⟨hin, h1⟩
    · have : List.count nm [name] = 0 := List.count_eq_zero_of_not_mem (by simpa using hc)
      simp only [ne_eq, hc, not_false_eq_true, true_and, false_and, or_false, this, Nat.add_zero,
        hm]

theorem counts_single (name : String) : Counts [(name, 1)] [name] := by
  have := Counts.bump (recs := []) (names := []) ⟨by simp, by simp⟩ name
  exact this

/-- the last record of a file that can be counted: no continuation data, not a text record, a
header value that is a number -/
def LastOK (r : LRec) : Prop :=
  r.pre = [] ∧ r.vals = [] ∧ ¬ isTD r.name ∧
    ∃ h0 t n, r.head = h0 :: t ∧ h0.ltZero = false ∧ h0.toInt = .ok n

theorem Encodes_names_T {D : Dec} {sk : LRec → Bool} {z : Str} {r : LRec} {rs : List LRec}
    {bs : Str} (h : T.Encodes D sk z (r :: rs) bs) (he : r ≠ endMark) : r.name ≠ "" := by
  cases h with
  | eof _ => exact absurd rfl he
  | cons hh _ _ _ => exact name_ne_empty hh.1

theorem Encodes_names_U {D : Dec} {sk : LRec → Bool} {z : Bytes} {r : LRec} {rs : List LRec}
    {bs : Bytes} (h : U.Encodes D sk z (r :: rs) bs) {f : List LRec} {last : LRec}
    (hlast : LastOK last) (hr : f ++ [last] = r :: rs) : r.name ≠ "" := by
  rcases U.encodes_cases h with ⟨rfl, rfl⟩ | hn
  · obtain ⟨_, _, _, h0, t, n, he, _, _⟩ := hlast
    cases f with
    | nil =>
      injection hr with hr _
      rw [hr] at he
      cases he
    | cons a f => simp at hr
  · exact name_ne_empty hn

theorem T.Encodes.length_le {D : Dec} {sk : LRec → Bool} {z : Str} {f : List LRec} {bs : Str}
    (h : T.Encodes D sk z f bs) : f.length ≤ bs.length + 1 := by
  induction h with
  | nil => simp
  | eof _ => simp
  | cons _ _ _ _ ih =>
    simp only [T.unlines, List.length_cons, List.length_append]
    omega

theorem U.Encodes.length_le {D : Dec} {sk : LRec → Bool} {z : Bytes} {f : List LRec} {bs : Bytes}
    (h : U.Encodes D sk z f bs) : f.length ≤ bs.length := by
  induction h with
  | nil => simp
  | empty => simp
  | cut => simp
  | cons _ _ hf _ _ ih =>
    have := hf.length_le
    simp only [List.length_cons, List.length_append] at this ⊢
    omega

/-- skipping the last record of a formatted file: the blank name of the end of the file -/
theorem T.skip_last {D : Dec} {r : LRec} (h : LastOK r) (fr : List PyF) :
    ∃ s, skipRestofrecord (T.fileOps D) r.name r.head ⟨[], false, fr⟩ = .ok (("", []), s) := by
  obtain ⟨_, _, htd, h0, t, n, he, hneg, hint⟩ := h
  obtain ⟨fr', h⟩ := T.skip_eof (D := D) htd he hneg hint fr
  exact ⟨_, h⟩

theorem LastOK.first_ne {f rs : List LRec} {last r : LRec} (h : LastOK last)
    (hr : f ++ [last] = r :: rs) {D : Dec} {sk : LRec → Bool} {z bs : Str}
    (henc : T.Encodes D sk z (r :: rs) bs) : r ≠ endMark := by
  obtain ⟨_, _, _, h0, t, n, he, _, _⟩ := h
  rintro rfl
  cases henc with
  | eof _ =>
    cases f with
    | nil =>
      injection hr with hr _
      rw [hr] at he
      cases he
    | cons a f => simp at hr
  | cons hh _ _ _ => exact hh.1.1 rfl

/-- **C49** (formatted): on a file made of records that can be skipped and a last record without
continuation (`IEND`), every name is counted as often as it heads a record, and the blank name that
stands for the end of the file is counted once. -/
theorem T.recordcount_partial {D : Dec} {f : List LRec} {last : LRec} {t : Str}
    (henc : T.Encodes D (fun _ => true) [] (f ++ [last]) t) (hlast : LastOK last) :
    ∃ recs s, getRecordcount (T.fileOps D) (T.openFile t) = .ok (recs, s) ∧
      Counts recs ((f ++ [last]).map LRec.name ++ [""]) := by
  -- the loop, started behind the header of the first record of `g ++ [last]`
  have key : ∀ (g : List LRec) (s : TState) (r : LRec) (fuel : Nat)
      (recs : List (String × Nat)) (names : List String),
      (g ++ [last]).head? = some r → r.name ≠ "" →
      T.Rel D (fun _ => true) [] s { cur := r, ops := 0, rest := (g ++ [last]).tail } →
      g.length + 2 ≤ fuel → Counts recs names →
      ∃ out s', countLoop (T.fileOps D) fuel r.name r.head recs s = .ok (out, s') ∧
        Counts out (names ++ ((g ++ [last]).tail.map LRec.name ++ [""])) := by
    intro g
    induction g with
    | nil =>
      intro s r fuel recs names hr hne hrel hfuel hc
      simp only [List.nil_append, List.head?_cons, Option.some.injEq] at hr
      subst hr
      obtain ⟨fuel, rfl⟩ : ∃ k, fuel = k + 2 := ⟨fuel - 2, by simp at hfuel; omega⟩
      have hrem := hrel.rem_of_done hlast.1 hlast.2.1
      have hhr : s.hasrest = false := by
        obtain ⟨_, _, _, _, _, _, _, _, _, _, _, _, h, _⟩ := hrel
        exact (h rfl).1
      obtain ⟨rem, hasr, fr⟩ := s
      simp only [List.nil_append, List.tail_cons] at hrem hhr
      subst hhr
      cases hrem
      obtain ⟨s', hs⟩ := T.skip_last (D := D) hlast fr
      refine ⟨bump "" recs, s', ?_, ?_⟩
      · simp only [countLoop, hne, if_false, hs, if_true]
      · simpa using hc.bump ""
    | cons a g ih =>
      intro s r fuel recs names hr hne hrel hfuel hc
      simp only [List.cons_append, List.head?_cons, Option.some.injEq, List.tail_cons] at hr hrel
      subst hr
      obtain ⟨fuel, rfl⟩ : ∃ k, fuel = k + 1 := ⟨fuel - 1, by simp at hfuel; omega⟩
      obtain ⟨n, rs, hn⟩ : ∃ n rs, g ++ [last] = n :: rs := by
        cases g with
        | nil => exact ⟨last, [], rfl⟩
        | cons x g => exact ⟨x, g ++ [last], rfl⟩
      obtain ⟨s', h1, h2⟩ := T.skip_rel (r := n) (rs := rs) hrel rfl rfl hn
      have hname : n.name ≠ "" := by
        obtain ⟨_, _, _, _, _, _, henc', _⟩ := hrel
        rw [hn] at henc'
        exact Encodes_names_T henc' (hlast.first_ne hn henc')
      obtain ⟨out, s'', h3, h4⟩ := ih s' n fuel (bump n.name recs) (names ++ [n.name])
        (by rw [hn]; rfl) hname (by rw [hn]; exact h2) (by simp at hfuel; omega) (hc.bump n.name)
      refine ⟨out, s'', ?_, ?_⟩
      · simp only [countLoop, hne, if_false, h1, h3]
      · rw [List.cons_append, List.tail_cons, hn, List.map_cons]
        rw [hn] at h4
        simpa using h4
  obtain ⟨r, rs, hr⟩ : ∃ n rs, f ++ [last] = n :: rs := by
    cases f with
    | nil => exact ⟨last, [], rfl⟩
    | cons x g => exact ⟨x, g ++ [last], rfl⟩
  have hlen := henc.length_le
  have hne : r.name ≠ "" := by rw [hr] at henc; exact Encodes_names_T henc (hlast.first_ne hr henc)
  rw [hr] at henc
  obtain ⟨s', h1, h2⟩ := T.readHeader_encodes henc false []
  obtain ⟨out, s'', h3, h4⟩ := key f s' r ((T.openFile t).rem.length + 2) [(r.name, 1)] [r.name]
    (by rw [hr]; rfl) hne (by rw [hr]; exact h2)
    (by simp [T.openFile] at hlen ⊢; omega) (counts_single r.name)
  refine ⟨out, s'', ?_, ?_⟩
  · have hH : (T.fileOps D).readHeader (T.openFile t) = .ok ((r.name, r.head), s') := h1
    simp only [getRecordcount, hH, h3]
  · rw [hr] at h4 ⊢
    simpa using h4

/-- skipping the last record of an unformatted file raises -/
theorem U.skip_last {D : Dec} {r : LRec} (h : LastOK r) (fr : List PyF) (hr : Bool) :
    skipRestofrecord (U.fileOps D) r.name r.head ⟨[], hr, fr⟩ = .error .structError := by
  obtain ⟨_, _, htd, h0, t, n, he, hneg, hint⟩ := h
  have hS : (U.fileOps D).readString ⟨[], hr, fr⟩ = .error .structError := rfl
  simp only [skipRestofrecord, he, pyIdx, List.getElem?_cons_zero, bind_ok, hneg,
    Bool.false_eq_true, if_false, mt (isTD_iff _).mp htd, hS, bind_error]

/-- **C49 is false for unformatted files**: on every such file that ends with its last record
`get_recordcount` raises `struct.error` instead of returning the counts. -/
theorem U.recordcount_raises {D : Dec} {f : List LRec} {last : LRec} {bs : Bytes} (k : UInt8)
    (henc : U.Encodes D (fun _ => true) [] (f ++ [last]) bs) (hlast : LastOK last) :
    getRecordcount (U.fileOps D) (U.openFile (k :: bs)) = .error .structError := by
  have key : ∀ (g : List LRec) (s : UState) (r : LRec) (fuel : Nat)
      (recs : List (String × Nat)),
      (g ++ [last]).head? = some r → r.name ≠ "" →
      U.Rel D (fun _ => true) [] s { cur := r, ops := 0, rest := (g ++ [last]).tail } →
      g.length + 2 ≤ fuel →
      countLoop (U.fileOps D) fuel r.name r.head recs s = .error .structError := by
    intro g
    induction g with
    | nil =>
      intro s r fuel recs hr hne hrel hfuel
      simp only [List.nil_append, List.head?_cons, Option.some.injEq] at hr
      subst hr
      obtain ⟨fuel, rfl⟩ : ∃ k, fuel = k + 2 := ⟨fuel - 2, by simp at hfuel; omega⟩
      have hrem := hrel.rem_of_done hlast.1 hlast.2.1
      obtain ⟨rem, hasr, fr⟩ := s
      simp only [List.nil_append, List.tail_cons] at hrem
      cases hrem
      simp only [countLoop, hne, if_false, U.skip_last hlast]
    | cons a g ih =>
      intro s r fuel recs hr hne hrel hfuel
      simp only [List.cons_append, List.head?_cons, Option.some.injEq, List.tail_cons] at hr hrel
      subst hr
      obtain ⟨fuel, rfl⟩ : ∃ k, fuel = k + 1 := ⟨fuel - 1, by simp at hfuel; omega⟩
      obtain ⟨n, rs, hn⟩ : ∃ n rs, g ++ [last] = n :: rs := by
        cases g with
        | nil => exact ⟨last, [], rfl⟩
        | cons x g => exact ⟨x, g ++ [last], rfl⟩
      obtain ⟨s', h1, h2⟩ := U.skip_rel (r := n) (rs := rs) hrel rfl rfl hn
      have hname : n.name ≠ "" := by
        obtain ⟨_, _, _, _, _, _, _, henc', _⟩ := hrel
        rw [hn] at henc'
        exact Encodes_names_U henc' hlast hn
      have h3 := ih s' n fuel (bump n.name recs) (by rw [hn]; rfl) hname
        (by rw [hn]; exact h2) (by simp at hfuel; omega)
      simp only [countLoop, hne, if_false, h1, h3]
  obtain ⟨r, rs, hr⟩ : ∃ n rs, f ++ [last] = n :: rs := by
    cases f with
    | nil => exact ⟨last, [], rfl⟩
    | cons x g => exact ⟨x, g ++ [last], rfl⟩
  have hlen := henc.length_le
  have hne : r.name ≠ "" := by rw [hr] at henc; exact Encodes_names_U henc hlast hr
  rw [hr] at henc
  obtain ⟨s', h1, h2⟩ := U.readHeader_encodes henc false []
  have h3 := key f s' r ((U.openFile (k :: bs)).rem.length + 2) [(r.name, 1)]
    (by rw [hr]; rfl) hne (by rw [hr]; exact h2)
    (by simp [U.openFile] at hlen ⊢; omega)
  have hH : (U.fileOps D).readHeader (U.openFile (k :: bs)) = .ok ((r.name, r.head), s') := h1
  simp only [getRecordcount, hH, h3]

/-- concrete case: `GNODE` twice and `IEND` -/
example : observed (getRecordcount (T.fileOps Dec.std) (T.openFile
    ("GNODE                  1\nGNODE                  2\n" ++
     "IEND                   0\n").toList)) =
    .ok [("GNODE", 2), ("IEND", 1), ("", 1)] := by decide +kernel
example : LastOK ⟨"IEND", [.rat 0], [], 0, [], []⟩ :=
  ⟨rfl, rfl, by rintro ⟨r, h⟩; simp at h, .rat 0, [], 0, rfl, by decide +kernel,
    by decide +kernel⟩

/-! ## C48: writing records -/

namespace W

/-- **C48 is false**: after any history of write calls on a newly opened file, `write_record` raises
AttributeError for every name and all values, and writes nothing. -/
theorem write_record_raises (fmt : PyF → Str) (hist : List Call) (name : Str) (rec : List PyF) :
    writeRecord fmt name rec (calls fmt hist openFile) =
      (.error .attributeError, calls fmt hist openFile) := by
  have inv : ∀ (hist : List Call) (s : WState), s.places = 0 → (calls fmt hist s).places = 0 := by
    intro hist
    induction hist with
    | nil => intro s h; exact h
    | cons c cs ih =>
      intro s h
      apply ih
      cases c with
      | record n r => simp [call, writeRecord, writeLine, h]
      | string t b => simp [call, writeString, h]
      | floats fs =>
        simp only [call, writeFloats, h]
        by_cases h0 : fs.length = 0
        · rw [if_pos h0]; exact h
        · rw [if_neg h0]
          have hd : pyDrop fs 0 = fs := by simp [pyDrop]
          simp only [ne_eq, not_true_eq_false, false_and, if_false, hd]
          rw [show fs.length / 4 + (if ¬ fs.length % 4 = 0 then 1 else 0) =
            (fs.length / 4 + (if ¬ fs.length % 4 = 0 then 1 else 0) - 1) + 1 by
              split <;> omega]
          simp [writeLines, writeLine, h]
  have h := inv hist openFile rfl
  simp [writeRecord, writeLine, h]

/-- `write_floats` of at least one value raises as well -/
theorem write_floats_raises (fmt : PyF → Str) (s : WState) (h : s.places = 0) (fs : List PyF)
    (hfs : fs ≠ []) : writeFloats fmt fs s = (.error .attributeError, s) := by
  have h0 : fs.length ≠ 0 := fun hc => hfs (List.length_eq_zero_iff.mp hc)
  simp only [writeFloats, h, if_neg h0]
  have hd : pyDrop fs 0 = fs := by simp [pyDrop]
  simp only [ne_eq, not_true_eq_false, false_and, if_false, hd]
  rw [show fs.length / 4 + (if ¬ fs.length % 4 = 0 then 1 else 0) =
    (fs.length / 4 + (if ¬ fs.length % 4 = 0 then 1 else 0) - 1) + 1 by split <;> omega]
  simp [writeLines, writeLine, h]

/-- **C48, what is left** (`_partial`: text only, records cannot be written): the lines written by
`write_string` are read back in order, each with its leading blanks; failed `write_record` and
`write_floats` calls in between leave no trace. -/
theorem write_string_roundtrip_partial (fmt : PyF → Str) (hist : List Call)
    (hnl : ∀ c ∈ hist, ∀ t b, c = .string t b → '\n' ∉ t) :
    (calls fmt hist openFile).out =
      T.unlines (hist.filterMap fun
        | .string t b => some (List.replicate b ' ' ++ t)
        | _ => none) ∧
    ∃ s', (Prog.times (line .raw) (hist.filterMap fun
        | .string t b => some (List.replicate b ' ' ++ t)
        | _ => none).length).run (T.reader Dec.std)
          (T.openFile (calls fmt hist openFile).out) =
      .ok (hist.filterMap fun
        | .string t b => some (List.replicate b ' ' ++ t)
        | _ => none, s') := by
  have key : ∀ (hist : List Call) (s : WState), s.places = 0 →
      (calls fmt hist s).out = s.out ++ T.unlines (hist.filterMap fun
        | .string t b => some (List.replicate b ' ' ++ t)
        | _ => none) := by
    intro hist
    induction hist with
    | nil => intro s _; simp [calls, T.unlines]
    | cons c cs ih =>
      intro s h
      cases c with
      | record n r =>
        have e : call fmt (.record n r) s = (.error .attributeError, s) := by
          simp [call, writeRecord, writeLine, h]
        rw [calls, e]
        simpa using ih s h
      | floats fs =>
        by_cases hfs : fs = []
        · subst hfs
          have e : call fmt (.floats []) s = (.ok (), s) := by simp [call, writeFloats]
          rw [calls, e]
          simpa using ih s h
        · have e : call fmt (.floats fs) s = (.error .attributeError, s) :=
            write_floats_raises fmt s h fs hfs
          rw [calls, e]
          simpa using ih s h
      | string t b =>
        have e : call fmt (.string t b) s =
            (.ok (), ⟨s.out ++ (List.replicate b ' ' ++ t ++ ['\n']), 0⟩) := by
          simp [call, writeString, h]
        rw [calls, e, ih _ rfl]
        simp [T.unlines]
  have h1 := key hist openFile rfl
  have h1' : (calls fmt hist openFile).out = T.unlines (hist.filterMap fun
        | .string t b => some (List.replicate b ' ' ++ t)
        | _ => none) := by simpa [openFile] using h1
  refine ⟨h1', ?_⟩
  rw [h1']
  have hall : ∀ l ∈ (hist.filterMap fun
        | .string t b => some (List.replicate b ' ' ++ t)
        | _ => none), '\n' ∉ l := by
    intro l hl
    obtain ⟨c, hc, he⟩ := List.mem_filterMap.mp hl
    cases c with
    | record n r => cases he
    | floats fs => cases he
    | string t b =>
      simp only [Option.some.injEq] at he
      subst he
      have := hnl _ hc t b rfl
      simp only [List.mem_append, List.mem_replicate, not_or]
      exact ⟨fun h => absurd h.2 (by decide), this⟩
  generalize (hist.filterMap fun
        | .string t b => some (List.replicate b ' ' ++ t)
        | _ => none) = ls at hall
  have run : ∀ (ls : List Str) (hr : Bool) (fr : List PyF), (∀ l ∈ ls, '\n' ∉ l) →
      ∃ s', (Prog.times (line .raw) ls.length).run (T.reader Dec.std)
        ⟨T.unlines ls, hr, fr⟩ = .ok (ls, s') := by
    intro ls
    induction ls with
    | nil => intro hr fr _; exact ⟨_, rfl⟩
    | cons l ls ih =>
      intro hr fr hl
      obtain ⟨s', h⟩ := ih false fr (fun x hx => hl x (by simp [hx]))
      refine ⟨s', ?_⟩
      have e : (line .raw).run (T.reader Dec.std) ⟨T.unlines (l :: ls), hr, fr⟩ =
          .ok (l, ⟨T.unlines ls, false, fr⟩) := by
        rw [line, Prog.run_call]
        simp only [T.reader, T.unlines, T.readStringrec_line (hl l (by simp)), bind_ok,
          T.lineResult]
      rw [List.length_cons, Prog.times, Prog.run_bind_ok e, Prog.run_bind_ok h]
      rfl
  exact run ls false [] hall

/-- With `n` places left on the line (which no call leaves, but the attribute can be set): fewer
values are written on the line and counted, `n` values end the line, and of more values the first `n`
are written and the line is ended before AttributeError is raised. -/
theorem write_floats_places (fmt : PyF → Str) (out : Str) {n : Nat} (hn : 0 < n) (fs : List PyF)
    (hfs : fs ≠ []) :
    (fs.length < n → writeFloats fmt fs ⟨out, n⟩ =
      (.ok (), ⟨out ++ fs.flatMap fmt, n - fs.length⟩)) ∧
    (fs.length = n → writeFloats fmt fs ⟨out, n⟩ =
      (.ok (), ⟨out ++ fs.flatMap fmt ++ ['\n'], 0⟩)) ∧
    (n < fs.length → writeFloats fmt fs ⟨out, n⟩ =
      (.error .attributeError, ⟨out ++ (fs.take n).flatMap fmt ++ ['\n'], n⟩)) := by
  have h0 : fs.length ≠ 0 := fun hc => hfs (List.length_eq_zero_iff.mp hc)
  have hn0 : (n : Int) ≠ 0 := by omega
  have ht : pyTake fs (n : Int) = fs.take n := by simp [pyTake]
  have hd : pyDrop fs (n : Int) = fs.drop n := by simp [pyDrop]
  refine ⟨fun h => ?_, fun h => ?_, fun h => ?_⟩
  · have e : (n : Int) > fs.length := by omega
    simp only [writeFloats, if_neg h0, hn0, ht, ne_eq, not_false_eq_true, true_and, if_pos e, if_true,
      List.take_of_length_le h.le, List.flatMap_def]
  · have e : ¬ (n : Int) > fs.length := by omega
    have e' : (n : Int) = fs.length := by omega
    simp only [writeFloats, if_neg h0, hn0, ht, ne_eq, not_false_eq_true, true_and, if_neg e,
      if_pos e', if_true, List.take_of_length_le h.le, List.flatMap_def]
  · have e : ¬ (n : Int) > fs.length := by omega
    have e' : ¬ (n : Int) = fs.length := by omega
    simp only [writeFloats, if_neg h0, hn0, ht, hd, ne_eq, not_false_eq_true, true_and, if_neg e,
      if_neg e', if_true, List.flatMap_def]
    have hl : (fs.drop n).length ≠ 0 := by rw [List.length_drop]; omega
    rw [show (fs.drop n).length / 4 + (if ¬ (fs.drop n).length % 4 = 0 then 1 else 0) =
      ((fs.drop n).length / 4 + (if ¬ (fs.drop n).length % 4 = 0 then 1 else 0) - 1) + 1 by
        split <;> omega]
    simp only [writeLines, writeLine, ne_eq, hn0, not_false_eq_true, if_true]

/-- two places left -/
example : writeFloats (fun _ => "x".toList) [.rat 1, .rat 2, .rat 3] ⟨"a".toList, 2⟩ =
    (.error .attributeError, ⟨"axx\n".toList, 2⟩) :=
  ((write_floats_places _ _ (by decide) _ (by decide)).2.2 (by decide)).trans (by decide +kernel)

/-- concrete case -/
example : (calls (fun _ => []) [.record "GNODE".toList [.rat 1], .string "abc".toList 2]
    openFile).out = "  abc\n".toList := by decide +kernel

end W

end Verif.Seq
