import Verif.Seq.StreamLemmas
/-!
# Unformatted files: the byte level reader simulates the logical reader
-/

namespace Verif.Seq.U

variable {D : Dec} {sk : LRec → Bool} {z : Bytes}

theorem readStringrec_frame {c b r : Bytes} (h : Frame c b) (hr : Bool) (fr : List PyF) :
    readStringrec ⟨b ++ r, hr, fr⟩ = .ok (c, ⟨r, false, fr⟩) := by
  obtain ⟨l, t, rfl, hl⟩ := h
  simp only [readStringrec, List.cons_append, List.append_assoc]
  rw [← hl, List.take_left, List.drop_left]
  rfl

theorem Frames.length_le {cs : List Bytes} {bs : Bytes} (h : Frames cs bs) :
    cs.length ≤ bs.length := by
  induction h with
  | nil => simp
  | cons h1 _ ih =>
    obtain ⟨l, t, rfl, _⟩ := h1
    simp only [List.length_cons, List.length_append]
    omega

theorem Frames.append_inv {cs ds : List Bytes} {bs : Bytes} (h : Frames (cs ++ ds) bs) :
    ∃ b1 b2, bs = b1 ++ b2 ∧ Frames cs b1 ∧ Frames ds b2 := by
  induction cs generalizing bs with
  | nil => exact ⟨[], bs, rfl, .nil, h⟩
  | cons c cs ih =>
    cases h with
    | cons h1 h2 =>
      obtain ⟨b1, b2, rfl, h3, h4⟩ := ih h2
      exact ⟨_ ++ b1, b2, by simp, .cons h1 h3, h4⟩

theorem Frames.cons_inv {c : Bytes} {cs : List Bytes} {bs : Bytes} (h : Frames (c :: cs) bs) :
    ∃ b bs', bs = b ++ bs' ∧ Frame c b ∧ Frames cs bs' := by
  cases h with
  | cons h1 h2 => exact ⟨_, _, rfl, h1, h2⟩

theorem Chunk.drop {k : Nat} {c : Bytes} {vs : List PyF} (h : Chunk D k c vs) :
    tofloatrec D (c.drop k) = .ok vs := by
  obtain ⟨fb, rfl, h⟩ := h
  rw [List.drop_left' (by simp)]
  exact h

theorem readFloatrec_chunk {k : Nat} {c b r : Bytes} {vs : List PyF} (hc : Chunk D k c vs)
    (hb : Frame c b) (hr : Bool) (fr : List PyF) :
    readFloatrec D k ⟨b ++ r, hr, fr⟩ = .ok (vs, ⟨r, false, fr⟩) := by
  simp [readFloatrec, readStringrec_frame hb, hc.drop]

/-- the reading loop of `read_floats` on a sequence of float records that holds enough values -/
theorem readLoop_chunks {k : Nat} {cs : List Bytes} {vss : List (List PyF)}
    (h : List.Forall₂ (Chunk D k) cs vss) {bs : Bytes} (hf : Frames cs bs) (r : Bytes)
    (need fuel : Nat) (acc : List PyF) (hr : Bool) (fr : List PyF)
    (hneed : need ≤ (acc ++ vss.flatten).length) (hfuel : cs.length < fuel)
    (hpos : acc.length < need ∨ hr = false) :
    ∃ v1 v2 cs2 b2, vss = v1 ++ v2 ∧ List.Forall₂ (Chunk D k) cs2 v2 ∧ Frames cs2 b2 ∧
      need ≤ (acc ++ v1.flatten).length ∧
      readLoop D k need fuel acc ⟨bs ++ r, hr, fr⟩ =
        .ok (acc ++ v1.flatten, ⟨b2 ++ r, false, fr⟩) := by
  induction h generalizing bs need fuel acc hr with
  | nil =>
    cases hf
    obtain ⟨fuel, rfl⟩ := Nat.exists_eq_succ_of_ne_zero (by omega : fuel ≠ 0)
    refine ⟨[], [], [], [], rfl, .nil, .nil, by simpa using hneed, ?_⟩
    have hn : ¬ acc.length < need := by simp at hneed; omega
    have : hr = false := by rcases hpos with h | h; exact absurd h hn; exact h
    subst this
    simp [readLoop, hn]
  | cons hc hcs ih =>
    obtain ⟨fuel, rfl⟩ := Nat.exists_eq_succ_of_ne_zero (by omega : fuel ≠ 0)
    by_cases hn : acc.length < need
    · cases hf with
      | cons h1 h2 =>
        rename_i c vs cs vss b bs
        obtain ⟨v1, v2, cs2, b2, rfl, hc2, hf2, hge, hrun⟩ :=
          ih h2 need fuel (acc ++ vs) false (by simpa using hneed) (by simpa using hfuel)
            (Or.inr rfl)
        refine ⟨vs :: v1, v2, cs2, b2, rfl, hc2, hf2, by simpa using hge, ?_⟩
        rw [readLoop, if_pos hn, List.append_assoc, readFloatrec_chunk hc h1]
        simp only
        rw [hrun]
        simp
    · have : hr = false := by rcases hpos with h | h; exact absurd h hn; exact h
      subst this
      refine ⟨[], _, _, bs, rfl, .cons hc hcs, hf, by simp; omega, ?_⟩
      simp [readLoop, hn]

/-- the leftover buffer as seen by `read_floats` -/
def lead (s : UState) : List PyF := if s.hasrest then s.floatrest else []

/-- The coupling of the byte level state with the logical state. -/
def Rel (D : Dec) (sk : LRec → Bool) (z : Bytes) (s : UState) (t : LState) : Prop :=
  ∃ ps cs vss fb rb,
    s.rem = fb ++ rb ∧ Frames (ps ++ cs) fb ∧ Encodes D sk z t.rest rb ∧
    List.Forall₂ (SegEnc D) t.cur.pre ps ∧
    List.Forall₂ (Chunk D t.cur.skip) cs vss ∧
    lead s ++ vss.flatten = t.cur.vals ++ t.cur.pad ∧
    (vss ≠ [] → (lead s ++ vss.dropLast.flatten).length < t.cur.vals.length) ∧
    (t.cur.pre ≠ [] → s.hasrest = false) ∧
    (t.ops = 0 → s.hasrest = false ∧
      (sk t.cur = true → ∀ n ∈ t.rest.head?, Skippable D t.cur (ps ++ cs) n.name)) ∧
    (t.ops ≤ 1 → s.hasrest = true → s.floatrest ≠ [])

/-- the end of a formatted file is not in an unformatted file -/
theorem encodes_end {rs : List LRec} {bs : Bytes} : ¬ Encodes D sk z (endMark :: rs) bs := by
  intro h
  cases h with
  | cons hh => exact absurd rfl hh.1.1

/-- where the name is looked for there is nothing -/
theorem readString_stop {rs : List LRec} {bs : Bytes} (h : Encodes D sk z (stopMark :: rs) bs)
    (hr : Bool) (fr : List PyF) :
    ∃ s', readStringrec ⟨bs, hr, fr⟩ = .ok ([], s') ∧
      Rel D sk z s' { cur := stopMark, ops := 0, rest := rs } := by
  have hrel : Rel D sk z ⟨z, false, fr⟩ { cur := stopMark, ops := 0, rest := [] } :=
    ⟨[], [], [], [], z, rfl, .nil, .nil, .nil, .nil, rfl, fun h => absurd rfl h, fun _ => rfl,
      fun _ => ⟨rfl, fun _ n hn => by cases hn⟩, fun _ h => by cases h⟩
  generalize hg : stopMark :: rs = g at h
  cases h with
  | nil => cases hg
  | empty =>
    obtain ⟨-, rfl⟩ := List.cons.inj hg
    exact ⟨⟨z, false, fr⟩, rfl, hrel⟩
  | cut hz =>
    obtain ⟨-, rfl⟩ := List.cons.inj hg
    subst hz
    refine ⟨⟨[], false, fr⟩, ?_, hrel⟩
    simp [readStringrec]
  | cons hh =>
    obtain ⟨rfl, -⟩ := List.cons.inj hg
    exact absurd rfl hh.1.1

theorem encodes_cases {r : LRec} {rs : List LRec} {bs : Bytes} (h : Encodes D sk z (r :: rs) bs) :
    r = stopMark ∧ rs = [] ∨ NameOK r.name := by
  cases h with
  | empty => exact .inl ⟨rfl, rfl⟩
  | cut => exact .inl ⟨rfl, rfl⟩
  | cons hh => exact .inr hh.1

theorem asHeader_nil : asHeader D [] = .ok ("", []) := rfl

/-- reading the header of the next record -/
theorem readHeader_encodes {r : LRec} {rs : List LRec} {bs : Bytes}
    (h : Encodes D sk z (r :: rs) bs) (hr : Bool) (fr : List PyF) :
    ∃ s', readHeader D ⟨bs, hr, fr⟩ = .ok ((r.name, r.head), s') ∧
      Rel D sk z s' { cur := r, ops := 0, rest := rs } := by
  have hstop : ∀ {rs : List LRec}, Encodes D sk z (stopMark :: rs) bs →
      ∃ s', readHeader D ⟨bs, hr, fr⟩ = .ok ((stopMark.name, stopMark.head), s') ∧
        Rel D sk z s' { cur := stopMark, ops := 0, rest := rs } := fun h => by
    obtain ⟨s', h1, h2⟩ := readString_stop h hr fr
    exact ⟨s', by simp only [readHeader, h1, bind_ok, asHeader_nil]; rfl, h2⟩
  cases h with
  | empty => exact hstop .empty
  | cut hz => exact hstop (.cut hz)
  | cons hh hb hf hs hrest =>
    rename_i c body b bs
    cases hf with
    | cons hf1 hf2 =>
      rename_i b1 b2
      refine ⟨⟨b2 ++ bs, false, fr⟩, ?_, ?_⟩
      · obtain ⟨hname, fb, rfl, hfl⟩ := hh
        have hlen : ((nameField r.name).map toByte).length = 8 := by
          rw [List.length_map, nameField_length hname]
        simp only [readHeader, List.append_assoc, readStringrec_frame hf1, bind_ok, asHeader]
        rw [List.take_left' hlen, List.drop_left' hlen, decode_nameField hname, bind_ok, hfl,
          bind_ok, strip_nameField hname, String.ofList_toList]
        rfl
      · obtain ⟨ps, fs, rfl, hps, vss, hvs, hfl, hlast⟩ := hb
        refine ⟨ps, fs, vss, b2, bs, rfl, hf2, hrest, hps, hvs, by simpa [lead] using hfl, ?_,
          fun _ => rfl, fun _ => ⟨rfl, hs⟩, fun _ h => by cases h⟩
        intro hne
        have hcs : fs ≠ [] := by
          rintro rfl
          cases hvs
          exact hne rfl
        simpa [lead] using hlast hcs

theorem Rel.rem_of_done {s : UState} {t : LState} (h : Rel D sk z s t) (hp : t.cur.pre = [])
    (hv : t.cur.vals = []) : Encodes D sk z t.rest s.rem := by
  obtain ⟨ps, cs, vss, fb, rb, hrem, hfr, henc, hps, hcs, _, hlast, _⟩ := h
  rw [hp] at hps
  cases hps
  have : vss = [] := by
    by_contra hne
    have := hlast hne
    rw [hv] at this
    simp at this
  subst this
  cases hcs
  cases hfr
  rw [hrem]
  exact henc

theorem readFloats_rel {s : UState} {t : LState} (h : Rel D sk z s t) (hp : t.cur.pre = [])
    {n : Nat} (hn0 : 0 < n) (hn : n ≤ t.cur.vals.length) :
    ∃ s', readFloats D (n : Int) t.cur.skip s = .ok (t.cur.vals.take n, s') ∧
      Rel D sk z s'
        { t with cur := { t.cur with vals := t.cur.vals.drop n }, ops := t.ops + 1 } := by
  obtain ⟨ps, cs, vss, fb, rb, hrem, hfr, henc, hps, hcs, hall, hlast, _, hfresh, _⟩ := h
  rw [hp] at hps
  cases hps
  rw [List.nil_append] at hfr
  have hne : (n : Int) ≠ 0 := by omega
  obtain ⟨rem, hasr, frest⟩ := s
  simp only at hrem
  subst hrem
  by_cases hread : (n : Int) - (lead ⟨fb ++ rb, hasr, frest⟩).length > 0
  · -- physical records have to be read
    have htot : (lead ⟨fb ++ rb, hasr, frest⟩ ++ vss.flatten).length =
        t.cur.vals.length + t.cur.pad.length := by rw [hall]; simp
    have hneed : ((n : Int) - (lead ⟨fb ++ rb, hasr, frest⟩).length).toNat ≤
        ([] ++ vss.flatten).length := by
      simp only [List.length_append, List.nil_append] at htot ⊢
      omega
    have hfuel : cs.length < (fb ++ rb).length + 2 := by
      have := hfr.length_le
      simp only [List.length_append]
      omega
    obtain ⟨v1, v2, cs2, b2, rfl, hc2, hf2, hge, hrun⟩ :=
      readLoop_chunks hcs hfr rb _ _ [] hasr frest hneed hfuel
        (Or.inl (by simp only [List.length_nil]; omega))
    rw [List.nil_append] at hge hrun
    have hgot : n ≤ (lead ⟨fb ++ rb, hasr, frest⟩ ++ v1.flatten).length := by
      simp only [List.length_append]
      omega
    obtain ⟨e1, e2, e3⟩ := stream_step hn hall hlast hgot
    refine ⟨(finishFloats (n : Int) (lead ⟨fb ++ rb, hasr, frest⟩ ++ v1.flatten)
      ⟨b2 ++ rb, false, frest⟩).2, ?_, ?_⟩
    · unfold readFloats
      rw [if_neg hne]
      simp only [lead] at hread hrun ⊢
      rw [if_pos hread, hrun]
      simp only [finishFloats, pyTake_nat]
      simp only [lead] at e1
      rw [e1]
    · have hlead : lead (finishFloats (n : Int) (lead ⟨fb ++ rb, hasr, frest⟩ ++ v1.flatten)
          (⟨b2 ++ rb, false, frest⟩ : UState)).2 =
          (lead ⟨fb ++ rb, hasr, frest⟩ ++ v1.flatten).drop n := by
        simp only [finishFloats, pyDrop_nat]
        by_cases hz : ((lead ⟨fb ++ rb, hasr, frest⟩ ++ v1.flatten).drop n).length > 0
        · rw [if_pos hz]; simp [lead]
        · rw [if_neg hz]
          have : (lead ⟨fb ++ rb, hasr, frest⟩ ++ v1.flatten).drop n = [] :=
            List.length_eq_zero_iff.mp (by omega)
          rw [this]; simp [lead]
      refine ⟨[], cs2, v2, b2, rb, rfl, hf2, henc, ?_, hc2, ?_, ?_, ?_, ?_, ?_⟩
      · simp only [hp]; exact .nil
      · rw [hlead]; exact e2
      · rw [hlead]; exact e3
      · simp only [hp]; simp
      · simp
      · intro _ hh
        simp only [finishFloats, pyDrop_nat] at hh ⊢
        intro hz
        rw [hz] at hh
        simp at hh
  · -- the leftover buffer is enough
    have hle : n ≤ (lead ⟨fb ++ rb, hasr, frest⟩ ++ ([] : List (List PyF)).flatten).length := by
      simp only [List.flatten_nil, List.append_nil]; omega
    obtain ⟨e1, e2, e3⟩ := stream_step (v1 := []) (v2 := vss) hn (by simpa using hall)
      (by simpa using hlast) hle
    simp only [List.flatten_nil, List.append_nil] at e1 e2 e3 hle
    have hhas : hasr = true := by
      by_contra hc
      have : hasr = false := by simpa using hc
      subst this
      simp [lead] at hle
      omega
    subst hhas
    simp only [lead, if_true] at e1 e2 e3 hle
    refine ⟨(finishFloats (n : Int) frest ⟨fb ++ rb, true, frest⟩).2, ?_, ?_⟩
    · unfold readFloats
      rw [if_neg hne]
      simp only [lead, if_true] at hread ⊢
      rw [if_neg hread]
      simp only [finishFloats, pyTake_nat]
      rw [e1]
    · refine ⟨[], cs, vss, fb, rb, rfl, hfr, henc, ?_, hcs, ?_, ?_, ?_, ?_, ?_⟩
      · simp only [hp]; exact .nil
      · simpa [lead, finishFloats, pyDrop_nat] using e2
      · simpa [lead, finishFloats, pyDrop_nat] using e3
      · simp only [hp]; simp
      · simp
      · intro hops
        simp only at hops
        have h0 : t.ops = 0 := by omega
        have := (hfresh h0).1
        simp at this

/-! ### skipping -/

/-- the next record can be read as a header -/
theorem readString_named {r : LRec} {rs : List LRec} {bs : Bytes}
    (h : Encodes D sk z (r :: rs) bs) (hn : NameOK r.name) (hr : Bool) (fr : List PyF) :
    ∃ c s', readStringrec ⟨bs, hr, fr⟩ = .ok (c, s') ∧ NameOK r.name ∧
      c.take 8 = (nameField r.name).map toByte ∧ asHeader D c = .ok (r.name, r.head) ∧
      Rel D sk z s' { cur := r, ops := 0, rest := rs } := by
  obtain ⟨s', h1, h2⟩ := readHeader_encodes h hr fr
  cases h with
  | empty => exact absurd rfl hn.1
  | cut => exact absurd rfl hn.1
  | cons hh hb hf hs hrest =>
    rename_i c body b bs
    cases hf with
    | cons hf1 hf2 =>
      rename_i b1 b2
      obtain ⟨hname, fb, rfl, hfl⟩ := hh
      have hlen : ((nameField r.name).map toByte).length = 8 := by
        rw [List.length_map, nameField_length hname]
      have hrs := readStringrec_frame (r := b2 ++ bs) hf1 hr fr
      rw [List.append_assoc] at h1 ⊢
      simp only [readHeader, hrs, bind_ok] at h1
      obtain ⟨hd, hhd, h1⟩ := bind_eq_ok.mp h1
      injection h1 with h1
      injection h1 with h1 h3
      subst h1
      subst h3
      exact ⟨_, _, hrs, hname, List.take_left' hlen, hhd, h2⟩

theorem readStrings_frames {cs : List Bytes} {bs : Bytes} (h : Frames cs bs) (r : Bytes)
    (hr : Bool) (fr : List PyF) :
    ∃ hr', readStrings (fileOps D) cs.length ⟨bs ++ r, hr, fr⟩ = .ok ⟨r, hr', fr⟩ := by
  induction h generalizing hr with
  | nil => exact ⟨hr, rfl⟩
  | cons h1 h2 ih =>
    obtain ⟨hr', h⟩ := ih false
    refine ⟨hr', ?_⟩
    simp only [List.length_cons, readStrings, fileOps, List.append_assoc,
      readStringrec_frame h1]
    exact h

theorem blankLed_iff (c : Bytes) : (fileOps D).blankLed c = true ↔ BlankLed c := by
  simp only [fileOps, decide_eq_true_eq]
  constructor
  · intro h
    refine ⟨c.drop 8, ?_⟩
    have := List.take_append_drop 8 c
    rw [h] at this
    exact this.symm
  · rintro ⟨r, rfl⟩
    rw [List.take_left' (by simp)]
    rfl

theorem nameLed_iff (c : Bytes) : (fileOps D).allowedLed c = true ↔ NameLed c := by
  simp only [fileOps, NameLed, allowedB, List.contains_iff_mem, mem_allowedB]
  constructor
  · intro h
    exact ⟨_, h, by rw [String.toList_ofList]⟩
  · rintro ⟨nm, hm, h⟩
    rw [h, String.ofList_toList]
    exact hm

theorem not_blankLed_name {name : String} (h : NameOK name) {c : Bytes}
    (hc : c.take 8 = (nameField name).map toByte) : (fileOps D).blankLed c = false := by
  simp only [fileOps, decide_eq_false_iff_not, hc]
  exact nameBytes_ne_blanks h

/-- the next record can be read as a header, and is not taken for a continuation -/
theorem readString_encodes {r : LRec} {rs : List LRec} {bs : Bytes}
    (h : Encodes D sk z (r :: rs) bs) (hr : Bool) (fr : List PyF) :
    ∃ c s', readStringrec ⟨bs, hr, fr⟩ = .ok (c, s') ∧ (fileOps D).blankLed c = false ∧
      (r.name ∈ knownNames → (fileOps D).allowedLed c = true) ∧
      asHeader D c = .ok (r.name, r.head) ∧
      Rel D sk z s' { cur := r, ops := 0, rest := rs } := by
  rcases encodes_cases h with ⟨rfl, -⟩ | hn
  · obtain ⟨s', h1, h2⟩ := readString_stop h hr fr
    exact ⟨[], s', h1, by simp [fileOps, blanks], fun hk => absurd hk (by decide +kernel), asHeader_nil, h2⟩
  · obtain ⟨c, s', h1, h2, h3, h4, h5⟩ := readString_named h hn hr fr
    refine ⟨c, s', h1, not_blankLed_name h2 h3, fun hk => ?_, h4, h5⟩
    simp only [fileOps, h3, allowedB_name h2]
    exact List.contains_iff_mem.mpr hk

theorem skipContrecs_frames {cs : List Bytes} {bs : Bytes} (h : Frames cs bs)
    (hb : ∀ c ∈ cs, BlankLed c) {r : LRec} {rs : List LRec} {rb : Bytes}
    (henc : Encodes D sk z (r :: rs) rb) (fuel : Nat) (hfuel : cs.length + 2 ≤ fuel) (c0 : Bytes)
    (hc0 : BlankLed c0) (hr : Bool) (fr : List PyF) :
    ∃ s', skipContrecs (fileOps D) fuel c0 ⟨bs ++ rb, hr, fr⟩ = .ok ((r.name, r.head), s') ∧
      Rel D sk z s' { cur := r, ops := 0, rest := rs } := by
  induction h generalizing c0 fuel hr with
  | nil =>
    obtain ⟨c, s', h1, h2, h3, h4, h5⟩ := readString_encodes henc hr fr
    refine ⟨s', ?_, h5⟩
    obtain ⟨fuel, rfl⟩ : ∃ f, fuel = f + 2 := ⟨fuel - 2, by simp at hfuel; omega⟩
    have hs : (fileOps D).readString ⟨rb, hr, fr⟩ = .ok (c, s') := h1
    have ha : (fileOps D).asHeader c = .ok (r.name, r.head) := h4
    simp only [skipContrecs, (blankLed_iff c0).mpr hc0, if_true, List.nil_append, hs,
      h2, Bool.false_eq_true, if_false, ha]
  | cons h1 h2 ih =>
    rename_i c b cs bs
    obtain ⟨fuel, rfl⟩ : ∃ f, fuel = f + 1 := ⟨fuel - 1, by simp at hfuel; omega⟩
    obtain ⟨s', h3, h4⟩ := ih (fun c hc => hb c (by simp [hc])) fuel
      (by simp at hfuel; omega) c (hb c (by simp)) false
    refine ⟨s', ?_, h4⟩
    have hs : (fileOps D).readString ⟨b ++ bs ++ rb, hr, fr⟩ = .ok (c, ⟨bs ++ rb, false, fr⟩) := by
      rw [List.append_assoc]
      exact readStringrec_frame h1 hr fr
    simp only [skipContrecs, (blankLed_iff c0).mpr hc0, if_true, hs]
    exact h3

theorem floorDiv_eq (a : Int) : floorDiv a 100 = a / 100 := by
  unfold floorDiv
  exact Int.fdiv_eq_ediv_of_nonneg a (by decide)

/-- skipping a record of one of the layouts lands on the next record -/
theorem skip_rel {s : UState} {t : LState} (h : Rel D sk z s t) (hops : t.ops = 0)
    (hsk : sk t.cur = true) {r : LRec} {rs : List LRec} (hrest : t.rest = r :: rs) :
    ∃ s', skipRestofrecord (fileOps D) t.cur.name t.cur.head s = .ok ((r.name, r.head), s') ∧
      Rel D sk z s' { cur := r, ops := 0, rest := rs } := by
  have hrel := h
  obtain ⟨ps, cs, vss, fb, rb, hrem, hfr, henc, hps, hcs, hall, hlast, _, hfresh, _⟩ := h
  obtain ⟨hhr, hskip⟩ := hfresh hops
  have hskip := hskip hsk r (by rw [hrest]; rfl)
  rw [hrest] at henc
  obtain ⟨rem, hasr, frest⟩ := s
  simp only at hrem hhr
  subst hrem hhr
  have hH : (fileOps D).readHeader = readHeader D := rfl
  have hS : (fileOps D).readString = readStringrec := rfl
  cases hskip with
  | negative h0 tl he hneg h5 hbody =>
    rw [hbody] at hfr
    cases hfr
    simp only [skipRestofrecord, he, pyIdx, List.getElem?_cons_zero, bind_ok, hneg, if_true, h5,
      Bool.false_eq_true, if_false, List.nil_append, hH]
    exact readHeader_encodes henc _ _
  | minusFive h0 tl c fs he hneg h5 hbody hfs =>
    rw [hbody] at hfr
    obtain ⟨b, bs', rfl, hf1, hf2⟩ := hfr.cons_inv
    cases hf2
    have hfl : (fileOps D).readFloatrec 0 ⟨b ++ [] ++ rb, false, frest⟩ =
        .ok (fs, ⟨rb, false, frest⟩) := by
      rw [List.append_nil]
      exact readFloatrec_chunk ⟨c, by simp, hfs⟩ hf1 _ _
    simp only [skipRestofrecord, he, pyIdx, List.getElem?_cons_zero, bind_ok, hneg, if_true, h5,
      hfl, hH]
    exact readHeader_encodes henc _ _
  | text h0 h1 h2 h3 tl a b he hneg htd ha hb hlen =>
    have hsplit := List.take_append_drop (a / 100).toNat (ps ++ cs)
    rw [← hsplit] at hfr
    obtain ⟨b1, b2, rfl, hf1, hf2⟩ := hfr.append_inv
    obtain ⟨hr1, e1⟩ := readStrings_frames (D := D) hf1 (b2 ++ rb) false frest
    obtain ⟨hr2, e2⟩ := readStrings_frames (D := D) hf2 rb hr1 frest
    have hl1 : ((ps ++ cs).take (a / 100).toNat).length = (a / 100).toNat := by
      rw [List.length_take]; omega
    have hl2 : ((ps ++ cs).drop (a / 100).toNat).length = (b / 100).toNat := by
      rw [List.length_drop]; omega
    rw [hl1] at e1
    rw [hl2] at e2
    simp only [skipRestofrecord, he, pyIdx, List.getElem?_cons_zero, List.getElem?_cons_succ,
      bind_ok, hneg, Bool.false_eq_true, if_false, (isTD_iff _).mpr htd, if_true, ha, hb,
      rangeLen, floorDiv_eq, List.append_assoc, e1, e2, hH]
    exact readHeader_encodes henc _ _
  | blankLed h0 tl he hneg htd hne hbl =>
    generalize ps ++ cs = body at *
    cases body with
    | nil => exact absurd rfl hne
    | cons c cs' =>
      obtain ⟨b, bs', rfl, hf1, hf2⟩ := hfr.cons_inv
      have e1 := readStringrec_frame (r := bs' ++ rb) hf1 false frest
      simp only [skipRestofrecord, he, pyIdx, List.getElem?_cons_zero, bind_ok, hneg,
        Bool.false_eq_true, if_false, mt (isTD_iff _).mp htd, List.append_assoc, hS, e1,
        (blankLed_iff c).mpr (hbl c (by simp)), if_true]
      refine skipContrecs_frames hf2 (fun c hc => hbl c (by simp [hc])) henc _ ?_ c
        (hbl c (by simp)) _ _
      have := hf2.length_le
      simp only [List.length_append]
      omega
  | alone h0 tl he hneg htd hbody hnext =>
    rw [hbody] at hfr
    cases hfr
    obtain ⟨c, s', g1, g2, g3, g4, g5⟩ := readString_encodes henc false frest
    refine ⟨s', ?_, g5⟩
    have ha : (fileOps D).allowedLed c = true := g3 hnext
    have hA : (fileOps D).asHeader c = .ok (r.name, r.head) := g4
    simp only [skipRestofrecord, he, pyIdx, List.getElem?_cons_zero, bind_ok, hneg,
      Bool.false_eq_true, if_false, mt (isTD_iff _).mp htd, List.nil_append, hS, g1,
      g2, ha, if_true, hA]
  | counted h0 tl c cs' he hneg htd hbody hnb hnn hpre hskip0 hnf =>
    have hvals : 0 < t.cur.vals.length := by
      rw [hpre] at hps
      cases hps
      rw [List.nil_append] at hbody
      subst hbody
      have : vss ≠ [] := by
        rintro rfl
        cases hcs
      have := hlast this
      omega
    obtain ⟨s', f1, f2⟩ := readFloats_rel hrel hpre hvals (Nat.le_refl _)
    have henc' := f2.rem_of_done (by exact hpre) (by simp)
    rw [hbody] at hfr
    obtain ⟨b, bs', rfl, hf1, hf2⟩ := hfr.cons_inv
    · have e1 := readStringrec_frame (r := bs' ++ rb) hf1 false frest
      have hF : (fileOps D).readFloats (t.cur.vals.length : Int) 0 ⟨b ++ (bs' ++ rb), false, frest⟩ =
          .ok (t.cur.vals.take t.cur.vals.length, s') := by
        rw [← List.append_assoc, ← hskip0]
        exact f1
      have hb' : (fileOps D).blankLed c = false := by
        cases hx : (fileOps D).blankLed c with
        | false => rfl
        | true => exact absurd ((blankLed_iff c).mp hx) hnb
      have hn' : (fileOps D).allowedLed c = false := by
        cases hx : (fileOps D).allowedLed c with
        | false => rfl
        | true => exact absurd ((nameLed_iff c).mp hx) hnn
      simp only at henc'
      rw [hrest] at henc'
      obtain ⟨rem', hr', fr'⟩ := s'
      simp only [skipRestofrecord, he, pyIdx, List.getElem?_cons_zero, bind_ok, hneg,
        Bool.false_eq_true, if_false, mt (isTD_iff _).mp htd, List.append_assoc, hS, e1, hb', hn',
        hnf, Int.add_sub_cancel, hF, hH]
      exact readHeader_encodes henc' _ _

/-! ### the simulation -/

theorem lineResult_text {t : Str} (h : TextOK t) (m : LineMode) :
    lineResult m (t.map toByte) = .ok (textResult m t) := by
  have h126 : ∀ c ∈ t, c.toNat ≤ 126 := fun c hc => (h c hc).2
  cases m with
  | raw => simp only [lineResult, textResult, map_latin1_toByte h126]
  | strip =>
    simp only [lineResult, textResult, strip_text_bytes h]
    rw [map_latin1_toByte (fun c hc => h126 c (mem_stripBy hc))]
  | name =>
    simp only [lineResult, textResult, strip_text_bytes h]
    exact decode_text (fun c hc => h126 c (mem_stripBy hc))

/-- **Unformatted files simulate the logical reader**: every call that succeeds on the logical
file succeeds on any byte encoding of it, with the same result. -/
theorem simulates (D : Dec) (sk : LRec → Bool) (z : Bytes) : Simulates (reader D) (L.reader sk) (Rel D sk z) := by
  intro o s t res t' hrel hstep
  cases o with
  | line m =>
    simp only [L.reader] at hstep
    split at hstep
    · rename_i tx p hpre
      injection hstep with hstep
      injection hstep with hres ht'
      obtain ⟨ps, cs, vss, fb, rb, hrem, hfr, henc, hps, hcs, hall, hlast, hpr, hfresh, _⟩ := hrel
      have hhr : s.hasrest = false := hpr (by rw [hpre]; simp)
      rw [hpre] at hps
      cases hps with
      | cons hp1 hp2 =>
        cases hfr with
        | cons hf1 hf2 =>
          rename_i c ps' b bs'
          obtain ⟨rem, hasr, frest⟩ := s
          simp only at hrem hhr
          subst hrem hhr
          obtain ⟨htx, rfl⟩ := hp1
          refine ⟨⟨bs' ++ rb, false, frest⟩, ?_, ?_⟩
          · simp only [reader, List.append_assoc, readStringrec_frame hf1, bind_ok,
              lineResult_text htx]
            rw [← hres]
          · subst ht'
            exact ⟨ps', cs, vss, bs', rb, rfl, hf2, henc, hp2, hcs, by simpa [lead] using hall,
              by simpa [lead] using hlast, fun _ => rfl, by simp, fun _ h => by cases h⟩
    · cases hstep
  | header =>
    simp only [L.reader] at hstep
    split at hstep
    · rename_i hdone
      have henc := hrel.rem_of_done hdone.1 hdone.2
      unfold L.next at hstep
      split at hstep
      · cases hstep
      · rename_i r rs hr
        injection hstep with hstep
        injection hstep with hres ht'
        rw [hr] at henc
        obtain ⟨rem, hasr, frest⟩ := s
        obtain ⟨s', h1, h2⟩ := readHeader_encodes henc hasr frest
        subst hres ht'
        exact ⟨s', h1, h2⟩
    · cases hstep
  | floatrec k =>
    simp only [L.reader] at hstep
    split at hstep
    · rename_i k' fs p hpre
      split at hstep
      · rename_i hk
        subst hk
        injection hstep with hstep
        injection hstep with hres ht'
        obtain ⟨ps, cs, vss, fb, rb, hrem, hfr, henc, hps, hcs, hall, hlast, hpr, hfresh, _⟩ :=
          hrel
        have hhr : s.hasrest = false := hpr (by rw [hpre]; simp)
        rw [hpre] at hps
        cases hps with
        | cons hp1 hp2 =>
          cases hfr with
          | cons hf1 hf2 =>
            rename_i c ps' b bs'
            obtain ⟨rem, hasr, frest⟩ := s
            simp only at hrem hhr
            subst hrem hhr
            refine ⟨⟨bs' ++ rb, false, frest⟩, ?_, ?_⟩
            · simp only [reader, List.append_assoc]
              rw [readFloatrec_chunk hp1 hf1, ← hres]
            · subst ht'
              exact ⟨ps', cs, vss, bs', rb, rfl, hf2, henc, hp2, hcs, by simpa [lead] using hall,
                by simpa [lead] using hlast, fun _ => rfl, by simp, fun _ h => by cases h⟩
      · cases hstep
    · cases hstep
  | floats n k =>
    simp only [L.reader] at hstep
    split at hstep
    · rename_i hn
      subst hn
      injection hstep with hstep
      injection hstep with hres ht'
      subst hres ht'
      exact ⟨s, by simp [reader, readFloats], hrel⟩
    · split at hstep
      · rename_i hn hc
        obtain ⟨hpre, hpos, hle, hk⟩ := hc
        injection hstep with hstep
        injection hstep with hres ht'
        subst hres ht' hk
        obtain ⟨m, rfl⟩ : ∃ m : Nat, n = m := ⟨n.toNat, by omega⟩
        simp only [Int.toNat_natCast] at hle ⊢
        obtain ⟨s', h1, h2⟩ := readFloats_rel hrel hpre (n := m) (by omega) hle
        exact ⟨s', h1, h2⟩
      · split at hstep
        · rename_i hc
          obtain ⟨_, _, _, _, _, _, _, henc, _⟩ := hrel
          obtain ⟨rs, hrest⟩ := List.head?_eq_some_iff.mp hc.2.2.2
          rw [hrest] at henc
          exact absurd henc encodes_end
        · cases hstep
  | skip name rec =>
    simp only [L.reader] at hstep
    split at hstep
    · rename_i hc
      obtain ⟨hops, rfl, rfl, hsk⟩ := hc
      unfold L.next at hstep
      split at hstep
      · cases hstep
      · rename_i r rs hr
        injection hstep with hstep
        injection hstep with hres ht'
        subst hres ht'
        exact skip_rel hrel hops hsk hr
    · cases hstep
  | atHeader =>
    simp only [L.reader] at hstep
    split at hstep
    · rename_i hc
      obtain ⟨hpre, hops⟩ := hc
      have hrel' := hrel
      obtain ⟨ps, cs, vss, fb, rb, hrem, hfr, henc, hps, hcs, hall, hlast, _, _, hstale⟩ := hrel
      rw [hpre] at hps
      cases hps
      have hstale := hstale hops
      split at hstep
      · rename_i hv
        split at hstep
        · rename_i hk8
          injection hstep with hstep
          injection hstep with hres ht'
          subst hres ht'
          refine ⟨s, ?_, hrel'⟩
          simp only [reader]
          cases hh : s.hasrest with
          | true => simp [atHeaderrec, hh]
          | false =>
            have hl : lead s = [] := by simp [lead, hh]
            rw [hl] at hall
            cases hcs with
            | nil =>
              have := congrArg List.length hall
              cases hvv : t.cur.vals with
              | nil => exact absurd hvv hv
              | cons a l => rw [hvv] at this; simp at this
            | cons hc1 hc2 =>
              cases hfr with
              | cons hf1 hf2 =>
                rename_i c vs cs' vss' b bs'
                obtain ⟨l, tr, rfl, hl⟩ := hf1
                rw [hk8] at hc1
                obtain ⟨fb', rfl, _⟩ := hc1
                have : peekName s = [] := by
                  unfold peekName
                  rw [hrem]
                  have : ((l :: (List.replicate 8 32 ++ fb' ++ [tr]) ++ bs' ++ rb).take 9).drop 1 =
                      (List.replicate 8 (32 : UInt8)) := by
                    simp [List.take_append]
                  rw [this]
                  decide
                simp [atHeaderrec, hh, this, allowedB_nil]
        · cases hstep
      · rename_i hv
        have hv : t.cur.vals = [] := by simpa using hv
        split at hstep
        · rename_i hpad
          injection hstep with hstep
          injection hstep with hres ht'
          subst hres ht'
          refine ⟨s, ?_, hrel'⟩
          have hvss : vss = [] := by
            by_contra hne
            have := hlast hne
            rw [hv] at this
            simp at this
          rw [hvss, hv] at hall
          have hh : s.hasrest = true := by
            by_contra hc
            have hc : s.hasrest = false := by simpa using hc
            have hl : lead s = [] := by simp [lead, hc]
            rw [hl] at hall
            simp at hall
            exact hpad hall
          simp [reader, atHeaderrec, hh]
        · rename_i hpad
          have hpad : t.cur.pad = [] := by simpa using hpad
          split at hstep
          · rename_i r rs hr
            split at hstep
            · rename_i hall'
              injection hstep with hstep
              injection hstep with hres ht'
              subst hres ht'
              refine ⟨s, ?_, hrel'⟩
              have hvss : vss = [] := by
                by_contra hne
                have := hlast hne
                rw [hv] at this
                simp at this
              rw [hvss, hv, hpad] at hall
              have hh : s.hasrest = false := by
                by_contra hc
                have hc : s.hasrest = true := by simpa using hc
                have hl : lead s = s.floatrest := by simp [lead, hc]
                rw [hl] at hall
                simp at hall
                exact hstale hc hall
              have henc' := hrel'.rem_of_done hpre hv
              rw [hr] at henc'
              have hpk : allowedB (peekName s) = true := by
                generalize hsr : s.rem = bs at henc'
                cases henc' with
                | empty => exact absurd hall' (by decide +kernel)
                | cut => exact absurd hall' (by decide +kernel)
                | cons hh2 hb2 hf2 _ _ =>
                  cases hf2 with
                  | cons hf1 _ =>
                    obtain ⟨hname, fb2, rfl, _⟩ := hh2
                    obtain ⟨l, tr, rfl, _⟩ := hf1
                    unfold peekName
                    rw [hsr]
                    have hlen : ((nameField r.name).map toByte).length = 8 := by
                      rw [List.length_map, nameField_length hname]
                    simp only [List.cons_append, List.take_succ_cons, List.drop_succ_cons,
                      List.drop_zero, List.append_assoc]
                    rw [List.take_left' hlen, allowedB_name hname]
                    exact List.contains_iff_mem.mpr hall'
              simp [reader, atHeaderrec, hh, hpk]
            · split at hstep
              · rename_i hend
                have henc' := henc
                rw [hr, hend] at henc'
                exact absurd henc' encodes_end
              · cases hstep
          · cases hstep
    · cases hstep

/-- opening an encoded file couples it with the logical file -/
theorem rel_open {f : List LRec} {bs : Bytes} (k : UInt8) (h : Encodes D sk z f bs) :
    Rel D sk z (openFile (k :: bs)) (L.openFile f) := by
  refine ⟨[], [], [], [], bs, rfl, .nil, h, .nil, .nil, rfl, fun h => absurd rfl h,
    fun h => absurd rfl h, fun h => absurd h (by simp [L.openFile]), ?_⟩
  intro _ h
  cases h

end Verif.Seq.U
