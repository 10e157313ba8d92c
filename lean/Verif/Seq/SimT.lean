import Verif.Seq.SimU
/-!
# Formatted files: the text level reader simulates the logical reader
-/

namespace Verif.Seq.T

variable {D : Dec} {sk : LRec → Bool} {z : Str}

theorem takeWhile_newline {l : Str} (h : '\n' ∉ l) (r : Str) :
    (l ++ '\n' :: r).takeWhile (· != '\n') = l ∧ (l ++ '\n' :: r).dropWhile (· != '\n') =
      '\n' :: r := by
  induction l with
  | nil => simp
  | cons a l ih =>
    have ha : a ≠ '\n' := fun h' => h (by simp [h'])
    have := ih (fun h' => h (by simp [h']))
    simp [ha, this]

theorem readStringrec_line {c r : Str} (h : '\n' ∉ c) (hr : Bool) (fr : List PyF) :
    readStringrec ⟨c ++ '\n' :: r, hr, fr⟩ = .ok (c, ⟨r, false, fr⟩) := by
  have hm : '\n' ∈ c ++ '\n' :: r := by simp
  simp only [readStringrec, lineOf, afterLine, hm, if_true, (takeWhile_newline h r).1,
    (takeWhile_newline h r).2, List.drop_succ_cons, List.drop_zero]

theorem unlines_append (cs ds : List Str) : unlines (cs ++ ds) = unlines cs ++ unlines ds := by
  induction cs with
  | nil => rfl
  | cons c cs ih => simp [unlines, ih]

theorem length_unlines (cs : List Str) : cs.length ≤ (unlines cs).length := by
  induction cs with
  | nil => simp
  | cons c cs ih => simp only [unlines, List.length_cons, List.length_append]; omega

theorem Chunk.noNl {c : Str} {vs : List PyF} (h : Chunk D c vs) : '\n' ∉ c := by
  obtain ⟨fb, rfl, h, _⟩ := h
  simp only [List.mem_append, not_or]
  refine ⟨?_, h⟩
  intro hm
  exact absurd (List.eq_of_mem_replicate hm) (by decide)

theorem Head.noNl {r : LRec} {c : Str} (h : Head D r c) : '\n' ∉ c := by
  obtain ⟨hn, fb, rfl, h, _⟩ := h
  simp only [List.mem_append, not_or]
  exact ⟨nameField_ne_newline hn, h⟩

theorem SegEnc.noNl {g : Seg} {c : Str} (h : SegEnc D g c) : '\n' ∉ c := by
  cases g with
  | recd k fs => exact Chunk.noNl h
  | text t =>
    obtain ⟨h, rfl⟩ := h
    intro hm
    exact absurd (h _ hm).1 (by decide)

theorem forall₂_noNl {α : Type} {P : α → Str → Prop} {l : List α} {cs : List Str}
    (h : List.Forall₂ P l cs) (hp : ∀ a c, P a c → '\n' ∉ c) : ∀ c ∈ cs, '\n' ∉ c := by
  induction h with
  | nil => simp
  | cons h1 _ ih =>
    intro c hc
    rcases List.mem_cons.mp hc with rfl | hc
    · exact hp _ _ h1
    · exact ih c hc

theorem forall₂_noNl' {α : Type} {P : Str → α → Prop} {l : List α} {cs : List Str}
    (h : List.Forall₂ P cs l) (hp : ∀ a c, P c a → '\n' ∉ c) : ∀ c ∈ cs, '\n' ∉ c := by
  induction h with
  | nil => simp
  | cons h1 _ ih =>
    intro c hc
    rcases List.mem_cons.mp hc with rfl | hc
    · exact hp _ _ h1
    · exact ih c hc

theorem Chunk.drop {c : Str} {vs : List PyF} (h : Chunk D c vs) :
    tofloatrec D (c.drop 8) = .ok vs := by
  obtain ⟨fb, rfl, _, h⟩ := h
  rw [List.drop_left' (by simp)]
  exact h

theorem readFloatrec_chunk {k : Nat} {c r : Str} {vs : List PyF} (hc : Chunk D c vs)
    (hr : Bool) (fr : List PyF) :
    readFloatrec D k ⟨c ++ '\n' :: r, hr, fr⟩ = .ok (vs, ⟨r, false, fr⟩) := by
  simp [readFloatrec, readStringrec_line hc.noNl, hc.drop]

/-- four values on every line but the last, at most four on the last -/
def Filled (vss : List (List PyF)) : Prop :=
  (∀ vs ∈ vss.dropLast, vs.length = 4) ∧ ∀ vs ∈ vss, vs.length ≤ 4

theorem Filled.tail {v : List PyF} {vss : List (List PyF)} (h : Filled (v :: vss)) :
    Filled vss := by
  refine ⟨?_, fun vs hvs => h.2 vs (by simp [hvs])⟩
  intro vs hvs
  apply h.1
  cases vss with
  | nil => simp at hvs
  | cons w ws => rw [List.dropLast_cons_cons]; exact List.mem_cons_of_mem _ hvs

/-- reading `ceil(need/4)` lines of a filled stream that holds enough values -/
theorem readLines_chunks {k : Nat} {cs : List Str} {vss : List (List PyF)}
    (h : List.Forall₂ (Chunk D) cs vss) (hfill : Filled vss) (r : Str)
    (need : Nat) (acc : List PyF) (hr : Bool) (fr : List PyF)
    (hneed : need ≤ vss.flatten.length) (hpos : 0 < need ∨ hr = false) :
    ∃ v1 v2 cs2, vss = v1 ++ v2 ∧ List.Forall₂ (Chunk D) cs2 v2 ∧ Filled v2 ∧
      need ≤ v1.flatten.length ∧
      readLines D k ((need + 3) / 4) acc ⟨unlines cs ++ r, hr, fr⟩ =
        .ok (acc ++ v1.flatten, ⟨unlines cs2 ++ r, false, fr⟩) := by
  induction h generalizing need acc hr with
  | nil =>
    have h0 : need = 0 := by simpa using hneed
    subst h0
    have : hr = false := by rcases hpos with h | h; exact absurd h (by omega); exact h
    subst this
    exact ⟨[], [], [], rfl, .nil, ⟨by simp, by simp⟩, by simp, by simp [readLines]⟩
  | cons hc hcs ih =>
    rename_i c vs cs vss
    by_cases h0 : need = 0
    · subst h0
      have : hr = false := by rcases hpos with h | h; exact absurd h (by omega); exact h
      subst this
      exact ⟨[], vs :: vss, c :: cs, rfl, .cons hc hcs, hfill, by simp, by simp [readLines]⟩
    · have hk : (need + 3) / 4 = ((need - 4) + 3) / 4 + 1 := by omega
      have hrest : need - 4 ≤ vss.flatten.length := by
        cases vss with
        | nil =>
          have := hfill.2 vs (by simp)
          simp at hneed
          omega
        | cons w ws =>
          have := hfill.1 vs (by simp)
          simp only [List.flatten_cons, List.length_append] at hneed ⊢
          omega
      obtain ⟨v1, v2, cs2, rfl, hc2, hf2, hge, hrun⟩ :=
        ih hfill.tail (need - 4) (acc ++ vs) false hrest (Or.inr rfl)
      refine ⟨vs :: v1, v2, cs2, rfl, hc2, hf2, ?_, ?_⟩
      · by_cases h4 : need ≤ 4
        · by_cases hv2 : v1 ++ v2 = []
          · rw [hv2] at hneed
            simp at hneed
            simp only [List.flatten_cons, List.length_append]
            omega
          · have : vs.length = 4 := by
              apply hfill.1
              cases hvv : v1 ++ v2 with
              | nil => exact absurd hvv hv2
              | cons w ws => simp
            simp only [List.flatten_cons, List.length_append]
            omega
        · have : vs.length = 4 := by
            apply hfill.1
            cases hvv : v1 ++ v2 with
            | nil =>
              rw [hvv] at hneed
              have := hfill.2 vs (by simp)
              simp at hneed
              omega
            | cons w ws => simp
          simp only [List.flatten_cons, List.length_append]
          omega
      · rw [hk, readLines]
        have e : unlines (c :: cs) ++ r = c ++ '\n' :: (unlines cs ++ r) := by simp [unlines]
        rw [e, readFloatrec_chunk hc]
        simp only
        rw [hrun]
        simp

/-- at the end of the text there are empty lines -/
theorem readLines_ended {k : Nat} (n : Nat) (acc : List PyF) (fr : List PyF) :
    readLines D k n acc ⟨[], false, fr⟩ = .ok (acc, ⟨[], false, fr⟩) := by
  induction n generalizing acc with
  | zero => rfl
  | succ n ih =>
    have : readFloatrec D k ⟨[], false, fr⟩ = .ok ([], ⟨[], false, fr⟩) := rfl
    rw [readLines, this]
    simpa using ih acc

/-- reading `ceil(need/4)` lines of a filled stream with fewer values, at the end of the text -/
theorem readLines_short {k : Nat} {cs : List Str} {vss : List (List PyF)}
    (h : List.Forall₂ (Chunk D) cs vss) (hfill : Filled vss)
    (need : Nat) (acc : List PyF) (hr : Bool) (fr : List PyF) (hneed : vss.flatten.length < need) :
    readLines D k ((need + 3) / 4) acc ⟨unlines cs, hr, fr⟩ =
      .ok (acc ++ vss.flatten, ⟨[], false, fr⟩) := by
  induction h generalizing need acc hr with
  | nil =>
    have hk : (need + 3) / 4 = ((need - 4) + 3) / 4 + 1 := by simp at hneed; omega
    have : readFloatrec D k ⟨unlines [], hr, fr⟩ = .ok ([], ⟨[], false, fr⟩) := rfl
    rw [hk, readLines, this]
    simp only
    rw [readLines_ended]
    simp
  | cons hc hcs ih =>
    rename_i c vs cs vss
    have hk : (need + 3) / 4 = ((need - 4) + 3) / 4 + 1 := by omega
    have e : unlines (c :: cs) = c ++ '\n' :: unlines cs := by simp [unlines]
    rw [hk, readLines, e, readFloatrec_chunk hc]
    simp only
    simp only [List.flatten_cons, List.length_append] at hneed
    by_cases hv : vss = []
    · subst hv
      cases hcs
      have : unlines [] = [] := rfl
      rw [this, readLines_ended]
      simp
    · have h4 : vs.length = 4 := by
        apply hfill.1
        cases vss with
        | nil => exact absurd rfl hv
        | cons w ws => simp
      rw [ih hfill.tail (need - 4) (acc ++ vs) false (by omega)]
      simp

/-- the leftover buffer as seen by `read_floats` -/
def lead (s : TState) : List PyF := if s.hasrest then s.floatrest else []

/-- The coupling of the text level state with the logical state. -/
def Rel (D : Dec) (sk : LRec → Bool) (z : Str) (s : TState) (t : LState) : Prop :=
  ∃ ps cs vss rb,
    s.rem = unlines (ps ++ cs) ++ rb ∧ Filled vss ∧ Encodes D sk z t.rest rb ∧
    List.Forall₂ (SegEnc D) t.cur.pre ps ∧
    List.Forall₂ (Chunk D) cs vss ∧
    lead s ++ vss.flatten = t.cur.vals ++ t.cur.pad ∧
    (vss ≠ [] → (lead s ++ vss.dropLast.flatten).length < t.cur.vals.length) ∧
    (t.cur.pre ≠ [] → s.hasrest = false) ∧
    (t.ops = 0 → s.hasrest = false ∧
      (sk t.cur = true → ∀ n ∈ t.rest.head?, Skippable D t.cur (ps ++ cs) n.name)) ∧
    (t.ops ≤ 1 → s.hasrest = true → s.floatrest ≠ [])

theorem Filled.of_stream {vss : List (List PyF)} (h1 : ∀ vs ∈ vss.dropLast, vs.length = 4)
    (h2 : ∀ vs ∈ vss, vs.length ≤ 4) : Filled vss := ⟨h1, h2⟩

/-- the next line is a header line, or the end of the text -/
theorem readString_encodes {r : LRec} {rs : List LRec} {bs : Str}
    (h : Encodes D sk z (r :: rs) bs) (hr : Bool) (fr : List PyF) :
    ∃ c s', readStringrec ⟨bs, hr, fr⟩ = .ok (c, s') ∧
      (NameOK r.name ∧ c.take 8 = nameField r.name ∨ r = endMark ∧ c = []) ∧
      asHeader D c = .ok (r.name, r.head) ∧
      Rel D sk z s' { cur := r, ops := 0, rest := rs } := by
  cases h with
  | eof hz =>
    refine ⟨[], ⟨[], false, fr⟩, rfl, .inr ⟨rfl, rfl⟩, rfl, ?_⟩
    exact ⟨[], [], [], [], rfl, ⟨by simp, by simp⟩, by rw [hz]; exact .nil, .nil, .nil, rfl,
      fun h => absurd rfl h, fun h => absurd rfl h, fun _ => ⟨rfl, fun _ n hn => by cases hn⟩,
      fun _ h => by cases h⟩
  | cons hh hb hs hrest =>
    rename_i c body t
    have hnl := Head.noNl hh
    have e : unlines (c :: body) ++ t = c ++ '\n' :: (unlines body ++ t) := by simp [unlines]
    refine ⟨c, ⟨unlines body ++ t, false, fr⟩, by rw [e]; exact readStringrec_line hnl _ _, ?_⟩
    obtain ⟨hname, fb, rfl, _, hfl⟩ := hh
    have hlen : (nameField r.name).length = 8 := nameField_length hname
    refine ⟨.inl ⟨hname, List.take_left' hlen⟩, ?_, ?_⟩
    · simp only [asHeader]
      rw [List.take_left' hlen, List.drop_left' hlen, hfl, bind_ok, strip_nameField hname,
        String.ofList_toList]
    · obtain ⟨ps, fs, rfl, hps, vss, hvs, hfl, hf1, hf2, hlast⟩ := hb
      refine ⟨ps, fs, vss, t, rfl, ⟨hf1, hf2⟩, hrest, hps, hvs, by simpa [lead] using hfl, ?_,
        fun _ => rfl, fun _ => ⟨rfl, hs⟩, fun _ h => by cases h⟩
      intro hne
      have hcs : fs ≠ [] := by
        rintro rfl
        cases hvs
        exact hne rfl
      simpa [lead] using hlast hcs

/-- reading the header of the next record -/
theorem readHeader_encodes {r : LRec} {rs : List LRec} {bs : Str}
    (h : Encodes D sk z (r :: rs) bs) (hr : Bool) (fr : List PyF) :
    ∃ s', readHeader D ⟨bs, hr, fr⟩ = .ok ((r.name, r.head), s') ∧
      Rel D sk z s' { cur := r, ops := 0, rest := rs } := by
  obtain ⟨c, s', h1, _, h2, h3⟩ := readString_encodes h hr fr
  exact ⟨s', by simp only [readHeader, h1, bind_ok, h2], h3⟩

theorem Rel.rem_of_done {s : TState} {t : LState} (h : Rel D sk z s t) (hp : t.cur.pre = [])
    (hv : t.cur.vals = []) : Encodes D sk z t.rest s.rem := by
  obtain ⟨ps, cs, vss, rb, hrem, hfill, henc, hps, hcs, _, hlast, _⟩ := h
  rw [hp] at hps
  cases hps
  have : vss = [] := by
    by_contra hne
    have := hlast hne
    rw [hv] at this
    simp at this
  subst this
  cases hcs
  rw [hrem]
  exact henc

/-- behind the last record there is nothing -/
theorem encodes_end {rs : List LRec} {bs : Str} (h : Encodes D sk z (endMark :: rs) bs) :
    bs = [] := by
  generalize hg : endMark :: rs = g at h
  cases h with
  | nil => cases hg
  | eof => rfl
  | cons hh =>
    injection hg with h1 h2
    subst h1
    exact absurd rfl hh.1.1

/-- at the end of the text fewer values are read than asked for -/
theorem readFloats_ended {s : TState} {t : LState} (h : Rel D sk z s t) (hp : t.cur.pre = [])
    (hpad : t.cur.pad = []) {rs : List LRec} (hrest : t.rest = endMark :: rs) {n k : Nat} (hn : t.cur.vals.length < n) :
    ∃ s', readFloats D (n : Int) k s = .ok (t.cur.vals, s') ∧
      Rel D sk z s' { t with cur := { t.cur with vals := [] }, ops := t.ops + 1 } := by
  obtain ⟨ps, cs, vss, rb, hrem, hfill, henc, hps, hcs, hall, hlast, _, hfresh, _⟩ := h
  rw [hp] at hps
  cases hps
  have henc' := henc
  rw [hrest] at henc'
  obtain rfl := encodes_end henc'
  rw [List.nil_append, List.append_nil] at hrem
  rw [hpad, List.append_nil] at hall
  have hne : (n : Int) ≠ 0 := by omega
  obtain ⟨rem, hasr, frest⟩ := s
  simp only at hrem
  subst hrem
  have hlen : (lead ⟨unlines cs, hasr, frest⟩).length + vss.flatten.length = t.cur.vals.length := by
    rw [← hall, List.length_append]
  have hread : (n : Int) - (lead ⟨unlines cs, hasr, frest⟩).length > 0 := by omega
  have hrun := readLines_short (k := k) hcs hfill
    ((n : Int) - (lead ⟨unlines cs, hasr, frest⟩).length).toNat [] hasr frest (by omega)
  rw [List.nil_append] at hrun
  have hdrop : t.cur.vals.drop n = [] := List.drop_eq_nil_of_le (by omega)
  have htake : t.cur.vals.take n = t.cur.vals := List.take_of_length_le (by omega)
  refine ⟨(finishFloats (n : Int) t.cur.vals ⟨[], false, frest⟩).2, ?_, ?_⟩
  · unfold readFloats
    rw [if_neg hne]
    simp only [lead] at hread hrun hall ⊢
    rw [if_pos hread, hrun]
    simp only [hall, finishFloats, pyTake_nat, htake]
  · simp only [finishFloats, pyDrop_nat, hdrop]
    refine ⟨[], [], [], [], rfl, ⟨by simp, by simp⟩, henc, ?_, .nil, ?_, ?_, ?_, ?_, ?_⟩
    · simp only [hp]; exact .nil
    · simp [lead, hpad]
    · simp
    · simp only [hp]; simp
    · simp
    · simp

theorem readFloats_rel {s : TState} {t : LState} (h : Rel D sk z s t) (hp : t.cur.pre = [])
    {n : Nat} (hn0 : 0 < n) (hn : n ≤ t.cur.vals.length) :
    ∃ s', readFloats D (n : Int) t.cur.skip s = .ok (t.cur.vals.take n, s') ∧
      Rel D sk z s'
        { t with cur := { t.cur with vals := t.cur.vals.drop n }, ops := t.ops + 1 } := by
  obtain ⟨ps, cs, vss, rb, hrem, hfill, henc, hps, hcs, hall, hlast, _, hfresh, _⟩ := h
  rw [hp] at hps
  cases hps
  rw [List.nil_append] at hrem
  have hne : (n : Int) ≠ 0 := by omega
  obtain ⟨rem, hasr, frest⟩ := s
  simp only at hrem
  subst hrem
  by_cases hread : (n : Int) - (lead ⟨unlines cs ++ rb, hasr, frest⟩).length > 0
  · -- physical records have to be read
    have htot : (lead ⟨unlines cs ++ rb, hasr, frest⟩ ++ vss.flatten).length =
        t.cur.vals.length + t.cur.pad.length := by rw [hall]; simp
    have hneed : ((n : Int) - (lead ⟨unlines cs ++ rb, hasr, frest⟩).length).toNat ≤
        vss.flatten.length := by
      simp only [List.length_append] at htot ⊢
      omega
    obtain ⟨v1, v2, cs2, rfl, hc2, hf2, hge, hrun⟩ :=
      readLines_chunks (k := t.cur.skip) hcs hfill rb _ [] hasr frest hneed
        (Or.inl (by omega))
    rw [List.nil_append] at hrun
    have hgot : n ≤ (lead ⟨unlines cs ++ rb, hasr, frest⟩ ++ v1.flatten).length := by
      simp only [List.length_append]
      omega
    obtain ⟨e1, e2, e3⟩ := stream_step hn hall hlast hgot
    refine ⟨(finishFloats (n : Int) (lead ⟨unlines cs ++ rb, hasr, frest⟩ ++ v1.flatten)
      ⟨unlines cs2 ++ rb, false, frest⟩).2, ?_, ?_⟩
    · unfold readFloats
      rw [if_neg hne]
      simp only [lead] at hread hrun ⊢
      rw [if_pos hread, hrun]
      simp only [finishFloats, pyTake_nat]
      simp only [lead] at e1
      rw [e1]
    · have hlead : lead (finishFloats (n : Int) (lead ⟨unlines cs ++ rb, hasr, frest⟩ ++ v1.flatten)
          (⟨unlines cs2 ++ rb, false, frest⟩ : TState)).2 =
          (lead ⟨unlines cs ++ rb, hasr, frest⟩ ++ v1.flatten).drop n := by
        simp only [finishFloats, pyDrop_nat]
        by_cases hz : ((lead ⟨unlines cs ++ rb, hasr, frest⟩ ++ v1.flatten).drop n).length > 0
        · rw [if_pos hz]; simp [lead]
        · rw [if_neg hz]
          have : (lead ⟨unlines cs ++ rb, hasr, frest⟩ ++ v1.flatten).drop n = [] :=
            List.length_eq_zero_iff.mp (by omega)
          rw [this]; simp [lead]
      refine ⟨[], cs2, v2, rb, rfl, hf2, henc, ?_, hc2, ?_, ?_, ?_, ?_, ?_⟩
      · simp only [hp]; exact .nil
      · rw [hlead]; exact e2
      · rw [hlead]; exact e3
      · simp only [hp]; simp
      · simp
      · intro _ hh
        simp only [finishFloats, pyDrop_nat] at hh ⊢
        intro hz
        rw [hz] at hh
        simp at hh
  · -- the leftover buffer is enough
    have hle : n ≤ (lead ⟨unlines cs ++ rb, hasr, frest⟩ ++ ([] : List (List PyF)).flatten).length := by
      simp only [List.flatten_nil, List.append_nil]; omega
    obtain ⟨e1, e2, e3⟩ := stream_step (v1 := []) (v2 := vss) hn (by simpa using hall)
      (by simpa using hlast) hle
    simp only [List.flatten_nil, List.append_nil] at e1 e2 e3 hle
    have hhas : hasr = true := by
      by_contra hc
      have : hasr = false := by simpa using hc
      subst this
      simp [lead] at hle
      omega
    subst hhas
    simp only [lead, if_true] at e1 e2 e3 hle
    refine ⟨(finishFloats (n : Int) frest ⟨unlines cs ++ rb, true, frest⟩).2, ?_, ?_⟩
    · unfold readFloats
      rw [if_neg hne]
      simp only [lead, if_true] at hread ⊢
      rw [if_neg hread]
      simp only [finishFloats, pyTake_nat]
      rw [e1]
    · refine ⟨[], cs, vss, rb, rfl, hfill, henc, ?_, hcs, ?_, ?_, ?_, ?_, ?_⟩
      · simp only [hp]; exact .nil
      · simpa [lead, finishFloats, pyDrop_nat] using e2
      · simpa [lead, finishFloats, pyDrop_nat] using e3
      · simp only [hp]; simp
      · simp
      · intro hops
        simp only at hops
        have h0 : t.ops = 0 := by omega
        have := (hfresh h0).1
        simp at this

/-! ### skipping -/

theorem readStrings_lines {cs : List Str} (h : ∀ c ∈ cs, '\n' ∉ c) (r : Str)
    (hr : Bool) (fr : List PyF) :
    ∃ hr', readStrings (fileOps D) cs.length ⟨unlines cs ++ r, hr, fr⟩ = .ok ⟨r, hr', fr⟩ := by
  induction cs generalizing hr with
  | nil => exact ⟨hr, rfl⟩
  | cons c cs ih =>
    obtain ⟨hr', h'⟩ := ih (fun c hc => h c (by simp [hc])) false
    refine ⟨hr', ?_⟩
    have e : unlines (c :: cs) ++ r = c ++ '\n' :: (unlines cs ++ r) := by simp [unlines]
    simp only [List.length_cons, readStrings, fileOps, e, readStringrec_line (h c (by simp))]
    exact h'

theorem blankLed_iff (c : Str) : (fileOps D).blankLed c = true ↔ BlankLed c := by
  simp only [fileOps, decide_eq_true_eq]
  constructor
  · intro h
    refine ⟨c.drop 8, ?_⟩
    have := List.take_append_drop 8 c
    rw [h] at this
    exact this.symm
  · rintro ⟨r, rfl⟩
    rw [List.take_left' (by simp)]
    rfl

theorem not_blankLed_name {name : String} (h : NameOK name) {c : Str}
    (hc : c.take 8 = nameField name) : (fileOps D).blankLed c = false := by
  simp only [fileOps, decide_eq_false_iff_not, hc]
  exact nameField_ne_blanks h

theorem not_blankLed_head {r : LRec} {c : Str}
    (h : NameOK r.name ∧ c.take 8 = nameField r.name ∨ r = endMark ∧ c = []) :
    (fileOps D).blankLed c = false := by
  rcases h with ⟨h1, h2⟩ | ⟨-, rfl⟩
  · exact not_blankLed_name h1 h2
  · exact (by decide : decide (([] : Str).take 8 = T.blanks) = false)

theorem skipContrecs_lines {cs : List Str} (hnl : ∀ c ∈ cs, '\n' ∉ c)
    (hb : ∀ c ∈ cs, BlankLed c) {r : LRec} {rs : List LRec} {rb : Str}
    (henc : Encodes D sk z (r :: rs) rb) (fuel : Nat) (hfuel : cs.length + 2 ≤ fuel) (c0 : Str)
    (hc0 : BlankLed c0) (hr : Bool) (fr : List PyF) :
    ∃ s', skipContrecs (fileOps D) fuel c0 ⟨unlines cs ++ rb, hr, fr⟩ =
        .ok ((r.name, r.head), s') ∧
      Rel D sk z s' { cur := r, ops := 0, rest := rs } := by
  induction cs generalizing c0 fuel hr with
  | nil =>
    obtain ⟨c, s', h1, h2, h4, h5⟩ := readString_encodes henc hr fr
    refine ⟨s', ?_, h5⟩
    obtain ⟨fuel, rfl⟩ : ∃ f, fuel = f + 2 := ⟨fuel - 2, by simp at hfuel; omega⟩
    have hs : (fileOps D).readString ⟨rb, hr, fr⟩ = .ok (c, s') := h1
    have ha : (fileOps D).asHeader c = .ok (r.name, r.head) := h4
    simp only [skipContrecs, (blankLed_iff c0).mpr hc0, if_true, unlines, List.nil_append, hs,
      not_blankLed_head h2, Bool.false_eq_true, if_false, ha]
  | cons c cs ih =>
    obtain ⟨fuel, rfl⟩ : ∃ f, fuel = f + 1 := ⟨fuel - 1, by simp at hfuel; omega⟩
    obtain ⟨s', h3, h4⟩ := ih (fun c hc => hnl c (by simp [hc])) (fun c hc => hb c (by simp [hc]))
      fuel (by simp at hfuel; omega) c (hb c (by simp)) false
    refine ⟨s', ?_, h4⟩
    have e : unlines (c :: cs) ++ rb = c ++ '\n' :: (unlines cs ++ rb) := by simp [unlines]
    have hs : (fileOps D).readString ⟨unlines (c :: cs) ++ rb, hr, fr⟩ =
        .ok (c, ⟨unlines cs ++ rb, false, fr⟩) := by
      rw [e]
      exact readStringrec_line (hnl c (by simp)) hr fr
    simp only [skipContrecs, (blankLed_iff c0).mpr hc0, if_true, hs]
    exact h3

theorem Rel.noNl {s : TState} {t : LState} (_h : Rel D sk z s t) {ps cs : List Str}
    {vss : List (List PyF)} (hps : List.Forall₂ (SegEnc D) t.cur.pre ps)
    (hcs : List.Forall₂ (Chunk D) cs vss) : ∀ c ∈ ps ++ cs, '\n' ∉ c := by
  intro c hc
  rcases List.mem_append.mp hc with hc | hc
  · exact forall₂_noNl hps (fun _ _ h => SegEnc.noNl h) c hc
  · exact forall₂_noNl' hcs (fun _ _ h => Chunk.noNl h) c hc

theorem readLines_eof (D : Dec) (k n : Nat) (acc : List PyF) (hr : Bool) (fr : List PyF) :
    ∃ hr', readLines D k n acc ⟨[], hr, fr⟩ = .ok (acc, ⟨[], hr', fr⟩) := by
  induction n generalizing hr with
  | zero => exact ⟨hr, rfl⟩
  | succ n ih =>
    obtain ⟨hr', h⟩ := ih false
    refine ⟨hr', ?_⟩
    have e : readFloatrec D k ⟨[], hr, fr⟩ = .ok ([], ⟨[], false, fr⟩) := rfl
    rw [readLines, e]
    simpa using h

theorem readFloats_eof (D : Dec) (n : Int) (fr : List PyF) :
    ∃ fs hr' fr', readFloats D n 0 ⟨[], false, fr⟩ = .ok (fs, ⟨[], hr', fr'⟩) := by
  unfold readFloats
  split
  · exact ⟨_, _, _, rfl⟩
  · simp only [Bool.false_eq_true, if_false, List.length_nil]
    split
    · obtain ⟨hr', h⟩ := readLines_eof D 0 (((n - ((0 : Nat) : Int)).toNat + 3) / 4) [] false fr
      rw [h]
      exact ⟨_, _, _, rfl⟩
    · exact ⟨_, _, _, rfl⟩

/-- skipping a record without continuation lines at the end of the text: the blank name of the end
of the file -/
theorem skip_eof {D : Dec} {r : LRec} (htd : ¬ isTD r.name) {h0 : PyF} {t : List PyF} {n : Int}
    (he : r.head = h0 :: t) (hneg : h0.ltZero = false) (hint : h0.toInt = .ok n) (fr : List PyF) :
    ∃ fr', skipRestofrecord (fileOps D) r.name r.head ⟨[], false, fr⟩ =
      .ok (("", []), ⟨[], false, fr'⟩) := by
  have hS : (fileOps D).readString ⟨[], false, fr⟩ = .ok ([], ⟨[], false, fr⟩) := rfl
  have hb : (fileOps D).blankLed [] = false :=
    (by decide : decide (([] : Str).take 8 = T.blanks) = false)
  have hnil : stripBy wsChar (([] : Str).take 8) = [] := rfl
  have ha : (fileOps D).allowedLed [] = false := by
    simp only [fileOps, hnil, allowedS_nil]
  obtain ⟨fs, hr', fr', hf⟩ := readFloats_eof D (n - 4) fr
  have hF : (fileOps D).readFloats (n - 4) 0 ⟨[], false, fr⟩ = .ok (fs, ⟨[], hr', fr'⟩) := hf
  have hH : (fileOps D).readHeader ⟨[], hr', fr'⟩ = .ok (("", []), ⟨[], false, fr'⟩) := rfl
  refine ⟨fr', ?_⟩
  simp only [skipRestofrecord, he, pyIdx, List.getElem?_cons_zero, bind_ok, hneg,
    Bool.false_eq_true, if_false, mt (isTD_iff _).mp htd, hS, hb, ha, hint, hF, hH]

/-- skipping a record of one of the layouts lands on the next record -/
theorem skip_rel {s : TState} {t : LState} (h : Rel D sk z s t) (hops : t.ops = 0)
    (hsk : sk t.cur = true) {r : LRec} {rs : List LRec} (hrest : t.rest = r :: rs) :
    ∃ s', skipRestofrecord (fileOps D) t.cur.name t.cur.head s = .ok ((r.name, r.head), s') ∧
      Rel D sk z s' { cur := r, ops := 0, rest := rs } := by
  have hrel := h
  obtain ⟨ps, cs, vss, rb, hrem, hfill, henc, hps, hcs, hall, hlast, _, hfresh, _⟩ := h
  obtain ⟨hhr, hskip⟩ := hfresh hops
  have hskip := hskip hsk r (by rw [hrest]; rfl)
  rw [hrest] at henc
  obtain ⟨rem, hasr, frest⟩ := s
  simp only at hrem hhr
  subst hrem hhr
  have hnl := hrel.noNl hps hcs
  have hH : (fileOps D).readHeader = readHeader D := rfl
  have hS : (fileOps D).readString = readStringrec := rfl
  cases hskip with
  | negative h0 tl he hneg h5 hbody =>
    rw [hbody]
    simp only [unlines, skipRestofrecord, he, pyIdx, List.getElem?_cons_zero, bind_ok, hneg, if_true, h5,
      Bool.false_eq_true, if_false, List.nil_append, hH]
    exact readHeader_encodes henc _ _
  | minusFive h0 tl c fs he hneg h5 hbody hfs =>
    rw [hbody]
    have hfl : (fileOps D).readFloatrec 0 ⟨unlines [c] ++ rb, false, frest⟩ =
        .ok (fs, ⟨rb, false, frest⟩) := by
      simp only [unlines, List.append_assoc, List.cons_append, List.nil_append]
      exact readFloatrec_chunk (k := 0) hfs _ _
    simp only [skipRestofrecord, he, pyIdx, List.getElem?_cons_zero, bind_ok, hneg, if_true, h5,
      hfl, hH]
    exact readHeader_encodes henc _ _
  | text h0 h1 h2 h3 tl a b he hneg htd ha hb hlen =>
    have hsplit := List.take_append_drop (a / 100).toNat (ps ++ cs)
    obtain ⟨hr1, e1⟩ := readStrings_lines (D := D) (cs := (ps ++ cs).take (a / 100).toNat)
      (fun c hc => hnl c (List.mem_of_mem_take hc))
      (unlines ((ps ++ cs).drop (a / 100).toNat) ++ rb) false frest
    obtain ⟨hr2, e2⟩ := readStrings_lines (D := D) (cs := (ps ++ cs).drop (a / 100).toNat)
      (fun c hc => hnl c (List.mem_of_mem_drop hc)) rb hr1 frest
    rw [← List.append_assoc, ← unlines_append, hsplit] at e1
    have hl1 : ((ps ++ cs).take (a / 100).toNat).length = (a / 100).toNat := by
      rw [List.length_take]; omega
    have hl2 : ((ps ++ cs).drop (a / 100).toNat).length = (b / 100).toNat := by
      rw [List.length_drop]; omega
    rw [hl1] at e1
    rw [hl2] at e2
    simp only [skipRestofrecord, he, pyIdx, List.getElem?_cons_zero, List.getElem?_cons_succ,
      bind_ok, hneg, Bool.false_eq_true, if_false, (isTD_iff _).mpr htd, if_true, ha, hb,
      rangeLen, U.floorDiv_eq, e1, e2, hH]
    exact readHeader_encodes henc _ _
  | blankLed h0 tl he hneg htd hne hbl =>
    generalize ps ++ cs = body at *
    cases body with
    | nil => exact absurd rfl hne
    | cons c cs' =>
      have e : unlines (c :: cs') ++ rb = c ++ '\n' :: (unlines cs' ++ rb) := by simp [unlines]
      have e1 := readStringrec_line (r := unlines cs' ++ rb) (hnl c (by simp)) false frest
      rw [← e] at e1
      simp only [skipRestofrecord, he, pyIdx, List.getElem?_cons_zero, bind_ok, hneg,
        Bool.false_eq_true, if_false, mt (isTD_iff _).mp htd, hS, e1,
        (blankLed_iff c).mpr (hbl c (by simp)), if_true]
      refine skipContrecs_lines (fun c hc => hnl c (by simp [hc]))
        (fun c hc => hbl c (by simp [hc])) henc _ ?_ c (hbl c (by simp)) _ _
      have := length_unlines cs'
      simp only [List.length_append]
      omega
  | alone h0 tl he hneg htd hbody hnext =>
    rw [hbody]
    obtain ⟨c, s', g1, g2', g4, g5⟩ := readString_encodes henc false frest
    refine ⟨s', ?_, g5⟩
    obtain ⟨g2, g3⟩ : NameOK r.name ∧ c.take 8 = nameField r.name := by
      rcases g2' with h | ⟨h, -⟩
      · exact h
      · rw [h] at hnext
        exact absurd hnext (by decide +kernel)
    have ha : (fileOps D).allowedLed c = true := by
      simp only [fileOps, g3, allowedS_name g2]
      exact List.contains_iff_mem.mpr (allowed_sub _ hnext)
    have hA : (fileOps D).asHeader c = .ok (r.name, r.head) := g4
    simp only [skipRestofrecord, he, pyIdx, List.getElem?_cons_zero, bind_ok, hneg,
      Bool.false_eq_true, if_false, mt (isTD_iff _).mp htd, unlines, List.nil_append, hS, g1,
      not_blankLed_name g2 g3, ha, if_true, hA]
  | last h0 tl n he hneg htd hbody hint hnext =>
    rw [hbody]
    generalize hg : r :: rs = g at henc
    cases henc with
    | nil => cases hg
    | eof hz =>
      injection hg with hr hrs
      subst hr hrs
      obtain ⟨fr', hs⟩ := skip_eof (D := D) htd he hneg hint frest
      refine ⟨⟨[], false, fr'⟩, hs, ?_⟩
      exact ⟨[], [], [], [], rfl, ⟨by simp, by simp⟩, by rw [hz]; exact .nil, .nil, .nil, rfl,
        fun h => absurd rfl h, fun h => absurd rfl h, fun _ => ⟨rfl, fun _ n hn => by cases hn⟩,
        fun _ h => by cases h⟩
    | cons hh _ _ _ =>
      injection hg with hr hrs
      subst hr
      exact absurd (by rw [hnext]; rfl) hh.1.1

/-! ### the simulation -/

theorem lineResult_text {t : Str} (h : TextOK t) (m : LineMode) :
    lineResult m t = textResult m t := by
  cases m with
  | raw => rfl
  | strip => simp only [lineResult, textResult, strip_text h]
  | name => simp only [lineResult, textResult, strip_text h]

/-- **Formatted files simulate the logical reader**: every call that succeeds on the logical
file succeeds on any text encoding of it, with the same result. -/
theorem simulates (D : Dec) (sk : LRec → Bool) (z : Str) : Simulates (reader D) (L.reader sk) (Rel D sk z) := by
  intro o s t res t' hrel hstep
  cases o with
  | line m =>
    simp only [L.reader] at hstep
    split at hstep
    · rename_i tx p hpre
      injection hstep with hstep
      injection hstep with hres ht'
      obtain ⟨ps, cs, vss, rb, hrem, hfill, henc, hps, hcs, hall, hlast, hpr, hfresh, _⟩ := hrel
      have hhr : s.hasrest = false := hpr (by rw [hpre]; simp)
      rw [hpre] at hps
      cases hps with
      | cons hp1 hp2 =>
        rename_i c ps'
        have hnl := SegEnc.noNl hp1
        have e : unlines (c :: ps' ++ cs) ++ rb = c ++ '\n' :: (unlines (ps' ++ cs) ++ rb) := by
          simp [unlines]
        obtain ⟨rem, hasr, frest⟩ := s
        simp only at hrem hhr
        subst hrem hhr
        obtain ⟨htx, rfl⟩ := hp1
        refine ⟨⟨unlines (ps' ++ cs) ++ rb, false, frest⟩, ?_, ?_⟩
        · simp only [reader, e, readStringrec_line hnl, bind_ok, lineResult_text htx]
          rw [← hres]
        · subst ht'
          exact ⟨ps', cs, vss, rb, rfl, hfill, henc, hp2, hcs, by simpa [lead] using hall,
              by simpa [lead] using hlast, fun _ => rfl, by simp, fun _ h => by cases h⟩
    · cases hstep
  | header =>
    simp only [L.reader] at hstep
    split at hstep
    · rename_i hdone
      have henc := hrel.rem_of_done hdone.1 hdone.2
      unfold L.next at hstep
      split at hstep
      · cases hstep
      · rename_i r rs hr
        injection hstep with hstep
        injection hstep with hres ht'
        rw [hr] at henc
        obtain ⟨rem, hasr, frest⟩ := s
        obtain ⟨s', h1, h2⟩ := readHeader_encodes henc hasr frest
        subst hres ht'
        exact ⟨s', h1, h2⟩
    · cases hstep
  | floatrec k =>
    simp only [L.reader] at hstep
    split at hstep
    · rename_i k' fs p hpre
      split at hstep
      · rename_i hk
        subst hk
        injection hstep with hstep
        injection hstep with hres ht'
        obtain ⟨ps, cs, vss, rb, hrem, hfill, henc, hps, hcs, hall, hlast, hpr, hfresh, _⟩ :=
          hrel
        have hhr : s.hasrest = false := hpr (by rw [hpre]; simp)
        rw [hpre] at hps
        cases hps with
        | cons hp1 hp2 =>
          rename_i c ps'
          have e : unlines (c :: ps' ++ cs) ++ rb = c ++ '\n' :: (unlines (ps' ++ cs) ++ rb) := by
            simp [unlines]
          obtain ⟨rem, hasr, frest⟩ := s
          simp only at hrem hhr
          subst hrem hhr
          refine ⟨⟨unlines (ps' ++ cs) ++ rb, false, frest⟩, ?_, ?_⟩
          · simp only [reader, e]
            rw [readFloatrec_chunk hp1, ← hres]
          · subst ht'
            exact ⟨ps', cs, vss, rb, rfl, hfill, henc, hp2, hcs, by simpa [lead] using hall,
                by simpa [lead] using hlast, fun _ => rfl, by simp, fun _ h => by cases h⟩
      · cases hstep
    · cases hstep
  | floats n k =>
    simp only [L.reader] at hstep
    split at hstep
    · rename_i hn
      subst hn
      injection hstep with hstep
      injection hstep with hres ht'
      subst hres ht'
      exact ⟨s, by simp [reader, readFloats], hrel⟩
    · split at hstep
      · rename_i hn hc
        obtain ⟨hpre, hpos, hle, hk⟩ := hc
        injection hstep with hstep
        injection hstep with hres ht'
        subst hres ht' hk
        obtain ⟨m, rfl⟩ : ∃ m : Nat, n = m := ⟨n.toNat, by omega⟩
        simp only [Int.toNat_natCast] at hle ⊢
        obtain ⟨s', h1, h2⟩ := readFloats_rel hrel hpre (n := m) (by omega) hle
        exact ⟨s', h1, h2⟩
      · split at hstep
        · rename_i hc
          obtain ⟨hpre, hpad, hlt, hrest⟩ := hc
          obtain ⟨rs, hrest⟩ := List.head?_eq_some_iff.mp hrest
          injection hstep with hstep
          injection hstep with hres ht'
          subst hres ht'
          obtain ⟨m, rfl⟩ : ∃ m : Nat, n = m := ⟨n.toNat, by omega⟩
          simp only [Int.toNat_natCast] at hlt
          exact readFloats_ended hrel hpre hpad hrest hlt
        · cases hstep
  | skip name rec =>
    simp only [L.reader] at hstep
    split at hstep
    · rename_i hc
      obtain ⟨hops, rfl, rfl, hsk⟩ := hc
      unfold L.next at hstep
      split at hstep
      · cases hstep
      · rename_i r rs hr
        injection hstep with hstep
        injection hstep with hres ht'
        subst hres ht'
        exact skip_rel hrel hops hsk hr
    · cases hstep
  | atHeader =>
    simp only [L.reader] at hstep
    split at hstep
    · rename_i hc
      obtain ⟨hpre, hops⟩ := hc
      have hrel' := hrel
      obtain ⟨ps, cs, vss, rb, hrem, hfill, henc, hps, hcs, hall, hlast, _, _, hstale⟩ := hrel
      rw [hpre] at hps
      cases hps
      have hstale := hstale hops
      split at hstep
      · rename_i hv
        split at hstep
        · rename_i hk8
          injection hstep with hstep
          injection hstep with hres ht'
          subst hres ht'
          refine ⟨s, ?_, hrel'⟩
          simp only [reader]
          cases hh : s.hasrest with
          | true => simp [atHeaderrec, hh]
          | false =>
            have hl : lead s = [] := by simp [lead, hh]
            rw [hl] at hall
            cases hcs with
            | nil =>
              have := congrArg List.length hall
              cases hvv : t.cur.vals with
              | nil => exact absurd hvv hv
              | cons a l => rw [hvv] at this; simp at this
            | cons hc1 hc2 =>
              rename_i c cs' vs vss'
              obtain ⟨fb', rfl, _⟩ := hc1
              have : peekName s = [] := by
                unfold peekName
                rw [hrem]
                have : (unlines ([] ++ (List.replicate 8 ' ' ++ fb') :: cs') ++ rb).take 8 =
                    (List.replicate 8 ' ') := by
                  simp [unlines, List.take_append]
                rw [this]
                decide
              simp [atHeaderrec, hh, this, allowedS_nil]
        · cases hstep
      · rename_i hv
        have hv : t.cur.vals = [] := by simpa using hv
        split at hstep
        · rename_i hpad
          injection hstep with hstep
          injection hstep with hres ht'
          subst hres ht'
          refine ⟨s, ?_, hrel'⟩
          have hvss : vss = [] := by
            by_contra hne
            have := hlast hne
            rw [hv] at this
            simp at this
          rw [hvss, hv] at hall
          have hh : s.hasrest = true := by
            by_contra hc
            have hc : s.hasrest = false := by simpa using hc
            have hl : lead s = [] := by simp [lead, hc]
            rw [hl] at hall
            simp at hall
            exact hpad hall
          simp [reader, atHeaderrec, hh]
        · rename_i hpad
          have hpad : t.cur.pad = [] := by simpa using hpad
          split at hstep
          · rename_i r rs hr
            split at hstep
            · rename_i hall'
              injection hstep with hstep
              injection hstep with hres ht'
              subst hres ht'
              refine ⟨s, ?_, hrel'⟩
              have hvss : vss = [] := by
                by_contra hne
                have := hlast hne
                rw [hv] at this
                simp at this
              rw [hvss, hv, hpad] at hall
              have hh : s.hasrest = false := by
                by_contra hc
                have hc : s.hasrest = true := by simpa using hc
                have hl : lead s = s.floatrest := by simp [lead, hc]
                rw [hl] at hall
                simp at hall
                exact hstale hc hall
              have henc' := hrel'.rem_of_done hpre hv
              rw [hr] at henc'
              have hpk : allowedS (peekName s) = true := by
                generalize hsr : s.rem = bs at henc'
                cases henc' with
                | eof hz => exact absurd hall' (by decide +kernel)
                | cons hh2 hb2 _ _ =>
                  obtain ⟨hname, fb2, rfl, _⟩ := hh2
                  unfold peekName
                  rw [hsr]
                  simp only [unlines, List.append_assoc]
                  rw [List.take_left' (nameField_length hname), allowedS_name hname]
                  exact List.contains_iff_mem.mpr (allowed_sub _ hall')
              simp [reader, atHeaderrec, hh, hpk]
            · split at hstep
              · rename_i hend
                subst hend
                injection hstep with hstep
                injection hstep with hres ht'
                subst hres ht'
                refine ⟨s, ?_, hrel'⟩
                have henc' := hrel'.rem_of_done hpre hv
                rw [hr] at henc'
                have : peekName s = [] := by
                  unfold peekName
                  rw [encodes_end henc']
                  decide
                simp [reader, atHeaderrec, this, allowedS_nil]
              · cases hstep
          · cases hstep
    · cases hstep

/-- opening an encoded file couples it with the logical file -/
theorem rel_open {f : List LRec} {t : Str} (h : Encodes D sk z f t) :
    Rel D sk z (openFile t) (L.openFile f) := by
  refine ⟨[], [], [], t, rfl, ⟨by simp, by simp⟩, h, .nil, .nil, rfl, fun h => absurd rfl h,
    fun h => absurd rfl h, fun h => absurd h (by simp [L.openFile]), ?_⟩
  intro _ h
  cases h

end Verif.Seq.T
