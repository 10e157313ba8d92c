import Verif.Seq.Files
/-!
# Reading always makes progress

On any content, however damaged: no file method runs forever, none moves backwards, and a header
with a name is a move forwards.
-/

namespace Verif.Seq

/-- not stopped for lack of fuel -/
def Fine {α : Type} (x : Except Err α) : Prop := x ≠ .error .outOfFuel

theorem fine_ok {α : Type} {a : α} : Fine (.ok a : Except Err α) := by simp [Fine]

theorem fine_bind {α β : Type} {x : Except Err α} {f : α → Except Err β} (hx : Fine x)
    (hf : ∀ a, Fine (f a)) : Fine (x >>= f) := by
  cases x with
  | error e => simpa [Fine, bind, Except.bind] using hx
  | ok a => exact hf a

theorem fine_map {α β : Type} {x : Except Err α} {f : α → β} (hx : Fine x) :
    Fine (x.map f) := by
  cases x with
  | error e => simpa [Fine, Except.map] using hx
  | ok a => exact fine_ok

theorem fine_mapM {α β : Type} {f : α → Except Err β} (hf : ∀ a, Fine (f a)) (l : List α) :
    Fine (l.mapM f) := by
  induction l with
  | nil => exact fine_ok
  | cons a l ih =>
    rw [List.mapM_cons]
    exact fine_bind (hf a) fun b => fine_bind ih fun bs => fine_ok

theorem fine_pyIdx {α : Type} (l : List α) (i : Nat) : Fine (pyIdx l i) := by
  unfold pyIdx
  split
  · exact fine_ok
  · simp [Fine]

theorem fine_toInt (x : PyF) : Fine x.toInt := by
  cases x <;> simp [Fine, PyF.toInt]

/-- an implementation of the file methods that makes progress; `μ` is the size of the unread part -/
structure Bounded {σ : Type} (R : Reader σ) (μ : σ → Nat) : Prop where
  fine : ∀ o s, Fine (R.step o s)
  le : ∀ o s r s', R.step o s = .ok (r, s') → μ s' ≤ μ s
  header : ∀ s (h : String × List PyF) s', R.step .header s = .ok (h, s') → h.1 ≠ "" → μ s' < μ s
  skip : ∀ name rec s (h : String × List PyF) s', R.step (.skip name rec) s = .ok (h, s') →
    h.1 ≠ "" → μ s' < μ s

/-- the same for the methods used by the base class; `s` is the state after the call -/
structure FileOps.Ok {α ρ : Type} (F : FileOps α ρ) : Prop where
  fString : ∀ s, Fine (F.readString s)
  fFloatrec : ∀ k s, Fine (F.readFloatrec k s)
  fHeader : ∀ s, Fine (F.readHeader s)
  fFloats : ∀ n k s, Fine (F.readFloats n k s)
  fAs : ∀ c, Fine (F.asHeader c)
  leString : ∀ s c s', F.readString s = .ok (c, s') → s'.rem.length ≤ s.rem.length
  leFloatrec : ∀ k s c s', F.readFloatrec k s = .ok (c, s') → s'.rem.length ≤ s.rem.length
  leFloats : ∀ n k s c s', F.readFloats n k s = .ok (c, s') → s'.rem.length ≤ s.rem.length
  leHeader : ∀ s h s', F.readHeader s = .ok (h, s') → s'.rem.length ≤ s.rem.length
  ltHeader : ∀ s h s', F.readHeader s = .ok (h, s') → h.1 ≠ "" → s'.rem.length < s.rem.length
  /-- a record that starts with blanks, or makes a header with a name, is not empty -/
  ltBlank : ∀ s c s', F.readString s = .ok (c, s') → F.blankLed c = true →
    s'.rem.length < s.rem.length
  ltAs : ∀ s c s' h, F.readString s = .ok (c, s') → F.asHeader c = .ok h → h.1 ≠ "" →
    s'.rem.length < s.rem.length

section Skip
variable {α ρ : Type} {F : FileOps α ρ}

theorem readStrings_fine (ok : F.Ok) (n : Nat) (s : FState α) : Fine (readStrings F n s) := by
  induction n generalizing s with
  | zero => exact fine_ok
  | succ n ih =>
    unfold readStrings
    have h := ok.fString s
    revert h
    cases F.readString s with
    | error e => exact fun h => by simpa [Fine] using h
    | ok p => exact fun _ => ih p.2

theorem readStrings_le (ok : F.Ok) (n : Nat) {s s' : FState α} (h : readStrings F n s = .ok s') :
    s'.rem.length ≤ s.rem.length := by
  induction n generalizing s with
  | zero => cases h; exact Nat.le_refl _
  | succ n ih =>
    unfold readStrings at h
    cases hs : F.readString s with
    | error e => rw [hs] at h; cases h
    | ok p =>
      rw [hs] at h
      exact Nat.le_trans (ih h) (ok.leString s p.1 p.2 hs)

theorem skipContrecs_fine (ok : F.Ok) (fuel : Nat) (c : ρ) (s : FState α)
    (hf : s.rem.length + 2 ≤ fuel) : Fine (skipContrecs F fuel c s) := by
  induction fuel generalizing c s with
  | zero => omega
  | succ fuel ih =>
    unfold skipContrecs
    split
    · have h := ok.fString s
      cases hs : F.readString s with
      | error e => rw [hs] at h; simpa [Fine] using h
      | ok p =>
        by_cases hb : F.blankLed p.1 = true
        · refine ih _ _ ?_
          have := ok.ltBlank s p.1 p.2 hs hb
          omega
        · have hle := ok.leString s p.1 p.2 hs
          cases fuel with
          | zero => omega
          | succ fuel =>
            show Fine (skipContrecs F (fuel + 1) p.1 p.2)
            unfold skipContrecs
            rw [if_neg hb]
            have h := ok.fAs p.1
            cases ha : F.asHeader p.1 with
            | error e => rw [ha] at h; simpa [Fine] using h
            | ok x => exact fine_ok
    · have h := ok.fAs c
      cases ha : F.asHeader c with
      | error e => rw [ha] at h; simpa [Fine] using h
      | ok x => exact fine_ok

/-- `c` has been read by going from `s0` to `s` -/
theorem skipContrecs_lt (ok : F.Ok) (fuel : Nat) {s0 : FState α} {c : ρ} {s : FState α}
    {h : String × List PyF} {s' : FState α} (hread : F.readString s0 = .ok (c, s))
    (hr : skipContrecs F fuel c s = .ok (h, s')) :
    s'.rem.length ≤ s0.rem.length ∧ (h.1 ≠ "" → s'.rem.length < s0.rem.length) := by
  induction fuel generalizing s0 c s with
  | zero => cases hr
  | succ fuel ih =>
    unfold skipContrecs at hr
    split at hr
    · cases hs : F.readString s with
      | error e => rw [hs] at hr; cases hr
      | ok p =>
        rw [hs] at hr
        have h1 := ih hs hr
        have h2 := ok.leString _ _ _ hread
        exact ⟨Nat.le_trans h1.1 h2, fun hn => Nat.lt_of_lt_of_le (h1.2 hn) h2⟩
    · cases ha : F.asHeader c with
      | error e => rw [ha] at hr; cases hr
      | ok x =>
        rw [ha] at hr
        cases hr
        exact ⟨ok.leString _ _ _ hread, ok.ltAs _ _ _ _ hread ha⟩

theorem skip_fine (ok : F.Ok) (name : String) (rec : List PyF) (s : FState α) :
    Fine (skipRestofrecord F name rec s) := by
  unfold skipRestofrecord
  refine fine_bind (fine_pyIdx _ _) fun r0 => ?_
  split
  · split
    · exact fine_bind (ok.fFloatrec _ _) fun p => ok.fHeader _
    · exact ok.fHeader _
  · split
    · refine fine_bind (fine_pyIdx _ _) fun _ => fine_bind (fine_toInt _) fun _ =>
        fine_bind (readStrings_fine ok _ _) fun _ => fine_bind (fine_pyIdx _ _) fun _ =>
        fine_bind (fine_toInt _) fun _ => fine_bind (readStrings_fine ok _ _) fun _ =>
        ok.fHeader _
    · refine fine_bind (ok.fString _) fun p => ?_
      dsimp only
      split
      · exact skipContrecs_fine ok _ _ _ (Nat.le_refl _)
      · split
        · have h := ok.fAs p.1
          cases ha : F.asHeader p.1 with
          | error e => rw [ha] at h; simpa [Fine] using h
          | ok x => exact fine_ok
        · exact fine_bind (fine_toInt _) fun _ => fine_bind (ok.fFloats _ _ _) fun _ =>
            ok.fHeader _

theorem ok_of_bind {β γ : Type} {x : Except Err β} {f : β → Except Err γ} {c : γ}
    (h : (x >>= f) = .ok c) : ∃ b, x = .ok b ∧ f b = .ok c := by
  cases x with
  | error e => cases h
  | ok b => exact ⟨b, rfl, h⟩

theorem skip_lt (ok : F.Ok) {name : String} {rec : List PyF} {s : FState α}
    {h : String × List PyF} {s' : FState α} (hr : skipRestofrecord F name rec s = .ok (h, s')) :
    s'.rem.length ≤ s.rem.length ∧ (h.1 ≠ "" → s'.rem.length < s.rem.length) := by
  have hd : ∀ {s1 : FState α}, s1.rem.length ≤ s.rem.length → F.readHeader s1 = .ok (h, s') →
      s'.rem.length ≤ s.rem.length ∧ (h.1 ≠ "" → s'.rem.length < s.rem.length) := fun h1 h2 =>
    ⟨Nat.le_trans (ok.leHeader _ _ _ h2) h1,
      fun hn => Nat.lt_of_lt_of_le (ok.ltHeader _ _ _ h2 hn) h1⟩
  unfold skipRestofrecord at hr
  obtain ⟨r0, _, hr⟩ := ok_of_bind hr
  split at hr
  · split at hr
    · obtain ⟨p, h1, hr⟩ := ok_of_bind hr
      exact hd (ok.leFloatrec _ _ _ _ h1) hr
    · exact hd (Nat.le_refl _) hr
  · split at hr
    · obtain ⟨_, _, hr⟩ := ok_of_bind hr
      obtain ⟨_, _, hr⟩ := ok_of_bind hr
      obtain ⟨s1, h1, hr⟩ := ok_of_bind hr
      obtain ⟨_, _, hr⟩ := ok_of_bind hr
      obtain ⟨_, _, hr⟩ := ok_of_bind hr
      obtain ⟨s2, h2, hr⟩ := ok_of_bind hr
      exact hd (Nat.le_trans (readStrings_le ok _ h2) (readStrings_le ok _ h1)) hr
    · obtain ⟨p, h1, hr⟩ := ok_of_bind hr
      dsimp only at hr
      split at hr
      · exact skipContrecs_lt ok _ h1 hr
      · split at hr
        · cases ha : F.asHeader p.1 with
          | error e => rw [ha] at hr; cases hr
          | ok x =>
            rw [ha] at hr
            cases hr
            exact ⟨ok.leString _ _ _ h1, ok.ltAs _ _ _ _ h1 ha⟩
        · obtain ⟨_, _, hr⟩ := ok_of_bind hr
          obtain ⟨q, h3, hr⟩ := ok_of_bind hr
          exact hd (Nat.le_trans (ok.leFloats _ _ _ q.1 q.2 h3) (Nat.le_refl _)) hr

end Skip

/-- the implementation of `float(text)` does not depend on fuel -/
def Dec.Fine (D : Dec) : Prop := ∀ t, Seq.Fine (D.float t)

/-! ## unformatted files -/

namespace U

theorem readStringrec_lt {s s' : UState} {c : Bytes} (h : readStringrec s = .ok (c, s')) :
    s'.rem.length < s.rem.length := by
  unfold readStringrec at h
  cases hr : s.rem with
  | nil => rw [hr] at h; cases h
  | cons l r =>
    rw [hr] at h
    cases h
    simp only [List.length_drop, List.length_cons]
    omega

theorem readStringrec_fine (s : UState) : Fine (readStringrec s) := by
  unfold readStringrec
  split
  · simp [Fine]
  · exact fine_ok

theorem tofloatrec_fine (D : Dec) : ∀ c : Bytes, Fine (tofloatrec D c)
  | [] => by simp [tofloatrec, Fine]
  | [_] => by simp [tofloatrec, Fine]
  | [_, _] => by simp [tofloatrec, Fine]
  | [_, _, _] => by simp [tofloatrec, Fine]
  | a :: b :: c :: d :: r => by
    have ih := tofloatrec_fine D r
    unfold tofloatrec
    cases h : tofloatrec D r with
    | error e => rw [h] at ih; simpa [Fine] using ih
    | ok x => exact fine_ok

theorem readFloatrec_fine (D : Dec) (k : Nat) (s : UState) : Fine (readFloatrec D k s) :=
  fine_bind (readStringrec_fine s) fun _ => fine_bind (tofloatrec_fine D _) fun _ => fine_ok

theorem readFloatrec_lt {D : Dec} {k : Nat} {s s' : UState} {fs : List PyF}
    (h : readFloatrec D k s = .ok (fs, s')) : s'.rem.length < s.rem.length := by
  obtain ⟨p, h1, h⟩ := ok_of_bind h
  obtain ⟨q, h2, h⟩ := ok_of_bind h
  cases h
  exact readStringrec_lt h1

theorem decodeAscii_fine (b : Bytes) : Fine (decodeAscii b) := by
  unfold decodeAscii
  split
  · exact fine_ok
  · simp [Fine]

theorem asHeader_fine (D : Dec) (c : Bytes) : Fine (asHeader D c) :=
  fine_bind (decodeAscii_fine _) fun _ => fine_bind (tofloatrec_fine D _) fun _ => fine_ok

theorem readHeader_fine (D : Dec) (s : UState) : Fine (readHeader D s) :=
  fine_bind (readStringrec_fine s) fun _ => fine_bind (asHeader_fine D _) fun _ => fine_ok

theorem readHeader_lt {D : Dec} {s s' : UState} {h : String × List PyF}
    (hr : readHeader D s = .ok (h, s')) : s'.rem.length < s.rem.length := by
  obtain ⟨p, h1, hr⟩ := ok_of_bind hr
  obtain ⟨q, h2, hr⟩ := ok_of_bind hr
  cases hr
  exact readStringrec_lt h1

theorem readLoop_fine (D : Dec) (k need fuel : Nat) (acc : List PyF) (s : UState)
    (hf : s.rem.length + 1 ≤ fuel) : Fine (readLoop D k need fuel acc s) := by
  induction fuel generalizing acc s with
  | zero => omega
  | succ fuel ih =>
    unfold readLoop
    split
    · have h := readFloatrec_fine D k s
      cases hs : readFloatrec D k s with
      | error e => rw [hs] at h; simpa [Fine] using h
      | ok p =>
        have := readFloatrec_lt hs
        exact ih _ _ (by omega)
    · exact fine_ok

theorem readLoop_le {D : Dec} {k need fuel : Nat} {acc : List PyF} {s : UState} {fs s'}
    (h : readLoop D k need fuel acc s = .ok (fs, s')) : s'.rem.length ≤ s.rem.length := by
  induction fuel generalizing acc s with
  | zero => cases h
  | succ fuel ih =>
    unfold readLoop at h
    split at h
    · cases hs : readFloatrec D k s with
      | error e => rw [hs] at h; cases h
      | ok p =>
        rw [hs] at h
        exact Nat.le_trans (ih h) (Nat.le_of_lt (readFloatrec_lt hs))
    · cases h; exact Nat.le_refl _

theorem readFloats_fine (D : Dec) (n : Int) (k : Nat) (s : UState) :
    Fine (readFloats D n k s) := by
  unfold readFloats
  split
  · exact fine_ok
  · dsimp only
    generalize (if s.hasrest then s.floatrest else []) = rest
    split
    · have h := readLoop_fine D k (n - rest.length).toNat (s.rem.length + 2) [] s (by omega)
      cases he : readLoop D k (n - rest.length).toNat (s.rem.length + 2) [] s with
      | error e => rw [he] at h; simpa [Fine] using h
      | ok p => exact fine_ok
    · exact fine_ok

theorem readFloats_le {D : Dec} {n : Int} {k : Nat} {s s' : UState} {fs : List PyF}
    (h : readFloats D n k s = .ok (fs, s')) : s'.rem.length ≤ s.rem.length := by
  unfold readFloats at h
  split at h
  · cases h; exact Nat.le_refl _
  · dsimp only at h
    generalize (if s.hasrest then s.floatrest else []) = rest at h
    split at h
    · split at h
      · cases h
      · rename_i _ _ hs
        cases h
        have := readLoop_le hs
        exact this
    · cases h; exact Nat.le_refl _

theorem fileOps_ok (D : Dec) : (fileOps D).Ok where
  fString := readStringrec_fine
  fFloatrec := readFloatrec_fine D
  fHeader := readHeader_fine D
  fFloats := readFloats_fine D
  fAs := asHeader_fine D
  leString _ _ _ h := Nat.le_of_lt (readStringrec_lt h)
  leFloatrec _ _ _ _ h := Nat.le_of_lt (readFloatrec_lt h)
  leFloats _ _ _ _ _ h := readFloats_le h
  leHeader _ _ _ h := Nat.le_of_lt (readHeader_lt h)
  ltHeader _ _ _ h _ := readHeader_lt h
  ltBlank _ _ _ h _ := readStringrec_lt h
  ltAs _ _ _ _ h _ _ := readStringrec_lt h

theorem lineResult_fine (m : LineMode) (c : Bytes) : Fine (lineResult m c) := by
  cases m
  · exact fine_ok
  · exact fine_ok
  · exact decodeAscii_fine _

theorem bounded (D : Dec) : Bounded (reader D) (fun s => s.rem.length) where
  fine o s := by
    cases o with
    | line m => exact fine_bind (readStringrec_fine s) fun _ =>
        fine_bind (lineResult_fine m _) fun _ => fine_ok
    | header => exact readHeader_fine D s
    | floatrec k => exact readFloatrec_fine D k s
    | floats n k => exact readFloats_fine D n k s
    | skip n r => exact skip_fine (fileOps_ok D) n r s
    | atHeader => exact fine_ok
  le o s r s' h := by
    cases o with
    | line m =>
      obtain ⟨p, h1, h⟩ := ok_of_bind h
      obtain ⟨q, h2, h⟩ := ok_of_bind h
      cases h
      exact Nat.le_of_lt (readStringrec_lt h1)
    | header => exact Nat.le_of_lt (readHeader_lt h)
    | floatrec k => exact Nat.le_of_lt (readFloatrec_lt h)
    | floats n k => exact readFloats_le h
    | skip n r => exact (skip_lt (fileOps_ok D) h).1
    | atHeader => cases h; exact Nat.le_refl _
  header s h s' hr _ := readHeader_lt hr
  skip n r s h s' hr := (skip_lt (fileOps_ok D) hr).2

end U

/-! ## formatted files -/

namespace T

theorem afterLine_le (t : Str) : (afterLine t).length ≤ t.length := by
  unfold afterLine
  rw [List.length_drop]
  have := (List.dropWhile_suffix (l := t) (· != '\n')).length_le
  omega

theorem afterLine_lt {t : Str} (h : t ≠ []) : (afterLine t).length < t.length := by
  unfold afterLine
  rw [List.length_drop]
  have := (List.dropWhile_suffix (l := t) (· != '\n')).length_le
  have : 0 < t.length := List.length_pos_iff.mpr h
  omega

theorem readStringrec_le {s s' : TState} {c : Str} (h : readStringrec s = .ok (c, s')) :
    s'.rem.length ≤ s.rem.length := by
  cases h; exact afterLine_le _

/-- a line that is not empty has been read from somewhere -/
theorem readStringrec_lt {s s' : TState} {c : Str} (h : readStringrec s = .ok (c, s'))
    (hc : c ≠ []) : s'.rem.length < s.rem.length := by
  cases h
  refine afterLine_lt fun he => hc ?_
  rw [he]; rfl

theorem floatAll_fine {D : Dec} (hD : D.Fine) (l : List Str) : Fine (floatAll D l) := by
  induction l with
  | nil => exact fine_ok
  | cons t ts ih =>
    unfold floatAll
    have h := hD t
    cases ht : D.float t with
    | error e => rw [ht] at h; simpa [Fine] using h
    | ok x =>
      cases hs : floatAll D ts with
      | error e => rw [hs] at ih; simpa [Fine] using ih
      | ok xs => exact fine_ok

theorem readFloatrec_fine {D : Dec} (hD : D.Fine) (k : Nat) (s : TState) :
    Fine (readFloatrec D k s) :=
  fine_bind fine_ok fun _ => fine_bind (floatAll_fine hD _) fun _ => fine_ok

theorem readFloatrec_le {D : Dec} {k : Nat} {s s' : TState} {fs : List PyF}
    (h : readFloatrec D k s = .ok (fs, s')) : s'.rem.length ≤ s.rem.length := by
  obtain ⟨p, h1, h⟩ := ok_of_bind h
  obtain ⟨q, h2, h⟩ := ok_of_bind h
  cases h
  exact readStringrec_le h1

theorem asHeader_fine {D : Dec} (hD : D.Fine) (c : Str) : Fine (asHeader D c) :=
  fine_bind (floatAll_fine hD _) fun _ => fine_ok

theorem asHeader_name {D : Dec} {c : Str} {h : String × List PyF} (hr : asHeader D c = .ok h)
    (hn : h.1 ≠ "") : c ≠ [] := by
  rintro rfl
  obtain ⟨fs, h1, hr⟩ := ok_of_bind hr
  cases hr
  exact hn rfl

theorem readHeader_fine {D : Dec} (hD : D.Fine) (s : TState) : Fine (readHeader D s) :=
  fine_bind fine_ok fun _ => fine_bind (asHeader_fine hD _) fun _ => fine_ok

theorem readHeader_le {D : Dec} {s s' : TState} {h : String × List PyF}
    (hr : readHeader D s = .ok (h, s')) : s'.rem.length ≤ s.rem.length := by
  obtain ⟨p, h1, hr⟩ := ok_of_bind hr
  obtain ⟨q, h2, hr⟩ := ok_of_bind hr
  cases hr
  exact readStringrec_le h1

theorem readHeader_lt {D : Dec} {s s' : TState} {h : String × List PyF}
    (hr : readHeader D s = .ok (h, s')) (hn : h.1 ≠ "") : s'.rem.length < s.rem.length := by
  obtain ⟨p, h1, hr⟩ := ok_of_bind hr
  obtain ⟨q, h2, hr⟩ := ok_of_bind hr
  cases hr
  exact readStringrec_lt h1 (asHeader_name h2 hn)

theorem readLines_fine {D : Dec} (hD : D.Fine) (k n : Nat) (acc : List PyF) (s : TState) :
    Fine (readLines D k n acc s) := by
  induction n generalizing acc s with
  | zero => exact fine_ok
  | succ n ih =>
    unfold readLines
    have h := readFloatrec_fine hD k s
    cases hs : readFloatrec D k s with
    | error e => rw [hs] at h; simpa [Fine] using h
    | ok p => exact ih _ _

theorem readLines_le {D : Dec} {k n : Nat} {acc : List PyF} {s : TState} {fs s'}
    (h : readLines D k n acc s = .ok (fs, s')) : s'.rem.length ≤ s.rem.length := by
  induction n generalizing acc s with
  | zero => cases h; exact Nat.le_refl _
  | succ n ih =>
    unfold readLines at h
    cases hs : readFloatrec D k s with
    | error e => rw [hs] at h; cases h
    | ok p =>
      rw [hs] at h
      exact Nat.le_trans (ih h) (readFloatrec_le hs)

theorem readFloats_fine {D : Dec} (hD : D.Fine) (n : Int) (k : Nat) (s : TState) :
    Fine (readFloats D n k s) := by
  unfold readFloats
  split
  · exact fine_ok
  · dsimp only
    generalize (if s.hasrest then s.floatrest else []) = rest
    split
    · have h := readLines_fine hD k (((n - rest.length).toNat + 3) / 4) [] s
      cases he : readLines D k (((n - rest.length).toNat + 3) / 4) [] s with
      | error e => rw [he] at h; simpa [Fine] using h
      | ok p => exact fine_ok
    · exact fine_ok

theorem readFloats_le {D : Dec} {n : Int} {k : Nat} {s s' : TState} {fs : List PyF}
    (h : readFloats D n k s = .ok (fs, s')) : s'.rem.length ≤ s.rem.length := by
  unfold readFloats at h
  split at h
  · cases h; exact Nat.le_refl _
  · dsimp only at h
    generalize (if s.hasrest then s.floatrest else []) = rest at h
    split at h
    · split at h
      · cases h
      · rename_i _ _ hs
        cases h
        have := readLines_le hs
        exact this
    · cases h; exact Nat.le_refl _

theorem fileOps_ok {D : Dec} (hD : D.Fine) : (fileOps D).Ok where
  fString _ := fine_ok
  fFloatrec := readFloatrec_fine hD
  fHeader := readHeader_fine hD
  fFloats := readFloats_fine hD
  fAs := asHeader_fine hD
  leString _ _ _ h := readStringrec_le h
  leFloatrec k _ _ _ h := readFloatrec_le (k := k) h
  leFloats _ _ _ _ _ h := readFloats_le h
  leHeader _ _ _ h := readHeader_le h
  ltHeader _ _ _ h hn := readHeader_lt h hn
  ltBlank _ _ _ h hb := readStringrec_lt h (by
    rintro rfl
    simp [fileOps, blanks] at hb)
  ltAs _ _ _ _ h ha hn := readStringrec_lt h (asHeader_name ha hn)

theorem bounded {D : Dec} (hD : D.Fine) : Bounded (reader D) (fun s => s.rem.length) where
  fine o s := by
    cases o with
    | line m => exact fine_bind fine_ok fun _ => fine_ok
    | header => exact readHeader_fine hD s
    | floatrec k => exact readFloatrec_fine hD k s
    | floats n k => exact readFloats_fine hD n k s
    | skip n r => exact skip_fine (fileOps_ok hD) n r s
    | atHeader => exact fine_ok
  le o s r s' h := by
    cases o with
    | line m =>
      obtain ⟨p, h1, h⟩ := ok_of_bind h
      cases h
      exact readStringrec_le h1
    | header => exact readHeader_le h
    | floatrec k => exact readFloatrec_le (k := k) h
    | floats n k => exact readFloats_le h
    | skip n r => exact (skip_lt (fileOps_ok hD) h).1
    | atHeader => cases h; exact Nat.le_refl _
  header s h s' hr hn := readHeader_lt hr hn
  skip n r s h s' hr := (skip_lt (fileOps_ok hD) hr).2

end T

/-! ## counting records -/

theorem countLoop_fine {α ρ : Type} {F : FileOps α ρ} (ok : F.Ok) (fuel : Nat) (name : String)
    (rec : List PyF) (recs : List (String × Nat)) (s : FState α)
    (hf : s.rem.length + 2 ≤ fuel) : Fine (countLoop F fuel name rec recs s) := by
  induction fuel generalizing name rec recs s with
  | zero => omega
  | succ fuel ih =>
    unfold countLoop
    split
    · exact fine_ok
    · have h := skip_fine ok name rec s
      cases hs : skipRestofrecord F name rec s with
      | error e => rw [hs] at h; simpa [Fine] using h
      | ok p =>
        obtain ⟨⟨n', r'⟩, s'⟩ := p
        have h1 := skip_lt ok hs
        by_cases hn : n' = ""
        · cases fuel with
          | zero => omega
          | succ fuel =>
            show Fine (countLoop F (fuel + 1) n' r' _ s')
            unfold countLoop
            rw [if_pos hn]
            exact fine_ok
        · have := h1.2 hn
          exact ih _ _ _ _ (by omega)

/-- `get_recordcount` terminates on every file -/
theorem getRecordcount_fine {α ρ : Type} {F : FileOps α ρ} (ok : F.Ok) (s : FState α) :
    Fine (getRecordcount F s) := by
  unfold getRecordcount
  have h := ok.fHeader s
  cases hs : F.readHeader s with
  | error e => rw [hs] at h; simpa [Fine] using h
  | ok p =>
    have := ok.leHeader _ _ _ hs
    exact countLoop_fine ok _ _ _ _ _ (by omega)

end Verif.Seq
