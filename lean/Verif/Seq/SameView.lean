import Verif.Seq.SimT
/-!
# The leftover buffer is invisible unless `hasrest` is set

Auxiliary lemmas for property C04: two states that differ only in a leftover buffer that is not
marked as valid cannot be told apart by any call.
-/

namespace Verif.Seq

variable {α ρ : Type}

/-- same unread part, same flag, same leftover values if they are valid -/
def SameView (s s' : FState α) : Prop :=
  s.rem = s'.rem ∧ s.hasrest = s'.hasrest ∧ (s.hasrest = true → s.floatrest = s'.floatrest)

/-- same answer, or same exception, and equivalent successor states -/
def SameRes {β : Type} (x y : Except Err (β × FState α)) : Prop :=
  (∃ e, x = .error e ∧ y = .error e) ∨
  (∃ a s s', x = .ok (a, s) ∧ y = .ok (a, s') ∧ SameView s s')

theorem SameView.lead {s s' : FState α} (h : SameView s s') :
    (if s.hasrest then s.floatrest else []) = (if s'.hasrest then s'.floatrest else []) := by
  obtain ⟨_, h2, h3⟩ := h
  rw [← h2]
  by_cases hr : s.hasrest = true
  · rw [if_pos hr, if_pos hr, h3 hr]
  · rw [if_neg hr, if_neg hr]

theorem SameRes.ok {β : Type} (a : β) {s s' : FState α} (h : SameView s s') :
    SameRes (.ok (a, s)) (.ok (a, s')) := Or.inr ⟨a, s, s', rfl, rfl, h⟩

theorem SameRes.error {β : Type} (e : Err) :
    SameRes (.error e : Except Err (β × FState α)) (.error e) := Or.inl ⟨e, rfl, rfl⟩

theorem SameRes.bind {β γ : Type} {x y : Except Err (β × FState α)}
    {f g : β × FState α → Except Err (γ × FState α)} (h : SameRes x y)
    (hf : ∀ a s s', SameView s s' → SameRes (f (a, s)) (g (a, s'))) :
    SameRes (x >>= f) (y >>= g) := by
  rcases h with ⟨e, rfl, rfl⟩ | ⟨a, s, s', rfl, rfl, h⟩
  · exact .error e
  · exact hf a s s' h

theorem SameRes.bindPure {β γ : Type} (x : Except Err β)
    {f g : β → Except Err (γ × FState α)} (hf : ∀ a, SameRes (f a) (g a)) :
    SameRes (x >>= f) (x >>= g) := by
  cases x with
  | error e => exact .error e
  | ok a => exact hf a

theorem SameView.finish {n : Int} {fs : List PyF} {s s' : FState α} (h : SameView s s') :
    SameRes (.ok (finishFloats n fs s)) (.ok (finishFloats n fs s')) := by
  refine .ok _ ⟨h.1, ?_, fun _ => rfl⟩
  simp only [h.2.1]

/-- the methods of a file respect the equivalence -/
structure FileOps.Respects (F : FileOps α ρ) : Prop where
  readString : ∀ s s', SameView s s' → SameRes (F.readString s) (F.readString s')
  readFloatrec : ∀ k s s', SameView s s' → SameRes (F.readFloatrec k s) (F.readFloatrec k s')
  readHeader : ∀ s s', SameView s s' → SameRes (F.readHeader s) (F.readHeader s')
  readFloats : ∀ n k s s', SameView s s' → SameRes (F.readFloats n k s) (F.readFloats n k s')

section
variable {F : FileOps α ρ} (hF : F.Respects)
include hF

theorem readStrings_respects (n : Nat) {s s' : FState α} (h : SameView s s') :
    (∃ e, readStrings F n s = .error e ∧ readStrings F n s' = .error e) ∨
    (∃ t t', readStrings F n s = .ok t ∧ readStrings F n s' = .ok t' ∧ SameView t t') := by
  induction n generalizing s s' with
  | zero => exact Or.inr ⟨s, s', rfl, rfl, h⟩
  | succ n ih =>
    simp only [readStrings]
    rcases hF.readString s s' h with ⟨e, h1, h2⟩ | ⟨a, t, t', h1, h2, h3⟩
    · rw [h1, h2]; exact Or.inl ⟨e, rfl, rfl⟩
    · rw [h1, h2]; exact ih h3

theorem skipContrecs_respects (n : Nat) (rec : ρ) {s s' : FState α} (h : SameView s s') :
    SameRes (skipContrecs F n rec s) (skipContrecs F n rec s') := by
  induction n generalizing s s' rec with
  | zero => exact .error _
  | succ n ih =>
    simp only [skipContrecs]
    split
    · rcases hF.readString s s' h with ⟨e, h1, h2⟩ | ⟨a, t, t', h1, h2, h3⟩
      · rw [h1, h2]; exact .error e
      · rw [h1, h2]; exact ih a h3
    · cases F.asHeader rec with
      | error e => exact .error e
      | ok a => exact .ok a h

theorem skip_respects (name : String) (rec : List PyF) {s s' : FState α} (h : SameView s s') :
    SameRes (skipRestofrecord F name rec s) (skipRestofrecord F name rec s') := by
  unfold skipRestofrecord
  refine .bindPure _ fun r0 => ?_
  split
  · split
    · exact .bind (hF.readFloatrec 0 s s' h) fun _ t t' ht => hF.readHeader t t' ht
    · exact hF.readHeader s s' h
  · split
    · refine .bindPure _ fun x2 => .bindPure _ fun n => ?_
      rcases readStrings_respects hF (rangeLen (floorDiv n 100)) h with
        ⟨e, h1, h2⟩ | ⟨t, t', h1, h2, h3⟩
      · rw [h1, h2]; exact .error e
      · rw [h1, h2, bind_ok, bind_ok]
        refine .bindPure _ fun x3 => .bindPure _ fun m => ?_
        rcases readStrings_respects hF (rangeLen (floorDiv m 100)) h3 with
          ⟨e, h1, h2⟩ | ⟨u, u', h1, h2, h4⟩
        · rw [h1, h2]; exact .error e
        · rw [h1, h2, bind_ok, bind_ok]; exact hF.readHeader _ _ h4
    · refine .bind (hF.readString s s' h) fun c t t' ht => ?_
      simp only
      split
      · rw [ht.1]; exact skipContrecs_respects hF _ _ ht
      · split
        · cases F.asHeader c with
          | error e => exact .error e
          | ok a => exact .ok a ht
        · refine .bindPure _ fun n => ?_
          refine .bind (hF.readFloats _ 0 _ _ ⟨h.1, ht.2.1, ht.2.2⟩) fun _ u u' hu => ?_
          exact hF.readHeader _ _ hu

end

namespace U

theorem readStringrec_respects (s s' : UState) (h : SameView s s') :
    SameRes (readStringrec s) (readStringrec s') := by
  obtain ⟨rem, hr, fr⟩ := s
  obtain ⟨rem', hr', fr'⟩ := s'
  obtain ⟨h1, _, _⟩ := h
  simp only at h1
  subst h1
  cases rem with
  | nil => exact .error _
  | cons l r => exact .ok _ ⟨rfl, rfl, fun h => by cases h⟩

theorem readFloatrec_respects (D : Dec) (k : Nat) (s s' : UState) (h : SameView s s') :
    SameRes (readFloatrec D k s) (readFloatrec D k s') :=
  .bind (readStringrec_respects s s' h) fun c _ _ ht =>
    .bindPure (tofloatrec D (c.drop k)) fun fs => .ok fs ht

theorem readHeader_respects (D : Dec) (s s' : UState) (h : SameView s s') :
    SameRes (readHeader D s) (readHeader D s') :=
  .bind (readStringrec_respects s s' h) fun c _ _ ht =>
    .bindPure (asHeader D c) fun x => .ok x ht

theorem readLoop_respects (D : Dec) (k need fuel : Nat) (acc : List PyF) (s s' : UState)
    (h : SameView s s') : SameRes (readLoop D k need fuel acc s) (readLoop D k need fuel acc s') := by
  induction fuel generalizing acc s s' with
  | zero => exact .error _
  | succ n ih =>
    simp only [readLoop]
    split
    · rcases readFloatrec_respects D k s s' h with ⟨e, h1, h2⟩ | ⟨a, t, t', h1, h2, h3⟩
      · rw [h1, h2]; exact .error e
      · rw [h1, h2]; exact ih _ _ _ h3
    · exact .ok _ h

theorem readFloats_respects (D : Dec) (n : Int) (k : Nat) (s s' : UState) (h : SameView s s') :
    SameRes (readFloats D n k s) (readFloats D n k s') := by
  unfold readFloats
  split
  · exact .ok _ h
  · have hl := h.lead
    simp only [h.1]
    rw [hl]
    generalize (if s'.hasrest then s'.floatrest else []) = L
    split
    · rcases readLoop_respects D k (n - ↑L.length).toNat
        (s'.rem.length + 2) [] s s' h with ⟨e, h1, h2⟩ | ⟨a, t, t', h1, h2, h3⟩
      · rw [h1, h2]; exact .error e
      · rw [h1, h2]; exact h3.finish
    · exact h.finish

theorem fileOps_respects (D : Dec) : (fileOps D).Respects where
  readString := readStringrec_respects
  readFloatrec := readFloatrec_respects D
  readHeader := readHeader_respects D
  readFloats := readFloats_respects D

theorem step_respects (D : Dec) (o : Op) (s s' : UState) (h : SameView s s') :
    SameRes ((reader D).step o s) ((reader D).step o s') := by
  cases o with
  | line m =>
    exact .bind (readStringrec_respects s s' h) fun c _ _ ht =>
      .bindPure (lineResult m c) fun x => .ok x ht
  | header => exact readHeader_respects D s s' h
  | floatrec k => exact readFloatrec_respects D k s s' h
  | floats n k => exact readFloats_respects D n k s s' h
  | skip name rec => exact skip_respects (fileOps_respects D) name rec h
  | atHeader =>
    have : atHeaderrec s = atHeaderrec s' := by
      unfold atHeaderrec peekName
      rw [h.1, h.2.1]
    simp only [reader, this]
    exact .ok _ h

end U

namespace T

theorem readStringrec_respects (s s' : TState) (h : SameView s s') :
    SameRes (readStringrec s) (readStringrec s') := by
  simp only [readStringrec, h.1]
  exact .ok _ ⟨rfl, rfl, fun h => by cases h⟩

theorem readFloatrec_respects (D : Dec) (k : Nat) (s s' : TState) (h : SameView s s') :
    SameRes (readFloatrec D k s) (readFloatrec D k s') :=
  .bind (readStringrec_respects s s' h) fun c _ _ ht =>
    .bindPure (tofloatrec D (c.drop 8)) fun fs => .ok fs ht

theorem readHeader_respects (D : Dec) (s s' : TState) (h : SameView s s') :
    SameRes (readHeader D s) (readHeader D s') :=
  .bind (readStringrec_respects s s' h) fun c _ _ ht =>
    .bindPure (asHeader D c) fun x => .ok x ht

theorem readLines_respects (D : Dec) (k n : Nat) (acc : List PyF) (s s' : TState)
    (h : SameView s s') : SameRes (readLines D k n acc s) (readLines D k n acc s') := by
  induction n generalizing acc s s' with
  | zero => exact .ok _ h
  | succ n ih =>
    simp only [readLines]
    rcases readFloatrec_respects D k s s' h with ⟨e, h1, h2⟩ | ⟨a, t, t', h1, h2, h3⟩
    · rw [h1, h2]; exact .error e
    · rw [h1, h2]; exact ih _ _ _ h3

theorem readFloats_respects (D : Dec) (n : Int) (k : Nat) (s s' : TState) (h : SameView s s') :
    SameRes (readFloats D n k s) (readFloats D n k s') := by
  unfold readFloats
  split
  · exact .ok _ h
  · have hl := h.lead
    simp only
    rw [hl]
    generalize (if s'.hasrest then s'.floatrest else []) = L
    split
    · rcases readLines_respects D k (((n - ↑L.length).toNat + 3) / 4)
        [] s s' h with ⟨e, h1, h2⟩ | ⟨a, t, t', h1, h2, h3⟩
      · rw [h1, h2]; exact .error e
      · rw [h1, h2]; exact h3.finish
    · exact h.finish

theorem fileOps_respects (D : Dec) : (fileOps D).Respects where
  readString := readStringrec_respects
  readFloatrec := readFloatrec_respects D
  readHeader := readHeader_respects D
  readFloats := readFloats_respects D

theorem step_respects (D : Dec) (o : Op) (s s' : TState) (h : SameView s s') :
    SameRes ((reader D).step o s) ((reader D).step o s') := by
  cases o with
  | line m =>
    exact .bind (readStringrec_respects s s' h) fun c _ _ ht => .ok (lineResult m c) ht
  | header => exact readHeader_respects D s s' h
  | floatrec k => exact readFloatrec_respects D k s s' h
  | floats n k => exact readFloats_respects D n k s s' h
  | skip name rec => exact skip_respects (fileOps_respects D) name rec h
  | atHeader =>
    have : atHeaderrec s = atHeaderrec s' := by
      unfold atHeaderrec peekName
      rw [h.1, h.2.1]
    simp only [reader, this]
    exact .ok _ h

end T

/-- a program cannot tell equivalent states apart -/
theorem run_respects {β : Type} {R : Reader (FState α)}
    (hR : ∀ o s s', SameView s s' → SameRes (R.step o s) (R.step o s')) (p : Prog β)
    (s s' : FState α) (h : SameView s s') : SameRes (p.run R s) (p.run R s') := by
  induction p generalizing s s' with
  | ret a => exact .ok a h
  | fail e => exact .error e
  | op o k ih =>
    simp only [Prog.run]
    rcases hR o s s' h with ⟨e, h1, h2⟩ | ⟨a, t, t', h1, h2, h3⟩
    · rw [h1, h2]; exact .error e
    · rw [h1, h2]; exact ih a t t' h3

end Verif.Seq
