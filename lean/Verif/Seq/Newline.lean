import Verif.Seq.SimT
/-!
# A formatted file without newline at its end (C60)

`readline()[:-1]` removes the last character of the last line if the file does not end with a
newline.  Two states that differ only in that character cannot be told apart by any call.
-/

namespace Verif.Seq.T
open Verif Verif.Seq

/-- `t` has no newline at its end and `t'` has a newline in place of its last character; `x` are
complete lines, the last line has at least eight characters besides that character -/
inductive Cut : Str → Str → Prop
  | mk {x l : Str} {c : Char} : (x = [] ∨ x.getLast? = some '\n') → '\n' ∉ l → c ≠ '\n' →
      8 ≤ l.length → Cut (x ++ (l ++ [c])) (x ++ (l ++ ['\n']))

/-- states that differ only in the last character of the file -/
def CutView (s s' : TState) : Prop :=
  (s.rem = s'.rem ∨ Cut s.rem s'.rem) ∧ s.hasrest = s'.hasrest ∧ s.floatrest = s'.floatrest

/-- same answer, or same exception, and states that differ only in the last character -/
def CutRes {β : Type} (x y : Except Err (β × TState)) : Prop :=
  (∃ e, x = .error e ∧ y = .error e) ∨
  (∃ a s s', x = .ok (a, s) ∧ y = .ok (a, s') ∧ CutView s s')

theorem Cut.length {t t' : Str} (h : Cut t t') : t.length = t'.length := by
  cases h; simp

theorem Cut.take {t t' : Str} (h : Cut t t') : t.take 8 = t'.take 8 := by
  cases h with
  | @mk x l c h1 h2 h3 h4 =>
    have e : ∀ y : Str, (x ++ (l ++ y)).take 8 = (x ++ l).take 8 := fun y => by
      rw [← List.append_assoc]
      exact List.take_append_of_le_length (by rw [List.length_append]; omega)
    rw [e, e]

theorem split_line : ∀ (x : Str), '\n' ∈ x → ∃ p q, x = p ++ '\n' :: q ∧ '\n' ∉ p
  | [], h => by cases h
  | c :: x, h => by
    by_cases hc : c = '\n'
    · exact ⟨[], x, by rw [hc]; rfl, by simp⟩
    · obtain ⟨p, q, h1, h2⟩ := split_line x ((List.mem_cons.mp h).resolve_left fun he => hc he.symm)
      refine ⟨c :: p, q, by rw [h1]; rfl, ?_⟩
      simp only [List.mem_cons, not_or]
      exact ⟨fun he => hc he.symm, h2⟩

/-- one line less -/
theorem Cut.line {t t' : Str} (h : Cut t t') :
    lineOf t = lineOf t' ∧ (afterLine t = afterLine t' ∨ Cut (afterLine t) (afterLine t')) := by
  cases h with
  | @mk x l c h1 h2 h3 h4 =>
    rcases h1 with rfl | h1
    · rw [List.nil_append, List.nil_append]
      have n1 : '\n' ∉ l ++ [c] := by
        simp only [List.mem_append, List.mem_singleton, not_or]
        exact ⟨h2, fun he => h3 he.symm⟩
      have n2 : '\n' ∈ l ++ ['\n'] := by simp
      constructor
      · simp only [lineOf, if_neg n1, if_pos n2]
        rw [List.dropLast_concat]
        exact ((takeWhile_newline h2 []).1).symm
      · left
        have e1 : (l ++ [c]).dropWhile (· != '\n') = [] := by
          have hall : ∀ m : Str, '\n' ∉ m → m.dropWhile (· != '\n') = [] := by
            intro m hm
            induction m with
            | nil => rfl
            | cons y m ih =>
              simp only [List.mem_cons, not_or] at hm
              rw [List.dropWhile_cons_of_pos (by simpa using fun h => hm.1 h.symm)]
              exact ih hm.2
          exact hall _ n1
        rw [afterLine, e1, afterLine, (takeWhile_newline h2 []).2]
        rfl
    · have hm : '\n' ∈ x := List.mem_of_getLast? h1
      obtain ⟨p, q, rfl, hp⟩ := split_line x hm
      have e : ∀ r, lineOf (p ++ '\n' :: q ++ r) = p ∧ afterLine (p ++ '\n' :: q ++ r) = q ++ r := by
        intro r
        have hm : '\n' ∈ p ++ '\n' :: q ++ r := by simp
        have : p ++ '\n' :: q ++ r = p ++ '\n' :: (q ++ r) := by simp
        simp only [lineOf, if_pos hm, afterLine]
        rw [this, (takeWhile_newline hp _).1, (takeWhile_newline hp _).2]
        exact ⟨rfl, rfl⟩
      rw [(e _).1, (e _).1, (e _).2, (e _).2]
      refine ⟨rfl, .inr (.mk ?_ h2 h3 h4)⟩
      cases q with
      | nil => exact .inl rfl
      | cons y q =>
        right
        rwa [List.getLast?_append, List.getLast?_cons_cons, Option.or_of_isSome] at h1
        rw [Option.isSome_iff_ne_none]
        simp

theorem CutView.length {s s' : TState} (h : CutView s s') : s.rem.length = s'.rem.length := by
  rcases h.1 with h | h
  · rw [h]
  · exact h.length

theorem CutRes.ok {β : Type} (a : β) {s s' : TState} (h : CutView s s') :
    CutRes (.ok (a, s)) (.ok (a, s')) := .inr ⟨a, s, s', rfl, rfl, h⟩

theorem CutRes.error {β : Type} (e : Err) :
    CutRes (.error e : Except Err (β × TState)) (.error e) := .inl ⟨e, rfl, rfl⟩

theorem CutRes.bind {β γ : Type} {x y : Except Err (β × TState)}
    {f g : β × TState → Except Err (γ × TState)} (h : CutRes x y)
    (hf : ∀ a s s', CutView s s' → CutRes (f (a, s)) (g (a, s'))) :
    CutRes (x >>= f) (y >>= g) := by
  rcases h with ⟨e, rfl, rfl⟩ | ⟨a, s, s', rfl, rfl, h⟩
  · exact .error e
  · exact hf a s s' h

theorem CutRes.bindPure {β γ : Type} (x : Except Err β)
    {f g : β → Except Err (γ × TState)} (hf : ∀ a, CutRes (f a) (g a)) :
    CutRes (x >>= f) (x >>= g) := by
  cases x with
  | error e => exact .error e
  | ok a => exact hf a

theorem CutView.finish {n : Int} {fs : List PyF} {s s' : TState} (h : CutView s s') :
    CutRes (.ok (finishFloats n fs s)) (.ok (finishFloats n fs s')) := by
  refine .ok _ ⟨h.1, ?_, rfl⟩
  simp only [h.2.1]

theorem readStringrec_cut (s s' : TState) (h : CutView s s') :
    CutRes (readStringrec s) (readStringrec s') := by
  unfold readStringrec
  rcases h.1 with hr | hr
  · rw [hr]; exact .ok _ ⟨.inl rfl, rfl, h.2.2⟩
  · rw [hr.line.1]; exact .ok _ ⟨hr.line.2, rfl, h.2.2⟩

theorem readFloatrec_cut (D : Dec) (k : Nat) (s s' : TState) (h : CutView s s') :
    CutRes (readFloatrec D k s) (readFloatrec D k s') :=
  .bind (readStringrec_cut s s' h) fun c _ _ ht =>
    .bindPure (tofloatrec D (c.drop 8)) fun fs => .ok fs ht

theorem readHeader_cut (D : Dec) (s s' : TState) (h : CutView s s') :
    CutRes (readHeader D s) (readHeader D s') :=
  .bind (readStringrec_cut s s' h) fun c _ _ ht =>
    .bindPure (asHeader D c) fun x => .ok x ht

theorem readLines_cut (D : Dec) (k n : Nat) (acc : List PyF) (s s' : TState)
    (h : CutView s s') : CutRes (readLines D k n acc s) (readLines D k n acc s') := by
  induction n generalizing acc s s' with
  | zero => exact .ok _ h
  | succ n ih =>
    simp only [readLines]
    rcases readFloatrec_cut D k s s' h with ⟨e, h1, h2⟩ | ⟨a, t, t', h1, h2, h3⟩
    · rw [h1, h2]; exact .error e
    · rw [h1, h2]; exact ih _ _ _ h3

theorem readFloats_cut (D : Dec) (n : Int) (k : Nat) (s s' : TState) (h : CutView s s') :
    CutRes (readFloats D n k s) (readFloats D n k s') := by
  unfold readFloats
  split
  · exact .ok _ h
  · simp only
    rw [h.2.1, h.2.2]
    generalize (if s'.hasrest then s'.floatrest else []) = L
    split
    · rcases readLines_cut D k (((n - ↑L.length).toNat + 3) / 4)
        [] s s' h with ⟨e, h1, h2⟩ | ⟨a, t, t', h1, h2, h3⟩
      · rw [h1, h2]; exact .error e
      · rw [h1, h2]; exact h3.finish
    · exact h.finish

theorem readStrings_cut (D : Dec) (n : Nat) {s s' : TState} (h : CutView s s') :
    (∃ e, readStrings (fileOps D) n s = .error e ∧ readStrings (fileOps D) n s' = .error e) ∨
    (∃ t t', readStrings (fileOps D) n s = .ok t ∧ readStrings (fileOps D) n s' = .ok t' ∧
      CutView t t') := by
  induction n generalizing s s' with
  | zero => exact .inr ⟨s, s', rfl, rfl, h⟩
  | succ n ih =>
    simp only [readStrings]
    rcases readStringrec_cut s s' h with ⟨e, h1, h2⟩ | ⟨a, t, t', h1, h2, h3⟩
    · rw [show (fileOps D).readString = readStringrec from rfl, h1, h2]; exact .inl ⟨e, rfl, rfl⟩
    · rw [show (fileOps D).readString = readStringrec from rfl, h1, h2]; exact ih h3

theorem skipContrecs_cut (D : Dec) (n : Nat) (rec : Str) {s s' : TState} (h : CutView s s') :
    CutRes (skipContrecs (fileOps D) n rec s) (skipContrecs (fileOps D) n rec s') := by
  induction n generalizing s s' rec with
  | zero => exact .error _
  | succ n ih =>
    simp only [skipContrecs]
    split
    · rw [show (fileOps D).readString = readStringrec from rfl]
      rcases readStringrec_cut s s' h with ⟨e, h1, h2⟩ | ⟨a, t, t', h1, h2, h3⟩
      · rw [h1, h2]; exact .error e
      · rw [h1, h2]; exact ih a h3
    · cases (fileOps D).asHeader rec with
      | error e => exact .error e
      | ok a => exact .ok a h

theorem skip_cut (D : Dec) (name : String) (rec : List PyF) {s s' : TState} (h : CutView s s') :
    CutRes (skipRestofrecord (fileOps D) name rec s) (skipRestofrecord (fileOps D) name rec s') := by
  unfold skipRestofrecord
  refine .bindPure _ fun r0 => ?_
  split
  · split
    · exact .bind (readFloatrec_cut D 0 s s' h) fun _ t t' ht => readHeader_cut D t t' ht
    · exact readHeader_cut D s s' h
  · split
    · refine .bindPure _ fun x2 => .bindPure _ fun n => ?_
      rcases readStrings_cut D (rangeLen (floorDiv n 100)) h with
        ⟨e, h1, h2⟩ | ⟨t, t', h1, h2, h3⟩
      · rw [h1, h2]; exact .error e
      · rw [h1, h2, bind_ok, bind_ok]
        refine .bindPure _ fun x3 => .bindPure _ fun m => ?_
        rcases readStrings_cut D (rangeLen (floorDiv m 100)) h3 with
          ⟨e, h1, h2⟩ | ⟨u, u', h1, h2, h4⟩
        · rw [h1, h2]; exact .error e
        · rw [h1, h2, bind_ok, bind_ok]; exact readHeader_cut D _ _ h4
    · refine .bind (readStringrec_cut s s' h) fun c t t' ht => ?_
      simp only
      split
      · rw [ht.length]; exact skipContrecs_cut D _ _ ht
      · split
        · cases (fileOps D).asHeader c with
          | error e => exact .error e
          | ok a => exact .ok a ht
        · refine .bindPure _ fun n => ?_
          refine .bind (readFloats_cut D _ 0 _ _ ⟨h.1, ht.2.1, ht.2.2⟩) fun _ u u' hu => ?_
          exact readHeader_cut D _ _ hu

theorem step_cut (D : Dec) (o : Op) (s s' : TState) (h : CutView s s') :
    CutRes ((reader D).step o s) ((reader D).step o s') := by
  cases o with
  | line m =>
    exact .bind (readStringrec_cut s s' h) fun c _ _ ht => .ok (lineResult m c) ht
  | header => exact readHeader_cut D s s' h
  | floatrec k => exact readFloatrec_cut D k s s' h
  | floats n k => exact readFloats_cut D n k s s' h
  | skip name rec => exact skip_cut D name rec h
  | atHeader =>
    have : atHeaderrec s = atHeaderrec s' := by
      unfold atHeaderrec peekName
      rw [h.2.1]
      rcases h.1 with hr | hr
      · rw [hr]
      · rw [hr.take]
    simp only [reader, this]
    exact .ok _ h

theorem run_cut {α : Type} (D : Dec) (p : Prog α) (s s' : TState) (h : CutView s s') :
    CutRes (Prog.run (reader D) p s) (Prog.run (reader D) p s') := by
  induction p generalizing s s' with
  | ret a => exact .ok a h
  | fail e => exact .error e
  | op o k ih =>
    simp only [Prog.run]
    rcases step_cut D o s s' h with ⟨e, h1, h2⟩ | ⟨a, t, t', h1, h2, h3⟩
    · rw [h1, h2]; exact .error e
    · rw [h1, h2]; exact ih a _ _ h3

/-- **C60**: For every sequence of calls, a formatted file whose last line has no newline gives what
the file with a newline in place of its last character gives: that character is lost, nothing else
changes.  `x` are complete lines, `l` is the last line without its last character `c`. -/
theorem newline_missing {α : Type} (D : Dec) (p : Prog α) {x l : Str} {c : Char}
    (hx : x = [] ∨ x.getLast? = some '\n') (hl : '\n' ∉ l) (hc : c ≠ '\n') (h8 : 8 ≤ l.length) :
    (Prog.run (reader D) p (openFile (x ++ (l ++ [c])))).map (·.1) =
      (Prog.run (reader D) p (openFile (x ++ (l ++ ['\n'])))).map (·.1) := by
  rcases run_cut D p _ _ (show CutView (openFile (x ++ (l ++ [c]))) (openFile (x ++ (l ++ ['\n'])))
    from ⟨.inr (.mk hx hl hc h8), rfl, rfl⟩) with ⟨e, h1, h2⟩ | ⟨a, s, s', h1, h2, -⟩
  · rw [h1, h2]
  · rw [h1, h2]; rfl

/-- **C60**: The last value of a file that ends with the digit of a number is a different number
with and without newline behind it: `12` is read as `1`. -/
theorem newline_value : ∃ t : Str,
    (Prog.run (reader Dec.std) header (openFile (t ++ ['\n']))).map (·.1) =
      .ok ("GNODE", [.rat 1, .rat 12]) ∧
    (Prog.run (reader Dec.std) header (openFile t)).map (·.1) = .ok ("GNODE", [.rat 1, .rat 1]) :=
  ⟨"GNODE                  1              12".toList, by decide +kernel, by decide +kernel⟩

/-- **C60**: A file that ends with the bare name `IEND` of the last record without newline gives the
name `IEN`. -/
theorem newline_name : ∃ t : Str,
    (Prog.run (reader Dec.std) header (openFile (t ++ ['\n']))).map (·.1) = .ok ("IEND", []) ∧
    (Prog.run (reader Dec.std) header (openFile t)).map (·.1) = .ok ("IEN", []) :=
  ⟨"IEND".toList, by decide +kernel, by decide +kernel⟩

/-- the hypotheses are met by a file of two lines -/
example : (Prog.run (reader Dec.std) (Prog.bind header fun _ => header)
    (openFile ("GNODE                  1\nIEND                   05".toList))).map (·.1) =
      .ok ("IEND", [.rat 0]) := by
  have := newline_missing Dec.std (Prog.bind header fun _ => header)
    (x := "GNODE                  1\n".toList) (l := "IEND                   0".toList) (c := '5')
    (.inr (by decide +kernel)) (by decide +kernel) (by decide) (by decide +kernel)
  rw [show "GNODE                  1\nIEND                   05".toList =
    "GNODE                  1\n".toList ++ ("IEND                   0".toList ++ ['5']) from by
    decide +kernel, this]
  decide +kernel

end Verif.Seq.T
