import Verif.Seq.Logical
/-!
# Formatted files and what is known of the decoder

Two decoders that agree on all texts but some, which one of them refuses: a program gives the same
with both, or the exception.
-/

namespace Verif.Seq
open Verif

/-- `D'` decodes what `D` decodes, to the same number -/
def Dec.Extends (D' D : Dec) : Prop := ∀ t x, D.float t = .ok x → D'.float t = .ok x

/-- the decoder that reads `x` as `v` -/
def Dec.put (D : Dec) (x : Str) (v : PyF) : Dec :=
  { D with float := fun t => if t = x then .ok v else D.float t }

theorem Dec.put_extends {D : Dec} {x : Str} {e : Err} (h : D.float x = .error e) (v : PyF) :
    (D.put x v).Extends D := by
  intro t y hy
  change (if t = x then _ else _) = _
  rw [if_neg]
  · exact hy
  · rintro rfl
    rw [h] at hy
    cases hy

namespace T

/-! ### fields -/

theorem fields_fuel : ∀ (n m : Nat) (t : Str), t.length ≤ n → t.length ≤ m → fields n t = fields m t
  | 0, m, t, h, _ => by
    obtain rfl : t = [] := List.length_eq_zero_iff.mp (by omega)
    cases m <;> rfl
  | n + 1, 0, t, _, h => by
    obtain rfl : t = [] := List.length_eq_zero_iff.mp (by omega)
    rfl
  | n + 1, m + 1, t, h1, h2 => by
    unfold fields
    by_cases ht : t = []
    · rw [if_pos ht, if_pos ht]
    · have := List.length_pos_iff.mpr ht
      rw [if_neg ht, if_neg ht, fields_fuel n m _ (by rw [List.length_drop]; omega)
        (by rw [List.length_drop]; omega)]

theorem fields_append : ∀ (k : Nat) (a b : Str), a.length = 16 * k →
    fields (a ++ b).length (a ++ b) = fields a.length a ++ fields b.length b
  | 0, a, b, h => by
    obtain rfl : a = [] := List.length_eq_zero_iff.mp (by omega)
    rfl
  | k + 1, a, b, h => by
    have step : ∀ t : Str, 16 ≤ t.length →
        fields t.length t = t.take 16 :: fields (t.drop 16).length (t.drop 16) := by
      intro t ht
      obtain ⟨n, hn⟩ : ∃ n, t.length = n + 1 := ⟨t.length - 1, by omega⟩
      have hne : t ≠ [] := by rintro rfl; simp at ht
      rw [hn, fields, if_neg hne]
      congr 1
      exact fields_fuel _ _ _ (by rw [List.length_drop]; omega) le_rfl
    rw [step _ (by rw [List.length_append]; omega), step a (by omega),
      List.take_append_of_le_length (by omega), List.drop_append_of_le_length (by omega),
      fields_append k (a.drop 16) b (by rw [List.length_drop]; omega)]
    rfl

theorem fields_short {x : Str} (h : x ≠ []) (h' : x.length ≤ 16) : fields x.length x = [x] := by
  obtain ⟨n, hn⟩ : ∃ n, x.length = n + 1 := ⟨x.length - 1, by
    have := List.length_pos_iff.mpr h
    omega⟩
  rw [hn, fields, if_neg h, List.take_of_length_le h', List.drop_of_length_le h']
  cases n <;> rfl

theorem floatAll_append (D : Dec) (a b : List Str) :
    floatAll D (a ++ b) = (floatAll D a).bind fun xs => (floatAll D b).map fun ys => xs ++ ys := by
  induction a with
  | nil =>
    simp only [List.nil_append, floatAll, Except.bind]
    cases floatAll D b <;> rfl
  | cons t a ih =>
    simp only [List.cons_append, floatAll, ih]
    cases D.float t with
    | error e => rfl
    | ok x =>
      cases floatAll D a with
      | error e => rfl
      | ok xs =>
        cases hb : floatAll D b <;> simp [Except.bind, Except.map]

theorem floatAll_extends {D D' : Dec} (h : D'.Extends D) : ∀ {ts : List Str} {xs : List PyF},
    floatAll D ts = .ok xs → floatAll D' ts = .ok xs
  | [], xs, k => k
  | t :: ts, xs, k => by
    unfold floatAll at k ⊢
    split at k
    · cases k
    · rename_i x hx
      split at k
      · cases k
      · rename_i ys hys
        rw [h _ _ hx, floatAll_extends h hys]
        exact k

theorem tofloatrec_extends {D D' : Dec} (h : D'.Extends D) {t : Str} {xs : List PyF}
    (k : tofloatrec D t = .ok xs) : tofloatrec D' t = .ok xs := floatAll_extends h k

/-- the beginning of a line of numbers, if it is refused: what is refused is the number at the end -/
theorem tofloatrec_cut {D : Dec} {l rest : Str} {vs : List PyF} {e : Err}
    (h : tofloatrec D (l ++ rest) = .ok vs) (he : tofloatrec D l = .error e) :
    ∃ x, D.float x = .error e ∧
      ∀ v, tofloatrec (D.put x v) l = .ok (vs.take (l.length / 16) ++ [v]) := by
  have hl : l = l.take (16 * (l.length / 16)) ++ l.drop (16 * (l.length / 16)) :=
    (List.take_append_drop _ _).symm
  generalize hx : l.drop (16 * (l.length / 16)) = x at hl
  generalize hp : l.take (16 * (l.length / 16)) = p at hl
  have hpl : p.length = 16 * (l.length / 16) := by rw [← hp, List.length_take]; omega
  have hxl : x.length < 16 := by rw [← hx, List.length_drop]; omega
  have hf : ∀ D : Dec, ∀ y, tofloatrec D (p ++ y) =
      (tofloatrec D p).bind fun xs => (tofloatrec D y).map fun ys => xs ++ ys := by
    intro D y
    unfold tofloatrec
    rw [fields_append _ p y hpl, floatAll_append]
  rw [hl, List.append_assoc, hf] at h
  cases hpd : tofloatrec D p with
  | error e' => rw [hpd] at h; cases h
  | ok us =>
    have hus : us.length = l.length / 16 := by
      have len : ∀ {ts : List Str} {vs : List PyF}, floatAll D ts = .ok vs →
          vs.length = ts.length := by
        intro ts
        induction ts with
        | nil => intro vs h; cases h; rfl
        | cons t ts ih =>
          intro vs h
          unfold floatAll at h
          split at h
          · cases h
          · split at h
            · cases h
            · rename_i hx
              cases h
              rw [List.length_cons, List.length_cons, ih hx]
      have flen : ∀ (k : Nat) (t : Str), t.length = 16 * k → (fields t.length t).length = k := by
        intro k
        induction k with
        | zero =>
          intro t ht
          obtain rfl : t = [] := List.length_eq_zero_iff.mp (by omega)
          rfl
        | succ k ih =>
          intro t ht
          have e : t = t.take (16 * k) ++ t.drop (16 * k) := (List.take_append_drop _ _).symm
          rw [e, fields_append k _ _ (by rw [List.length_take]; omega), List.length_append,
            ih _ (by rw [List.length_take]; omega), fields_short]
          · rfl
          · intro h0
            have := congrArg List.length h0
            rw [List.length_drop] at this
            simp at this
            omega
          · rw [List.length_drop]; omega
      rw [len hpd, flen _ _ hpl]
    rw [hl, hf, hpd] at he
    have hxe : tofloatrec D x = .error e := by
      cases hxd : tofloatrec D x with
      | error e' => rw [hxd] at he; exact he
      | ok ys => rw [hxd] at he; cases he
    have hxne : x ≠ [] := by rintro rfl; cases hxe
    have hxe' : D.float x = .error e := by
      unfold tofloatrec at hxe
      rw [fields_short hxne hxl.le, floatAll] at hxe
      cases hd : D.float x with
      | error e' => rw [hd] at hxe; simpa using hxe
      | ok y => rw [hd] at hxe; cases hxe
    refine ⟨x, hxe', fun v => ?_⟩
    have hvs : vs.take (l.length / 16) = us := by
      rw [hpd] at h
      cases hr : tofloatrec D (x ++ rest) with
      | error e' => rw [hr] at h; cases h
      | ok ys =>
        rw [hr] at h
        have : us ++ ys = vs := Except.ok.inj h
        rw [← this, ← hus, List.take_left]
    have hxv : tofloatrec (D.put x v) x = .ok [v] := by
      unfold tofloatrec
      rw [fields_short hxne hxl.le]
      have : (D.put x v).float x = .ok v := if_pos rfl
      simp only [floatAll, this]
    conv_lhs => rw [hl]
    rw [hf, tofloatrec_extends (Dec.put_extends hxe' v) hpd, hxv, hvs]
    rfl

/-! ### files -/

theorem Head.extends {D D' : Dec} (h : D'.Extends D) {r : LRec} {c : Str} (k : Head D r c) :
    Head D' r c := by
  obtain ⟨h1, fb, h2, h3, h4⟩ := k
  exact ⟨h1, fb, h2, h3, tofloatrec_extends h h4⟩

theorem Chunk.extends {D D' : Dec} (h : D'.Extends D) {c : Str} {vs : List PyF} (k : Chunk D c vs) :
    Chunk D' c vs := by
  obtain ⟨fb, h2, h3, h4⟩ := k
  exact ⟨fb, h2, h3, tofloatrec_extends h h4⟩

theorem Body.extends {D D' : Dec} (h : D'.Extends D) {r : LRec} {cs : List Str} (k : Body D r cs) :
    Body D' r cs := by
  obtain ⟨ps, fs, h1, h2, vss, h3, h4⟩ := k
  refine ⟨ps, fs, h1, h2.imp fun s c hs => ?_, vss, h3.imp fun _ _ => Chunk.extends h, h4⟩
  cases s with
  | recd k fs => exact Chunk.extends h hs
  | text t => exact hs

theorem Skippable.extends {D D' : Dec} (h : D'.Extends D) {r : LRec} {cs : List Str} {n : String}
    (k : Skippable D r cs n) : Skippable D' r cs n := by
  cases k with
  | negative h0 t a1 a2 a3 a4 => exact .negative h0 t a1 a2 a3 a4
  | minusFive h0 t c fs a1 a2 a3 a4 a5 => exact .minusFive h0 t c fs a1 a2 a3 a4 (a5.extends h)
  | text h0 h1 h2 h3 t a b a1 a2 a3 a4 a5 a6 => exact .text h0 h1 h2 h3 t a b a1 a2 a3 a4 a5 a6
  | blankLed h0 t a1 a2 a3 a4 a5 => exact .blankLed h0 t a1 a2 a3 a4 a5
  | alone h0 t a1 a2 a3 a4 a5 => exact .alone h0 t a1 a2 a3 a4 a5
  | last h0 t n a1 a2 a3 a4 a5 a6 => exact .last h0 t n a1 a2 a3 a4 a5 a6

theorem Encodes.extends {D D' : Dec} (h : D'.Extends D) {sk : LRec → Bool} {z : Str}
    {f : List LRec} {t : Str} (k : Encodes D sk z f t) : Encodes D' sk z f t := by
  induction k with
  | nil => exact .nil
  | eof hz => exact .eof hz
  | cons h1 h2 h3 _ ih =>
    exact .cons (h1.extends h) (h2.extends h) (fun e n hn => (h3 e n hn).extends h) ih

/-! ### programs -/

/-- the same, or the exception `e` -/
def OrRaises {α : Type} (e : Err) (a b : Except Err α) : Prop := a = .error e ∨ a = b

theorem OrRaises.bind {α β : Type} {e : Err} {a b : Except Err α} {f g : α → Except Err β}
    (h : OrRaises e a b) (k : ∀ x, OrRaises e (f x) (g x)) : OrRaises e (a >>= f) (b >>= g) := by
  rcases h with rfl | rfl
  · exact .inl rfl
  · cases a with
    | error e' => exact .inr rfl
    | ok x => exact k x

section
variable {D D' : Dec} {e : Err} (h : ∀ t, D.float t = .error e ∨ D.float t = D'.float t)
include h

theorem floatAll_or (ts : List Str) : OrRaises e (floatAll D ts) (floatAll D' ts) := by
  induction ts with
  | nil => exact .inr rfl
  | cons t ts ih =>
    unfold floatAll
    rcases h t with h1 | h1
    · rw [h1]; exact .inl rfl
    · rw [h1]
      cases D'.float t with
      | error e' => exact .inr rfl
      | ok x =>
        rcases ih with h2 | h2
        · rw [h2]; exact .inl rfl
        · rw [h2]; exact .inr rfl

theorem tofloatrec_or (t : Str) : OrRaises e (tofloatrec D t) (tofloatrec D' t) := floatAll_or h _

theorem readFloatrec_or (k : Nat) (s : TState) :
    OrRaises e (readFloatrec D k s) (readFloatrec D' k s) :=
  .bind (.inr rfl) fun _ => .bind (tofloatrec_or h _) fun _ => .inr rfl

theorem asHeader_or (c : Str) : OrRaises e (asHeader D c) (asHeader D' c) :=
  .bind (tofloatrec_or h _) fun _ => .inr rfl

theorem readHeader_or (s : TState) : OrRaises e (readHeader D s) (readHeader D' s) :=
  .bind (.inr rfl) fun _ => .bind (asHeader_or h _) fun _ => .inr rfl

theorem readLines_or (k n : Nat) : ∀ acc s, OrRaises e (readLines D k n acc s) (readLines D' k n acc s) := by
  induction n with
  | zero => exact fun _ _ => .inr rfl
  | succ n ih =>
    intro acc s
    unfold readLines
    rcases readFloatrec_or h k s with h1 | h1
    · rw [h1]; exact .inl rfl
    · rw [h1]
      cases readFloatrec D' k s with
      | error e' => exact .inr rfl
      | ok p => exact ih _ _

theorem readFloats_or (n : Int) (k : Nat) (s : TState) :
    OrRaises e (readFloats D n k s) (readFloats D' n k s) := by
  unfold readFloats
  by_cases h0 : n = 0
  · rw [if_pos h0, if_pos h0]; exact .inr rfl
  · rw [if_neg h0, if_neg h0]
    dsimp only
    by_cases h1 : n - ((if s.hasrest then s.floatrest else []).length : Int) > 0
    · rw [if_pos h1, if_pos h1]
      rcases readLines_or h k (((n - ((if s.hasrest then s.floatrest else []).length : Int)).toNat + 3) / 4)
        [] s with h2 | h2
      · rw [h2]; exact .inl rfl
      · rw [h2]; exact .inr rfl
    · rw [if_neg h1, if_neg h1]; exact .inr rfl

theorem skipContrecs_or (n : Nat) : ∀ c s,
    OrRaises e (skipContrecs (fileOps D) n c s) (skipContrecs (fileOps D') n c s) := by
  induction n with
  | zero => exact fun _ _ => .inr rfl
  | succ n ih =>
    intro c s
    unfold skipContrecs
    by_cases h0 : (fileOps D').blankLed c = true
    · rw [if_pos (show (fileOps D).blankLed c = true from h0), if_pos h0]
      exact ih _ _
    · rw [if_neg (show ¬ (fileOps D).blankLed c = true from h0), if_neg h0]
      rcases asHeader_or h c with h1 | h1
      · rw [show (fileOps D).asHeader c = .error e from h1]; exact .inl rfl
      · rw [show (fileOps D).asHeader c = (fileOps D').asHeader c from h1]; exact .inr rfl

theorem skip_or (name : String) (rec : List PyF) (s : TState) :
    OrRaises e (skipRestofrecord (fileOps D) name rec s) (skipRestofrecord (fileOps D') name rec s) := by
  have hstr : ∀ n s, readStrings (fileOps D) n s = readStrings (fileOps D') n s := by
    intro n
    induction n with
    | zero => exact fun _ => rfl
    | succ n ih => exact fun s => ih _
  unfold skipRestofrecord
  refine .bind (.inr rfl) fun r0 => ?_
  by_cases h0 : r0.ltZero = true
  · rw [if_pos h0, if_pos h0]
    by_cases h1 : r0.eqInt (-5) = true
    · rw [if_pos h1, if_pos h1]
      exact .bind (readFloatrec_or h 0 s) fun _ => readHeader_or h _
    · rw [if_neg h1, if_neg h1]
      exact readHeader_or h _
  · rw [if_neg h0, if_neg h0]
    by_cases h1 : name.toList.take 2 = ['T', 'D']
    · rw [if_pos h1, if_pos h1]
      refine .bind (.inr rfl) fun _ => .bind (.inr rfl) fun _ => .bind (.inr (hstr _ _)) fun _ =>
        .bind (.inr rfl) fun _ => .bind (.inr rfl) fun _ => .bind (.inr (hstr _ _)) fun _ =>
        readHeader_or h _
    · rw [if_neg h1, if_neg h1]
      refine .bind (.inr rfl) fun p => ?_
      obtain ⟨c, s1⟩ := p
      dsimp only
      by_cases h2 : (fileOps D').blankLed c = true
      · rw [if_pos (show (fileOps D).blankLed c = true from h2), if_pos h2]
        exact skipContrecs_or h _ _ _
      · rw [if_neg (show ¬ (fileOps D).blankLed c = true from h2), if_neg h2]
        by_cases h3 : (fileOps D').allowedLed c = true
        · rw [if_pos (show (fileOps D).allowedLed c = true from h3), if_pos h3]
          rcases asHeader_or h c with h4 | h4
          · rw [show (fileOps D).asHeader c = .error e from h4]; exact .inl rfl
          · rw [show (fileOps D).asHeader c = (fileOps D').asHeader c from h4]; exact .inr rfl
        · rw [if_neg (show ¬ (fileOps D).allowedLed c = true from h3), if_neg h3]
          exact .bind (.inr rfl) fun _ => .bind (readFloats_or h _ _ _) fun _ => readHeader_or h _

theorem step_or (o : Op) (s : TState) :
    OrRaises e ((reader D).step o s) ((reader D').step o s) := by
  cases o with
  | line m => exact .inr rfl
  | header => exact readHeader_or h s
  | floatrec k => exact readFloatrec_or h k s
  | floats n k => exact readFloats_or h n k s
  | skip name rec => exact skip_or h name rec s
  | atHeader => exact .inr rfl

/-- a program gives the same with a decoder that knows more, or raises the exception -/
theorem run_or {α : Type} (p : Prog α) : ∀ s,
    OrRaises e (Prog.run (reader D) p s) (Prog.run (reader D') p s) := by
  induction p with
  | ret a => exact fun _ => .inr rfl
  | fail e' => exact fun _ => .inr rfl
  | op o k ih =>
    intro s
    unfold Prog.run
    rcases step_or h o s with h1 | h1
    · rw [h1]; exact .inl rfl
    · rw [h1]
      cases (reader D').step o s with
      | error e' => exact .inr rfl
      | ok p => exact ih _ _

end

end T

end Verif.Seq
