import Verif.Parse.Spec
/-!
# Programs on one logical record

`Reads p c a c'`: on the logical reader the program `p`, started on the record `c`, answers `a` and
leaves the record `c'`, without touching the records behind it.
-/

namespace Verif.Parse
open Verif Verif.Seq

/-! ### numbers -/

theorem hasInt_toInt {x : PyF} {n : Int} (h : HasInt x n) : x.toInt = .ok n := by
  obtain ⟨q, rfl, h0, h1⟩ := h
  simp only [PyF.toInt, Except.ok.injEq]
  by_cases hq : 0 ≤ q
  · rw [h0 hq, Rat.floor_def']
    exact Int.tdiv_eq_ediv_of_nonneg (Rat.num_nonneg.mpr hq)
  · have hq : q < 0 := not_le.mp hq
    rw [h1 hq, ← neg_neg q, Int.ceil_neg, Rat.floor_def', neg_neg, Rat.neg_num, Rat.neg_den,
      ← Int.tdiv_eq_ediv_of_nonneg (by have := Rat.num_neg.mpr hq; omega), Int.neg_tdiv, neg_neg]

theorem toInt_hasInt {x : PyF} {n : Int} (h : x.toInt = .ok n) : HasInt x n := by
  cases x with
  | nan => cases h
  | inf b => cases h
  | rat q =>
    by_cases hq : 0 ≤ q
    · have h2 : HasInt (.rat q) ⌊q⌋ := ⟨q, rfl, fun _ => rfl, fun h => absurd hq (not_le.mpr h)⟩
      rw [hasInt_toInt h2] at h
      injection h with h; exact h ▸ h2
    · have h2 : HasInt (.rat q) ⌈q⌉ := ⟨q, rfl, fun h => absurd h hq, fun _ => rfl⟩
      rw [hasInt_toInt h2] at h
      injection h with h; exact h ▸ h2

theorem HasInt.unique {x : PyF} {n m : Int} (h : HasInt x n) (h' : HasInt x m) : n = m := by
  have := (hasInt_toInt h).symm.trans (hasInt_toInt h')
  injection this

theorem hasInt_int (k : Int) : HasInt (.rat (k : Rat)) k :=
  ⟨k, rfl, fun _ => by rw [Int.floor_intCast], fun _ => by rw [Int.ceil_intCast]⟩

theorem eqInt_iff {x : PyF} {k : Int} : x.eqInt k = true ↔ x = .rat (k : Rat) := by
  cases x <;> simp [PyF.eqInt]

theorem truthy_iff {x : PyF} : x.truthy = true ↔ x ≠ .rat 0 := by
  cases x <;> simp [PyF.truthy]

theorem nums_eq (l : List PyF) : nums l = numbers l := rfl
theorem tup_eq (l : List PyF) : tup l = vector l := rfl

theorem padCut_eq (n : Nat) (l : List PyF) : padCut n l = fit n l := by
  unfold padCut fit zero
  have hz : PyF.ofInt 0 = PyF.rat 0 := rfl
  split
  · rename_i h
    rw [List.take_append_of_le_length (by omega), ← h, List.take_length]
  · split
    · rename_i h
      rw [List.take_append, List.take_of_length_le (by omega), List.take_replicate,
        Nat.min_eq_left (by omega), hz]
    · rename_i h h2
      unfold pyTake
      rw [if_neg (by omega), List.take_append_of_le_length (by omega)]
      congr 1
      omega

/-! ### programs -/

variable {α β : Type}

/-- `p` on the record `c` answers `a` and leaves `c'` -/
def Reads (p : Prog α) (c : LRec) (a : α) (c' : LRec) : Prop :=
  ∀ sk o rest, ∃ o', Prog.run (L.reader sk) p ⟨c, o, rest⟩ = .ok (a, ⟨c', o', rest⟩)

theorem Reads.ret (a : α) (c : LRec) : Reads (.ret a) c a c := fun _ o _ => ⟨o, rfl⟩

theorem Reads.bind {p : Prog α} {f : α → Prog β} {c c' c'' : LRec} {a : α} {b : β}
    (h : Reads p c a c') (h' : Reads (f a) c' b c'') : Reads (p.bind f) c b c'' := by
  intro sk o rest
  obtain ⟨o1, h1⟩ := h sk o rest
  obtain ⟨o2, h2⟩ := h' sk o1 rest
  exact ⟨o2, by rw [Prog.run_bind_ok h1, h2]⟩

theorem Reads.lift {x : Except Err α} {a : α} (h : x = .ok a) (c : LRec) :
    Reads (Prog.lift x) c a c := by subst h; exact Reads.ret a c

theorem Reads.int {x : PyF} {n : Int} (h : HasInt x n) (c : LRec) :
    Reads (Parse.int x) c n c := Reads.lift (hasInt_toInt h) c

theorem Reads.idx {l : List PyF} {i : Nat} {x : PyF} (h : l[i]? = some x) (c : LRec) :
    Reads (Parse.idx l i) c x c := Reads.lift (pyIdx_ok.mpr h) c

theorem Reads.intAt {l : List PyF} {i : Nat} {x : PyF} {n : Int} (h : l[i]? = some x)
    (hx : HasInt x n) (c : LRec) : Reads (Parse.intAt l i) c n c :=
  Reads.bind (Reads.idx h c) (Reads.int hx c)

theorem Reads.look {γ δ : Type} {d : γ → Option δ} {k : γ} {v : δ} (h : d k = some v)
    (c : LRec) : Reads (Parse.look d k) c v c := by
  unfold Parse.look; rw [h]; exact Reads.ret v c

/-- reading values from the stream -/
theorem Reads.floats {name head sk pad} {a b : List PyF} {n : Int} {k : Nat}
    (hn : n = a.length) (hk : a ≠ [] → sk = k) :
    Reads (Seq.floats n k) ⟨name, head, [], sk, a ++ b, pad⟩ a
      ⟨name, head, [], sk, b, pad⟩ := by
  intro s o rest
  unfold Seq.floats
  rw [Prog.run_call]
  cases a with
  | nil =>
    refine ⟨o, ?_⟩
    subst hn
    simp [L.reader]
  | cons x a =>
    have hk := hk (by simp)
    subst hk hn
    refine ⟨o + 1, ?_⟩
    have h1 : ¬ (((x :: a).length : Nat) : Int) = 0 := by rw [List.length_cons]; omega
    have h2 : (0 : Int) < (((x :: a).length : Nat) : Int) := by simp
    have e : (((x :: a).length : Nat) : Int).toNat = (x :: a).length := Int.toNat_natCast _
    have h3 : (x :: a).length ≤ ((x :: a) ++ b).length := by simp
    simp only [L.reader, e]
    rw [if_neg h1, if_pos ⟨trivial, h2, h3, trivial⟩]
    simp

/-- reading all values of the stream -/
theorem Reads.floatsAll {name head sk pad} {a : List PyF} {n : Int} {k : Nat}
    (hn : n = a.length) (hk : a ≠ [] → sk = k) :
    Reads (Seq.floats n k) ⟨name, head, [], sk, a, pad⟩ a ⟨name, head, [], sk, [], pad⟩ := by
  have := Reads.floats (name := name) (head := head) (pad := pad) (b := []) hn hk
  rwa [List.append_nil] at this

theorem Reads.floatrec {name head sk vals pad} {k : Nat} {fs : List PyF} {pre : List Seg} :
    Reads (Seq.floatrec k) ⟨name, head, .recd k fs :: pre, sk, vals, pad⟩ fs
      ⟨name, head, pre, sk, vals, pad⟩ := by
  intro s o rest
  refine ⟨o + 1, ?_⟩
  unfold Seq.floatrec
  rw [Prog.run_call]
  simp [L.reader]

theorem Reads.line {name head sk vals pad} {t : Str} {pre : List Seg} (m : LineMode) :
    Reads (Seq.line m) ⟨name, head, .text t :: pre, sk, vals, pad⟩ (textResult m t)
      ⟨name, head, pre, sk, vals, pad⟩ := by
  intro s o rest
  refine ⟨o + 1, ?_⟩
  unfold Seq.line
  rw [Prog.run_call]
  simp [L.reader]

/-- a counted repetition: `step` describes one call -/
theorem Reads.times {γ : Type} {p : Prog α} (st : List γ → LRec) (f : γ → α)
    (step : ∀ x xs, Reads p (st (x :: xs)) (f x) (st xs)) (xs : List γ) :
    Reads (p.times xs.length) (st xs) (xs.map f) (st []) := by
  induction xs with
  | nil => exact Reads.ret [] _
  | cons x xs ih => exact Reads.bind (step x xs) (Reads.bind ih (Reads.ret _ _))

theorem Reads.lines {name head sk vals pad} (m : LineMode) (ts : List Str) (pre : List Seg) :
    Reads ((Seq.line m).times ts.length) ⟨name, head, ts.map .text ++ pre, sk, vals, pad⟩
      (ts.map (textResult m)) ⟨name, head, pre, sk, vals, pad⟩ :=
  Reads.times (fun ts : List Str => ⟨name, head, ts.map .text ++ pre, sk, vals, pad⟩)
    (textResult m) (fun _ _ => Reads.line m) ts

/-- groups of values -/
theorem Reads.groups {name head pad} {m : Nat} {gs : List (List PyF)} (b : List PyF)
    (h : ∀ g ∈ gs, g.length = m) :
    Reads ((Seq.floats m).times gs.length) ⟨name, head, [], 0, gs.flatten ++ b, pad⟩ gs
      ⟨name, head, [], 0, b, pad⟩ := by
  induction gs with
  | nil => exact Reads.ret [] _
  | cons g gs ih =>
    have h1 : Reads (Seq.floats m) ⟨name, head, [], 0, (g :: gs).flatten ++ b, pad⟩ g
        ⟨name, head, [], 0, gs.flatten ++ b, pad⟩ := by
      rw [List.flatten_cons, List.append_assoc]
      exact Reads.floats (by rw [h g (by simp)]) (fun _ => rfl)
    exact Reads.bind h1 (Reads.bind (ih (fun g hg => h g (by simp [hg]))) (Reads.ret _ _))

/-! ### trimming -/

theorem dropWhile_replicate (i : Nat) (l : Str) :
    (List.replicate i ' ' ++ l).dropWhile (· == ' ') = l.dropWhile (· == ' ') := by
  induction i with
  | zero => simp
  | succ i ih => rw [List.replicate_succ, List.cons_append, List.dropWhile_cons]; simp [ih]

theorem dropWhile_head {l : Str} (h : l.head? ≠ some ' ') : l.dropWhile (· == ' ') = l := by
  cases l with
  | nil => rfl
  | cons c l =>
    rw [List.dropWhile_cons, if_neg]
    intro hc; exact h (by simpa using hc)

theorem trim_eq {t u : Str} (h : Trim t u) : stripBy (· == ' ') t = u := by
  obtain ⟨i, j, rfl, h1, h2⟩ := h
  unfold stripBy
  rw [List.append_assoc, dropWhile_replicate]
  cases hu : u with
  | nil =>
    have : (([] : Str) ++ List.replicate j ' ').dropWhile (· == ' ') = [] := by
      rw [List.nil_append, ← List.append_nil (List.replicate j ' '), dropWhile_replicate]; rfl
    rw [this]; rfl
  | cons c u' =>
    have e1 : (u ++ List.replicate j ' ').dropWhile (· == ' ') = u ++ List.replicate j ' ' := by
      apply dropWhile_head; rw [hu] at h1 ⊢; simpa using h1
    rw [← hu, e1, List.reverse_append, List.reverse_replicate, dropWhile_replicate,
      dropWhile_head, List.reverse_reverse]
    rwa [List.head?_reverse]

end Verif.Parse
