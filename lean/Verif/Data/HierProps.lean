import Verif.Data.HierSpec
import Verif.Data.StrucProps
import Mathlib.LinearAlgebra.Matrix.Notation
import Mathlib.Algebra.BigOperators.Fin
/-!
# Transformations (C33, C34)
-/

namespace Verif.Data
open Verif
open Verif.Seq (Str)

variable {K : Type}

theorem getrow_ok {β : Type} {rows : List β} {p : β → Prop} {f : β → Bool} {r : β}
    (hf : ∀ x, f x = true ↔ p x) (h : FirstRow rows p r) : getrow rows f = .ok r := by
  obtain ⟨a, b, rfl, hp, ha⟩ := h
  unfold getrow
  have : (a ++ r :: b).find? f = some r := by
    rw [List.find?_append]
    have h1 : a.find? f = none := by
      rw [List.find?_eq_none]
      intro x hx hfx
      exact ha x hx ((hf x).mp hfx)
    rw [h1, List.find?_cons_of_pos ((hf r).mpr hp)]; rfl
  rw [this]

theorem getrow_none {β : Type} {rows : List β} {p : β → Prop} {f : β → Bool}
    (hf : ∀ x, f x = true ↔ p x) (h : ∀ x ∈ rows, ¬ p x) :
    getrow rows f = .error .conditionError := by
  unfold getrow
  have : rows.find? f = none := by
    rw [List.find?_eq_none]
    intro x hx hfx
    exact h x hx ((hf x).mp hfx)
  rw [this]

theorem FirstRow.mem {β : Type} {rows : List β} {p : β → Prop} {r : β} (h : FirstRow rows p r) :
    r ∈ rows := by
  obtain ⟨a, b, rfl, _⟩ := h; simp

theorem FirstRow.unique {β : Type} {rows : List β} {p : β → Prop} {r r' : β}
    (h : FirstRow rows p r) (h' : FirstRow rows p r') : r = r' := by
  classical
  have e1 := getrow_ok (f := fun x => decide (p x)) (by simp) h
  have e2 := getrow_ok (f := fun x => decide (p x)) (by simp) h'
  rw [e1] at e2
  exact Except.ok.inj e2

variable [Semiring K]

theorem parent_row {hier : List HierRow} {r p : HierRow} (h : Parent hier r p) :
    (getrow hier fun x => decide (x.ihref = r.ihpref)) = .ok p := getrow_ok (by simp) h

theorem trans_row {trans : List (TranRow K)} {r : HierRow} {t : Mat4 K} (h : TransOf trans r t) :
    ∃ x, (getrow trans fun x => decide (x.itref = r.itref)) = .ok x ∧ x.t = t := by
  obtain ⟨x, hx, ht⟩ := h
  exact ⟨x, getrow_ok (by simp) hx, ht⟩

theorem up_le {hier : List HierRow} {trans : List (TranRow K)} {level : Int} {r : HierRow}
    {m : Mat4 K} (h : Up hier trans level r m) : r.islevl ≤ level := by
  cases h with
  | here h => exact le_of_eq h
  | step h _ _ _ => exact le_of_lt h

/-- the loop, started below or on the level -/
theorem climb_up {hier : List HierRow} {trans : List (TranRow K)} {level : Int} {r : HierRow}
    {m : Mat4 K} (hroot : ∀ x ∈ hier, x.islevl < level → x.ihpref ≠ 0) (hr : r ∈ hier)
    (h : Up hier trans level r m) :
    ∃ f0, ∀ fuel, f0 ≤ fuel → ∀ t, climb hier trans level fuel r t = .ok (t * m) := by
  induction h with
  | @here r h =>
    refine ⟨1, fun fuel hf t => ?_⟩
    obtain ⟨f, rfl⟩ : ∃ f, fuel = f + 1 := ⟨fuel - 1, by omega⟩
    rw [climb, if_neg (by omega), Matrix.mul_one]
  | @step r p t' m' hlt ht hp hup ih =>
    obtain ⟨f0, hf0⟩ := ih hp.mem
    refine ⟨f0 + 1, fun fuel hf t => ?_⟩
    obtain ⟨f, rfl⟩ : ∃ f, fuel = f + 1 := ⟨fuel - 1, by omega⟩
    obtain ⟨x, hx, rfl⟩ := trans_row ht
    rw [climb, if_pos hlt, hx, bind_ok, if_pos (hroot r hr hlt), parent_row hp, bind_ok,
      if_neg (by have := up_le hup; omega), hf0 f (by omega), Matrix.mul_assoc]

theorem climb_skips {hier : List HierRow} {trans : List (TranRow K)} {level : Int} {r : HierRow}
    (hroot : ∀ x ∈ hier, x.islevl < level → x.ihpref ≠ 0)
    (htr : ∀ x ∈ hier, x.islevl < level → ∃ t, TransOf trans x t) (hr : r ∈ hier)
    (h : Skips hier level r) :
    ∃ f0, ∀ fuel, f0 ≤ fuel → ∀ t, climb hier trans level fuel r t = .error .hierarchyError := by
  have hlow : ∀ {r}, Skips hier level r → r.islevl < level := by
    intro r h; cases h <;> assumption
  induction h with
  | @over r p hlt hp hgt =>
    refine ⟨1, fun fuel hf t => ?_⟩
    obtain ⟨f, rfl⟩ : ∃ f, fuel = f + 1 := ⟨fuel - 1, by omega⟩
    obtain ⟨t', ht⟩ := htr r hr hlt
    obtain ⟨x, hx, rfl⟩ := trans_row ht
    rw [climb, if_pos hlt, hx, bind_ok, if_pos (hroot r hr hlt), parent_row hp, bind_ok,
      if_pos hgt]
  | @up r p hlt hp hs ih =>
    obtain ⟨f0, hf0⟩ := ih hp.mem
    refine ⟨f0 + 1, fun fuel hf t => ?_⟩
    obtain ⟨f, rfl⟩ : ∃ f, fuel = f + 1 := ⟨fuel - 1, by omega⟩
    obtain ⟨t', ht⟩ := htr r hr hlt
    obtain ⟨x, hx, rfl⟩ := trans_row ht
    rw [climb, if_pos hlt, hx, bind_ok, if_pos (hroot r hr hlt), parent_row hp, bind_ok,
      if_neg (by have := hlow hs; omega), hf0 f (by omega)]

/-- a top level data object holds a hierarchy whose first row is on level `top` -/
structure HoldsHier (d : Top K) (hier : List HierRow) (trans : List (TranRow K)) (top : Int) :
    Prop where
  isOpen : d.isOpen = true
  hierarch : d.hierarch = some hier
  hsuptran : d.hsuptran = some trans
  first : (hier[0]?).map HierRow.islevl = some top

theorem getTransformation_eq {d : Top K} {hier : List HierRow} {trans : List (TranRow K)} {top : Int}
    (hd : HoldsHier d hier trans top) (fuel : Nat) (seltyp index : Int) (level : Level) :
    getTransformation d fuel seltyp index level =
      match level with
      | .top => pathMatrix hier trans fuel seltyp index top
      | .num n =>
        if n = 1 then .ok 1
        else if n > top then .error .hierarchyError
        else if n < 1 then .error .hierarchyError
        else pathMatrix hier trans fuel seltyp index n := by
  obtain ⟨x, hx, hl⟩ := Option.map_eq_some_iff.mp hd.first
  unfold getTransformation need
  rw [hd.isOpen, hd.hierarch, hd.hsuptran]
  simp only [if_true, bind_ok]
  have : npAt hier 0 = .ok x := npAt_nat (i := 0) hx
  rw [this, bind_ok, hl]
  rfl

/-- the levels that can be asked for -/
def LevelIs (top : Int) (level : Level) (n : Int) : Prop :=
  (level = .top ∧ n = top) ∨ (level = .num n ∧ 1 < n ∧ n ≤ top)

theorem path_eq {d : Top K} {hier : List HierRow} {trans : List (TranRow K)} {top : Int}
    (hd : HoldsHier d hier trans top) {fuel : Nat} {seltyp index : Int} {level : Level} {n : Int}
    (hl : LevelIs top level n) :
    getTransformation d fuel seltyp index level = pathMatrix hier trans fuel seltyp index n := by
  rw [getTransformation_eq hd]
  rcases hl with ⟨rfl, rfl⟩ | ⟨rfl, h1, h2⟩
  · rfl
  · simp only
    rw [if_neg (by omega), if_neg (by omega), if_neg (by omega)]

/-- **C33** The transformation from a superelement to a level above it is the product of the
transformations on the way.  (With enough steps of the loop; the number is not limited in the
code.) -/
theorem transformation_is_product {d : Top K} {hier : List HierRow} {trans : List (TranRow K)}
    {top : Int} (hd : HoldsHier d hier trans top) (hroot : ∀ x ∈ hier, x.islevl < top → x.ihpref ≠ 0)
    {seltyp index : Int} {level : Level} {n : Int} (hl : LevelIs top level n) {r : HierRow}
    (hr : FirstRow hier (fun x => x.iselty = seltyp ∧ x.indsel = index) r) (hlt : r.islevl < n)
    {m : Mat4 K} (hm : Up hier trans n r m) :
    ∃ f0, ∀ fuel, f0 ≤ fuel → getTransformation d fuel seltyp index level = .ok m := by
  have hn : n ≤ top := by rcases hl with ⟨_, rfl⟩ | ⟨_, _, h⟩ <;> omega
  cases hm with
  | here h => omega
  | @step _ p t m' _ ht hp hup =>
    obtain ⟨f0, hf⟩ := climb_up (fun x hx h => hroot x hx (by omega)) hp.mem hup
    refine ⟨f0, fun fuel hfu => ?_⟩
    obtain ⟨x, hx, rfl⟩ := trans_row ht
    rw [path_eq hd hl]
    unfold pathMatrix
    rw [getrow_ok (p := fun x => x.iselty = seltyp ∧ x.indsel = index) (by simp) hr, bind_ok, hx,
      bind_ok, parent_row hp, bind_ok, if_neg (by have := up_le hup; omega), hf fuel hfu]

/-- **C33** Level 1 is the identity; levels above the top level and below 1 raise
HierarchyError. -/
theorem level_out_of_range {d : Top K} {hier : List HierRow} {trans : List (TranRow K)}
    {top : Int} (hd : HoldsHier d hier trans top) (fuel : Nat) (seltyp index : Int) :
    getTransformation d fuel seltyp index (.num 1) = .ok 1 ∧
    ∀ n, n ≠ 1 → n > top ∨ n < 1 →
      getTransformation d fuel seltyp index (.num n) = .error .hierarchyError := by
  constructor
  · rw [getTransformation_eq hd]; rfl
  · intro n h1 h2
    rw [getTransformation_eq hd]
    simp only
    rw [if_neg h1]
    by_cases h : n > top
    · rw [if_pos h]
    · rw [if_neg h, if_pos (by omega)]

/-- **C33** A level that the way up goes past raises HierarchyError. -/
theorem level_not_on_path {d : Top K} {hier : List HierRow} {trans : List (TranRow K)}
    {top : Int} (hd : HoldsHier d hier trans top) (hw : WellFormed hier trans top)
    {seltyp index : Int} {level : Level} {n : Int} (hl : LevelIs top level n) {r : HierRow}
    (hr : FirstRow hier (fun x => x.iselty = seltyp ∧ x.indsel = index) r)
    (hs : Skips hier n r) :
    ∃ f0, ∀ fuel, f0 ≤ fuel →
      getTransformation d fuel seltyp index level = .error .hierarchyError := by
  have hn : n ≤ top := by rcases hl with ⟨_, rfl⟩ | ⟨_, _, h⟩ <;> omega
  have hlow : ∀ {r}, Skips hier n r → r.islevl < n := by
    intro r h; cases h <;> assumption
  have hr' := hr.mem
  have start : ∀ p, Parent hier r p → ∀ fuel,
      ∃ t, getTransformation d fuel seltyp index level =
        if p.islevl > n then .error .hierarchyError else climb hier trans n fuel p t := by
    intro p hp fuel
    obtain ⟨t, ht⟩ := hw.tran r hr' (by have := hlow hs; omega)
    obtain ⟨x, hx, rfl⟩ := trans_row ht
    refine ⟨x.t, ?_⟩
    rw [path_eq hd hl]
    unfold pathMatrix
    rw [getrow_ok (p := fun x => x.iselty = seltyp ∧ x.indsel = index) (by simp) hr, bind_ok, hx,
      bind_ok, parent_row hp, bind_ok]
  cases hs with
  | @over _ p hlt hp hgt =>
    refine ⟨0, fun fuel _ => ?_⟩
    obtain ⟨t, h⟩ := start p hp fuel
    rw [h, if_pos hgt]
  | @up _ p hlt hp hs' =>
    obtain ⟨f0, hf⟩ := climb_skips (trans := trans)
      (fun x hx h => (hw.parent x hx (by omega)).1)
      (fun x hx h => hw.tran x hx (by omega)) hp.mem hs'
    refine ⟨f0, fun fuel hfu => ?_⟩
    obtain ⟨t, h⟩ := start p hp fuel
    rw [h, if_neg (by have := hlow hs'; omega), hf fuel hfu]

/-- In a well formed hierarchy the way up from a superelement below a level either reaches the
level or goes past it, so that `transformation_is_product` and `level_not_on_path` cover every
such call. -/
theorem reaches_or_skips {hier : List HierRow} {trans : List (TranRow K)} {top : Int}
    (hw : WellFormed hier trans top) {n : Int} (hn : n ≤ top) {r : HierRow} (hr : r ∈ hier)
    (hlt : r.islevl < n) : (∃ m, Up hier trans n r m) ∨ Skips hier n r := by
  have : ∀ (k : Nat) (r : HierRow), r ∈ hier → r.islevl < n → n - r.islevl ≤ k →
      (∃ m, Up hier trans n r m) ∨ Skips hier n r := by
    intro k
    induction k with
    | zero => intro r _ h1 h2; omega
    | succ k ih =>
      intro r hr hlt hk
      obtain ⟨_, p, hp, hup⟩ := hw.parent r hr (by omega)
      obtain ⟨t, ht⟩ := hw.tran r hr (by omega)
      by_cases h1 : p.islevl = n
      · exact .inl ⟨_, .step hlt ht hp (.here h1)⟩
      · by_cases h2 : p.islevl > n
        · exact .inr (.over hlt hp h2)
        · rcases ih p hp.mem (by omega) (by omega) with ⟨m, hm⟩ | hs
          · exact .inl ⟨_, .step hlt ht hp hm⟩
          · exact .inr (.up hlt hp hs)
  exact this (n - r.islevl).toNat r hr hlt (by omega)

/-- the product is unique -/
theorem up_unique {hier : List HierRow} {trans : List (TranRow K)} {n : Int} {r : HierRow}
    {m m' : Mat4 K} (h : Up hier trans n r m) (h' : Up hier trans n r m') : m = m' := by
  induction h generalizing m' with
  | here h =>
    cases h' with
    | here _ => rfl
    | step h2 _ _ _ => omega
  | step h1 ht hp _ ih =>
    cases h' with
    | here h2 => omega
    | step _ ht' hp' hu' =>
      obtain ⟨x, hx, rfl⟩ := ht
      obtain ⟨y, hy, rfl⟩ := ht'
      rw [hx.unique hy]
      have := hp.unique hp'
      subst this
      rw [ih hu']

theorem climb_terminates {hier : List HierRow} {trans : List (TranRow K)} {top : Int}
    (hw : WellFormed hier trans top) {n : Int} (hn : n ≤ top) :
    ∀ (fuel : Nat) (r : HierRow), r ∈ hier → n - r.islevl < fuel → 0 < fuel → ∀ t,
      climb hier trans n fuel r t ≠ .error .outOfFuel := by
  intro fuel
  induction fuel with
  | zero => intro r _ _ h; omega
  | succ f ih =>
    intro r hr hk _ t
    rw [climb]
    by_cases hlt : r.islevl < n
    · obtain ⟨hne, p, hp, hup⟩ := hw.parent r hr (by omega)
      obtain ⟨t', ht⟩ := hw.tran r hr (by omega)
      obtain ⟨x, hx, rfl⟩ := trans_row ht
      rw [if_pos hlt, hx, bind_ok, if_pos hne, parent_row hp, bind_ok]
      by_cases hgt : p.islevl > n
      · rw [if_pos hgt]; simp
      · rw [if_neg hgt]
        exact ih p hp.mem (by omega) (by omega) _
    · rw [if_neg hlt]; simp

/-- **C33** `get_transformation` terminates in a well formed hierarchy, for all arguments: the loop
is left after at most as many steps as there are levels. -/
theorem transformation_terminates {d : Top K} {hier : List HierRow} {trans : List (TranRow K)}
    {top : Int} (hd : HoldsHier d hier trans top) (hw : WellFormed hier trans top)
    (hpos : ∀ r ∈ hier, 0 ≤ r.islevl) (seltyp index : Int) (level : Level) {fuel : Nat}
    (hf : top < fuel) :
    getTransformation d fuel seltyp index level ≠ .error .outOfFuel := by
  have hge : ∀ {β : Type} (rows : List β) f, getrow rows f ≠ .error .outOfFuel := by
    intro β rows f
    unfold getrow
    cases rows.find? f <;> simp
  have path : ∀ n, n ≤ top → pathMatrix hier trans fuel seltyp index n ≠ .error .outOfFuel := by
    intro n hn
    unfold pathMatrix
    cases h1 : getrow hier fun r => decide (r.iselty = seltyp) && decide (r.indsel = index) with
    | error e => 
      intro h
      have h' : (Except.error e : Except Err (Mat4 K)) = .error .outOfFuel := h
      injection h' with h'
      exact hge _ _ (h1.trans (by rw [h']))
    | ok r =>
      rw [bind_ok]
      cases h2 : getrow trans fun x => decide (x.itref = r.itref) with
      | error e => 
      intro h
      have h' : (Except.error e : Except Err (Mat4 K)) = .error .outOfFuel := h
      injection h' with h'
      exact hge _ _ (h2.trans (by rw [h']))
      | ok x =>
        rw [bind_ok]
        cases h3 : getrow hier fun x => decide (x.ihref = r.ihpref) with
        | error e => 
      intro h
      have h' : (Except.error e : Except Err (Mat4 K)) = .error .outOfFuel := h
      injection h' with h'
      exact hge _ _ (h3.trans (by rw [h']))
        | ok p =>
          rw [bind_ok]
          have hp : p ∈ hier := by
            unfold getrow at h3
            cases h4 : hier.find? fun x => decide (x.ihref = r.ihpref) with
            | none => rw [h4] at h3; cases h3
            | some q =>
              rw [h4] at h3
              have : q = p := Except.ok.inj h3
              rw [← this]
              exact List.mem_of_find?_eq_some h4
          by_cases h : p.islevl > n
          · rw [if_pos h]; simp
          · rw [if_neg h]
            exact climb_terminates hw hn fuel p hp (by have := hpos p hp; omega)
              (by have := hpos p hp; omega) _
  rw [getTransformation_eq hd]
  cases level with
  | top => exact path top le_rfl
  | num n =>
    simp only
    split
    · simp
    · split
      · simp
      · split
        · simp
        · exact path n (by omega)

/-- A superelement without parent below the requested level: the loop never ends. -/
theorem transformation_diverges {d : Top K} {hier : List HierRow} {trans : List (TranRow K)}
    {top : Int} (hd : HoldsHier d hier trans top) {seltyp index : Int} {level : Level} {n : Int}
    (hl : LevelIs top level n) {r p : HierRow}
    (hr : FirstRow hier (fun x => x.iselty = seltyp ∧ x.indsel = index) r) {t tp : Mat4 K}
    (ht : TransOf trans r t) (hp : Parent hier r p) (hlt : p.islevl < n) (h0 : p.ihpref = 0)
    (htp : TransOf trans p tp) (fuel : Nat) :
    getTransformation d fuel seltyp index level = .error .outOfFuel := by
  have loop : ∀ (fuel : Nat) t, climb hier trans n fuel p t = .error .outOfFuel := by
    intro fuel
    induction fuel with
    | zero => intro t; rfl
    | succ f ih =>
      intro t
      obtain ⟨x, hx, rfl⟩ := trans_row htp
      rw [climb, if_pos hlt, hx, bind_ok, if_neg (not_not.mpr h0), ih]
  obtain ⟨x, hx, rfl⟩ := trans_row ht
  rw [path_eq hd hl]
  unfold pathMatrix
  rw [getrow_ok (p := fun x => x.iselty = seltyp ∧ x.indsel = index) (by simp) hr, bind_ok, hx,
    bind_ok, parent_row hp, bind_ok, if_neg (by omega), loop]

/-- **C33** A superelement that is not in the hierarchy raises ConditionError (except for level 1
and levels out of range, which are not looked up). -/
theorem unknown_superelement {d : Top K} {hier : List HierRow} {trans : List (TranRow K)}
    {top : Int} (hd : HoldsHier d hier trans top) {seltyp index : Int} {level : Level} {n : Int}
    (hl : LevelIs top level n) (h : ∀ x ∈ hier, ¬ (x.iselty = seltyp ∧ x.indsel = index))
    (fuel : Nat) : getTransformation d fuel seltyp index level = .error .conditionError := by
  rw [path_eq hd hl]
  unfold pathMatrix
  rw [getrow_none (p := fun x => x.iselty = seltyp ∧ x.indsel = index) (by simp) h]; rfl

/-! ### example: three levels -/

namespace Demo

def shift (x : Int) : Mat4 Int := !![1, 0, 0, 0; 0, 1, 0, 0; 0, 0, 1, 0; x, 0, 0, 1]
def scale (x : Int) : Mat4 Int := !![x, 0, 0, 0; 0, x, 0, 0; 0, 0, x, 0; 0, 0, 0, 1]

/-- superelement 1, twice in superelement 10, which is in superelement 100 -/
def hier : List HierRow :=
  [⟨1, 100, 1, 3, 0, 0⟩, ⟨2, 10, 1, 2, 5, 1⟩, ⟨3, 1, 1, 1, 6, 2⟩, ⟨4, 1, 2, 1, 7, 2⟩]

def trans : List (TranRow Int) := [⟨5, scale 2⟩, ⟨6, shift 1⟩, ⟨7, shift 3⟩]

def top : Top Int where
  hierarch := some hier
  hsuptran := some trans

theorem holdsHier : HoldsHier top hier trans 3 := ⟨rfl, rfl, rfl, rfl⟩

theorem wellFormed : WellFormed hier trans 3 where
  parent := by
    intro r hr h
    simp only [hier, List.mem_cons, List.not_mem_nil, or_false] at hr
    rcases hr with rfl | rfl | rfl | rfl
    · simp at h
    · exact ⟨by decide, ⟨1, 100, 1, 3, 0, 0⟩, ⟨[], _, rfl, rfl, by simp⟩, by decide⟩
    · exact ⟨by decide, ⟨2, 10, 1, 2, 5, 1⟩, ⟨[_], _, rfl, rfl, by simp⟩, by decide⟩
    · exact ⟨by decide, ⟨2, 10, 1, 2, 5, 1⟩, ⟨[_], _, rfl, rfl, by simp⟩, by decide⟩
  tran := by
    intro r hr h
    simp only [hier, List.mem_cons, List.not_mem_nil, or_false] at hr
    rcases hr with rfl | rfl | rfl | rfl
    · simp at h
    · exact ⟨_, _, ⟨[], _, rfl, rfl, by simp⟩, rfl⟩
    · exact ⟨_, _, ⟨[_], _, rfl, rfl, by simp⟩, rfl⟩
    · exact ⟨_, _, ⟨[_, _], _, rfl, rfl, by simp⟩, rfl⟩
  le := by decide

theorem second : FirstRow hier (fun x => x.iselty = 1 ∧ x.indsel = 2) ⟨4, 1, 2, 1, 7, 2⟩ :=
  ⟨[_, _, _], _, rfl, ⟨rfl, rfl⟩, by simp⟩

theorem second_up : Up hier trans 3 ⟨4, 1, 2, 1, 7, 2⟩ (shift 3 * (scale 2 * 1)) :=
  .step (by decide) ⟨_, ⟨[_, _], _, rfl, rfl, by simp⟩, rfl⟩
    (p := ⟨2, 10, 1, 2, 5, 1⟩) ⟨[_], _, rfl, rfl, by simp⟩
    (.step (by decide) ⟨_, ⟨[], _, rfl, rfl, by simp⟩, rfl⟩
      (p := ⟨1, 100, 1, 3, 0, 0⟩) ⟨[], _, rfl, rfl, by simp⟩ (.here rfl))

/-- C33: first shifted, then scaled -/
example := transformation_is_product holdsHier (fun x hx h => (wellFormed.parent x hx h).1)
  (level := .top) (n := 3) (.inl ⟨rfl, rfl⟩) second (by decide) second_up
example := transformation_is_product holdsHier (fun x hx h => (wellFormed.parent x hx h).1)
  (level := .num 3) (n := 3) (.inr ⟨rfl, by decide, by decide⟩) second (by decide) second_up
example := transformation_terminates holdsHier wellFormed (by decide) 1 2 .top (fuel := 4) (by decide)
example := level_out_of_range holdsHier 0 1 1
example := unknown_superelement holdsHier (seltyp := 7) (index := 1) (level := .num 2)
  (.inr ⟨rfl, by decide, by decide⟩) (by decide) 9

/-- superelement 1 is directly in the top superelement of level 3, and not on level 2 -/
def hierSkip : List HierRow := [⟨1, 100, 1, 3, 0, 0⟩, ⟨3, 1, 1, 1, 6, 1⟩]

example := level_not_on_path (d := { hierarch := some hierSkip, hsuptran := some trans })
  (hier := hierSkip) (trans := trans) (top := 3) ⟨rfl, rfl, rfl, rfl⟩
  ⟨by
    intro r hr h
    simp only [hierSkip, List.mem_cons, List.not_mem_nil, or_false] at hr
    rcases hr with rfl | rfl
    · simp at h
    · exact ⟨by decide, ⟨1, 100, 1, 3, 0, 0⟩, ⟨[], _, rfl, rfl, by simp⟩, by decide⟩, by
    intro r hr h
    simp only [hierSkip, List.mem_cons, List.not_mem_nil, or_false] at hr
    rcases hr with rfl | rfl
    · simp at h
    · exact ⟨_, _, ⟨[_], _, rfl, rfl, by simp⟩, rfl⟩, by decide⟩
  (seltyp := 1) (index := 1) (level := .num 2) (n := 2) (.inr ⟨rfl, by decide, by decide⟩)
  (r := ⟨3, 1, 1, 1, 6, 1⟩) ⟨[_], _, rfl, ⟨rfl, rfl⟩, by simp⟩
  (.over (by decide) (p := ⟨1, 100, 1, 3, 0, 0⟩) ⟨[], _, rfl, rfl, by simp⟩ (by decide))

/-- superelement 10 of level 2 has no parent -/
def hierLost : List HierRow := [⟨1, 100, 1, 3, 0, 0⟩, ⟨2, 10, 1, 2, 5, 0⟩, ⟨3, 1, 1, 1, 6, 2⟩]

example := transformation_diverges (d := { hierarch := some hierLost, hsuptran := some trans })
  (hier := hierLost) (trans := trans) (top := 3) ⟨rfl, rfl, rfl, rfl⟩
  (seltyp := 1) (index := 1) (level := .top) (n := 3) (.inl ⟨rfl, rfl⟩)
  (r := ⟨3, 1, 1, 1, 6, 2⟩) ⟨[_, _], _, rfl, ⟨rfl, rfl⟩, by simp⟩
  ⟨_, ⟨[_], _, rfl, rfl, by simp⟩, rfl⟩ (p := ⟨2, 10, 1, 2, 5, 0⟩) ⟨[_], _, rfl, rfl, by simp⟩
  (by decide) rfl ⟨_, ⟨[], _, rfl, rfl, by simp⟩, rfl⟩

end Demo

/-! ## C34: transformed coordinates -/

/-- **C34** with a matrix: every point `(x, y, z)` is mapped to the first three entries of
`(x, y, z, 1) · T`. -/
theorem nodes_transformed {d : Struc K} {m : Mesh K} (hd : Holds d m) (hv : Valid m)
    {sets : SetsArg} (hs : NoSets sets ∨ HoldsSets d m) {kind : Option String} {es : List Nat}
    (hc : Chosen m sets kind es) {l : List Element} (hl : Elements m es l)
    (hne : l ≠ [] ∨ NoSelection sets kind) {disc : Bool} {ns : List Nat}
    (hn : ChosenNodes m sets kind l disc ns) (fuel : Nat) (index : Int) {tr : TransArg K}
    {t : Mat4 K} (ht : resolveTrans d fuel tr index = .ok (some t)) :
    ∃ coords out, getNodes d fuel sets kind disc .none index = .ok coords ∧
      getNodes d fuel sets kind disc tr index = .ok out ∧
      List.Forall₂ (fun p q =>
        q.x = p.x * t 0 0 + p.y * t 1 0 + p.z * t 2 0 + t 3 0 ∧
        q.y = p.x * t 0 1 + p.y * t 1 1 + p.z * t 2 1 + t 3 1 ∧
        q.z = p.x * t 0 2 + p.y * t 1 2 + p.z * t 2 2 + t 3 2) coords out := by
  obtain ⟨coords, h1, h2⟩ := getNodes_ok hd hv hs hc hl hne hn fuel index
  refine ⟨coords, coords.map (applyMatrix t), h1, ?_, ?_⟩
  · unfold getNodes at h1 ⊢
    obtain ⟨g, hg, h1⟩ := bind_eq_ok.mp h1
    obtain ⟨is, hi, h1⟩ := bind_eq_ok.mp h1
    obtain ⟨cs, hcs, h1⟩ := bind_eq_ok.mp h1
    have h0 : resolveTrans d fuel .none index = .ok Option.none := rfl
    rw [h0, bind_ok] at h1
    have : cs = coords := Except.ok.inj h1
    subst this
    rw [hg, bind_ok, hi, bind_ok, hcs, bind_ok, ht, bind_ok]
  · rw [List.forall₂_map_right_iff, List.forall₂_same]
    intro p _
    unfold applyMatrix Matrix.vecMul dotProduct
    simp only [Fin.sum_univ_four, Matrix.cons_val_zero, Matrix.cons_val_one, Matrix.cons_val]
    simp

/-- what `trans` means: a matrix itself; for an object with a reference to the top level the matrix
of `get_transformation`; for a results file with the record RSUPTRAN `'top'` its first matrix -/
theorem trans_meaning (d : Struc K) (fuel : Nat) (index : Int) :
    (∀ t, resolveTrans d fuel (.mat t) index = .ok (some t)) ∧
    (∀ top n t, d.toplevel = some top →
      getTransformation top fuel d.seltyp (if d.filetype = "R" then d.index else index) (.num n) =
        .ok t → resolveTrans d fuel (.level n) index = .ok (some t)) ∧
    (∀ top t, d.toplevel = some top →
      getTransformation top fuel d.seltyp (if d.filetype = "R" then d.index else index) .top =
        .ok t → resolveTrans d fuel (.text "top") index = .ok (some t)) ∧
    (∀ r rows, d.toplevel = none → d.isOpen = true → "RSUPTRAN" ∈ d.recNames →
      d.rsuptran = some (r :: rows) → resolveTrans d fuel (.text "top") index = .ok (some r.t)) := by
  refine ⟨fun t => rfl, ?_, ?_, ?_⟩
  · intro top n t h1 h2
    unfold resolveTrans
    simp only [h1, h2]; rfl
  · intro top t h1 h2
    unfold resolveTrans
    simp only [h1, h2, if_true]; rfl
  · intro r rows h1 h2 h3 h4
    unfold resolveTrans need
    simp only [h1, h2, h3, h4, if_true, and_self, bind_ok]
    rfl

/-- **C34** (partial: the reference to the top level is never set by the code, see
`level_unavailable`.)  If the object has a reference to the top level object, then
`get_nodes(trans=level)` gives the coordinates transformed with the product of the transformations
up to that level. -/
theorem nodes_on_level_partial {d : Struc K} {m : Mesh K} (hd : Holds d m) (hv : Valid m)
    {sets : SetsArg} (hs : NoSets sets ∨ HoldsSets d m) {kind : Option String} {es : List Nat}
    (hc : Chosen m sets kind es) {l : List Element} (hl : Elements m es l)
    (hne : l ≠ [] ∨ NoSelection sets kind) {disc : Bool} {ns : List Nat}
    (hn : ChosenNodes m sets kind l disc ns) (index : Int)
    {top : Top K} (htop : d.toplevel = some top) {hier : List HierRow} {trans : List (TranRow K)}
    {lev : Int} (hh : HoldsHier top hier trans lev)
    (hroot : ∀ x ∈ hier, x.islevl < lev → x.ihpref ≠ 0) {n : Int} (hlev : 1 < n ∧ n ≤ lev)
    {r : HierRow} (hr : FirstRow hier (fun x => x.iselty = d.seltyp ∧
      x.indsel = if d.filetype = "R" then d.index else index) r)
    (hlt : r.islevl < n) {t : Mat4 K} (hm : Up hier trans n r t) :
    ∃ f0, ∀ fuel, f0 ≤ fuel → ∃ coords out, getNodes d fuel sets kind disc .none index = .ok coords ∧
      getNodes d fuel sets kind disc (.level n) index = .ok out ∧
      List.Forall₂ (fun p q =>
        q.x = p.x * t 0 0 + p.y * t 1 0 + p.z * t 2 0 + t 3 0 ∧
        q.y = p.x * t 0 1 + p.y * t 1 1 + p.z * t 2 1 + t 3 1 ∧
        q.z = p.x * t 0 2 + p.y * t 1 2 + p.z * t 2 2 + t 3 2) coords out := by
  obtain ⟨f0, hf⟩ := transformation_is_product hh hroot (.inr ⟨rfl, hlev.1, hlev.2⟩) hr hlt hm
  refine ⟨f0, fun fuel hfu => ?_⟩
  exact nodes_transformed hd hv hs hc hl hne hn fuel index
    ((trans_meaning d fuel index).2.1 top n t htop (hf fuel hfu))

/-- **C34** is false of the code: objects have no reference to the top level (the constructor of
`FirstLevelData` hands it to the base class as the file, strucdata.py:324-325), so that
`get_nodes(trans=level)` raises HierarchyError for every selection; `'top'` works only with the
record RSUPTRAN. -/
theorem level_unavailable {d : Struc K} {m : Mesh K} (hd : Holds d m) (hv : Valid m)
    {sets : SetsArg} (hs : NoSets sets ∨ HoldsSets d m) {kind : Option String} {es : List Nat}
    (hc : Chosen m sets kind es) {l : List Element} (hl : Elements m es l)
    (hne : l ≠ [] ∨ NoSelection sets kind) {disc : Bool} {ns : List Nat}
    (hn : ChosenNodes m sets kind l disc ns) (htop : d.toplevel = none) (fuel : Nat) (index : Int) :
    (∀ n, getNodes d fuel sets kind disc (.level n) index = .error .hierarchyError) ∧
    ∀ s, s ≠ "top" ∨ "RSUPTRAN" ∉ d.recNames →
      getNodes d fuel sets kind disc (.text s) index = .error .hierarchyError := by
  obtain ⟨coords, h1, h2⟩ := getNodes_ok hd hv hs hc hl hne hn fuel index
  unfold getNodes at h1
  obtain ⟨g, hg, h1⟩ := bind_eq_ok.mp h1
  obtain ⟨is, hi, h1⟩ := bind_eq_ok.mp h1
  obtain ⟨cs, hcs, h1⟩ := bind_eq_ok.mp h1
  have key : ∀ tr, resolveTrans d fuel tr index = .error .hierarchyError →
      getNodes d fuel sets kind disc tr index = .error .hierarchyError := by
    intro tr h
    unfold getNodes
    rw [hg, bind_ok, hi, bind_ok, hcs, bind_ok, h]; rfl
  constructor
  · intro n
    apply key
    unfold resolveTrans
    rw [htop]
  · intro s hsx
    apply key
    unfold resolveTrans
    simp only [htop]
    rw [if_neg (by rintro ⟨a, b⟩; rcases hsx with h | h; exact h b; exact h a)]

/-- **C34** What `get_nodes` raises for other values of `trans`, whenever it gives coordinates without
it: `ValueError` for an array of another shape (`IndexError` if it has less than two dimensions) and,
with a reference to the top level, for another string than `'top'`; exceptions of
`get_transformation` are passed on; an empty record RSUPTRAN gives `IndexError`. -/
theorem trans_refused {d : Struc K} {fuel : Nat} {sets : SetsArg} {kind : Option String} {disc : Bool}
    {index : Int} {coords : List (XYZ K)} (h1 : getNodes d fuel sets kind disc .none index = .ok coords) :
    (∀ shape : List Nat, 2 ≤ shape.length →
      getNodes d fuel sets kind disc (.array shape) index = .error .valueError) ∧
    (∀ shape : List Nat, shape.length < 2 →
      getNodes d fuel sets kind disc (.array shape) index = .error .indexError) ∧
    (∀ top s, d.toplevel = some top → s ≠ "top" →
      getNodes d fuel sets kind disc (.text s) index = .error .valueError) ∧
    (∀ top e, d.toplevel = some top →
      getTransformation top fuel d.seltyp (if d.filetype = "R" then d.index else index) .top =
        .error e → getNodes d fuel sets kind disc (.text "top") index = .error e) ∧
    (∀ top n e, d.toplevel = some top →
      getTransformation top fuel d.seltyp (if d.filetype = "R" then d.index else index) (.num n) =
        .error e → getNodes d fuel sets kind disc (.level n) index = .error e) ∧
    (d.toplevel = none → "RSUPTRAN" ∈ d.recNames → d.rsuptran = some [] →
      getNodes d fuel sets kind disc (.text "top") index = .error .indexError) := by
  unfold getNodes at h1
  obtain ⟨g, hg, h1⟩ := bind_eq_ok.mp h1
  obtain ⟨is, hi, h1⟩ := bind_eq_ok.mp h1
  obtain ⟨cs, hcs, h1⟩ := bind_eq_ok.mp h1
  have key : ∀ tr e, resolveTrans d fuel tr index = .error e →
      getNodes d fuel sets kind disc tr index = .error e := by
    intro tr e h
    unfold getNodes
    rw [hg, bind_ok, hi, bind_ok, hcs, bind_ok, h]; rfl
  refine ⟨fun shape hl => key _ _ ?_, fun shape hl => key _ _ ?_, fun top s ht hs => key _ _ ?_,
    fun top e ht he => key _ _ ?_, fun top n e ht he => key _ _ ?_, fun ht hr he => key _ _ ?_⟩
  · unfold resolveTrans
    simp only [if_neg (Nat.not_lt.mpr hl)]
  · unfold resolveTrans
    simp only [if_pos hl]
  · unfold resolveTrans
    simp only [ht, if_neg hs]
  · unfold resolveTrans
    simp only [ht, he, if_true]; rfl
  · unfold resolveTrans
    simp only [ht, he]; rfl
  · have ho : d.isOpen = true := by
      unfold need at hg
      split at hg
      · assumption
      · cases hg
    unfold resolveTrans need
    simp only [ht, hr, he, ho, if_true, and_self, bind_ok]
    rfl

namespace Demo

/-- the example mesh as superelement 1, shifted by a matrix -/
example := nodes_transformed holds valid (.inr holdsSets) chosenA elementsA (.inl (by simp)) placesA
  0 1 (tr := .mat (shift 3)) rfl
example : getNodes object 0 .none none false (.mat (shift 3)) 1 =
    .ok [⟨3, 0, 0⟩, ⟨4, 0, 0⟩, ⟨4, 1, 0⟩, ⟨3, 1, 0⟩, ⟨3, 0, 5⟩, ⟨10, 7, 7⟩] := by decide +kernel
example := trans_refused (d := object) (fuel := 0) (sets := .none) (kind := none) (disc := false)
  (index := 1) (coords := [⟨0, 0, 0⟩, ⟨1, 0, 0⟩, ⟨1, 1, 0⟩, ⟨0, 1, 0⟩, ⟨0, 0, 5⟩, ⟨7, 7, 7⟩])
  (by decide +kernel)
example := level_unavailable holds valid (.inr holdsSets) chosenA elementsA (.inl (by simp)) placesA
  rfl 5 1
example := nodes_on_level_partial (d := { object with toplevel := some top })
  ⟨rfl, holds.nodes, holds.coords, holds.elems⟩ valid (.inr ⟨holdsSets.names, holdsSets.sets⟩)
  chosenA elementsA (.inl (by simp)) placesA 2 rfl holdsHier
  (fun x hx h => (wellFormed.parent x hx h).1) (n := 3) ⟨by decide, by decide⟩ second (by decide)
  second_up

end Demo

end Verif.Data
