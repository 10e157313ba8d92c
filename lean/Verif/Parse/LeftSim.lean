import Verif.Parse.Left
import Verif.Parse.RefuseRun
/-!
# What a conversion leaves behind does not depend on the kind of file
-/

namespace Verif.Parse
open Verif Verif.Seq

section
variable {σ : Type} {R : Reader σ} {sk : LRec → Bool} {rel : σ → LState → Prop}

/-- if the program raises on the logical file, `R` raises the same -/
def NS {σ α : Type} (R : Reader σ) (sk : LRec → Bool) (rel : σ → LState → Prop) (p : Prog α)
    (t : LState) : Prop :=
  ∀ e, Prog.run (L.reader sk) p t = .error e → Tells R sk rel e

theorem NS.first {α β : Type} {p : Prog α} {f : α → Prog β} {t : LState}
    (h : NS R sk rel (p.bind f) t) : NS R sk rel p t :=
  fun e he => h e (Prog.run_bind_error he)

theorem NS.next {α β : Type} {p : Prog α} {f : α → Prog β} {t t' : LState} {a : α}
    (h : NS R sk rel (p.bind f) t) (hr : Prog.run (L.reader sk) p t = .ok (a, t')) : NS R sk rel (f a) t' :=
  fun e he => h e (by rw [Prog.run_bind_ok hr]; exact he)

theorem sim_cases {α : Type} (hsim : Simulates R (L.reader sk) rel) {p : Prog α} {s : σ}
    {t : LState} (hr : rel s t) (h : NS R sk rel p t) :
    (∃ a s' t', Prog.run (L.reader sk) p t = .ok (a, t') ∧ Prog.run R p s = .ok (a, s') ∧ rel s' t') ∨
    ∃ e, Prog.run (L.reader sk) p t = .error e ∧ Prog.run R p s = .error e := by
  cases hp : Prog.run (L.reader sk) p t with
  | error e => exact .inr ⟨e, rfl, run_sim_error hsim p hr (h e hp) hp⟩
  | ok x =>
    obtain ⟨a, t'⟩ := x
    obtain ⟨s', h1, h2⟩ := Prog.run_sim hsim p hr hp
    exact .inl ⟨a, s', t', rfl, h1, h2⟩

variable (hsim : Simulates R (L.reader sk) rel)
include hsim

theorem loopLeft_sim {B : Nat} {body : Body} {name : String} :
    ∀ (fuel : Nat) {w : Work} {env : Env} {h : String × List PyF} {s : σ} {t : LState}, rel s t →
      NS R sk rel (loop B body name fuel w env h) t →
      loopLeft R B body name fuel w env h s = loopLeft (L.reader sk) B body name fuel w env h t
  | 0, w, env, h, s, t, _, _ => rfl
  | fuel + 1, w, env, h, s, t, hr, hn => by
    simp only [loop] at hn
    simp only [loopLeft]
    by_cases hh : h.1 = name
    · rw [if_pos hh] at hn
      rw [if_pos hh, if_pos hh]
      rcases sim_cases hsim hr hn.first with ⟨a, s', t', h1, h2, hr'⟩ | ⟨e, h1, h2⟩
      · rw [h1, h2]
        have hn1 := hn.next h1
        dsimp only
        cases hw : w.add B a.2 with
        | error e => rfl
        | ok w' =>
          dsimp only
          have hn2 := hn1.next (Prog.run_lift_ok hw)
          rcases sim_cases hsim hr' hn2.first with ⟨a', s2, t2, h3, h4, hr2⟩ | ⟨e, h3, h4⟩
          · rw [h3, h4]
            exact loopLeft_sim fuel hr2 (hn2.next h3)
          · rw [h3, h4]
      · rw [h1, h2]
    · rw [if_neg hh, if_neg hh]

theorem blockLeft_sim {B fuel : Nat} {check : List PyF → Except Err Unit} {body : Body}
    {st : St} {h : String × List PyF} {s : σ} {t : LState} (hr : rel s t)
    (hn : NS R sk rel (blockReader B fuel check body st h) t) :
    blockLeft R B fuel check body st h s = blockLeft (L.reader sk) B fuel check body st h t := by
  unfold blockReader at hn
  unfold blockLeft
  cases hc : check h.2 with
  | error e => rfl
  | ok u =>
    dsimp only
    have hn1 := hn.next (Prog.run_lift_ok hc)
    cases ht : getTable h.1 st with
    | error e => rfl
    | ok a =>
      dsimp only
      rw [loopLeft_sim hsim fuel hr (hn1.next (Prog.run_lift_ok ht)).first]

theorem hierarchLeft_sim {B fuel : Nat} {st : St} {h : String × List PyF} {s : σ} {t : LState}
    (hr : rel s t) (hn : NS R sk rel (hierarchReader B fuel st h) t) :
    hierarchLeft R B fuel st h s = hierarchLeft (L.reader sk) B fuel st h t := by
  unfold hierarchReader at hn
  unfold hierarchLeft
  have hn0 : NS R sk rel (Prog.bind (floats 4) fun rec2 =>
      Prog.bind (intAt h.2 2) fun n => .ret (rec2, n)) t := by
    intro e he
    cases hp : Prog.run (L.reader sk) (floats 4) t with
    | error e' => rw [Prog.run_bind_error hp] at he; cases he; exact hn.first e hp
    | ok x =>
      rw [Prog.run_bind_ok (a := x.1) (s' := x.2) hp] at he
      have hn1 := (hn.next (a := x.1) (t' := x.2) hp).first
      cases hq : Prog.run (L.reader sk) (intAt h.2 2) x.2 with
      | error e' => rw [Prog.run_bind_error hq] at he; cases he; exact hn1 e hq
      | ok y => rw [Prog.run_bind_ok (a := y.1) (s' := y.2) hq] at he; cases he
  rcases sim_cases hsim hr hn0 with ⟨a, s1, t1, h1, h2, hr1⟩ | ⟨e, h1, h2⟩
  swap
  · rw [h1, h2]
  rw [h1, h2]
  obtain ⟨rec2, n⟩ := a
  dsimp only
  obtain ⟨x, t0, k1, k2⟩ : ∃ x t0, Prog.run (L.reader sk) (floats 4) t = .ok (x, t0) ∧
      Prog.run (L.reader sk) (Prog.bind (intAt h.2 2) fun n => .ret (x, n)) t0 =
        .ok ((rec2, n), t1) := by
    rw [Prog.run_bind] at h1
    cases hp : Prog.run (L.reader sk) (floats 4) t with
    | error e' => rw [hp] at h1; cases h1
    | ok x => rw [hp] at h1; exact ⟨x.1, x.2, rfl, h1⟩
  have hn1 := hn.next k1
  rw [Prog.run_bind] at k2
  cases hq : Prog.run (L.reader sk) (intAt h.2 2) t0 with
  | error e' => rw [hq] at k2; cases k2
  | ok y =>
    rw [hq] at k2
    cases k2
    have hn2 := hn1.next (a := y.1) (t' := y.2) hq
    cases ht : getTable h.1 { st with g := { st.g with currentSeltyp := some y.1 } } with
    | error e => rfl
    | ok a =>
      dsimp only
      have hn3 := hn2.next (Prog.run_lift_ok ht)
      rcases sim_cases hsim hr1 hn3.first with ⟨e, s2, t2, h3, h4, hr2⟩ | ⟨e, h3, h4⟩
      swap
      · rw [h3, h4]
      rw [h3, h4]
      dsimp only
      have hn4 := hn3.next h3
      cases hw : (Work.open a.2.2).add B e with
      | error e' => rfl
      | ok w1 =>
        dsimp only
        have hn5 := hn4.next (Prog.run_lift_ok hw)
        rcases sim_cases hsim hr2 hn5.first with ⟨e', s3, t3, h5, h6, hr3⟩ | ⟨e', h5, h6⟩
        swap
        · rw [h5, h6]
        rw [h5, h6]
        dsimp only
        rw [loopLeft_sim hsim fuel hr3 (hn5.next h5).first]

theorem identLeft_sim {st : St} {h : String × List PyF} {s : σ} {t : LState}
    (hr : rel s t) (hn : NS R sk rel (identReader st h) t) :
    identLeft R st h s = identLeft (L.reader sk) st h t := by
  unfold identReader at hn
  unfold identLeft
  have run_intAt : ∀ {τ : Type} (S : Reader τ) (i : Nat) (u : τ),
      Prog.run S (intAt h.2 i) u =
        match (do let x ← pyIdx h.2 i; x.toInt) with
        | .error e => .error e
        | .ok k => .ok (k, u) := by
    intro τ S i u
    unfold intAt idx int
    rw [Prog.run_bind, Prog.run_lift]
    cases pyIdx h.2 i with
    | error e => rfl
    | ok x => simp only [bind, Except.bind]; rw [Prog.run_lift]; cases x.toInt <;> rfl
  have three : ∀ {τ : Type} (S : Reader τ) (u : τ),
      (Prog.run S (Prog.bind (intAt h.2 0) fun x => Prog.bind (intAt h.2 1) fun y =>
          Prog.bind (intAt h.2 2) fun z => .ret (x, y, z)) u).map (·.1) =
      (do
        let x ← (do let x ← pyIdx h.2 0; x.toInt)
        let y ← (do let x ← pyIdx h.2 1; x.toInt)
        let z ← (do let x ← pyIdx h.2 2; x.toInt)
        .ok (x, y, z)) := by
    intro τ S u
    rw [Prog.run_bind, run_intAt]
    generalize (do let x ← pyIdx h.2 0; x.toInt) = a0
    cases a0 with
    | error e => rfl
    | ok x =>
      dsimp only
      rw [Prog.run_bind, run_intAt]
      generalize (do let x ← pyIdx h.2 1; x.toInt) = a1
      cases a1 with
      | error e => rfl
      | ok y =>
        dsimp only
        rw [Prog.run_bind, run_intAt]
        generalize (do let x ← pyIdx h.2 2; x.toInt) = a2
        cases a2 <;> rfl
  rcases sim_cases hsim hr hn.first with ⟨st0, s1, t1, h1, h2, hr1⟩ | ⟨e, h1, h2⟩
  swap
  · rw [h1, h2]
  rw [h1, h2]
  dsimp only
  cases ht : getTable h.1 st0 with
  | error e => rfl
  | ok a =>
    dsimp only
    have e1 := (three R s).trans (three (L.reader sk) t).symm
    revert e1
    generalize Prog.run R _ s = x
    generalize Prog.run (L.reader sk) _ t = y
    intro e1
    cases x with
    | error e => cases y with
      | error e' => rfl
      | ok y => cases e1
    | ok x => cases y with
      | error e' => cases e1
      | ok y =>
        simp only [Except.map, Except.ok.injEq] at e1
        obtain ⟨⟨x1, x2, x3⟩, xs⟩ := x
        obtain ⟨⟨y1, y2, y3⟩, ys⟩ := y
        simp only at e1
        cases e1
        rfl

theorem generalLeft_sim {B fuel : Nat} {st : St} {h : String × List PyF} {s : σ} {t : LState}
    (hr : rel s t) (hn : NS R sk rel (generalParser B fuel st h) t) :
    generalLeft R B fuel st h s = generalLeft (L.reader sk) B fuel st h t := by
  unfold generalParser at hn
  unfold generalLeft
  cases hh : h.2 with
  | nil => rfl
  | cons x l =>
    dsimp only
    have hx : Prog.run (L.reader sk) (idx h.2 0) t = .ok (x, t) := by
      rw [hh]; rfl
    have hn1 := hn.next hx
    by_cases hz : x.ltZero = true
    · rw [if_pos hz, if_pos hz]
    · rw [if_neg hz] at hn1
      rw [if_neg hz, if_neg hz]
      cases hrd : readers h.1 with
      | none => rfl
      | some rd =>
        rw [hrd] at hn1
        dsimp only at hn1 ⊢
        cases rd with
        | block check body => exact blockLeft_sim hsim hr hn1
        | hierarch => exact hierarchLeft_sim hsim hr hn1
        | ident => exact identLeft_sim hsim hr hn1
        | irecsize => rfl
        | iend => rfl

theorem parseLoopLeft_sim {B fuel : Nat} {only : Option (List String)} :
    ∀ (n : Nat) {st : St} {x : Option (String × List PyF)} {s : σ} {t : LState}, rel s t →
      NS R sk rel (parseLoop B only fuel n st x) t →
      parseLoopLeft R B only fuel n st x s = parseLoopLeft (L.reader sk) B only fuel n st x t
  | 0, st, x, s, t, _, _ => by simp only [parseLoopLeft]
  | n + 1, st, none, s, t, _, _ => by simp only [parseLoopLeft]
  | n + 1, st, some h, s, t, hr, hn => by
    simp only [parseLoop] at hn
    simp only [parseLoopLeft]
    by_cases h1 : h.1 = ""
    · rw [if_pos h1, if_pos h1]
    rw [if_neg h1] at hn
    rw [if_neg h1, if_neg h1]
    by_cases h2 : selected only h.1 = true
    · rw [if_pos h2] at hn
      rw [if_pos h2, if_pos h2]
      rcases sim_cases hsim hr hn.first with ⟨a, s1, t1, k1, k2, hr1⟩ | ⟨e, k1, k2⟩
      · rw [k1, k2]
        exact parseLoopLeft_sim n hr1 (hn.next k1)
      · rw [k1, k2]
        exact generalLeft_sim hsim hr hn.first
    · rw [if_neg h2] at hn
      rw [if_neg h2, if_neg h2]
      rcases sim_cases hsim hr hn.first with ⟨a, s1, t1, k1, k2, hr1⟩ | ⟨e, k1, k2⟩
      · rw [k1, k2]
        exact parseLoopLeft_sim n hr1 (hn.next k1)
      · rw [k1, k2]

theorem fileLeft_sim {B fuel : Nat} {only : Option (List String)} {st : St} {s : σ} {t : LState}
    (hr : rel s t) (hn : NS R sk rel (parseFile B fuel only st) t) :
    fileLeft R B fuel only st s = fileLeft (L.reader sk) B fuel only st t := by
  unfold parseFile at hn
  unfold fileLeft
  rcases sim_cases hsim hr hn.first with ⟨a, s1, t1, k1, k2, hr1⟩ | ⟨e, k1, k2⟩
  swap
  · rw [k1, k2]
  rw [k1, k2]
  dsimp only
  have hn1 := hn.next k1
  rcases sim_cases hsim hr1 hn1.first with ⟨a', s2, t2, k3, k4, hr2⟩ | ⟨e, k3, k4⟩
  · rw [k3, k4]
  · rw [k3, k4]
    exact parseLoopLeft_sim hsim fuel hr1 hn1.first

end

/-- the same for a file of either kind with the records `f` -/
theorem sourceLeft_of {D : Dec} {sk : LRec → Bool} {only : Option (List String)} {st : St}
    {f : List LRec} {e : Err} {P : Left → Prop} (he : e ≠ .outOfFuel) (B : Nat)
    (h : ∀ fuel, f.length < fuel →
      Prog.run (L.reader sk) (parseFile B fuel only st) (L.openFile f) = .error e ∧
      P (fileLeft (L.reader sk) B fuel only st (L.openFile f)))
    {src : Source} (henc : EncodedTo D sk f e src) : P (sourceLeft D B only st src) := by
  have key : ∀ {z c bs}, U.Encodes D sk z f bs → Tells (U.reader D) sk (U.Rel D sk z) e →
      P (sourceLeft D B only st (.unformatted (c :: bs))) := by
    intro z c bs henc he
    have hlen := henc.length_le
    obtain ⟨h1, h2⟩ := h ((c :: bs).length + 2) (by simp; omega)
    have := fileLeft_sim (U.simulates D sk z) (B := B) (only := only) (st := st)
      (fuel := (c :: bs).length + 2) (U.rel_open c henc) (fun e' h' => by
      rw [h1] at h'; cases h'; exact he)
    rw [← this] at h2
    exact h2
  cases henc with
  | ends henc => exact key henc (tells_unformatted D sk he)
  | stops henc hs =>
  cases henc with
  | unformatted henc => exact key henc (tells_other he hs)
  | @formatted z t henc =>
    have hlen := henc.length_le
    obtain ⟨h1, h2⟩ := h (t.length + 2) (by omega)
    have := fileLeft_sim (T.simulates D sk z) (B := B) (only := only) (st := st)
      (fuel := t.length + 2) (T.rel_open henc) (fun e' h' => by
      rw [h1] at h'; cases h'; exact tells_other he hs)
    rw [← this] at h2
    exact h2

theorem sourceLeft_eq {D : Dec} {sk : LRec → Bool} {only : Option (List String)} {st : St}
    {f : List LRec} {e : Err} {k : Left} (he : e ≠ .outOfFuel) (B : Nat)
    (h : ∀ fuel, f.length < fuel →
      Prog.run (L.reader sk) (parseFile B fuel only st) (L.openFile f) = .error e ∧
      fileLeft (L.reader sk) B fuel only st (L.openFile f) = k)
    {src : Source} (henc : EncodedTo D sk f e src) : sourceLeft D B only st src = k :=
  sourceLeft_of he B (P := (· = k)) h henc

end Verif.Parse
