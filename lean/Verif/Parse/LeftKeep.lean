import Verif.Parse.Left
/-!
# Tables of the output file that a conversion does not touch
-/

namespace Verif.Parse
open Verif Verif.Seq

/-- every table of `h` is in `h'`, unchanged, and so is every group, but for its attributes -/
structure Keeps (h h' : H5) : Prop where
  tables : ∀ k t, h.tabs k = some t → h'.tabs k = some t
  groups : ∀ q a, h.groups q = some a → ∃ a', h'.groups q = some a'

theorem Keeps.refl (h : H5) : Keeps h h := ⟨fun _ _ h => h, fun _ a h => ⟨a, h⟩⟩

theorem Keeps.trans {h1 h2 h3 : H5} (a : Keeps h1 h2) (b : Keeps h2 h3) : Keeps h1 h3 :=
  ⟨fun k t h => b.tables k t (a.tables k t h), fun q x h =>
    let ⟨y, hy⟩ := a.groups q x h
    b.groups q y hy⟩

theorem run_bind_inv {σ α β : Type} {R : Reader σ} {p : Prog α} {f : α → Prog β} {s s2 : σ} {b : β}
    (h : Prog.run R (p.bind f) s = .ok (b, s2)) :
    ∃ a s1, Prog.run R p s = .ok (a, s1) ∧ Prog.run R (f a) s1 = .ok (b, s2) := by
  rw [Prog.run_bind] at h
  cases hp : Prog.run R p s with
  | error e => rw [hp] at h; cases h
  | ok x =>
    rw [hp] at h
    exact ⟨x.1, x.2, rfl, h⟩

theorem run_lift_inv {σ α : Type} {R : Reader σ} {x : Except Err α} {s s2 : σ} {b : α}
    (h : Prog.run R (Prog.lift x) s = .ok (b, s2)) : x = .ok b ∧ s2 = s := by
  rw [Prog.run_lift] at h
  cases x with
  | error e => cases h
  | ok a => cases h; exact ⟨rfl, rfl⟩

/-- state of a conversion that keeps `h0`: the tables in use are new ones -/
structure KInv (h0 : H5) (st : St) : Prop where
  keeps : Keeps h0 st.h5
  new : ∀ n p, st.g.tables n = some p → h0.tabs (p, n) = none

variable {h0 : H5}

theorem KInv.put {st : St} (i : KInv h0 st) {p : Path} {n : String} (hn : h0.tabs (p, n) = none)
    (t : Tab) : Keeps h0 (st.h5.put p n t) := by
  refine ⟨fun k t' h => ?_, i.keeps.groups⟩
  show (if k = (p, n) then some t else st.h5.tabs k) = some t'
  by_cases hk : k = (p, n)
  · subst hk
    rw [hn] at h
    cases h
  · rw [if_neg hk]
    exact i.keeps.tables k t' h

theorem getTable_keeps {st st' : St} {n : String} {p : Path} {t : Tab} (i : KInv h0 st)
    (h : getTable n st = .ok (st', p, t)) : KInv h0 st' ∧ h0.tabs (p, n) = none := by
  have create : ∀ {r}, (do
      let p ← getPath st
      match descriptor n with
      | none => .error .keyError
      | some cols =>
        match st.h5.tabs (p, n) with
        | some _ => .error .nodeError
        | none =>
          let t : Tab := { cols := cols ++ boundCols (atoms n), arrs := atoms n }
          (.ok ({ st with
                  h5 := (mkGroups st.h5 p).put p n t,
                  g := { st.g with tables := upd st.g.tables n p } }, p, t) :
            Except Err (St × Path × Tab))) = .ok r →
      KInv h0 r.1 ∧ h0.tabs (r.2.1, n) = none := by
    intro r h
    cases hp : getPath st with
    | error e => rw [hp] at h; cases h
    | ok q =>
      rw [hp] at h
      simp only [bind, Except.bind] at h
      split at h
      · cases h
      split at h
      · cases h
      rename_i hq
      cases h
      have hn : h0.tabs (q, n) = none := by
        cases h1 : h0.tabs (q, n) with
        | none => rfl
        | some t1 => rw [i.keeps.tables _ _ h1] at hq; cases hq
      refine ⟨⟨⟨fun k t' h => ?_, fun g a h => ?_⟩, fun n' p' h => ?_⟩, hn⟩
      · dsimp only [H5.put]
        by_cases hk : k = (q, n)
        · subst hk; rw [hn] at h; cases h
        · rw [if_neg hk]
          exact i.keeps.tables k t' h
      · obtain ⟨a', ha⟩ := i.keeps.groups g a h
        dsimp only [H5.put, mkGroups]
        split
        · exact ⟨_, rfl⟩
        · exact ⟨a', ha⟩
      · simp only [upd] at h
        split at h
        · rename_i h'
          injection h with h
          rw [h', ← h]
          exact hn
        · exact i.new n' p' h
  unfold getTable at h
  dsimp only at h
  cases htab : st.g.tables n with
  | none => rw [htab] at h; exact create h
  | some q =>
    rw [htab] at h
    dsimp only at h
    split at h
    · cases h
    · split at h
      · exact create h
      · cases h
        exact ⟨i, i.new n _ htab⟩

section
variable {σ : Type} {R : Reader σ}

theorem blockReader_keeps {B fuel : Nat} {check : List PyF → Except Err Unit} {body : Body}
    {st st' : St} {h : String × List PyF} {s s' : σ} {x : Option (String × List PyF)}
    (i : KInv h0 st) (hr : Prog.run R (blockReader B fuel check body st h) s = .ok ((st', x), s')) :
    KInv h0 st' := by
  unfold blockReader at hr
  obtain ⟨_, s1, -, hr⟩ := run_bind_inv hr
  obtain ⟨a, s2, h2, hr⟩ := run_bind_inv hr
  obtain ⟨r, s3, -, hr⟩ := run_bind_inv hr
  obtain ⟨w, s4, -, hr⟩ := run_bind_inv hr
  cases hr
  obtain ⟨h3, -⟩ := run_lift_inv h2
  obtain ⟨i1, hn⟩ := getTable_keeps i h3
  exact ⟨i1.put hn _, i1.new⟩

theorem hierarchReader_keeps {B fuel : Nat} {st st' : St} {h : String × List PyF} {s s' : σ}
    {x : Option (String × List PyF)} (i : KInv h0 st)
    (hr : Prog.run R (hierarchReader B fuel st h) s = .ok ((st', x), s')) : KInv h0 st' := by
  unfold hierarchReader at hr
  obtain ⟨_, s1, -, hr⟩ := run_bind_inv hr
  obtain ⟨n, s2, -, hr⟩ := run_bind_inv hr
  dsimp only at hr
  obtain ⟨a, s3, h3, hr⟩ := run_bind_inv hr
  obtain ⟨_, s4, -, hr⟩ := run_bind_inv hr
  obtain ⟨_, s5, -, hr⟩ := run_bind_inv hr
  obtain ⟨_, s6, -, hr⟩ := run_bind_inv hr
  obtain ⟨r, s7, -, hr⟩ := run_bind_inv hr
  obtain ⟨w, s8, -, hr⟩ := run_bind_inv hr
  obtain ⟨_, s9, -, hr⟩ := run_bind_inv hr
  cases hr
  obtain ⟨h4, -⟩ := run_lift_inv h3
  obtain ⟨i1, hn⟩ := getTable_keeps (st := { st with g := { st.g with currentSeltyp := some n } })
    ⟨i.keeps, i.new⟩ h4
  exact ⟨i1.put hn _, i1.new⟩

theorem identReader_keeps {st st' : St} {h : String × List PyF} {s s' : σ}
    {x : Option (String × List PyF)} (i : KInv h0 st)
    (hr : Prog.run R (identReader st h) s = .ok ((st', x), s')) : KInv h0 st' := by
  unfold identReader at hr
  obtain ⟨st0, s1, h1, hr⟩ := run_bind_inv hr
  have i0 : KInv h0 st0 := by
    split at h1
    · cases h1; exact i
    · obtain ⟨n, _, -, h2⟩ := run_bind_inv h1
      cases h2
      exact ⟨i.keeps, i.new⟩
  obtain ⟨a, s2, h2, hr⟩ := run_bind_inv hr
  obtain ⟨_, s3, -, hr⟩ := run_bind_inv hr
  obtain ⟨_, s4, -, hr⟩ := run_bind_inv hr
  obtain ⟨_, s5, -, hr⟩ := run_bind_inv hr
  obtain ⟨_, s6, -, hr⟩ := run_bind_inv hr
  cases hr
  obtain ⟨h3, -⟩ := run_lift_inv h2
  obtain ⟨i1, hn⟩ := getTable_keeps i0 h3
  exact ⟨i1.put hn _, i1.new⟩

theorem generalParser_keeps {B fuel : Nat} {st st' : St} {h : String × List PyF} {s s' : σ}
    {x : Option (String × List PyF)} (i : KInv h0 st)
    (hr : Prog.run R (generalParser B fuel st h) s = .ok ((st', x), s')) : KInv h0 st' := by
  unfold generalParser at hr
  obtain ⟨y, s1, -, hr⟩ := run_bind_inv hr
  split at hr
  · obtain ⟨_, s2, -, hr⟩ := run_bind_inv hr
    obtain ⟨_, s3, -, hr⟩ := run_bind_inv hr
    cases hr
    exact i
  · split at hr
    · rename_i rd _
      have i1 : KInv h0 { st with g := { st.g with recordNames := st.g.recordNames ++ [h.1] } } :=
        ⟨i.keeps, i.new⟩
      cases rd with
      | block check body => exact blockReader_keeps i1 hr
      | hierarch => exact hierarchReader_keeps i1 hr
      | ident => exact identReader_keeps i1 hr
      | irecsize =>
        obtain ⟨_, s2, -, hr⟩ := run_bind_inv hr
        obtain ⟨_, s3, -, hr⟩ := run_bind_inv hr
        cases hr
        exact ⟨i.keeps, i.new⟩
      | iend =>
        obtain ⟨_, s2, -, hr⟩ := run_bind_inv hr
        split at hr
        · cases hr; exact i1
        · obtain ⟨_, s3, -, hr⟩ := run_bind_inv hr
          cases hr
          exact i1
    · obtain ⟨_, s2, -, hr⟩ := run_bind_inv hr
      cases hr
      exact i

theorem parseLoop_keeps {B fuel : Nat} {only : Option (List String)} :
    ∀ (n : Nat) {st st' : St} {x : Option (String × List PyF)} {s s' : σ}, KInv h0 st →
      Prog.run R (parseLoop B only fuel n st x) s = .ok (st', s') → KInv h0 st'
  | 0, st, st', x, s, s', _, hr => by simp only [parseLoop, Prog.run] at hr; cases hr
  | n + 1, st, st', none, s, s', i, hr => by
    simp only [parseLoop, Prog.run] at hr; cases hr; exact i
  | n + 1, st, st', some h, s, s', i, hr => by
    simp only [parseLoop] at hr
    split at hr
    · cases hr; exact i
    · split at hr
      · obtain ⟨⟨st1, y⟩, s1, h1, hr⟩ := run_bind_inv hr
        exact parseLoop_keeps n (generalParser_keeps i h1) hr
      · obtain ⟨_, s1, -, hr⟩ := run_bind_inv hr
        exact parseLoop_keeps n i hr

theorem setAttributes_keeps {st st' : St} (i : KInv h0 st) (h : setAttributes st = .ok st') :
    KInv h0 st' := by
  unfold setAttributes at h
  cases hp : getPath st with
  | error e => rw [hp] at h; cases h
  | ok p =>
    rw [hp] at h
    simp only [bind, Except.bind] at h
    split at h
    · cases h
    · split at h
      · cases h
      · cases h
        refine ⟨⟨i.keeps.tables, fun q a hq => ?_⟩, i.new⟩
        dsimp only
        split
        · exact ⟨_, rfl⟩
        · exact i.keeps.groups q a hq

theorem parseFile_keeps {B fuel : Nat} {only : Option (List String)} {st st' : St} {s s' : σ}
    (i : KInv h0 st) (hr : Prog.run R (parseFile B fuel only st) s = .ok (st', s')) :
    KInv h0 st' := by
  unfold parseFile at hr
  obtain ⟨_, s1, -, hr⟩ := run_bind_inv hr
  obtain ⟨st1, s2, h2, hr⟩ := run_bind_inv hr
  exact setAttributes_keeps (parseLoop_keeps _ i h2) (run_lift_inv hr).1

/-! ### the same when an exception is raised -/

theorem blockLeft_keeps {B fuel : Nat} {check : List PyF → Except Err Unit} {body : Body}
    {st : St} {h : String × List PyF} {s : σ} (i : KInv h0 st) :
    Keeps h0 (blockLeft R B fuel check body st h s).h5 := by
  unfold blockLeft
  split
  · exact i.keeps
  split
  · exact i.keeps
  · rename_i ht
    obtain ⟨i1, hn⟩ := getTable_keeps i ht
    exact i1.put hn _

theorem hierarchLeft_keeps {B fuel : Nat} {st : St} {h : String × List PyF} {s : σ}
    (i : KInv h0 st) : Keeps h0 (hierarchLeft R B fuel st h s).h5 := by
  unfold hierarchLeft
  split
  · exact i.keeps
  split
  · exact i.keeps
  · rename_i ht
    have i0 : ∀ k, KInv h0 { st with g := { st.g with currentSeltyp := k } } :=
      fun _ => ⟨i.keeps, i.new⟩
    obtain ⟨i1, hn⟩ := getTable_keeps (i0 _) ht
    exact i1.put hn _

theorem identLeft_keeps {st : St} {h : String × List PyF} {s : σ}
    (i : KInv h0 st) : Keeps h0 (identLeft R st h s).h5 := by
  unfold identLeft
  split
  · exact i.keeps
  · rename_i st0 s0 hs
    have i0 : KInv h0 st0 := by
      split at hs
      · cases hs; exact i
      · obtain ⟨n, _, -, h2⟩ := run_bind_inv hs
        cases h2
        exact ⟨i.keeps, i.new⟩
    split
    · exact i.keeps
    · rename_i ht
      obtain ⟨i1, hn⟩ := getTable_keeps i0 ht
      split
      · exact i1.keeps
      · exact i1.put hn _

theorem generalLeft_keeps {B fuel : Nat} {st : St} {h : String × List PyF} {s : σ}
    (i : KInv h0 st) : Keeps h0 (generalLeft R B fuel st h s).h5 := by
  unfold generalLeft
  split
  · exact i.keeps
  split
  · exact i.keeps
  split
  · rename_i rd _
    have i1 : KInv h0 { st with g := { st.g with recordNames := st.g.recordNames ++ [h.1] } } :=
      ⟨i.keeps, i.new⟩
    cases rd with
    | block check body => exact blockLeft_keeps i1
    | hierarch => exact hierarchLeft_keeps i1
    | ident => exact identLeft_keeps i1
    | irecsize => exact i.keeps
    | iend => exact i.keeps
  · exact i.keeps

theorem parseLoopLeft_keeps {B fuel : Nat} {only : Option (List String)} :
    ∀ (n : Nat) {st : St} {x : Option (String × List PyF)} {s : σ}, KInv h0 st →
      Keeps h0 (parseLoopLeft R B only fuel n st x s).h5
  | 0, st, x, s, i => by simp only [parseLoopLeft]; exact i.keeps
  | n + 1, st, none, s, i => by simp only [parseLoopLeft]; exact i.keeps
  | n + 1, st, some h, s, i => by
    simp only [parseLoopLeft]
    split
    · exact i.keeps
    split
    · split
      · exact generalLeft_keeps i
      · rename_i r s1 h1
        exact parseLoopLeft_keeps n (generalParser_keeps i (x := r.2) h1)
    · split
      · exact i.keeps
      · exact parseLoopLeft_keeps n i

theorem attributesLeft_keeps {st : St} (i : KInv h0 st) : Keeps h0 (attributesLeft st).h5 := by
  unfold attributesLeft
  split
  · exact i.keeps
  split
  · exact i.keeps
  split
  · refine ⟨i.keeps.tables, fun q a hq => ?_⟩
    dsimp only
    split
    · exact ⟨_, rfl⟩
    · exact i.keeps.groups q a hq
  · exact i.keeps

theorem fileLeft_keeps {B fuel : Nat} {only : Option (List String)} {st : St} {s : σ}
    (i : KInv h0 st) : Keeps h0 (fileLeft R B fuel only st s).h5 := by
  unfold fileLeft
  split
  · exact i.keeps
  split
  · exact parseLoopLeft_keeps _ i
  · rename_i h1
    exact attributesLeft_keeps (parseLoop_keeps _ i h1)

end

theorem parseSource_keeps {D : Dec} {B : Nat} {only : Option (List String)} {st st' : St}
    {src : Source} (i : KInv h0 st) (h : parseSource D B only st src = .ok st') : KInv h0 st' := by
  cases src with
  | unformatted b =>
    simp only [parseSource, parseUnformatted] at h
    cases hr : Prog.run (U.reader D) (parseFile B (b.length + 2) only st) (U.openFile b) with
    | error e => rw [hr] at h; cases h
    | ok x => rw [hr] at h; cases h; exact parseFile_keeps i hr
  | formatted t =>
    simp only [parseSource, parseFormatted] at h
    cases hr : Prog.run (T.reader D) (parseFile B (t.length + 2) only st) (T.openFile t) with
    | error e => rw [hr] at h; cases h
    | ok x => rw [hr] at h; cases h; exact parseFile_keeps i hr

theorem sourceLeft_keeps {D : Dec} {B : Nat} {only : Option (List String)} {st : St}
    {src : Source} (i : KInv h0 st) : Keeps h0 (sourceLeft D B only st src).h5 := by
  cases src with
  | unformatted b => exact fileLeft_keeps i
  | formatted t => exact fileLeft_keeps i

end Verif.Parse
