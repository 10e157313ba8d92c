import Verif.Data.HydroOwn
import Verif.Data.HydroDemo
/-!
# C80: writing into arrays that a hydrodynamic data object has given
-/

namespace Verif.Data.Hydro
open Verif Verif.Data

section
variable {K V : Type} [Field K]

/-- specification: the contents of an array after the writes into it, in order; a write outside
the array does nothing (IndexError) -/
def written (a : Handle) (l : List K) : List (Deed K) → List K
  | [] => l
  | .write b i v :: xs => written a (if b = a then l.set i v else l) xs
  | _ :: xs => written a l xs

theorem run_own (pi : K) (s : Held K V) (x : Deed K) (o : Own) :
    (x.run pi s).1.obj.array o = written (.own o) (s.obj.array o) [x] := by
  cases x with
  | askFreqs => rfl
  | askPeriods => rfl
  | askTimesteps => rfl
  | askDirections u =>
    simp only [Deed.run, written]
    rcases getDirections pi s.obj u with e | l
    · rfl
    · simp only
      split <;> rfl
  | write a i v =>
    simp only [Deed.run, written]
    split
    · rename_i h
      cases a with
      | own o' =>
        by_cases e : o' = o
        · subst e; simp only [if_true]; cases o' <;> rfl
        · rw [if_neg (by simpa using e)]
          cases o' <;> cases o <;> first | rfl | exact absurd rfl e
      | fresh n => rw [if_neg (by simp)]
    · rename_i h
      by_cases e : a = .own o
      · subst e
        rw [if_pos rfl, List.set_eq_of_length_le (by simpa [Held.contents] using h)]
      · rw [if_neg e]

/-- **C80.** The frequencies, periods, directions in radians and time instants an object gives are
the ones it was made with, changed by what was written into the array the same getter gave before,
whatever else the caller does. -/
theorem own_contents (pi : K) (s : Held K V) (xs : List (Deed K)) (o : Own) :
    (deeds pi s xs).obj.array o = written (.own o) (s.obj.array o) xs := by
  induction xs generalizing s with
  | nil => rfl
  | cons x xs ih =>
    rw [deeds, ih, run_own]
    cases x <;> rfl

/-- **C80.** Writing at a position that the array does not have raises IndexError and does
nothing; other writes return. -/
theorem write_outcome (pi : K) (s : Held K V) (a : Handle) (i : Nat) (v : K) :
    (i < (s.contents a).length → (Deed.run pi (.write a i v) s).2 = .ok none) ∧
    ((s.contents a).length ≤ i → Deed.run pi (.write a i v) s = (s, .error .indexError)) := by
  constructor
  · intro h
    simp only [Deed.run, if_pos h]
    cases a <;> rfl
  · intro h
    simp only [Deed.run, if_neg (Nat.not_lt.mpr h)]

/-- everything else in the object stays -/
theorem run_rest (pi : K) (s : Held K V) (x : Deed K) :
    ∃ a p d t, (x.run pi s).1.obj =
      { s.obj with angfreqs := a, periods := p, directions := d, timesteps := t } := by
  cases x with
  | askFreqs => exact ⟨_, _, _, _, rfl⟩
  | askPeriods => exact ⟨_, _, _, _, rfl⟩
  | askTimesteps => exact ⟨_, _, _, _, rfl⟩
  | askDirections u =>
    simp only [Deed.run]
    rcases getDirections pi s.obj u with e | l
    · exact ⟨_, _, _, _, rfl⟩
    · simp only
      split <;> exact ⟨_, _, _, _, rfl⟩
  | write a i v =>
    simp only [Deed.run]
    split
    · cases a with
      | own o => cases o <;> exact ⟨_, _, _, _, rfl⟩
      | fresh n => exact ⟨_, _, _, _, rfl⟩
    · exact ⟨_, _, _, _, rfl⟩

theorem deeds_rest (pi : K) (s : Held K V) (xs : List (Deed K)) :
    ∃ a p d t, (deeds pi s xs).obj =
      { s.obj with angfreqs := a, periods := p, directions := d, timesteps := t } := by
  induction xs generalizing s with
  | nil => exact ⟨_, _, _, _, rfl⟩
  | cons x xs ih =>
    obtain ⟨a, p, d, t, h⟩ := ih (x.run pi s).1
    obtain ⟨a', p', d', t', h'⟩ := run_rest pi s x
    refine ⟨a, p, d, t, ?_⟩
    rw [deeds, h, h']

/-- **C80.** What the getters of frequencies, periods, directions and time instants give after the
caller has done anything with the arrays. -/
theorem getters_after (pi : K) (s : Held K V) (xs : List (Deed K)) :
    let h := (deeds pi s xs).obj
    getAngularFreqs h = (getAngularFreqs s.obj).map (written (.own .freqs) · xs) ∧
    getPeriods h = (getPeriods s.obj).map (written (.own .periods) · xs) ∧
    getTimesteps h = (getTimesteps s.obj).map (written (.own .times) · xs) ∧
    getDirections pi h "radians" =
      (getDirections pi s.obj "radians").map (written (.own .dirs) · xs) ∧
    getDirections pi h "degrees" =
      (getDirections pi h "radians").map fun l => l.map fun d => d * 180 / pi := by
  intro h
  obtain ⟨a, p, d, t, e⟩ := deeds_rest pi s xs
  have h1 := own_contents pi s xs .freqs
  have h2 := own_contents pi s xs .periods
  have h3 := own_contents pi s xs .dirs
  have h4 := own_contents pi s xs .times
  simp only [HydroObj.array] at h1 h2 h3 h4
  have ho : h.isOpen = s.obj.isOpen := by rw [show h = _ from e]
  have hd : h.domaintype = s.obj.domaintype := by rw [show h = _ from e]
  refine ⟨?_, ?_, ?_, ?_, ?_⟩
  · simp only [getAngularFreqs, assertDomain, ho, hd, show h.angfreqs = _ from h1]
    split <;> [skip; rfl]
    split <;> rfl
  · simp only [getPeriods, assertDomain, ho, hd, show h.periods = _ from h2]
    split <;> [skip; rfl]
    split <;> rfl
  · simp only [getTimesteps, assertDomain, ho, hd, show h.timesteps = _ from h4]
    split <;> [skip; rfl]
    split <;> rfl
  · simp only [getDirections, ho, show h.directions = _ from h3]
    split
    · simp only [show ("radians" = "degrees") = False by simp, if_false, if_true]; rfl
    · rfl
  · simp only [getDirections]
    split
    · simp only [show ("radians" = "degrees") = False by simp, if_false, if_true]; rfl
    · rfl

/-- **C80.** Results, points, sections, matrices and pressures are the same whatever the caller
writes into the arrays. -/
theorem results_after [AddCommGroup V] [Module K V] (pi : K) (s : Held K V) (xs : List (Deed K))
    (mtyp body body2 : Int) (kind : String) :
    let h := (deeds pi s xs).obj
    getSections h = getSections s.obj ∧ getPoints h = getPoints s.obj ∧
    getBodyProperties h body = getBodyProperties s.obj body ∧
    getMotionRaos h body = getMotionRaos s.obj body ∧
    getExcitationForceRaos h body = getExcitationForceRaos s.obj body ∧
    getSectionForceRaos h body = getSectionForceRaos s.obj body ∧
    getFluidKinematicsRaos h kind = getFluidKinematicsRaos s.obj kind ∧
    getMatrix h mtyp body body2 = getMatrix s.obj mtyp body body2 ∧
    getMeandrift h body = getMeandrift s.obj body ∧
    getHorizMeandrift h body = getHorizMeandrift s.obj body ∧
    getPressurePanelIds h body = getPressurePanelIds s.obj body ∧
    getPanelPressures h body = getPanelPressures s.obj body := by
  intro h
  obtain ⟨a, p, d, t, e⟩ := deeds_rest pi s xs
  rw [show h = _ from e]
  exact ⟨rfl, rfl, rfl, rfl, rfl, rfl, rfl, rfl, rfl, rfl, rfl, rfl⟩

theorem run_fresh (pi : K) (s : Held K V) (x : Deed K) {n : Nat} (hn : n < s.news.length) :
    (x.run pi s).1.contents (.fresh n) = written (.fresh n) (s.contents (.fresh n)) [x] ∧
      n < (x.run pi s).1.news.length := by
  cases x with
  | askFreqs => exact ⟨rfl, hn⟩
  | askPeriods => exact ⟨rfl, hn⟩
  | askTimesteps => exact ⟨rfl, hn⟩
  | askDirections u =>
    simp only [Deed.run, written]
    rcases getDirections pi s.obj u with e | l
    · exact ⟨rfl, hn⟩
    · simp only
      split
      · exact ⟨rfl, hn⟩
      · refine ⟨?_, by simp; omega⟩
        simp [Held.contents, List.getElem?_append_left hn]
  | write a i v =>
    simp only [Deed.run, written]
    split
    · cases a with
      | own o => exact ⟨by rw [if_neg (by simp)]; rfl, hn⟩
      | fresh m =>
        refine ⟨?_, by simpa using hn⟩
        by_cases e : m = n
        · subst e
          simp [Held.contents, hn]
        · rw [if_neg (by simpa using e)]
          simp [Held.contents, e]
    · rename_i h
      refine ⟨?_, hn⟩
      by_cases e : a = .fresh n
      · subst e
        rw [if_pos rfl, List.set_eq_of_length_le (by simpa using h)]
      · rw [if_neg e]

/-- **C80.** An array of directions in degrees is changed only by what is written into itself. -/
theorem fresh_contents (pi : K) (s : Held K V) (xs : List (Deed K)) {n : Nat}
    (hn : n < s.news.length) :
    (deeds pi s xs).contents (.fresh n) = written (.fresh n) (s.contents (.fresh n)) xs := by
  induction xs generalizing s with
  | nil => rfl
  | cons x xs ih =>
    obtain ⟨h1, h2⟩ := run_fresh pi s x hn
    rw [deeds, ih _ h2, h1]
    cases x <;> rfl

/-- **C80.** The array a getter gives: the object's own (the same every time), for directions in
degrees one that was not given before; it holds what the getter gives, or the getter raises. -/
theorem given (pi : K) (s : Held K V) :
    (∀ l, getAngularFreqs s.obj = .ok l →
      Deed.run pi .askFreqs s = (s, .ok (some (.own .freqs))) ∧ s.contents (.own .freqs) = l) ∧
    (∀ l, getPeriods s.obj = .ok l →
      Deed.run pi .askPeriods s = (s, .ok (some (.own .periods))) ∧ s.contents (.own .periods) = l) ∧
    (∀ l, getTimesteps s.obj = .ok l →
      Deed.run pi .askTimesteps s = (s, .ok (some (.own .times))) ∧ s.contents (.own .times) = l) ∧
    (∀ l, getDirections pi s.obj "radians" = .ok l →
      Deed.run pi (.askDirections "radians") s = (s, .ok (some (.own .dirs))) ∧
        s.contents (.own .dirs) = l) ∧
    (∀ l, getDirections pi s.obj "degrees" = .ok l →
      ∃ s', Deed.run pi (.askDirections "degrees") s = (s', .ok (some (.fresh s.news.length))) ∧
        s'.obj = s.obj ∧ s'.contents (.fresh s.news.length) = l) ∧
    (∀ e, getAngularFreqs s.obj = .error e → Deed.run pi .askFreqs s = (s, .error e)) ∧
    (∀ e, getPeriods s.obj = .error e → Deed.run pi .askPeriods s = (s, .error e)) ∧
    (∀ e, getTimesteps s.obj = .error e → Deed.run pi .askTimesteps s = (s, .error e)) ∧
    (∀ u e, getDirections pi s.obj u = .error e →
      Deed.run pi (.askDirections u) s = (s, .error e)) := by
  refine ⟨?_, ?_, ?_, ?_, ?_, ?_, ?_, ?_, ?_⟩
  · intro l h
    refine ⟨by simp only [Deed.run, h]; rfl, ?_⟩
    unfold getAngularFreqs at h
    rcases ha : assertDomain s.obj .frequency with e | u
    · rw [ha] at h; cases h
    · rw [ha] at h; exact Except.ok.inj h
  · intro l h
    refine ⟨by simp only [Deed.run, h]; rfl, ?_⟩
    unfold getPeriods at h
    rcases ha : assertDomain s.obj .frequency with e | u
    · rw [ha] at h; cases h
    · rw [ha] at h; exact Except.ok.inj h
  · intro l h
    refine ⟨by simp only [Deed.run, h]; rfl, ?_⟩
    unfold getTimesteps at h
    rcases ha : assertDomain s.obj .time with e | u
    · rw [ha] at h; cases h
    · rw [ha] at h; exact Except.ok.inj h
  · intro l h
    refine ⟨by simp only [Deed.run, h]; rfl, ?_⟩
    unfold getDirections at h
    split at h
    · simp only [show ("radians" = "degrees") = False by simp, if_false, if_true] at h
      exact Except.ok.inj h
    · cases h
  · intro l h
    refine ⟨⟨s.obj, s.news ++ [l]⟩, by
      simp only [Deed.run, h, show ("degrees" = "radians") = False by simp, if_false], rfl, ?_⟩
    simp [Held.contents]
  · intro e h; simp only [Deed.run, h]; rfl
  · intro e h; simp only [Deed.run, h]; rfl
  · intro e h; simp only [Deed.run, h]; rfl
  · intro u e h; simp only [Deed.run, h]

end

/-! ## a concrete case -/

/-- the caller asks for the directions in degrees and radians and changes both to other units -/
example : (hydroInit 3 Demo.tabsD).toOption.map (fun h =>
    let s := deeds (3 : Rat) ⟨h, []⟩
      [.askDirections "radians", .askDirections "degrees", .write (.own .dirs) 0 7,
       .write (.fresh 0) 0 5, .askFreqs, .write (.own .freqs) 1 1, .write (.own .freqs) 9 1]
    [(getDirections 3 s.obj "radians").toOption, (getDirections 3 s.obj "degrees").toOption,
      some (s.contents (.fresh 0)), (getAngularFreqs s.obj).toOption, (getPeriods s.obj).toOption]) =
    some [some [7, 1], some [420, 60], some [5, 60], some [1/2, 1, 1], some [12, 3, 6]] := by
  decide +kernel

end Verif.Data.Hydro
