import Verif.Data.HydroProps
/-!
# C36 (errors), C37, C52, C53: matrices, panel pressures, descriptions of the model
-/

namespace Verif.Data.Hydro
open Verif

set_option linter.unusedSectionVars false

variable {K V : Type} [Field K] [LinearOrder K]

/-! ## C36: failures -/

theorem length_flatten_const {α : Type} {ls : List (List α)} {n : Nat}
    (h : ∀ l ∈ ls, l.length = n) : ls.flatten.length = ls.length * n := by
  have := flatMap_length (D := ls) (f := fun l => l) h
  simpa using this

theorem raos_count_generic {W : Type} [Zero W] {pi : K} {t : HydroTabs K V} {h : HydroObj K V}
    {D F : List K} {rows recs : List (BodyRow W)} {n : Nat} {b : Int} (hn : 0 < n)
    (hi : hydroInit pi t = .ok h) (hg : OnGrid t D F)
    (hr : RecordsOf t (fun r => r.ibcond) rows b recs) (hlen : ∀ r ∈ recs, r.data.length = n)
    (hc : recs.length ≠ D.length * F.length) :
    getRaos h (some rows) n b = .error .valueError := by
  obtain ⟨ho, ht, hD, hF, hnd, hnf, hd⟩ := grid_obj hi hg
  unfold getRaos
  rw [assert_freq ho hd, bind_ok, results_ok ho ht hr, bind_ok, hnd, hnf, reshape_error]
  · rfl
  · rw [length_flatten_const (n := n) (by
      intro l hl
      obtain ⟨r, hr', rfl⟩ := List.mem_map.1 hl
      exact hlen r hr'), List.length_map]
    intro e
    apply hc
    have : recs.length * n = D.length * F.length * n := by
      rw [e]; simp [Nat.mul_assoc]
    exact Nat.eq_of_mul_eq_mul_right hn this

/-- **A number of records different from directions times frequencies is a `ValueError`**, for all
four body results. -/
theorem wrong_count [Zero V] {pi : K} {t : HydroTabs K V} {h : HydroObj K V} {D F : List K}
    {b : Int} (hi : hydroInit pi t = .ok h) (hg : OnGrid t D F) :
    (∀ rows recs, t.w1motion = some rows → RecordsOf t (fun r => r.ibcond) rows b recs →
      (∀ r ∈ recs, r.data.length = 6) → recs.length ≠ D.length * F.length →
      getMotionRaos h b = .error .valueError) ∧
    (∀ rows recs, t.w1exforc = some rows → RecordsOf t (fun r => r.ibcond) rows b recs →
      (∀ r ∈ recs, r.data.length = 6) → recs.length ≠ D.length * F.length →
      getExcitationForceRaos h b = .error .valueError) ∧
    (∀ rows recs, t.w2mdrift = some rows → RecordsOf t (fun r => r.ibcond) rows b recs →
      (∀ r ∈ recs, r.data.length = 6) → recs.length ≠ D.length * F.length →
      getMeandrift h b = .error .valueError) ∧
    (∀ rows recs, t.w2hdrift = some rows → RecordsOf t (fun r => r.ibcond) rows b recs →
      (∀ r ∈ recs, r.data.length = 3) → recs.length ≠ D.length * F.length →
      getHorizMeandrift h b = .error .valueError) := by
  have ht := (grid_obj hi hg).2.1
  refine ⟨?_, ?_, ?_, ?_⟩ <;> intro rows recs htab hr hlen hc
  · unfold getMotionRaos
    rw [ht, htab]
    exact raos_count_generic (by decide) hi hg hr hlen hc
  · unfold getExcitationForceRaos
    rw [ht, htab]
    exact raos_count_generic (by decide) hi hg hr hlen hc
  · unfold getMeandrift
    rw [ht, htab]
    exact raos_count_generic (by decide) hi hg hr hlen hc
  · unfold getHorizMeandrift
    rw [ht, htab]
    exact raos_count_generic (by decide) hi hg hr hlen hc

/-- the same for section forces: all sections of the file count, whichever body they are on, so a
file with sections on two bodies fails for each of them -/
theorem section_wrong_count [Zero V] {pi : K} {t : HydroTabs K V} {h : HydroObj K V} {D F : List K}
    {S : List (SectionRow K)} {rows recs : List (BodyRow V)} {b : Int}
    (hi : hydroInit pi t = .ok h) (hg : OnGrid t D F) (hsec : t.wsection = some S)
    (htab : t.w1sforce = some rows) (hr : RecordsOf t (fun r => r.ibcond) rows b recs)
    (hlen : ∀ r ∈ recs, r.data.length = 6)
    (hc : recs.length ≠ S.length * (D.length * F.length)) :
    getSectionForceRaos h b = .error .valueError := by
  obtain ⟨ho, ht, hD, hF, hnd, hnf, hd⟩ := grid_obj hi hg
  have hns : h.nsections = S.length := by
    obtain ⟨_, _, _, _, _, _, _, _, _, _, _, _, _, _, _, hns, _⟩ := init_inv hi
    rw [hns, hsec]
    rfl
  unfold getSectionForceRaos
  rw [assert_freq ho hd, bind_ok, ht, htab, results_ok ho ht hr, bind_ok, hnd, hnf, hns,
    reshape_error]
  · rfl
  · rw [length_flatten_const (n := 6) (by
      intro l hl
      obtain ⟨r, hr', rfl⟩ := List.mem_map.1 hl
      exact hlen r hr'), List.length_map]
    intro e
    apply hc
    have : recs.length * 6 = S.length * (D.length * F.length) * 6 := by
      rw [e]; simp [Nat.mul_assoc]
    exact Nat.eq_of_mul_eq_mul_right (by decide) this

/-- without section definitions on the file only an empty set of records fits -/
theorem no_sections [Zero V] {pi : K} {t : HydroTabs K V} {h : HydroObj K V} {D F : List K}
    {rows recs : List (BodyRow V)} {b : Int}
    (hi : hydroInit pi t = .ok h) (hg : OnGrid t D F) (hsec : t.wsection = none)
    (htab : t.w1sforce = some rows) (hr : RecordsOf t (fun r => r.ibcond) rows b recs)
    (hlen : ∀ r ∈ recs, r.data.length = 6) (hc : recs ≠ []) :
    getSectionForceRaos h b = .error .valueError := by
  obtain ⟨ho, ht, hD, hF, hnd, hnf, hd⟩ := grid_obj hi hg
  have hns : h.nsections = 0 := by
    obtain ⟨_, _, _, _, _, _, _, _, _, _, _, _, _, _, _, hns, _⟩ := init_inv hi
    rw [hns, hsec]
    rfl
  unfold getSectionForceRaos
  rw [assert_freq ho hd, bind_ok, ht, htab, results_ok ho ht hr, bind_ok, hnd, hnf, hns,
    reshape_error]
  · rfl
  · rw [length_flatten_const (n := 6) (by
      intro l hl
      obtain ⟨r, hr', rfl⟩ := List.mem_map.1 hl
      exact hlen r hr'), List.length_map]
    have : recs.length ≠ 0 := fun e => hc (List.length_eq_zero_iff.1 e)
    simp
    omega

/-- the same for wave kinematics -/
theorem kinematics_wrong_count [AddCommGroup V] [Module K V] {pi : K} {t : HydroTabs K V}
    {h : HydroObj K V} {D F : List K} {P : List (PointRow K)} {recs : List (FluidRow V)}
    {kind : String} (hi : hydroInit pi t = .ok h) (hg : OnGrid t D F) (hpt : t.wfkpoint = some P)
    (htab : t.wfluidkn = some recs) (hlen : ∀ r ∈ recs, r.v.length = 3)
    (hc : recs.length ≠ D.length * F.length * P.length) :
    getFluidKinematicsRaos h kind = .error .valueError := by
  obtain ⟨ho, ht, _, _, hnd, hnf, hd⟩ := grid_obj hi hg
  have hnp : h.npoints = P.length := by
    obtain ⟨_, _, _, _, _, _, _, _, _, _, _, _, _, _, _, _, hnp, _⟩ := init_inv hi
    rw [hnp, hpt]
    rfl
  unfold getFluidKinematicsRaos
  rw [assert_freq ho hd, bind_ok, ht, htab, results_ok ho ht .all, bind_ok, hnd, hnf, hnp]
  split
  · rw [reshape_error]
    · rfl
    · rw [List.length_map]
      simpa [Nat.mul_assoc] using hc
  · split
    · rw [reshape_error]
      · rfl
      · rw [length_flatten_const (n := 3) (by
          intro l hl
          obtain ⟨r, hr', rfl⟩ := List.mem_map.1 hl
          exact hlen r hr'), List.length_map]
        intro e
        apply hc
        have : recs.length * 3 = D.length * F.length * P.length * 3 := by
          rw [e]; simp [Nat.mul_assoc]
        exact Nat.eq_of_mul_eq_mul_right (by decide) this
    · rfl

theorem getRaos_fail {W : Type} [Zero W] {h : HydroObj K V} {table : Option (List (BodyRow W))}
    {n : Nat} {b : Int} {e : Err} (ho : h.isOpen = true) (hd : h.domaintype = .frequency)
    (hr : getResults h table (fun r => r.ibcond) b = .error e) :
    getRaos h table n b = .error e := by
  unfold getRaos
  rw [assert_freq ho hd, bind_ok, hr]
  rfl

theorem results_missing {β : Type} {h : HydroObj K V} {cond : β → Int} {b : Int}
    (ho : h.isOpen = true) : getResults h none cond b = .error .noSuchRecord := by
  unfold getResults
  rw [ho]
  rfl

theorem results_unknown_body {β : Type} {t : HydroTabs K V} {h : HydroObj K V} {rows : List β}
    {cond : β → Int} {b : Int} {conds : List BodConRow} (ho : h.isOpen = true) (ht : h.tabs = t)
    (hc : t.wbodcon = some conds) (hb : b ≠ 0) (hno : ∀ r ∈ conds, r.ibody ≠ b) :
    getResults h (some rows) cond b = .error .conditionError := by
  unfold getResults
  rw [ho]
  show (if b ≠ 0 then _ else _) = _
  rw [if_pos hb, ibcond_missing ho ht hc hno]
  rfl

theorem results_no_bodies {β : Type} {t : HydroTabs K V} {h : HydroObj K V} {rows : List β}
    {cond : β → Int} {b : Int} (ho : h.isOpen = true) (ht : h.tabs = t)
    (hc : t.wbodcon = none) (hb : b ≠ 0) :
    getResults h (some rows) cond b = .error .noSuchRecord := by
  unfold getResults getIbcond
  rw [ho, ht, hc]
  show (if b ≠ 0 then _ else _) = _
  rw [if_pos hb]
  rfl

/-- **A result that is not on the file is `NoSuchRecordError`.** -/
theorem no_record [AddCommGroup V] [Module K V] {pi : K} {t : HydroTabs K V} {h : HydroObj K V}
    {D F : List K} (b : Int) (kind : String) (hi : hydroInit pi t = .ok h) (hg : OnGrid t D F) :
    (t.w1motion = none → getMotionRaos h b = .error .noSuchRecord) ∧
    (t.w1exforc = none → getExcitationForceRaos h b = .error .noSuchRecord) ∧
    (t.w2mdrift = none → getMeandrift h b = .error .noSuchRecord) ∧
    (t.w2hdrift = none → getHorizMeandrift h b = .error .noSuchRecord) ∧
    (t.w1sforce = none → getSectionForceRaos h b = .error .noSuchRecord) ∧
    (t.wfluidkn = none → getFluidKinematicsRaos h kind = .error .noSuchRecord) := by
  obtain ⟨ho, ht, _, _, _, _, hd⟩ := grid_obj hi hg
  refine ⟨?_, ?_, ?_, ?_, ?_, ?_⟩ <;> intro hn
  · unfold getMotionRaos
    rw [ht, hn]
    exact getRaos_fail ho hd (results_missing ho)
  · unfold getExcitationForceRaos
    rw [ht, hn]
    exact getRaos_fail ho hd (results_missing ho)
  · unfold getMeandrift
    rw [ht, hn]
    exact getRaos_fail ho hd (results_missing ho)
  · unfold getHorizMeandrift
    rw [ht, hn]
    exact getRaos_fail ho hd (results_missing ho)
  · unfold getSectionForceRaos
    rw [assert_freq ho hd, bind_ok, ht, hn, results_missing ho]
    rfl
  · unfold getFluidKinematicsRaos
    rw [assert_freq ho hd, bind_ok, ht, hn, results_missing ho]
    rfl

/-- **A body that is not on the file is `ConditionError`** (the result record being there). -/
theorem unknown_body [Zero V] {pi : K} {t : HydroTabs K V} {h : HydroObj K V} {D F : List K}
    {b : Int} {conds : List BodConRow} (hi : hydroInit pi t = .ok h) (hg : OnGrid t D F)
    (hc : t.wbodcon = some conds) (hb : b ≠ 0) (hno : ∀ r ∈ conds, r.ibody ≠ b) :
    (t.w1motion ≠ none → getMotionRaos h b = .error .conditionError) ∧
    (t.w1exforc ≠ none → getExcitationForceRaos h b = .error .conditionError) ∧
    (t.w2mdrift ≠ none → getMeandrift h b = .error .conditionError) ∧
    (t.w2hdrift ≠ none → getHorizMeandrift h b = .error .conditionError) ∧
    (t.w1sforce ≠ none → getSectionForceRaos h b = .error .conditionError) := by
  obtain ⟨ho, ht, _, _, _, _, hd⟩ := grid_obj hi hg
  refine ⟨?_, ?_, ?_, ?_, ?_⟩ <;> intro hn <;> obtain ⟨rows, hn⟩ := Option.ne_none_iff_exists'.1 hn
  · unfold getMotionRaos
    rw [ht, hn]
    exact getRaos_fail ho hd (results_unknown_body ho ht hc hb hno)
  · unfold getExcitationForceRaos
    rw [ht, hn]
    exact getRaos_fail ho hd (results_unknown_body ho ht hc hb hno)
  · unfold getMeandrift
    rw [ht, hn]
    exact getRaos_fail ho hd (results_unknown_body ho ht hc hb hno)
  · unfold getHorizMeandrift
    rw [ht, hn]
    exact getRaos_fail ho hd (results_unknown_body ho ht hc hb hno)
  · unfold getSectionForceRaos
    rw [assert_freq ho hd, bind_ok, ht, hn, results_unknown_body ho ht hc hb hno]
    rfl

/-- **Without frequencies on the file every RAO getter raises `ResultError`.** -/
theorem time_domain [AddCommGroup V] [Module K V] {pi : K} {t : HydroTabs K V} {h : HydroObj K V}
    {dirs times : List K} (b : Int) (kind : String) (hi : hydroInit pi t = .ok h)
    (hw : t.wdresref = some (dirs, [], times)) :
    getMotionRaos h b = .error .resultError ∧ getExcitationForceRaos h b = .error .resultError ∧
    getMeandrift h b = .error .resultError ∧ getHorizMeandrift h b = .error .resultError ∧
    getSectionForceRaos h b = .error .resultError ∧
    getFluidKinematicsRaos h kind = .error .resultError ∧
    getPeriods h = .error .resultError ∧ getPressurePanelIds h b = .error .resultError ∧
    getPanelPressures h b = .error .resultError := by
  have ha : assertDomain h .frequency = .error .resultError := by
    have := (angular_freqs hi hw).2 rfl
    unfold getAngularFreqs at this
    cases hd : assertDomain h .frequency with
    | error e =>
      rw [hd] at this
      have h2 : (Except.error e : Except Err (List K)) = .error .resultError := this
      injection h2 with h2
      rw [h2]
    | ok u => rw [hd] at this; cases this
  unfold getMotionRaos getExcitationForceRaos getMeandrift getHorizMeandrift getSectionForceRaos
    getFluidKinematicsRaos getPeriods getPressurePanelIds getPanelPressures getRaos
  rw [ha]
  exact ⟨rfl, rfl, rfl, rfl, rfl, rfl, rfl, rfl, rfl⟩

/-! ## C37 -/

theorem matrix_step {pi : K} {t : HydroTabs K V} {h : HydroObj K V} {conds : List BodConRow}
    {rows : List (MatrixRow K)} {mtyp b1 b2 c1 c2 : Int}
    (hi : hydroInit pi t = .ok h) (hm : t.w1matrix = some rows) (hc : t.wbodcon = some conds)
    (h1 : BodyCondition conds b1 c1) (h2 : BodyCondition conds b2 c2) :
    getMatrix h mtyp b1 b2 =
      if mtyp = 11 ∨ mtyp = 22 ∨ mtyp = 31 ∨ mtyp = 32 then
        (getrow rows fun r => decide (r.ibconi = c1 ∧ r.ibconj = c2 ∧ r.imtyp = mtyp)) >>=
          fun r => .ok (hmatArray r.hmat)
      else if mtyp = 12 ∨ mtyp = 21 then
        .ok (ndRollaxis (hmatColumn (rows.filter fun r =>
          decide (r.ibconi = c1 ∧ r.ibconj = c2 ∧ r.imtyp = mtyp))) 0 3)
      else .error .valueError := by
  obtain ⟨_, _, _, _, _, _, _, ho, ht, _⟩ := init_inv hi
  unfold getMatrix
  rw [ht, hm]
  have e : need h.isOpen (some rows) = .ok rows := by rw [ho]; rfl
  rw [e, bind_ok, ibcond_ok ho ht hc h1, bind_ok, ibcond_ok ho ht hc h2, bind_ok]

theorem first_row {rows pre post : List (MatrixRow K)} {m : MatrixRow K} {mtyp c1 c2 : Int}
    (hsplit : rows = pre ++ m :: post) (hm : IsMatrixFor c1 c2 mtyp m)
    (hpre : ∀ r ∈ pre, ¬ IsMatrixFor c1 c2 mtyp r) :
    getrow rows (fun r => decide (r.ibconi = c1 ∧ r.ibconj = c2 ∧ r.imtyp = mtyp)) = .ok m := by
  unfold getrow
  rw [hsplit, List.find?_append, List.find?_eq_none.2 (by
      intro x hx; rw [decide_eq_true_eq]; exact hpre x hx), Option.none_or,
    List.find?_cons_of_pos (by rw [decide_eq_true_eq]; exact hm)]

theorem hmatArray_isMatrix (m : List (List K)) : IsMatrix (hmatArray m) m := by
  refine ⟨rfl, ?_⟩
  intro i j r x hr hx
  show (m.getD i []).getD j 0 = x
  simp only [List.getD_eq_getElem?_getD, hr, Option.getD_some, hx]

/-- **Frequency independent types: the matrix of the first record for the two bodies and the
type**, for `get_matrix` and the getter of each type. -/
theorem first_matrix {pi : K} {t : HydroTabs K V} {h : HydroObj K V} {conds : List BodConRow}
    {rows pre post : List (MatrixRow K)} {m : MatrixRow K} {mtyp b1 b2 c1 c2 : Int}
    (hi : hydroInit pi t = .ok h) (hm : t.w1matrix = some rows) (hc : t.wbodcon = some conds)
    (h1 : BodyCondition conds b1 c1) (h2 : BodyCondition conds b2 c2)
    (hty : mtyp ∈ [11, 22, 31, 32])
    (hsplit : rows = pre ++ m :: post) (hf : IsMatrixFor c1 c2 mtyp m)
    (hpre : ∀ r ∈ pre, ¬ IsMatrixFor c1 c2 mtyp r) :
    ∃ a, IsMatrix a m.hmat ∧ getMatrix h mtyp b1 b2 = .ok a ∧
      (mtyp = 11 → getBodymass h b1 b2 = .ok a) ∧
      (mtyp = 22 → getViscousdamping h b1 b2 = .ok a) ∧
      (mtyp = 31 → getHydrostaticRestoring h b1 b2 = .ok a) ∧
      (mtyp = 32 → getMooringRestoring h b1 b2 = .ok a) := by
  have e : getMatrix h mtyp b1 b2 = .ok (hmatArray m.hmat) := by
    rw [matrix_step hi hm hc h1 h2, if_pos (by simpa using hty), first_row hsplit hf hpre, bind_ok]
  refine ⟨_, hmatArray_isMatrix _, e, ?_, ?_, ?_, ?_⟩ <;> intro hq <;> subst hq <;> exact e

/-- **Frequency dependent types: entry `[i, j, k]` is entry `(i, j)` of the `k`-th record for the
two bodies and the type**; there may be none. -/
theorem all_matrices {pi : K} {t : HydroTabs K V} {h : HydroObj K V} {conds : List BodConRow}
    {rows sel : List (MatrixRow K)} {mtyp b1 b2 c1 c2 : Int}
    (hi : hydroInit pi t = .ok h) (hm : t.w1matrix = some rows) (hc : t.wbodcon = some conds)
    (h1 : BodyCondition conds b1 c1) (h2 : BodyCondition conds b2 c2)
    (hty : mtyp ∈ [12, 21])
    (hsel : sel = rows.filter fun r => r.ibconi = c1 ∧ r.ibconj = c2 ∧ r.imtyp = mtyp) :
    ∃ a, getMatrix h mtyp b1 b2 = .ok a ∧ a.shape = [6, 6, sel.length] ∧
      (∀ i j k m r x, sel[k]? = some m → m.hmat[i]? = some r → r[j]? = some x →
        a.get [i, j, k] = x) ∧
      (mtyp = 12 → getAddedmass h b1 b2 = .ok a) ∧
      (mtyp = 21 → getPotentialdamping h b1 b2 = .ok a) := by
  have hno : ¬ (mtyp = 11 ∨ mtyp = 22 ∨ mtyp = 31 ∨ mtyp = 32) := by
    simp only [List.mem_cons, List.not_mem_nil, or_false] at hty
    omega
  have e : getMatrix h mtyp b1 b2 = .ok (ndRollaxis (hmatColumn sel) 0 3) := by
    rw [matrix_step hi hm hc h1 h2, if_neg hno, if_pos (by simpa using hty), hsel]
  refine ⟨_, e, rfl, ?_, ?_, ?_⟩
  · intro i j k m r x hk hr hx
    show (((sel.map fun r => r.hmat).getD k []).getD i []).getD j 0 = x
    simp only [List.getD_eq_getElem?_getD, List.getElem?_map, hk, Option.map_some,
      Option.getD_some, hr, hx]
  · intro hq
    subst hq
    exact e
  · intro hq
    subst hq
    exact e

/-- **Failures of `get_matrix`**: unknown type, no matching record, body not on the file. -/
theorem matrix_type_error {pi : K} {t : HydroTabs K V} {h : HydroObj K V} {conds : List BodConRow}
    {rows : List (MatrixRow K)} {mtyp b1 b2 c1 c2 : Int}
    (hi : hydroInit pi t = .ok h) (hm : t.w1matrix = some rows) (hc : t.wbodcon = some conds)
    (h1 : BodyCondition conds b1 c1) (h2 : BodyCondition conds b2 c2)
    (hty : mtyp ∉ [11, 12, 21, 22, 31, 32]) :
    getMatrix h mtyp b1 b2 = .error .valueError := by
  simp only [List.mem_cons, List.not_mem_nil, or_false, not_or] at hty
  rw [matrix_step hi hm hc h1 h2, if_neg (by omega), if_neg (by omega)]

theorem matrix_none {pi : K} {t : HydroTabs K V} {h : HydroObj K V} {conds : List BodConRow}
    {rows : List (MatrixRow K)} {mtyp b1 b2 c1 c2 : Int}
    (hi : hydroInit pi t = .ok h) (hm : t.w1matrix = some rows) (hc : t.wbodcon = some conds)
    (h1 : BodyCondition conds b1 c1) (h2 : BodyCondition conds b2 c2)
    (hty : mtyp ∈ [11, 22, 31, 32]) (hno : ∀ r ∈ rows, ¬ IsMatrixFor c1 c2 mtyp r) :
    getMatrix h mtyp b1 b2 = .error .conditionError := by
  rw [matrix_step hi hm hc h1 h2, if_pos (by simpa using hty)]
  have : getrow rows (fun r => decide (r.ibconi = c1 ∧ r.ibconj = c2 ∧ r.imtyp = mtyp)) =
      .error .conditionError := by
    unfold getrow
    rw [List.find?_eq_none.2 (by intro x hx; rw [decide_eq_true_eq]; exact hno x hx)]
  rw [this]
  rfl

theorem matrix_unknown_body {pi : K} {t : HydroTabs K V} {h : HydroObj K V}
    {conds : List BodConRow} {rows : List (MatrixRow K)} {mtyp b1 b2 : Int}
    (hi : hydroInit pi t = .ok h) (hm : t.w1matrix = some rows) (hc : t.wbodcon = some conds)
    (hno : (∀ r ∈ conds, r.ibody ≠ b1) ∨
      (∃ c, BodyCondition conds b1 c) ∧ ∀ r ∈ conds, r.ibody ≠ b2) :
    getMatrix h mtyp b1 b2 = .error .conditionError := by
  obtain ⟨_, _, _, _, _, _, _, ho, ht, _⟩ := init_inv hi
  unfold getMatrix
  rw [ht, hm]
  have e : need h.isOpen (some rows) = .ok rows := by rw [ho]; rfl
  rw [e, bind_ok]
  rcases hno with h1 | ⟨⟨c, h1⟩, h2⟩
  · rw [ibcond_missing ho ht hc h1]
    rfl
  · rw [ibcond_ok ho ht hc h1, bind_ok, ibcond_missing ho ht hc h2]
    rfl

theorem matrix_no_record {pi : K} {t : HydroTabs K V} {h : HydroObj K V} {mtyp b1 b2 : Int}
    (hi : hydroInit pi t = .ok h) (hm : t.w1matrix = none) :
    getMatrix h mtyp b1 b2 = .error .noSuchRecord := by
  obtain ⟨_, _, _, _, _, _, _, ho, ht, _⟩ := init_inv hi
  unfold getMatrix
  rw [ht, hm, ho]
  rfl

/-! ## C52: panel pressures -/

theorem countDistinct_ok {t : HydroTabs K V} {h : HydroObj K V} {rows recs : List (PanelRow V)}
    {b : Int} (ho : h.isOpen = true) (ht : h.tabs = t) (hp : t.w1panpre = some rows)
    (hr : RecordsOf t (fun r => r.ibcond) rows b recs) (col : PanelRow V → Int) :
    countDistinct h col b = .ok (npUnique (recs.map col)).length := by
  unfold countDistinct
  rw [ht, hp, results_ok ho ht hr]

theorem length_npUnique {α : Type} [LinearOrder α] {l u : List α} (hn : u.Nodup)
    (hs : ∀ x, x ∈ u ↔ x ∈ l) : (npUnique l).length = u.length := by
  apply List.Perm.length_eq
  rw [List.perm_ext_iff_of_nodup ((npUnique_sorted l).imp fun {a b} h => h.ne) hn]
  intro a
  rw [mem_npUnique, hs]

/-- the panel pressure records: for every direction, frequency, symmetry part and panel -/
def HoldsPressures (D F : List K) (S P : List Int) (recs : List (PanelRow V))
    (row : K → K → Int → Int → PanelRow V) : Prop :=
  (∀ d ∈ D, ∀ f ∈ F, ∀ s ∈ S, ∀ p ∈ P, (row d f s p).isymm1 = s ∧ (row d f s p).ipan = p) ∧
    recs = D.flatMap fun d => F.flatMap fun f => S.flatMap fun s => P.map fun p => row d f s p

theorem pressure_columns {D F : List K} {S P : List Int} {recs : List (PanelRow V)}
    {row : K → K → Int → Int → PanelRow V} (hD : D ≠ []) (hF : F ≠ []) (hS : S ≠ []) (hP : P ≠ [])
    (hh : HoldsPressures D F S P recs row) :
    (∀ x, x ∈ P ↔ x ∈ recs.map fun r => r.ipan) ∧
    (∀ x, x ∈ S ↔ x ∈ recs.map fun r => r.isymm1) := by
  obtain ⟨d, hd⟩ := List.exists_mem_of_ne_nil _ hD
  obtain ⟨f, hf⟩ := List.exists_mem_of_ne_nil _ hF
  obtain ⟨s, hs⟩ := List.exists_mem_of_ne_nil _ hS
  obtain ⟨p, hp⟩ := List.exists_mem_of_ne_nil _ hP
  rw [hh.2]
  simp only [List.mem_map, List.mem_flatMap]
  constructor
  · intro x
    constructor
    · intro hx
      exact ⟨_, ⟨d, hd, f, hf, s, hs, x, hx, rfl⟩, (hh.1 d hd f hf s hs x hx).2⟩
    · rintro ⟨_, ⟨d, hd, f, hf, s, hs, p, hp, rfl⟩, rfl⟩
      rw [(hh.1 d hd f hf s hs p hp).2]
      exact hp
  · intro x
    constructor
    · intro hx
      exact ⟨_, ⟨d, hd, f, hf, x, hx, p, hp, rfl⟩, (hh.1 d hd f hf x hx p hp).1⟩
    · rintro ⟨_, ⟨d, hd, f, hf, s, hs, p, hp, rfl⟩, rfl⟩
      rw [(hh.1 d hd f hf s hs p hp).1]
      exact hs

/-- **Panel pressures are indexed (panel, symmetry part, direction, frequency)**, panels and symmetry
parts in the order in which the file lists them. -/
theorem panel_pressures [Zero V] {pi : K} {t : HydroTabs K V} {h : HydroObj K V} {D F : List K}
    {S P : List Int} {rows recs : List (PanelRow V)} {b : Int}
    {row : K → K → Int → Int → PanelRow V}
    (hi : hydroInit pi t = .ok h) (hg : OnGrid t D F) (htab : t.w1panpre = some rows)
    (hr : RecordsOf t (fun r => r.ibcond) rows b recs) (hh : HoldsPressures D F S P recs row)
    (hSn : S.Nodup) (hPn : P.Nodup) (hS : S ≠ []) (hP : P ≠ []) :
    ∃ a, getPanelPressures h b = .ok (some a) ∧
      a.shape = [P.length, S.length, D.length, F.length] ∧
      ∀ k l i j p s d f, P[k]? = some p → S[l]? = some s → D[i]? = some d → F[j]? = some f →
        a.get [k, l, i, j] = (row d f s p).p := by
  obtain ⟨ho, ht, hD, hF, hnd, hnf, hd⟩ := grid_obj hi hg
  obtain ⟨cP, cS⟩ := pressure_columns hg.dirs_ne hg.freqs_ne hS hP hh
  have e : recs.map (fun r => r.p) = D.flatMap fun d => F.flatMap fun f =>
      S.flatMap fun s => P.map fun p => (row d f s p).p := by
    rw [hh.2, List.map_flatMap]
    congr 1
    funext d
    rw [List.map_flatMap]
    congr 1
    funext f
    rw [List.map_flatMap]
    congr 1
    funext s
    rw [List.map_map]
    rfl
  have hin : ∀ d f, (S.flatMap fun s => P.map fun p => (row d f s p).p).length =
      S.length * P.length := fun d f => flatMap_length fun s _ => by rw [List.length_map]
  have hin2 : ∀ d, (F.flatMap fun f => S.flatMap fun s => P.map fun p => (row d f s p).p).length =
      F.length * (S.length * P.length) := fun d => flatMap_length fun f _ => hin d f
  obtain ⟨a, ha, hs, hget⟩ := nd_reshape_ok
    (flat := D.flatMap fun d => F.flatMap fun f => S.flatMap fun s => P.map fun p => (row d f s p).p)
    (shape := [D.length, F.length, S.length, P.length])
    (by rw [flatMap_length fun d _ => hin2 d]; simp)
  have hP0 : P.length ≠ 0 := fun e => hP (List.length_eq_zero_iff.1 e)
  have hax : ((([1, 0].zip [2, 3]).insertionSort fun p q : Nat × Nat => p.1 ≤ q.1).foldl
      (fun order m => order.insertIdx m.1 m.2)
      ((List.range 4).filter fun k => !([2, 3] : List Nat).contains k)) = [3, 2, 0, 1] := by decide
  have hmv : ndMoveaxis a [2, 3] [1, 0] = ndTranspose a [3, 2, 0, 1] := by
    unfold ndMoveaxis
    rw [hs]
    exact congrArg (ndTranspose a) hax
  refine ⟨ndMoveaxis a [2, 3] [1, 0], ?_, ?_, ?_⟩
  · unfold getPanelPressures
    rw [assert_freq ho hd, bind_ok, countDistinct_ok ho ht htab hr, bind_ok,
      countDistinct_ok ho ht htab hr, bind_ok, length_npUnique hPn cP, length_npUnique hSn cS,
      if_pos hP0, ht, htab, results_ok ho ht hr, bind_ok, e, hnd, hnf, ha, bind_ok]
  · rw [hmv]
    unfold ndTranspose
    rw [hs]
    rfl
  · intro k l i j p s d f hp hsy hd hf
    have e2 : (ndMoveaxis a [2, 3] [1, 0]).get [k, l, i, j] = a.get [i, j, l, k] := by
      rw [hmv]
      rfl
    rw [e2]
    apply hget
    have hk : k < P.length := (List.getElem?_eq_some_iff.1 hp).1
    have hl : l < S.length := (List.getElem?_eq_some_iff.1 hsy).1
    have hj : j < F.length := (List.getElem?_eq_some_iff.1 hf).1
    have er : ravel [D.length, F.length, S.length, P.length] [i, j, l, k] =
        i * (F.length * (S.length * P.length)) + (j * (S.length * P.length) + (l * P.length + k)) := by
      simp [ravel]
    rw [er, flatMap_at (fun d _ => hin2 d) hd (lt_mul_of_lt hj (lt_mul_of_lt hl hk)),
      flatMap_at (fun f _ => hin d f) hf (lt_mul_of_lt hl hk),
      flatMap_at (fun s _ => by rw [List.length_map]) hsy hk, List.getElem?_map, hp]
    rfl

/-- **Panel ids: all pairs of a panel and a symmetry part, by symmetry part, then panel, in
increasing order.**  The check that every record's pair is among them never fails. -/
theorem panel_ids {pi : K} {t : HydroTabs K V} {h : HydroObj K V} {D F : List K}
    {rows recs : List (PanelRow V)} {b : Int}
    (hi : hydroInit pi t = .ok h) (hg : OnGrid t D F) (htab : t.w1panpre = some rows)
    (hr : RecordsOf t (fun r => r.ibcond) rows b recs) (hne : recs ≠ []) :
    ∃ ids, getPressurePanelIds h b = .ok (some ids) ∧
      (∀ p s, (p, s) ∈ ids ↔ (∃ r ∈ recs, r.ipan = p) ∧ ∃ r ∈ recs, r.isymm1 = s) ∧
      ids.Pairwise (fun x y => x.2 < y.2 ∨ x.2 = y.2 ∧ x.1 < y.1) := by
  obtain ⟨ho, ht, hD, hF, hnd, hnf, hd⟩ := grid_obj hi hg
  have hn0 : (npUnique (recs.map fun r => r.ipan)).length ≠ 0 := by
    obtain ⟨r, hr'⟩ := List.exists_mem_of_ne_nil _ hne
    have : r.ipan ∈ npUnique (recs.map fun r => r.ipan) :=
      mem_npUnique.2 (List.mem_map.2 ⟨r, hr', rfl⟩)
    have := List.length_pos_of_mem this
    omega
  set ids := (npUnique (recs.map fun r => r.isymm1)).flatMap fun symm =>
    (npUnique (recs.map fun r => r.ipan)).map fun panel => (panel, symm) with hids
  have hmem : ∀ p s, (p, s) ∈ ids ↔ (∃ r ∈ recs, r.ipan = p) ∧ ∃ r ∈ recs, r.isymm1 = s := by
    intro p s
    simp only [hids, List.mem_flatMap, List.mem_map, mem_npUnique, Prod.mk.injEq]
    constructor
    · rintro ⟨s', h1, p', h2, rfl, rfl⟩
      exact ⟨h2, h1⟩
    · rintro ⟨h2, h1⟩
      exact ⟨s, h1, p, h2, rfl, rfl⟩
  refine ⟨ids, ?_, hmem, ?_⟩
  · unfold getPressurePanelIds
    rw [assert_freq ho hd, bind_ok, countDistinct_ok ho ht htab hr, bind_ok,
      countDistinct_ok ho ht htab hr, bind_ok, if_pos hn0, ht, htab, results_ok ho ht hr, bind_ok]
    rw [if_pos]
    rw [List.all_eq_true]
    rintro ⟨p, s⟩ hps
    rw [List.contains_iff_mem]
    refine (hmem p s).2 ?_
    obtain ⟨h1, h2⟩ := List.of_mem_zip hps
    exact ⟨List.mem_map.1 h1, List.mem_map.1 h2⟩
  · rw [hids, List.pairwise_flatMap]
    constructor
    · intro s _
      rw [List.pairwise_map]
      exact (npUnique_sorted _).imp fun {a b} h => Or.inr ⟨rfl, h⟩
    · refine (npUnique_sorted _).imp ?_
      intro s1 s2 hlt x hx y hy
      obtain ⟨_, _, rfl⟩ := List.mem_map.1 hx
      obtain ⟨_, _, rfl⟩ := List.mem_map.1 hy
      exact Or.inl hlt

/-- **Ids and pressures go together when the file lists panels and symmetry parts in increasing
order**: row `l * npanels + k` of the ids is the panel and symmetry part of `[k, l, :, :]`. -/
theorem ids_match_pressures {pi : K} {t : HydroTabs K V} {h : HydroObj K V} {D F : List K}
    {S P : List Int} {rows recs : List (PanelRow V)} {b : Int}
    {row : K → K → Int → Int → PanelRow V}
    (hi : hydroInit pi t = .ok h) (hg : OnGrid t D F) (htab : t.w1panpre = some rows)
    (hr : RecordsOf t (fun r => r.ibcond) rows b recs) (hh : HoldsPressures D F S P recs row)
    (hSn : S.Pairwise (· < ·)) (hPn : P.Pairwise (· < ·)) (hS : S ≠ []) (hP : P ≠ []) :
    ∃ ids, getPressurePanelIds h b = .ok (some ids) ∧ ids.length = S.length * P.length ∧
      ∀ k l p s, P[k]? = some p → S[l]? = some s → ids[l * P.length + k]? = some (p, s) := by
  obtain ⟨ho, ht, hD, hF, hnd, hnf, hd⟩ := grid_obj hi hg
  obtain ⟨cP, cS⟩ := pressure_columns hg.dirs_ne hg.freqs_ne hS hP hh
  have hP0 : P.length ≠ 0 := fun e => hP (List.length_eq_zero_iff.1 e)
  refine ⟨S.flatMap fun symm => P.map fun panel => (panel, symm), ?_, ?_, ?_⟩
  · unfold getPressurePanelIds
    rw [assert_freq ho hd, bind_ok, countDistinct_ok ho ht htab hr, bind_ok,
      countDistinct_ok ho ht htab hr, bind_ok, npUnique_eq hPn cP, if_pos hP0, ht, htab,
      results_ok ho ht hr, bind_ok]
    simp only [npUnique_eq hSn cS, npUnique_eq hPn cP]
    rw [if_pos]
    rw [List.all_eq_true]
    rintro ⟨p, s⟩ hps
    rw [List.contains_iff_mem]
    obtain ⟨h1, h2⟩ := List.of_mem_zip hps
    exact List.mem_flatMap.2 ⟨s, (cS s).2 h2, List.mem_map.2 ⟨p, (cP p).2 h1, rfl⟩⟩
  · exact flatMap_length fun s _ => by rw [List.length_map]
  · intro k l p s hp hs
    have hk : k < P.length := (List.getElem?_eq_some_iff.1 hp).1
    rw [flatMap_at (fun s _ => by rw [List.length_map]) hs hk, List.getElem?_map, hp]
    rfl

/-- **No panel pressures: both getters return `None`** - no such record on the file, no body
records, or no record of the body. -/
theorem no_panels [Zero V] {pi : K} {t : HydroTabs K V} {h : HydroObj K V} {D F : List K} {b : Int}
    (hi : hydroInit pi t = .ok h) (hg : OnGrid t D F)
    (hno : t.w1panpre = none ∨ (b ≠ 0 ∧ t.wbodcon = none) ∨
      ∃ rows, t.w1panpre = some rows ∧ RecordsOf t (fun r => r.ibcond) rows b []) :
    getPressurePanelIds h b = .ok none ∧ getPanelPressures h b = .ok none := by
  obtain ⟨ho, ht, hD, hF, hnd, hnf, hd⟩ := grid_obj hi hg
  have hc : ∀ col, countDistinct h col b = .ok 0 := by
    intro col
    unfold countDistinct
    rw [ht]
    rcases hno with h1 | ⟨h1, h2⟩ | ⟨rows, h1, h2⟩
    · rw [h1, results_missing ho]
    · cases hp : t.w1panpre with
      | none => rw [results_missing ho]
      | some rows => rw [results_no_bodies ho ht h2 h1]
    · rw [h1, results_ok ho ht h2]
      rfl
  unfold getPressurePanelIds getPanelPressures
  rw [assert_freq ho hd]
  simp only [bind_ok, hc]
  exact ⟨rfl, rfl⟩

/-! ## C53: sections, points, body properties -/

/-- **Sections: one entry per record, in file order, with its five fields; points: the
coordinates of every record in file order.** -/
theorem sections_points {pi : K} {t : HydroTabs K V} {h : HydroObj K V}
    (hi : hydroInit pi t = .ok h) :
    (∀ S, t.wsection = some S → ∃ out, getSections h = .ok out ∧
      List.Forall₂ (fun (d : SectionDef K) (r : SectionRow K) => d.secusr = r.secusr ∧
        d.isecty = r.isecty ∧ d.p1 = r.p1 ∧ d.p2 = r.p2 ∧ d.p3 = r.p3) out S) ∧
    (∀ P, t.wfkpoint = some P → ∃ out, getPoints h = .ok out ∧
      List.Forall₂ (fun (x : List K) (r : PointRow K) => x = r.fkpnt) out P) ∧
    (t.wsection = none → getSections h = .error .noSuchRecord) ∧
    (t.wfkpoint = none → getPoints h = .error .noSuchRecord) := by
  obtain ⟨_, _, _, _, _, _, _, ho, ht, _⟩ := init_inv hi
  refine ⟨?_, ?_, ?_, ?_⟩
  · intro S hS
    unfold getSections
    rw [ht, hS, ho]
    refine ⟨_, rfl, ?_⟩
    rw [List.forall₂_map_left_iff, List.forall₂_same]
    exact fun r _ => ⟨rfl, rfl, rfl, rfl, rfl⟩
  · intro P hP
    unfold getPoints
    rw [ht, hP, ho]
    refine ⟨_, rfl, ?_⟩
    rw [List.forall₂_map_left_iff, List.forall₂_same]
    exact fun r _ => rfl
  · intro hS
    unfold getSections
    rw [ht, hS, ho]
    rfl
  · intro hP
    unfold getPoints
    rw [ht, hP, ho]
    rfl

/-- **Body properties: all columns of the body's first record under their names, except `nfield`
and `ibcond`.** -/
theorem body_properties {pi : K} {t : HydroTabs K V} {h : HydroObj K V} {conds : List BodConRow}
    {rows pre post : List (BodyPropRow K)} {m : BodyPropRow K} {b c : Int}
    (hi : hydroInit pi t = .ok h) (hw : t.wbody = some rows) (hc : t.wbodcon = some conds)
    (hb : BodyCondition conds b c) (hsplit : rows = pre ++ m :: post) (hm : m.ibcond = c)
    (hpre : ∀ r ∈ pre, r.ibcond ≠ c)
    (hnames : ∀ e ∈ m.props, e.1 ≠ "nfield" ∧ e.1 ≠ "ibcond") :
    getBodyProperties h b = .ok m.props := by
  obtain ⟨_, _, _, _, _, _, _, ho, ht, _⟩ := init_inv hi
  unfold getBodyProperties
  rw [ht, hw]
  have e : need h.isOpen (some rows) = .ok rows := by rw [ho]; rfl
  have e2 : getrow rows (fun r => decide (r.ibcond = c)) = .ok m := by
    unfold getrow
    rw [hsplit, List.find?_append, List.find?_eq_none.2 (by
        intro x hx; rw [decide_eq_true_eq]; exact hpre x hx), Option.none_or,
      List.find?_cons_of_pos (by rw [decide_eq_true_eq]; exact hm)]
  rw [e, bind_ok, ibcond_ok ho ht hc hb, bind_ok, e2, bind_ok]
  refine congrArg Except.ok ?_
  have f1 : m.props.filter (fun e => decide (e.1 ≠ "nfield")) = m.props :=
    List.filter_eq_self.2 fun x hx => decide_eq_true (hnames x hx).1
  have f2 : m.props.filter (fun e => decide (e.1 ≠ "ibcond")) = m.props :=
    List.filter_eq_self.2 fun x hx => decide_eq_true (hnames x hx).2
  rw [List.filter_cons_of_neg (by simp), List.filter_cons_of_pos (by simp), f1,
    List.filter_cons_of_neg (by simp), f2]

/-- no record of the body, or an unknown body: `ConditionError` -/
theorem body_properties_missing {pi : K} {t : HydroTabs K V} {h : HydroObj K V}
    {conds : List BodConRow} {rows : List (BodyPropRow K)} {b : Int}
    (hi : hydroInit pi t = .ok h) (hw : t.wbody = some rows) (hc : t.wbodcon = some conds)
    (hno : (∀ r ∈ conds, r.ibody ≠ b) ∨
      ∃ c, BodyCondition conds b c ∧ ∀ r ∈ rows, r.ibcond ≠ c) :
    getBodyProperties h b = .error .conditionError := by
  obtain ⟨_, _, _, _, _, _, _, ho, ht, _⟩ := init_inv hi
  unfold getBodyProperties
  rw [ht, hw]
  have e : need h.isOpen (some rows) = .ok rows := by rw [ho]; rfl
  rw [e, bind_ok]
  rcases hno with h1 | ⟨c, h1, h2⟩
  · rw [ibcond_missing ho ht hc h1]
    rfl
  · rw [ibcond_ok ho ht hc h1, bind_ok]
    have : getrow rows (fun r => decide (r.ibcond = c)) = .error .conditionError := by
      unfold getrow
      rw [List.find?_eq_none.2 (by intro x hx; rw [decide_eq_true_eq]; exact h2 x hx)]
    rw [this]
    rfl

/-! ## C25 for these objects -/

/-- **After `close` every getter raises `ClosedFileError`**, whatever the arguments. -/
theorem closed_hydro [AddCommGroup V] [Module K V] {h : HydroObj K V} (hc : h.isOpen = false)
    (pi : K) (b b2 m : Int) (unit kind : String) :
    getAngularFreqs h = .error .closedFile ∧ getPeriods h = .error .closedFile ∧
    getDirections pi h unit = .error .closedFile ∧ getTimesteps h = .error .closedFile ∧
    getSections h = .error .closedFile ∧ getPoints h = .error .closedFile ∧
    getBodyProperties h b = .error .closedFile ∧ getMotionRaos h b = .error .closedFile ∧
    getExcitationForceRaos h b = .error .closedFile ∧ getSectionForceRaos h b = .error .closedFile ∧
    getFluidKinematicsRaos h kind = .error .closedFile ∧
    getMatrix h m b b2 = .error .closedFile ∧ getBodymass h b b2 = .error .closedFile ∧
    getAddedmass h b b2 = .error .closedFile ∧ getPotentialdamping h b b2 = .error .closedFile ∧
    getViscousdamping h b b2 = .error .closedFile ∧
    getHydrostaticRestoring h b b2 = .error .closedFile ∧
    getMooringRestoring h b b2 = .error .closedFile ∧ getMeandrift h b = .error .closedFile ∧
    getHorizMeandrift h b = .error .closedFile ∧ getPressurePanelIds h b = .error .closedFile ∧
    getPanelPressures h b = .error .closedFile := by
  unfold getAngularFreqs getPeriods getDirections getTimesteps getSections getPoints
    getBodyProperties getMotionRaos getExcitationForceRaos getSectionForceRaos
    getFluidKinematicsRaos getBodymass getAddedmass getPotentialdamping getViscousdamping
    getHydrostaticRestoring getMooringRestoring getMatrix getMeandrift getHorizMeandrift
    getPressurePanelIds getPanelPressures getRaos assertDomain need
  rw [hc]
  exact ⟨rfl, rfl, rfl, rfl, rfl, rfl, rfl, rfl, rfl, rfl, rfl, rfl, rfl, rfl, rfl, rfl, rfl, rfl,
    rfl, rfl, rfl, rfl⟩

end Verif.Data.Hydro
