import Verif.Data.HydroLemmas
/-!
# C35, C36, C37, C52: hydrodynamic results
-/

namespace Verif.Data.Hydro
open Verif

set_option linter.unusedSectionVars false

variable {K V : Type} [Field K] [LinearOrder K]

/-! ## Opening -/

theorem init_inv {pi : K} {t : HydroTabs K V} {h : HydroObj K V} (hi : hydroInit pi t = .ok h) :
    ∃ dirs freqs times row rest, t.wdresref = some (dirs, freqs, times) ∧
      t.wglobdef = some (row :: rest) ∧ h.isOpen = true ∧ h.tabs = t ∧
      DistinctInOrder freqs h.angfreqs ∧ DistinctInOrder dirs h.directions ∧
      h.periods = h.angfreqs.map (fun w => 2 * pi / w) ∧ h.timesteps = npUnique times ∧
      h.nfreqs = h.angfreqs.length ∧ h.ndirs = h.directions.length ∧
      h.nsections = countRows t.wsection ∧ h.npoints = countRows t.wfkpoint ∧
      h.g = row.g ∧ h.ro = row.ro ∧ h.depth = row.depth ∧
      h.domaintype = (if h.angfreqs.length ≠ 0 then .frequency else .time) := by
  unfold hydroInit at hi
  cases hw : t.wdresref with
  | none => rw [hw] at hi; cases hi
  | some w =>
    obtain ⟨dirs, freqs, times⟩ := w
    rw [hw] at hi
    obtain ⟨rf, hrf, sf⟩ := uniqueInOrder_spec freqs
    obtain ⟨rd, hrd, sd⟩ := uniqueInOrder_spec dirs
    have e1 : need true (some (dirs, freqs, times)) = .ok (dirs, freqs, times) := rfl
    rw [e1] at hi
    simp only [bind_ok, hrf, hrd] at hi
    cases hg : t.wglobdef with
    | none => rw [hg] at hi; cases hi
    | some gs =>
      rw [hg] at hi
      cases gs with
      | nil => cases hi
      | cons row rest =>
        have e2 : need true (some (row :: rest)) = .ok (row :: rest) := rfl
        have e3 : pyIdx (row :: rest) 0 = .ok row := rfl
        rw [e2] at hi
        simp only [bind_ok, e3] at hi
        injection hi with hi
        subst hi
        exact ⟨dirs, freqs, times, row, rest, rfl, rfl, rfl, rfl, sf, sd, rfl, rfl, rfl, rfl, rfl,
          rfl, rfl, rfl, rfl, rfl⟩

/-- **Opening succeeds exactly with a table of reference records and a global record**; a missing
table is `NoSuchRecordError`. -/
theorem opens (pi : K) (t : HydroTabs K V) {w : List K × List K × List K} {row : GlobRow K}
    {rest : List (GlobRow K)} (hw : t.wdresref = some w) (hg : t.wglobdef = some (row :: rest)) :
    ∃ h, hydroInit pi t = .ok h := by
  obtain ⟨rf, hrf, _⟩ := uniqueInOrder_spec w.2.1
  obtain ⟨rd, hrd, _⟩ := uniqueInOrder_spec w.1
  unfold hydroInit
  rw [hw, hg]
  have e1 : need true (some w) = .ok w := rfl
  have e2 : need true (some (row :: rest)) = .ok (row :: rest) := rfl
  have e3 : pyIdx (row :: rest) 0 = .ok row := rfl
  rw [e1, e2]
  simp only [bind_ok, hrf, hrd, e3]
  exact ⟨_, rfl⟩

theorem opens_error (pi : K) (t : HydroTabs K V) (hm : t.wdresref = none ∨ t.wglobdef = none) :
    hydroInit pi t = .error .noSuchRecord := by
  unfold hydroInit
  cases hw : t.wdresref with
  | none => rfl
  | some w =>
    have hg : t.wglobdef = none := by
      rcases hm with h | h
      · rw [hw] at h; cases h
      · exact h
    obtain ⟨rf, hrf, _⟩ := uniqueInOrder_spec w.2.1
    obtain ⟨rd, hrd, _⟩ := uniqueInOrder_spec w.1
    have e1 : need true (some w) = .ok w := rfl
    rw [hg, e1]
    simp only [bind_ok, hrf, hrd]
    rfl

/-- the attributes `g`, `ro` and `depth` are those of the first global record -/
theorem global_values {pi : K} {t : HydroTabs K V} {h : HydroObj K V} {row : GlobRow K}
    {rest : List (GlobRow K)} (hi : hydroInit pi t = .ok h)
    (hg : t.wglobdef = some (row :: rest)) : h.g = row.g ∧ h.ro = row.ro ∧ h.depth = row.depth := by
  obtain ⟨_, _, _, row', rest', _, hg', _, _, _, _, _, _, _, _, _, _, h1, h2, h3, _⟩ := init_inv hi
  rw [hg] at hg'
  injection hg' with hg'
  injection hg' with hg' _
  subst hg'
  exact ⟨h1, h2, h3⟩

/-! ## C35 -/

/-- **Frequencies: every distinct value once, in order of first appearance; no frequencies on the
file: `ResultError`.** -/
theorem angular_freqs {pi : K} {t : HydroTabs K V} {h : HydroObj K V} {dirs freqs times : List K}
    (hi : hydroInit pi t = .ok h) (hw : t.wdresref = some (dirs, freqs, times)) :
    (freqs ≠ [] → ∃ r, getAngularFreqs h = .ok r ∧ DistinctInOrder freqs r) ∧
    (freqs = [] → getAngularFreqs h = .error .resultError) := by
  obtain ⟨d, f, ti, _, _, hw', _, ho, _, sf, _, _, _, _, _, _, _, _, _, _, hd⟩ := init_inv hi
  rw [hw] at hw'
  injection hw' with hw'
  injection hw' with e1 e2
  injection e2 with e2 e3
  subst e1 e2 e3
  have hz : h.angfreqs.length ≠ 0 ↔ freqs ≠ [] := by
    rw [ne_eq, List.length_eq_zero_iff, not_iff_not]
    constructor
    · intro e
      rw [List.eq_nil_iff_forall_not_mem]
      intro x hx
      have := (sf.same x).2 hx
      rw [e] at this
      cases this
    · intro e
      rw [List.eq_nil_iff_forall_not_mem]
      intro x hx
      have := (sf.same x).1 hx
      rw [e] at this
      cases this
  unfold getAngularFreqs assertDomain
  rw [ho, hd]
  constructor
  · intro hne
    rw [if_pos (hz.2 hne)]
    exact ⟨_, rfl, sf⟩
  · intro hne
    have hnn : ¬ h.angfreqs.length ≠ 0 := by rw [hz]; exact fun h => h hne
    simp only [if_neg hnn]
    rfl

/-- **Periods belong to the frequencies**: entry by entry, period times frequency is `2π`. -/
theorem periods {pi : K} {t : HydroTabs K V} {h : HydroObj K V} {fs : List K}
    (hi : hydroInit pi t = .ok h) (hf : getAngularFreqs h = .ok fs) :
    ∃ ps, getPeriods h = .ok ps ∧
      List.Forall₂ (fun p w => w ≠ 0 → p * w = 2 * pi) ps fs := by
  obtain ⟨d, f, ti, _, _, _, _, ho, _, _, _, hp, _, _, _, _, _, _, _, _, _⟩ := init_inv hi
  unfold getAngularFreqs at hf
  unfold getPeriods
  cases hd : assertDomain h .frequency with
  | error e => rw [hd] at hf; cases hf
  | ok u =>
    rw [hd] at hf
    have hf' : Except.ok h.angfreqs = (Except.ok fs : Except Err (List K)) := hf
    injection hf' with hf'
    refine ⟨h.periods, rfl, ?_⟩
    rw [hp, hf', List.forall₂_map_left_iff, List.forall₂_same]
    intro w _ hw
    exact div_mul_cancel₀ _ hw

/-- **Directions: every distinct value once, in order of first appearance**, in radians or
degrees (`180/π` times the value); any other unit is a `ValueError`. -/
theorem directions {pi : K} {t : HydroTabs K V} {h : HydroObj K V} {dirs freqs times : List K}
    (hi : hydroInit pi t = .ok h) (hw : t.wdresref = some (dirs, freqs, times)) (hpi : pi ≠ 0) :
    ∃ r, getDirections pi h "radians" = .ok r ∧ DistinctInOrder dirs r ∧
      (∃ s, getDirections pi h "degrees" = .ok s ∧
        List.Forall₂ (fun deg rad => deg * pi = rad * 180) s r) ∧
      ∀ unit, unit ≠ "degrees" → unit ≠ "radians" →
        getDirections pi h unit = .error .valueError := by
  obtain ⟨d, f, ti, _, _, hw', _, ho, _, _, sd, _⟩ := init_inv hi
  rw [hw] at hw'
  injection hw' with hw'
  injection hw' with e1 e2
  subst e1
  have e : ∀ unit, getDirections pi h unit =
      if unit = "degrees" then .ok (h.directions.map fun d => d * 180 / pi)
      else if unit = "radians" then .ok h.directions else .error .valueError := by
    intro unit
    unfold getDirections
    rw [if_pos ho]
  refine ⟨h.directions, by rw [e, if_neg (by decide), if_pos rfl], sd,
    ⟨_, by rw [e, if_pos rfl], ?_⟩, ?_⟩
  · rw [List.forall₂_map_left_iff, List.forall₂_same]
    intro x _
    exact div_mul_cancel₀ _ hpi
  · intro unit h1 h2
    rw [e, if_neg h1, if_neg h2]

/-- **Time steps: the distinct values in increasing order; only without frequencies.** -/
theorem timesteps {pi : K} {t : HydroTabs K V} {h : HydroObj K V} {dirs freqs times : List K}
    (hi : hydroInit pi t = .ok h) (hw : t.wdresref = some (dirs, freqs, times)) :
    (freqs = [] → ∃ r, getTimesteps h = .ok r ∧ r.Pairwise (· < ·) ∧ ∀ x, x ∈ r ↔ x ∈ times) ∧
    (freqs ≠ [] → getTimesteps h = .error .resultError) := by
  obtain ⟨d, f, ti, _, _, hw', _, ho, _, sf, _, _, ht, _, _, _, _, _, _, _, hd⟩ := init_inv hi
  rw [hw] at hw'
  injection hw' with hw'
  injection hw' with e1 e2
  injection e2 with e2 e3
  subst e1 e2 e3
  unfold getTimesteps assertDomain
  rw [ho, hd]
  constructor
  · intro hne
    have : h.angfreqs = [] := by
      rw [List.eq_nil_iff_forall_not_mem]
      intro x hx
      have := (sf.same x).1 hx
      rw [hne] at this
      cases this
    rw [this]
    exact ⟨_, rfl, by rw [ht]; exact npUnique_sorted _, fun x => by rw [ht]; exact mem_npUnique⟩
  · intro hne
    obtain ⟨x, hx⟩ := List.exists_mem_of_ne_nil _ hne
    have : h.angfreqs.length ≠ 0 := by
      have := List.length_pos_of_mem ((sf.same x).2 hx)
      omega
    rw [if_pos this]
    rfl

/-! ## Objects of a grid -/

theorem grid_obj {pi : K} {t : HydroTabs K V} {h : HydroObj K V} {D F : List K}
    (hi : hydroInit pi t = .ok h) (hg : OnGrid t D F) :
    h.isOpen = true ∧ h.tabs = t ∧ h.directions = D ∧ h.angfreqs = F ∧ h.ndirs = D.length ∧
      h.nfreqs = F.length ∧ h.domaintype = .frequency := by
  obtain ⟨d, f, ti, _, _, hw', _, ho, htb, sf, sd, _, _, hnf, hnd, _, _, _, _, _, hdom⟩ := init_inv hi
  rw [hg.refs] at hw'
  injection hw' with hw'
  injection hw' with e1 e2
  injection e2 with e2 e3
  have hD : h.directions = D := by
    rw [← e1] at sd
    exact distinct_unique sd (grid_dirs hg.dirs_nodup hg.freqs_ne)
  have hF : h.angfreqs = F := by
    rw [← e2] at sf
    exact distinct_unique sf (grid_freqs hg.freqs_nodup hg.dirs_ne)
  refine ⟨ho, htb, hD, hF, by rw [hnd, hD], by rw [hnf, hF], ?_⟩
  rw [hdom, hF, if_pos]
  exact fun e => hg.freqs_ne (List.length_eq_zero_iff.1 e)

/-- on a grid the axes of the arrays are those returned by `get_directions` and
`get_angular_freqs` -/
theorem grid_axes {pi : K} {t : HydroTabs K V} {h : HydroObj K V} {D F : List K}
    (hi : hydroInit pi t = .ok h) (hg : OnGrid t D F) :
    getDirections pi h "radians" = .ok D ∧ getAngularFreqs h = .ok F := by
  obtain ⟨ho, _, hD, hF, _, _, hd⟩ := grid_obj hi hg
  constructor
  · unfold getDirections
    rw [if_pos ho, if_neg (by decide), if_pos rfl, hD]
  · unfold getAngularFreqs assertDomain
    rw [ho, hd, hF]
    rfl

theorem assert_freq {h : HydroObj K V} (ho : h.isOpen = true) (hd : h.domaintype = .frequency) :
    assertDomain h .frequency = .ok () := by
  unfold assertDomain
  rw [if_pos ho, if_pos hd]

theorem ibcond_ok {t : HydroTabs K V} {h : HydroObj K V} (ho : h.isOpen = true) (ht : h.tabs = t)
    {conds : List BodConRow} {b c : Int} (hc : t.wbodcon = some conds)
    (hb : BodyCondition conds b c) : getIbcond h b = .ok c := by
  obtain ⟨pre, row, post, rfl, h1, h2, h3⟩ := hb
  unfold getIbcond
  rw [ho, ht, hc]
  show (getrow (pre ++ row :: post) (fun r => decide (r.ibody = b)) >>= _) = _
  have : getrow (pre ++ row :: post) (fun r => decide (r.ibody = b)) = .ok row := by
    unfold getrow
    rw [List.find?_append, List.find?_eq_none.2 (by intro x hx; simpa using h3 x hx),
      Option.none_or, List.find?_cons_of_pos (by simpa using h1)]
  rw [this, bind_ok, h2]

theorem ibcond_missing {t : HydroTabs K V} {h : HydroObj K V} (ho : h.isOpen = true)
    (ht : h.tabs = t) {conds : List BodConRow} {b : Int} (hc : t.wbodcon = some conds)
    (hb : ∀ r ∈ conds, r.ibody ≠ b) : getIbcond h b = .error .conditionError := by
  unfold getIbcond
  rw [ho, ht, hc]
  show (getrow conds (fun r => decide (r.ibody = b)) >>= _) = _
  have : getrow conds (fun r => decide (r.ibody = b)) = .error .conditionError := by
    unfold getrow
    rw [List.find?_eq_none.2 (by intro x hx; simpa using hb x hx)]
  rw [this]
  rfl

theorem results_ok {β : Type} {t : HydroTabs K V} {h : HydroObj K V} (ho : h.isOpen = true)
    (ht : h.tabs = t) {cond : β → Int} {rows recs : List β} {b : Int}
    (hr : RecordsOf t cond rows b recs) : getResults h (some rows) cond b = .ok recs := by
  unfold getResults
  rw [ho]
  cases hr with
  | all => rfl
  | body hc hb hbc e =>
    show (if b ≠ 0 then _ else _) = _
    rw [if_pos hb, ibcond_ok ho ht hc hbc, bind_ok, e]

/-! ## C36 -/

theorem raos_generic {W : Type} [Zero W] {pi : K} {t : HydroTabs K V} {h : HydroObj K V}
    {D F : List K} {rows recs : List (BodyRow W)} {n : Nat} {b : Int} {row : K → K → List W}
    (hi : hydroInit pi t = .ok h) (hg : OnGrid t D F)
    (hr : RecordsOf t (fun r => r.ibcond) rows b recs) (hh : HoldsRaos D F recs n row) :
    ∃ a, getRaos h (some rows) n b = .ok a ∧ IndexedRaos D F a n row := by
  obtain ⟨ho, ht, hD, hF, hnd, hnf, hd⟩ := grid_obj hi hg
  unfold getRaos
  rw [assert_freq ho hd, bind_ok, results_ok ho ht hr, bind_ok, hh.2, hnd, hnf]
  have e : (D.flatMap fun d => F.map fun f => row d f).flatten =
      D.flatMap fun d => F.flatMap fun f => row d f := by
    rw [flatMap_flatten]
    rfl
  have hin : ∀ d ∈ D, (F.flatMap fun f => row d f).length = F.length * n :=
    fun d hd => flatMap_length fun f hf => hh.1 d hd f hf
  rw [e]
  obtain ⟨a, ha, hs, hget⟩ := nd_reshape_ok
    (flat := D.flatMap fun d => F.flatMap fun f => row d f) (shape := [D.length, F.length, n])
    (by rw [flatMap_length hin]; simp)
  rw [ha, bind_ok]
  refine ⟨_, rfl, ?_, ?_⟩
  · unfold ndRollaxis ndTranspose
    rw [hs]
    rfl
  · intro c i j d f x hd hf hx
    have e2 : (ndRollaxis a 2).get [c, i, j] = a.get [i, j, c] := by
      unfold ndRollaxis ndTranspose
      rw [hs]
      rfl
    rw [e2]
    apply hget
    have hdm := List.mem_of_getElem? hd
    have hc : c < n := by
      obtain ⟨hlt, -⟩ := List.getElem?_eq_some_iff.1 hx
      rw [hh.1 d hdm f (List.mem_of_getElem? hf)] at hlt
      exact hlt
    have hj : j < F.length := (List.getElem?_eq_some_iff.1 hf).1
    have er : ravel [D.length, F.length, n] [i, j, c] = i * (F.length * n) + (j * n + c) := by
      simp [ravel]
    rw [er, flatMap_at hin hd (by
      calc j * n + c < j * n + n := by omega
        _ = (j + 1) * n := by rw [Nat.succ_mul]
        _ ≤ F.length * n := Nat.mul_le_mul_right _ hj),
      flatMap_at (fun f hf => hh.1 d hdm f hf) hf hc]
    exact hx

/-- **Motion RAOs are indexed (degree of freedom, direction, frequency)**, the axes being the lists
returned by `get_directions('radians')` and `get_angular_freqs()` (theorem `grid_axes`). -/
theorem motion_raos [Zero V] {pi : K} {t : HydroTabs K V} {h : HydroObj K V}
    {D F : List K} {rows recs : List (BodyRow V)} {b : Int} {row : K → K → List V}
    (hi : hydroInit pi t = .ok h) (hg : OnGrid t D F) (htab : t.w1motion = some rows)
    (hr : RecordsOf t (fun r => r.ibcond) rows b recs) (hh : HoldsRaos D F recs 6 row) :
    ∃ a, getMotionRaos h b = .ok a ∧ IndexedRaos D F a 6 row := by
  unfold getMotionRaos
  rw [(grid_obj hi hg).2.1, htab]
  exact raos_generic hi hg hr hh

/-- **Excitation force RAOs**, as motions -/
theorem excitation_raos [Zero V] {pi : K} {t : HydroTabs K V} {h : HydroObj K V}
    {D F : List K} {rows recs : List (BodyRow V)} {b : Int} {row : K → K → List V}
    (hi : hydroInit pi t = .ok h) (hg : OnGrid t D F) (htab : t.w1exforc = some rows)
    (hr : RecordsOf t (fun r => r.ibcond) rows b recs) (hh : HoldsRaos D F recs 6 row) :
    ∃ a, getExcitationForceRaos h b = .ok a ∧ IndexedRaos D F a 6 row := by
  unfold getExcitationForceRaos
  rw [(grid_obj hi hg).2.1, htab]
  exact raos_generic hi hg hr hh

/-- **Mean drift forces**, as motions -/
theorem meandrift {pi : K} {t : HydroTabs K V} {h : HydroObj K V}
    {D F : List K} {rows recs : List (BodyRow K)} {b : Int} {row : K → K → List K}
    (hi : hydroInit pi t = .ok h) (hg : OnGrid t D F) (htab : t.w2mdrift = some rows)
    (hr : RecordsOf t (fun r => r.ibcond) rows b recs) (hh : HoldsRaos D F recs 6 row) :
    ∃ a, getMeandrift h b = .ok a ∧ IndexedRaos D F a 6 row := by
  unfold getMeandrift
  rw [(grid_obj hi hg).2.1, htab]
  exact raos_generic hi hg hr hh

/-- **Horizontal mean drift forces**: three components -/
theorem horiz_meandrift {pi : K} {t : HydroTabs K V} {h : HydroObj K V}
    {D F : List K} {rows recs : List (BodyRow K)} {b : Int} {row : K → K → List K}
    (hi : hydroInit pi t = .ok h) (hg : OnGrid t D F) (htab : t.w2hdrift = some rows)
    (hr : RecordsOf t (fun r => r.ibcond) rows b recs) (hh : HoldsRaos D F recs 3 row) :
    ∃ a, getHorizMeandrift h b = .ok a ∧ IndexedRaos D F a 3 row := by
  unfold getHorizMeandrift
  rw [(grid_obj hi hg).2.1, htab]
  exact raos_generic hi hg hr hh

/-- **Section forces are indexed (section, degree of freedom, direction, frequency)**: `row s d f` is
the record of section `s` (a member of the list `S` of sections), records ordered by section,
then direction, then frequency. -/
theorem section_raos [Zero V] {pi : K} {t : HydroTabs K V} {h : HydroObj K V}
    {D F : List K} {S : List (SectionRow K)} {rows recs : List (BodyRow V)} {b : Int}
    {row : SectionRow K → K → K → List V}
    (hi : hydroInit pi t = .ok h) (hg : OnGrid t D F) (hsec : t.wsection = some S)
    (htab : t.w1sforce = some rows) (hr : RecordsOf t (fun r => r.ibcond) rows b recs)
    (hlen : ∀ s ∈ S, ∀ d ∈ D, ∀ f ∈ F, (row s d f).length = 6)
    (hh : recs.map (fun r => r.data) =
      S.flatMap fun s => D.flatMap fun d => F.map fun f => row s d f) :
    ∃ a, getSectionForceRaos h b = .ok a ∧ a.shape = [S.length, 6, D.length, F.length] ∧
      ∀ k c i j s d f x, S[k]? = some s → D[i]? = some d → F[j]? = some f →
        (row s d f)[c]? = some x → a.get [k, c, i, j] = x := by
  obtain ⟨ho, ht, hD, hF, hnd, hnf, hd⟩ := grid_obj hi hg
  have hns : h.nsections = S.length := by
    obtain ⟨_, _, _, _, _, _, _, _, _, _, _, _, _, _, _, hns, _⟩ := init_inv hi
    rw [hns, hsec]
    rfl
  unfold getSectionForceRaos
  rw [assert_freq ho hd, bind_ok, ht, htab, results_ok ho ht hr, bind_ok, hh, hnd, hnf, hns]
  have e : (S.flatMap fun s => D.flatMap fun d => F.map fun f => row s d f).flatten =
      S.flatMap fun s => D.flatMap fun d => F.flatMap fun f => row s d f := by
    rw [flatMap_flatten]
    congr 1
    funext s
    rw [flatMap_flatten]
    rfl
  have hin : ∀ s ∈ S, ∀ d ∈ D, (F.flatMap fun f => row s d f).length = F.length * 6 :=
    fun s hs d hd => flatMap_length fun f hf => hlen s hs d hd f hf
  have hin2 : ∀ s ∈ S, (D.flatMap fun d => F.flatMap fun f => row s d f).length =
      D.length * (F.length * 6) := fun s hs => flatMap_length fun d hd => hin s hs d hd
  rw [e]
  obtain ⟨a, ha, hs, hget⟩ := nd_reshape_ok
    (flat := S.flatMap fun s => D.flatMap fun d => F.flatMap fun f => row s d f)
    (shape := [S.length, D.length, F.length, 6])
    (by rw [flatMap_length hin2]; simp)
  rw [ha, bind_ok]
  refine ⟨_, rfl, ?_, ?_⟩
  · unfold ndRollaxis ndTranspose
    rw [hs]
    rfl
  · intro k c i j s d f x hks hd hf hx
    have e2 : (ndRollaxis a 3 1).get [k, c, i, j] = a.get [k, i, j, c] := by
      unfold ndRollaxis ndTranspose
      rw [hs]
      rfl
    rw [e2]
    apply hget
    have hsm := List.mem_of_getElem? hks
    have hdm := List.mem_of_getElem? hd
    have hc : c < 6 := by
      obtain ⟨hlt, -⟩ := List.getElem?_eq_some_iff.1 hx
      rw [hlen s hsm d hdm f (List.mem_of_getElem? hf)] at hlt
      exact hlt
    have hj : j < F.length := (List.getElem?_eq_some_iff.1 hf).1
    have hi' : i < D.length := (List.getElem?_eq_some_iff.1 hd).1
    have er : ravel [S.length, D.length, F.length, 6] [k, i, j, c] =
        k * (D.length * (F.length * 6)) + (i * (F.length * 6) + (j * 6 + c)) := by
      simp [ravel]
    have b1 : j * 6 + c < F.length * 6 := by omega
    have b2 : i * (F.length * 6) + (j * 6 + c) < D.length * (F.length * 6) :=
      calc i * (F.length * 6) + (j * 6 + c) < i * (F.length * 6) + F.length * 6 := by omega
        _ = (i + 1) * (F.length * 6) := by rw [Nat.succ_mul]
        _ ≤ D.length * (F.length * 6) := Nat.mul_le_mul_right _ hi'
    rw [er, flatMap_at hin2 hks b2, flatMap_at (hin s hsm) hd b1,
      flatMap_at (fun f hf => hlen s hsm d hdm f hf) hf hc]
    exact hx

/-- the result records of a wave kinematics file: for every direction, frequency and point the
pressure and the velocity -/
def HoldsKinematics (D F : List K) (P : List (PointRow K)) (recs : List (FluidRow V))
    (row : K → K → PointRow K → FluidRow V) : Prop :=
  (∀ d ∈ D, ∀ f ∈ F, ∀ p ∈ P, (row d f p).v.length = 3) ∧
    recs = D.flatMap fun d => F.flatMap fun f => P.map fun p => row d f p

theorem lt_mul_of_lt {i n j m : Nat} (hi : i < n) (hj : j < m) : i * m + j < n * m :=
  calc i * m + j < i * m + m := by omega
    _ = (i + 1) * m := by rw [Nat.succ_mul]
    _ ≤ n * m := Nat.mul_le_mul_right _ hi

theorem kinematics_generic [AddCommGroup V] [Module K V] {pi : K} {t : HydroTabs K V}
    {h : HydroObj K V} {D F : List K} {P : List (PointRow K)} {recs : List (FluidRow V)}
    {row : K → K → PointRow K → FluidRow V}
    (hi : hydroInit pi t = .ok h) (hg : OnGrid t D F) (hpt : t.wfkpoint = some P)
    (htab : t.wfluidkn = some recs) (hh : HoldsKinematics D F P recs row) :
    ∃ a, ndReshape (recs.map fun r : FluidRow V => r.p) [h.ndirs, h.nfreqs, h.npoints] = .ok a ∧
      (ndRollaxis a 2).shape = [P.length, D.length, F.length] ∧
      ∀ k i j p d f, P[k]? = some p → D[i]? = some d → F[j]? = some f →
        (ndRollaxis a 2).get [k, i, j] = (row d f p).p := by
  obtain ⟨ho, ht, hD, hF, hnd, hnf, hd⟩ := grid_obj hi hg
  have hnp : h.npoints = P.length := by
    obtain ⟨_, _, _, _, _, _, _, _, _, _, _, _, _, _, _, _, hnp, _⟩ := init_inv hi
    rw [hnp, hpt]
    rfl
  have e : recs.map (fun r : FluidRow V => r.p) =
      D.flatMap fun d => F.flatMap fun f => P.map fun p => (row d f p).p := by
    rw [hh.2, List.map_flatMap]
    congr 1
    funext d
    rw [List.map_flatMap]
    congr 1
    funext f
    rw [List.map_map]
    rfl
  have hin : ∀ d ∈ D, (F.flatMap fun f => P.map fun p => (row d f p).p).length =
      F.length * P.length := fun d _ => flatMap_length fun f _ => by rw [List.length_map]
  rw [e, hnd, hnf, hnp]
  obtain ⟨a, ha, hs, hget⟩ := nd_reshape_ok
    (flat := D.flatMap fun d => F.flatMap fun f => P.map fun p => (row d f p).p)
    (shape := [D.length, F.length, P.length])
    (by rw [flatMap_length hin]; simp)
  refine ⟨a, ha, ?_, ?_⟩
  · unfold ndRollaxis ndTranspose
    rw [hs]
    rfl
  · intro k i j p d f hp hd hf
    have e2 : (ndRollaxis a 2).get [k, i, j] = a.get [i, j, k] := by
      unfold ndRollaxis ndTranspose
      rw [hs]
      rfl
    rw [e2]
    apply hget
    have hk : k < P.length := (List.getElem?_eq_some_iff.1 hp).1
    have hj : j < F.length := (List.getElem?_eq_some_iff.1 hf).1
    have er : ravel [D.length, F.length, P.length] [i, j, k] =
        i * (F.length * P.length) + (j * P.length + k) := by
      simp [ravel]
    rw [er, flatMap_at hin hd (lt_mul_of_lt hj hk),
      flatMap_at (fun f _ => by rw [List.length_map]) hf hk, List.getElem?_map, hp]
    rfl

/-- **Pressure RAOs are indexed (point, direction, frequency).** -/
theorem pressure_raos [AddCommGroup V] [Module K V] {pi : K} {t : HydroTabs K V}
    {h : HydroObj K V} {D F : List K} {P : List (PointRow K)} {recs : List (FluidRow V)}
    {row : K → K → PointRow K → FluidRow V}
    (hi : hydroInit pi t = .ok h) (hg : OnGrid t D F) (hpt : t.wfkpoint = some P)
    (htab : t.wfluidkn = some recs) (hh : HoldsKinematics D F P recs row) :
    ∃ a, getFluidKinematicsRaos h "pressure" = .ok a ∧ a.shape = [P.length, D.length, F.length] ∧
      ∀ k i j p d f, P[k]? = some p → D[i]? = some d → F[j]? = some f →
        a.get [k, i, j] = (row d f p).p := by
  obtain ⟨ho, ht, _, _, _, _, hd⟩ := grid_obj hi hg
  obtain ⟨a, ha, hs, hget⟩ := kinematics_generic hi hg hpt htab hh
  refine ⟨_, ?_, hs, hget⟩
  unfold getFluidKinematicsRaos
  rw [assert_freq ho hd, bind_ok, ht, htab, results_ok ho ht .all, bind_ok,
    if_pos (Or.inr rfl), ha, bind_ok, if_neg (by decide)]

/-- **Elevation is pressure over density and gravity**, indexed in the same way. -/
theorem elevation_raos [AddCommGroup V] [Module K V] {pi : K} {t : HydroTabs K V}
    {h : HydroObj K V} {D F : List K} {P : List (PointRow K)} {recs : List (FluidRow V)}
    {row : K → K → PointRow K → FluidRow V} {gl : GlobRow K} {rest : List (GlobRow K)}
    (hi : hydroInit pi t = .ok h) (hg : OnGrid t D F) (hpt : t.wfkpoint = some P)
    (htab : t.wfluidkn = some recs) (hh : HoldsKinematics D F P recs row)
    (hgl : t.wglobdef = some (gl :: rest)) (hro : gl.ro ≠ 0) (hgg : gl.g ≠ 0) :
    ∃ a, getFluidKinematicsRaos h "elevation" = .ok a ∧ a.shape = [P.length, D.length, F.length] ∧
      ∀ k i j p d f, P[k]? = some p → D[i]? = some d → F[j]? = some f →
        (gl.ro * gl.g) • a.get [k, i, j] = (row d f p).p := by
  obtain ⟨ho, ht, _, _, _, _, hd⟩ := grid_obj hi hg
  obtain ⟨a, ha, hs, hget⟩ := kinematics_generic hi hg hpt htab hh
  obtain ⟨eg, er, _⟩ := global_values hi hgl
  refine ⟨ndMap (fun x => h.g⁻¹ • (h.ro⁻¹ • x)) (ndRollaxis a 2), ?_, hs, ?_⟩
  · unfold getFluidKinematicsRaos
    rw [assert_freq ho hd, bind_ok, ht, htab, results_ok ho ht .all, bind_ok,
      if_pos (Or.inl rfl), ha, bind_ok, if_pos rfl]
  · intro k i j p d f hp hd hf
    show (gl.ro * gl.g) • (h.g⁻¹ • (h.ro⁻¹ • (ndRollaxis a 2).get [k, i, j])) = _
    rw [hget k i j p d f hp hd hf, eg, er, smul_smul, smul_smul]
    have : gl.ro * gl.g * gl.g⁻¹ * gl.ro⁻¹ = 1 := by
      rw [mul_assoc gl.ro, mul_inv_cancel₀ hgg, mul_one, mul_inv_cancel₀ hro]
    rw [this, one_smul]

/-- **Velocity RAOs are indexed (point, component, direction, frequency).** -/
theorem velocity_raos [AddCommGroup V] [Module K V] {pi : K} {t : HydroTabs K V}
    {h : HydroObj K V} {D F : List K} {P : List (PointRow K)} {recs : List (FluidRow V)}
    {row : K → K → PointRow K → FluidRow V}
    (hi : hydroInit pi t = .ok h) (hg : OnGrid t D F) (hpt : t.wfkpoint = some P)
    (htab : t.wfluidkn = some recs) (hh : HoldsKinematics D F P recs row) :
    ∃ a, getFluidKinematicsRaos h "velocity" = .ok a ∧
      a.shape = [P.length, 3, D.length, F.length] ∧
      ∀ k c i j p d f x, P[k]? = some p → D[i]? = some d → F[j]? = some f →
        (row d f p).v[c]? = some x → a.get [k, c, i, j] = x := by
  obtain ⟨ho, ht, hD, hF, hnd, hnf, hd⟩ := grid_obj hi hg
  have hnp : h.npoints = P.length := by
    obtain ⟨_, _, _, _, _, _, _, _, _, _, _, _, _, _, _, _, hnp, _⟩ := init_inv hi
    rw [hnp, hpt]
    rfl
  have e : (recs.map (fun r : FluidRow V => r.v)).flatten =
      D.flatMap fun d => F.flatMap fun f => P.flatMap fun p => (row d f p).v := by
    rw [hh.2, List.map_flatMap, flatMap_flatten]
    congr 1
    funext d
    rw [List.map_flatMap, flatMap_flatten]
    congr 1
    funext f
    rw [List.map_map]
    rfl
  have hin : ∀ d ∈ D, ∀ f ∈ F, (P.flatMap fun p => (row d f p).v).length = P.length * 3 :=
    fun d hd f hf => flatMap_length fun p hp => hh.1 d hd f hf p hp
  have hin2 : ∀ d ∈ D, (F.flatMap fun f => P.flatMap fun p => (row d f p).v).length =
      F.length * (P.length * 3) := fun d hd => flatMap_length fun f hf => hin d hd f hf
  obtain ⟨a, ha, hs, hget⟩ := nd_reshape_ok
    (flat := D.flatMap fun d => F.flatMap fun f => P.flatMap fun p => (row d f p).v)
    (shape := [D.length, F.length, P.length, 3])
    (by rw [flatMap_length hin2]; simp)
  have hs1 : (ndRollaxis a 3).shape = [3, D.length, F.length, P.length] := by
    unfold ndRollaxis ndTranspose
    rw [hs]
    rfl
  refine ⟨ndRollaxis (ndRollaxis a 3) 3, ?_, ?_, ?_⟩
  · unfold getFluidKinematicsRaos
    rw [assert_freq ho hd, bind_ok, ht, htab, results_ok ho ht .all, bind_ok,
      if_neg (by decide), if_pos rfl, e, hnd, hnf, hnp, ha, bind_ok]
  · generalize ndRollaxis a 3 = a1 at hs1
    unfold ndRollaxis ndTranspose
    rw [hs1]
    rfl
  · intro k c i j p d f x hp hd hf hx
    have e1 : (ndRollaxis (ndRollaxis a 3) 3).get [k, c, i, j] =
        (ndRollaxis a 3).get [c, i, j, k] := by
      generalize ndRollaxis a 3 = a1 at hs1
      unfold ndRollaxis ndTranspose
      rw [hs1]
      rfl
    have e2 : (ndRollaxis a 3).get [c, i, j, k] = a.get [i, j, k, c] := by
      unfold ndRollaxis ndTranspose
      rw [hs]
      rfl
    rw [e1, e2]
    apply hget
    have hdm := List.mem_of_getElem? hd
    have hfm := List.mem_of_getElem? hf
    have hc : c < 3 := by
      obtain ⟨hlt, -⟩ := List.getElem?_eq_some_iff.1 hx
      rw [hh.1 d hdm f hfm p (List.mem_of_getElem? hp)] at hlt
      exact hlt
    have hk : k < P.length := (List.getElem?_eq_some_iff.1 hp).1
    have hj : j < F.length := (List.getElem?_eq_some_iff.1 hf).1
    have er : ravel [D.length, F.length, P.length, 3] [i, j, k, c] =
        i * (F.length * (P.length * 3)) + (j * (P.length * 3) + (k * 3 + c)) := by
      simp [ravel]
    have b1 : k * 3 + c < P.length * 3 := lt_mul_of_lt hk hc
    rw [er, flatMap_at hin2 hd (lt_mul_of_lt hj b1), flatMap_at (hin d hdm) hf b1,
      flatMap_at (fun p hp => hh.1 d hdm f hfm p hp) hp hc]
    exact hx

/-- any other kind is a `ValueError` (once the record is found) -/
theorem kinematics_kind [AddCommGroup V] [Module K V] {pi : K} {t : HydroTabs K V}
    {h : HydroObj K V} {D F : List K} {recs : List (FluidRow V)} {kind : String}
    (hi : hydroInit pi t = .ok h) (hg : OnGrid t D F) (htab : t.wfluidkn = some recs)
    (hk : kind ≠ "elevation" ∧ kind ≠ "pressure" ∧ kind ≠ "velocity") :
    getFluidKinematicsRaos h kind = .error .valueError := by
  obtain ⟨ho, ht, _, _, _, _, hd⟩ := grid_obj hi hg
  unfold getFluidKinematicsRaos
  rw [assert_freq ho hd, bind_ok, ht, htab, results_ok ho ht .all, bind_ok,
    if_neg (by rintro (h | h); exact hk.1 h; exact hk.2.1 h), if_neg hk.2.2]

end Verif.Data.Hydro
