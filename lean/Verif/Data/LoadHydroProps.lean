import Verif.Data.LoadProps
import Verif.Data.LoadHydroRows
import Verif.Data.HydroMore
/-!
# C59: hydrodynamic results from the bytes of the file
-/

namespace Verif.Data.Load
open Verif Verif.Data Verif.Parse Verif.Seq

variable {K V : Type}
variable {sk : LRec → Bool} {e0 : Int → Option Int}
  {f : List LRec} {outs : List Added} {names : List String} {pl : Place} {s : Int} {h0 : H5}
  {lev dt : String} {ix : Option (Option Int)} {h : H5}

/-- the tables of the group of a converted file are what the file describes -/
theorem loads_hydro (j : Job none sk e0 f outs names pl s h0 lev dt ix)
    (hc : Converted outs names pl s h0 lev dt ix h) (num : PyF → K) (cplx : PyF → PyF → V) :
    ∃ t, loadHydro num cplx h (pl.path s) = .ok t ∧ ReadsHydro num cplx f t := by
  obtain ⟨recs, hrecs, hg, -⟩ := hc.groups
  obtain ⟨refs, a1, a2, a3⟩ := load_refs (num := num) j hc
  obtain ⟨glob, b1, b2, b3⟩ := load_wglobdef (num := num) j hc
  obtain ⟨bodcon, c1, c2, c3⟩ := load_wbodcon j hc
  obtain ⟨body, d1, d2, d3⟩ := load_wbody (num := num) j hc
  obtain ⟨sect, e1, e2, e3⟩ := load_wsection (num := num) j hc
  obtain ⟨point, f1, f2, f3⟩ := load_wfkpoint (num := num) j hc
  obtain ⟨motion, g1, g2, g3⟩ := load_six (cplx := cplx) j hc (name := "W1MOTION") (by simp)
  obtain ⟨exforc, i1, i2, i3⟩ := load_six (cplx := cplx) j hc (name := "W1EXFORC") (by simp)
  obtain ⟨sforce, k1, k2, k3⟩ := load_w1sforce (cplx := cplx) j hc
  obtain ⟨fluid, l1, l2, l3⟩ := load_wfluidkn (cplx := cplx) j hc
  obtain ⟨mat, m1, m2, m3⟩ := load_w1matrix (num := num) j hc
  obtain ⟨md, n1, n2, n3⟩ := load_w2mdrift (num := num) j hc
  obtain ⟨hd, o1, o2, o3⟩ := load_w2hdrift (num := num) j hc
  obtain ⟨pan, p1, p2, p3⟩ := load_w1panpre (cplx := cplx) j hc
  refine ⟨{ wdresref := refs, wglobdef := glob, wbodcon := bodcon, wbody := body, wsection := sect,
            wfkpoint := point, w1motion := motion, w1exforc := exforc, w1sforce := sforce,
            wfluidkn := fluid, w1matrix := mat, w2mdrift := md, w2hdrift := hd, w1panpre := pan }, ?_,
    { noRefs := a2, refs := a3, glob := describes b2 b3, bodcon := describes c2 c3,
      body := describes d2 d3, sections := describes e2 e3, points := describes f2 f3,
      motion := describes g2 g3, exforc := describes i2 i3, sforce := describes k2 k3,
      fluid := describes l2 l3, matrix := describes m2 m3, mdrift := describes n2 n3,
      hdrift := describes o2 o3, panpre := describes p2 p3 }⟩
  unfold loadHydro
  rw [hg, a1, b1, c1, d1, e1, f1, g1, i1, k1, l1, m1, n1, o1, p1]
  rfl

variable {D : Dec} {st : St} {src : Source}

/-- **C59**: A hydrodynamic results file, converted from its formatted or unformatted form, gives a
data object with the references, sections, points, bodies, results and matrices of its records, and
only those. -/
theorem file_to_hydro (j : Job none sk e0 f outs names pl s h0 lev dt ix)
    (hclean : Clean pl e0 h0 st) (B : Nat) (henc : Encoded D sk f src) (num : PyF → K)
    (cplx : PyF → PyF → V) :
    ∃ st' t, parseSource D B none st src = .ok st' ∧
      loadHydro num cplx st'.h5 (pl.path s) = .ok t ∧ ReadsHydro num cplx f t := by
  obtain ⟨st', h1, h2⟩ := j.source hclean B henc
  obtain ⟨t, h3⟩ := loads_hydro j h2 num cplx
  exact ⟨st', t, h1, h3⟩

section
variable [Field K] [LinearOrder K] {num : PyF → K} {cplx : PyF → PyF → V} {t : HydroTabs K V}
  {Dirs W : List K} {glob : GlobRow K}

theorem grid_of (hr : ReadsHydro num cplx f t) (hg : GridFile num f Dirs W glob) :
    OnGrid t Dirs W ∧ ∃ more, t.wglobdef = some (glob :: more) := by
  obtain ⟨more, hm⟩ := hg.globs
  refine ⟨⟨hg.dirs_nodup, hg.freqs_nodup, hg.dirs_ne, hg.freqs_ne, ?_⟩, more,
    hr.glob (some _) ⟨by simp, hm⟩⟩
  rw [hr.refs _ ?_ hg.refs]
  · simp only [List.flatMap_assoc, List.flatMap_map]
    congr 1
    refine Prod.ext ?_ (Prod.ext ?_ ?_)
    · dsimp only
      congr 1
      funext d
      clear hg
      induction W with
      | nil => rfl
      | cons w W ih => rw [List.flatMap_cons, ih]; rfl
    · simp
    · simp
  · obtain ⟨d, hd⟩ := List.exists_mem_of_ne_nil _ hg.dirs_ne
    obtain ⟨w, hw⟩ := List.exists_mem_of_ne_nil _ hg.freqs_ne
    exact List.ne_nil_of_mem (a := ([d], [w], [])) (by simp [hd, hw])

theorem bodyOf (hr : ReadsHydro num cplx f t) {b c : Int} (hb : BodyOf f b c) :
    ∃ conds, t.wbodcon = some conds ∧ BodyCondition conds b c := by
  obtain ⟨pre, row, post, h1, h2, h3, h4⟩ := hb
  exact ⟨_, hr.bodcon (some _) ⟨by simp, h1⟩, pre, row, post, rfl, h2, h3, h4⟩

theorem forBody {β : Type} (hr : ReadsHydro num cplx f t) {cond : β → Int} {rows recs : List β}
    {b : Int} (hb : ForBody f cond rows b recs) : RecordsOf t cond rows b recs := by
  cases hb with
  | all => exact .all
  | body h1 h2 =>
    obtain ⟨conds, h3, h4⟩ := bodyOf hr h2
    exact .body h3 h1 h4 rfl

/-- **C59**: Directions, frequencies, gravity, density and depth of the opened object are those of
the file. -/
theorem file_to_axes (j : Job none sk e0 f outs names pl s h0 lev dt ix)
    (hclean : Clean pl e0 h0 st) (B : Nat) (henc : Encoded D sk f src) (cplx : PyF → PyF → V)
    (hg : GridFile num f Dirs W glob) (pi : K) :
    ∃ st' t o, parseSource D B none st src = .ok st' ∧
      loadHydro num cplx st'.h5 (pl.path s) = .ok t ∧ hydroInit pi t = .ok o ∧
      getDirections pi o "radians" = .ok Dirs ∧ getAngularFreqs o = .ok W ∧
      o.g = glob.g ∧ o.ro = glob.ro ∧ o.depth = glob.depth := by
  obtain ⟨st', t, h1, h2, h3⟩ := file_to_hydro j hclean B henc num cplx
  obtain ⟨h4, more, h5⟩ := grid_of h3 hg
  obtain ⟨o, h6⟩ := Hydro.opens pi t h4.refs h5
  obtain ⟨h7, h8⟩ := Hydro.grid_axes h6 h4
  exact ⟨st', t, o, h1, h2, h6, h7, h8, Hydro.global_values h6 h5⟩

/-- **C59**: Motions, exciting forces, drift forces: the array for a body has at `[c, i, j]` component
`c` of the body's record for direction `i` and frequency `j` of the file. -/
theorem file_to_raos [Zero V] (j : Job none sk e0 f outs names pl s h0 lev dt ix)
    (hclean : Clean pl e0 h0 st) (B : Nat) (henc : Encoded D sk f src)
    (cplx : PyF → PyF → V) (hg : GridFile num f Dirs W glob) (pi : K) :
    ∃ st' t o, parseSource D B none st src = .ok st' ∧
      loadHydro num cplx st'.h5 (pl.path s) = .ok t ∧ hydroInit pi t = .ok o ∧
      (∀ rows b recs row, Rows (IsSix cplx) f "W1MOTION" rows →
        ForBody f (fun r => r.ibcond) rows b recs → HoldsRaos Dirs W recs 6 row →
        ∃ a, getMotionRaos o b = .ok a ∧ IndexedRaos Dirs W a 6 row) ∧
      (∀ rows b recs row, Rows (IsSix cplx) f "W1EXFORC" rows →
        ForBody f (fun r => r.ibcond) rows b recs → HoldsRaos Dirs W recs 6 row →
        ∃ a, getExcitationForceRaos o b = .ok a ∧ IndexedRaos Dirs W a 6 row) ∧
      (∀ rows b recs row, Rows (IsDrift num 6) f "W2MDRIFT" rows →
        ForBody f (fun r => r.ibcond) rows b recs → HoldsRaos Dirs W recs 6 row →
        ∃ a, getMeandrift o b = .ok a ∧ IndexedRaos Dirs W a 6 row) ∧
      (∀ rows b recs row, Rows (IsDrift num 3) f "W2HDRIFT" rows →
        ForBody f (fun r => r.ibcond) rows b recs → HoldsRaos Dirs W recs 3 row →
        ∃ a, getHorizMeandrift o b = .ok a ∧ IndexedRaos Dirs W a 3 row) := by
  obtain ⟨st', t, h1, h2, h3⟩ := file_to_hydro j hclean B henc num cplx
  obtain ⟨h4, more, h5⟩ := grid_of h3 hg
  obtain ⟨o, h6⟩ := Hydro.opens pi t h4.refs h5
  refine ⟨st', t, o, h1, h2, h6, ?_, ?_, ?_, ?_⟩ <;> intro rows b recs row hrows hb hh
  · exact Hydro.motion_raos h6 h4 (h3.motion (some _) hrows) (forBody h3 hb) hh
  · exact Hydro.excitation_raos h6 h4 (h3.exforc (some _) hrows) (forBody h3 hb) hh
  · exact Hydro.meandrift h6 h4 (h3.mdrift (some _) hrows) (forBody h3 hb) hh
  · exact Hydro.horiz_meandrift h6 h4 (h3.hdrift (some _) hrows) (forBody h3 hb) hh

/-- **C59**: Section forces: at `[k, c, i, j]` is component `c` of the body's record for section `k`,
direction `i`, frequency `j`. -/
theorem file_to_section_forces [Zero V] (j : Job none sk e0 f outs names pl s h0 lev dt ix)
    (hclean : Clean pl e0 h0 st) (B : Nat) (henc : Encoded D sk f src)
    (cplx : PyF → PyF → V) (hg : GridFile num f Dirs W glob) (pi : K) {S : List (SectionRow K)}
    (hs : Rows (IsSection num) f "WSECTION" S) {rows recs : List (BodyRow V)}
    (hrows : Rows (IsSectForce cplx) f "W1SFORCE" rows) {b : Int}
    (hb : ForBody f (fun r => r.ibcond) rows b recs) {row : SectionRow K → K → K → List V}
    (hlen : ∀ s ∈ S, ∀ d ∈ Dirs, ∀ w ∈ W, (row s d w).length = 6)
    (hh : recs.map (fun r => r.data) =
      S.flatMap fun s => Dirs.flatMap fun d => W.map fun w => row s d w) :
    ∃ st' t o a, parseSource D B none st src = .ok st' ∧
      loadHydro num cplx st'.h5 (pl.path s) = .ok t ∧ hydroInit pi t = .ok o ∧
      getSections o = .ok (S.map fun r =>
        { secusr := r.secusr, isecty := r.isecty, p1 := r.p1, p2 := r.p2, p3 := r.p3 }) ∧
      getSectionForceRaos o b = .ok a ∧ a.shape = [S.length, 6, Dirs.length, W.length] ∧
      ∀ k c i j s d w x, S[k]? = some s → Dirs[i]? = some d → W[j]? = some w →
        (row s d w)[c]? = some x → a.get [k, c, i, j] = x := by
  obtain ⟨st', t, h1, h2, h3⟩ := file_to_hydro j hclean B henc num cplx
  obtain ⟨h4, more, h5⟩ := grid_of h3 hg
  obtain ⟨o, h6⟩ := Hydro.opens pi t h4.refs h5
  have hsec := h3.sections (some _) hs
  obtain ⟨a, h7, h8, h9⟩ := Hydro.section_raos h6 h4 hsec (h3.sforce (some _) hrows) (forBody h3 hb)
    hlen hh
  obtain ⟨ho, ht, -⟩ := Hydro.grid_obj h6 h4
  refine ⟨st', t, o, a, h1, h2, h6, ?_, h7, h8, h9⟩
  unfold getSections
  rw [ho, ht, hsec]
  rfl

/-- **C59**: Matrices: for a pair of bodies the first matrix of a frequency independent type, all
matrices of a frequency dependent type, in the order of the file. -/
theorem file_to_matrix (j : Job none sk e0 f outs names pl s h0 lev dt ix)
    (hclean : Clean pl e0 h0 st) (B : Nat) (henc : Encoded D sk f src)
    (cplx : PyF → PyF → V) (hg : GridFile num f Dirs W glob) (pi : K) {rows : List (MatrixRow K)}
    (hrows : Rows (IsMat num) f "W1MATRIX" rows) {b1 b2 c1 c2 : Int} (hb1 : BodyOf f b1 c1)
    (hb2 : BodyOf f b2 c2) :
    ∃ st' t o, parseSource D B none st src = .ok st' ∧
      loadHydro num cplx st'.h5 (pl.path s) = .ok t ∧ hydroInit pi t = .ok o ∧
      (∀ mtyp pre m post, mtyp ∈ [11, 22, 31, 32] → rows = pre ++ m :: post →
        IsMatrixFor c1 c2 mtyp m → (∀ r ∈ pre, ¬ IsMatrixFor c1 c2 mtyp r) →
        ∃ a, IsMatrix a m.hmat ∧ getMatrix o mtyp b1 b2 = .ok a) ∧
      (∀ mtyp, mtyp ∈ [12, 21] → ∃ a sel, getMatrix o mtyp b1 b2 = .ok a ∧
        sel = rows.filter (fun r => r.ibconi = c1 ∧ r.ibconj = c2 ∧ r.imtyp = mtyp) ∧
        a.shape = [6, 6, sel.length] ∧ ∀ i j k m r x, sel[k]? = some m → m.hmat[i]? = some r →
          r[j]? = some x → a.get [i, j, k] = x) := by
  obtain ⟨st', t, h1, h2, h3⟩ := file_to_hydro j hclean B henc num cplx
  obtain ⟨h4, more, h5⟩ := grid_of h3 hg
  obtain ⟨o, h6⟩ := Hydro.opens pi t h4.refs h5
  obtain ⟨conds, h7, h8⟩ := bodyOf h3 hb1
  obtain ⟨conds', h7', h9⟩ := bodyOf h3 hb2
  rw [h7] at h7'
  cases h7'
  have hm := h3.matrix (some _) hrows
  refine ⟨st', t, o, h1, h2, h6, fun mtyp pre m post hty hsplit hf hpre => ?_, fun mtyp hty => ?_⟩
  · obtain ⟨a, a1, a2, -⟩ := Hydro.first_matrix h6 hm h7 h8 h9 hty hsplit hf hpre
    exact ⟨a, a1, a2⟩
  · obtain ⟨a, a1, a2, a3, -⟩ := Hydro.all_matrices h6 hm h7 h8 h9 hty rfl
    exact ⟨a, _, a1, rfl, a2, a3⟩

/-- **C59**: Pressures, elevations and velocities at the points of the file. -/
theorem file_to_kinematics [AddCommGroup V] [Module K V]
    (j : Job none sk e0 f outs names pl s h0 lev dt ix)
    (hclean : Clean pl e0 h0 st) (B : Nat) (henc : Encoded D sk f src) (cplx : PyF → PyF → V)
    (hg : GridFile num f Dirs W glob) (pi : K) {P : List (PointRow K)}
    (hp : Rows (IsPoint num) f "WFKPOINT" P) {recs : List (FluidRow V)}
    (hrecs : Rows (IsFluid cplx) f "WFLUIDKN" recs) {row : K → K → PointRow K → FluidRow V}
    (hh : Hydro.HoldsKinematics Dirs W P recs row) :
    ∃ st' t o a v, parseSource D B none st src = .ok st' ∧
      loadHydro num cplx st'.h5 (pl.path s) = .ok t ∧ hydroInit pi t = .ok o ∧
      getPoints o = .ok (P.map fun r => r.fkpnt) ∧
      getFluidKinematicsRaos o "pressure" = .ok a ∧ a.shape = [P.length, Dirs.length, W.length] ∧
      (∀ k i j p d w, P[k]? = some p → Dirs[i]? = some d → W[j]? = some w →
        a.get [k, i, j] = (row d w p).p) ∧
      getFluidKinematicsRaos o "velocity" = .ok v ∧
      v.shape = [P.length, 3, Dirs.length, W.length] ∧
      (∀ k c i j p d w x, P[k]? = some p → Dirs[i]? = some d → W[j]? = some w →
        (row d w p).v[c]? = some x → v.get [k, c, i, j] = x) ∧
      (glob.ro ≠ 0 → glob.g ≠ 0 → ∃ z, getFluidKinematicsRaos o "elevation" = .ok z ∧
        z.shape = [P.length, Dirs.length, W.length] ∧
        ∀ k i j p d w, P[k]? = some p → Dirs[i]? = some d → W[j]? = some w →
          (glob.ro * glob.g) • z.get [k, i, j] = (row d w p).p) := by
  obtain ⟨st', t, h1, h2, h3⟩ := file_to_hydro j hclean B henc num cplx
  obtain ⟨h4, more, h5⟩ := grid_of h3 hg
  obtain ⟨o, h6⟩ := Hydro.opens pi t h4.refs h5
  have hpt := h3.points (some _) hp
  have hfl := h3.fluid (some _) hrecs
  obtain ⟨a, a1, a2, a3⟩ := Hydro.pressure_raos h6 h4 hpt hfl hh
  obtain ⟨v, v1, v2, v3⟩ := Hydro.velocity_raos h6 h4 hpt hfl hh
  obtain ⟨ho, ht, -⟩ := Hydro.grid_obj h6 h4
  refine ⟨st', t, o, a, v, h1, h2, h6, ?_, a1, a2, a3, v1, v2, v3, fun hro hgg =>
    Hydro.elevation_raos h6 h4 hpt hfl hh h5 hro hgg⟩
  unfold getPoints
  rw [ho, ht, hpt]
  rfl

/-- **C59**: Panel pressures: at `[k, l, i, j]` is the pressure on panel `k`, symmetry part `l`, for
direction `i` and frequency `j`. -/
theorem file_to_pressures [Zero V] (j : Job none sk e0 f outs names pl s h0 lev dt ix)
    (hclean : Clean pl e0 h0 st) (B : Nat) (henc : Encoded D sk f src)
    (cplx : PyF → PyF → V) (hg : GridFile num f Dirs W glob) (pi : K) {rows recs : List (PanelRow V)}
    (hrows : Rows (IsPanel cplx) f "W1PANPRE" rows) {b : Int}
    (hb : ForBody f (fun r => r.ibcond) rows b recs) {S P : List Int}
    {row : K → K → Int → Int → PanelRow V} (hh : Hydro.HoldsPressures Dirs W S P recs row)
    (hSn : S.Nodup) (hPn : P.Nodup) (hS : S ≠ []) (hP : P ≠ []) :
    ∃ st' t o a, parseSource D B none st src = .ok st' ∧
      loadHydro num cplx st'.h5 (pl.path s) = .ok t ∧ hydroInit pi t = .ok o ∧
      getPanelPressures o b = .ok (some a) ∧
      a.shape = [P.length, S.length, Dirs.length, W.length] ∧
      ∀ k l i j p s d w, P[k]? = some p → S[l]? = some s → Dirs[i]? = some d → W[j]? = some w →
        a.get [k, l, i, j] = (row d w s p).p := by
  obtain ⟨st', t, h1, h2, h3⟩ := file_to_hydro j hclean B henc num cplx
  obtain ⟨h4, more, h5⟩ := grid_of h3 hg
  obtain ⟨o, h6⟩ := Hydro.opens pi t h4.refs h5
  obtain ⟨a, h7⟩ := Hydro.panel_pressures h6 h4 (h3.panpre (some _) hrows) (forBody h3 hb) hh hSn hPn
    hS hP
  exact ⟨st', t, o, a, h1, h2, h6, h7⟩

/-- **C59**: The properties of a body are those of the first WBODY record with its condition number:
fourteen numbers under their names and the transformation matrix. -/
theorem file_to_body (j : Job none sk e0 f outs names pl s h0 lev dt ix)
    (hclean : Clean pl e0 h0 st) (B : Nat) (henc : Encoded D sk f src) (cplx : PyF → PyF → V)
    (hg : GridFile num f Dirs W glob) (pi : K) {pre post : List (BodyPropRow K)} {m : BodyPropRow K}
    (hrows : Rows (IsBody num) f "WBODY" (pre ++ m :: post)) {b c : Int} (hb : BodyOf f b c)
    (hm : m.ibcond = c) (hpre : ∀ r ∈ pre, r.ibcond ≠ c) :
    ∃ st' t o, parseSource D B none st src = .ok st' ∧
      loadHydro num cplx st'.h5 (pl.path s) = .ok t ∧ hydroInit pi t = .ok o ∧
      getBodyProperties o b = .ok m.props := by
  obtain ⟨st', t, h1, h2, h3⟩ := file_to_hydro j hclean B henc num cplx
  obtain ⟨h4, more, h5⟩ := grid_of h3 hg
  obtain ⟨o, h6⟩ := Hydro.opens pi t h4.refs h5
  obtain ⟨conds, h7, h8⟩ := bodyOf h3 hb
  refine ⟨st', t, o, h1, h2, h6,
    Hydro.body_properties h6 (h3.body (some _) hrows) h7 h8 rfl hm hpre ?_⟩
  obtain ⟨r, hr⟩ : ∃ r, IsBody num r m := by
    have hf := hrows.2
    obtain ⟨i, hi, hm⟩ := List.getElem_of_mem (show m ∈ pre ++ m :: post by simp)
    have hl := hf.length_eq
    have h9 := (List.forall₂_iff_get.mp hf).2 i (by omega) hi
    rw [List.get_eq_getElem, List.get_eq_getElem, hm] at h9
    exact ⟨_, h9⟩
  obtain ⟨_, _, c', d', more', _, _, _, _, _, _, _, _, hp⟩ := hr
  intro e he
  rw [hp, List.mem_append] at he
  have names : ∀ n ∈ propNames, n ≠ "nfield" ∧ n ≠ "ibcond" := by decide
  rcases he with he | he
  · rw [← List.map_uncurry_zip_eq_zipWith] at he
    obtain ⟨⟨n, y⟩, h9, rfl⟩ := List.mem_map.mp he
    exact names n (List.of_mem_zip h9).1
  · rw [List.mem_singleton.mp he]
    exact ⟨fun h => absurd h (by decide : ("t" : String) ≠ "nfield"), fun h => absurd h (by decide : ("t" : String) ≠ "ibcond")⟩

end

end Verif.Data.Load
