import Verif.Session.Props
import Verif.Session.Inv
/-!
# Reading data objects in a session (property theorems)
-/

namespace Verif.Session
open Verif Verif.Seq Verif.Parse Verif.Conv Verif.Data Verif.Data.Life Verif.Data.Load

section
variable {K V : Type} [Field K] [LinearOrder K] {iter : H5 → List (String × List String)} {pi : K}
  {num : PyF → K} {cplx : PyF → PyF → V} {D : Dec} {B : Nat}
  {filename dir fname fp : Str} {l : Char} {no ext : Str} {b : Bytes} {pre : Str}
  {f : List LRec} {names : List String} {t : Int} {n lev dt : String} {h0 h1 h2 : H5} {ms : List Str}
  {s : State} {stem e3 : Str}

theorem classified_other {outs : List Added} {pre u : String} {ix : Option (Option Int)}
    (h : Classified outs (.top pre u) lev dt ix) (hu : u ∉ ["R", "T", "L", "G"]) :
    dt = "UNKNOWN" := by
  cases h with
  | resOne => simp at hu
  | resTop => simp at hu
  | resAlone => simp at hu
  | modTop h => simp at h hu; tauto
  | modAlone h => simp at h hu; tauto
  | hydro h => simp only [Place.letter] at h; rw [h] at hu; simp at hu
  | other => rfl

theorem classified_low {outs : List Added} {pre : String} {topSel : Int} {idx : Option Int}
    {hp : Path} {hrec : List Cell} {ix : Option (Option Int)}
    (h : Classified outs (.low pre (String.ofList [l]) topSel idx hp hrec) lev dt ix)
    (hl : l ∈ ['R', 'T', 'L']) : LowLevel l hrec lev := by
  have hu : String.ofList [l] ∈ ["R", "T", "L"] := by
    simp only [List.mem_cons, List.not_mem_nil, or_false] at hl
    rcases hl with rfl | rfl | rfl <;> decide +kernel
  have hR : String.ofList [l] ∈ ["T", "L"] → l ≠ 'R' := by
    rintro h rfl
    revert h
    decide +kernel
  generalize hg : String.ofList [l] = u at h
  cases h with
  | resLow =>
    refine .results ?_
    have := congrArg String.toList hg
    rw [String.toList_ofList] at this
    have e : "R".toList = ['R'] := by decide +kernel
    rw [e] at this
    simpa using this
  | modInter h1 h2 h3 => exact .inter (hR (hg ▸ h1)) h2 h3
  | modFirst h1 h2 h3 => exact .first (hR (hg ▸ h1)) h2 h3
  | hydro h => simp only [Place.letter] at h; rw [hg, h] at hu; simp at hu
  | other h => simp only [Place.letter] at h; rw [hg] at hu; simp at h hu; tauto

theorem low_path (pre : String) (l : Char) (topSel t : Int) (idx : Option Int) (hp : Path)
    (hrec : List Cell) :
    ∃ m, (Place.low pre (String.ofList [l]) topSel idx hp hrec).path t =
      [pre ++ String.ofList [l] ++ toString topSel, m] ∧ SubName l t idx m := by
  cases idx with
  | none => exact ⟨_, rfl, .none⟩
  | some i =>
    by_cases h : i = 0
    · subst h
      exact ⟨_, rfl, .zero⟩
    · refine ⟨_, ?_, .index h⟩
      unfold Place.path
      simp only []

/-- the object for the first file -/
theorem open_sif_object {c : Cls} (hs : Reachable iter pi num cplx D B s)
    (F : SesamFile D s.conv filename dir fname fp l no ext b fp f names t n lev dt {} h1 h2 ms)
    (hstem : fname = stem ++ e3) (he3 : e3.length = 3)
    (hfree : stem ++ "h5".toList ∉ s.conv.memory ++ s.conv.leaked) (hi : Enumerates h2 (iter h2))
    (hno : no = (toString t).toList) (hc : ClassAt pi num cplx h1 n c) :
    ∃ s' d, openSif iter pi num cplx D B s filename = (s', .ok d) ∧
      OpenedSif pi num cplx s s' (stem ++ "h5".toList) h2 ms ∧
      IsObject s' s.life.files.length d c h2 [n] := by
  have i := inv_of hs
  obtain ⟨s', o1, o2⟩ := open_sif_opens (B := B) F hstem he3 hfree i.reading i.len i.cwd hi hc
  obtain ⟨d, d1, d2⟩ := o2.holds.top n c (F.proper hc proper_empty).2
  refine ⟨s', d, ?_, o2, d2⟩
  rw [o1, ← d1, F.group, (key_eq fp no l t).mpr hno]

/-- **C62** `open_sif` on a file of a first level superelement (model, load or results file): the
object returned has what the file describes. -/
theorem open_sif_first (hs : Reachable iter pi num cplx D B s)
    (F : SesamFile D s.conv filename dir fname fp l no ext b fp f names t n "FIRSTLEVEL"
      "STRUCTURAL" {} h1 h2 ms)
    (hstem : fname = stem ++ e3) (he3 : e3.length = 3)
    (hfree : stem ++ "h5".toList ∉ s.conv.memory ++ s.conv.leaked) (hi : Enumerates h2 (iter h2))
    (hno : no = (toString t).toList) :
    ∃ s' d o, openSif iter pi num cplx D B s filename = (s', .ok d) ∧
      OpenedSif pi num cplx s s' (stem ++ "h5".toList) h2 ms ∧
      IsObject s' s.life.files.length d .first h2 [n] ∧ struc num s' d = .ok o ∧
      o.isOpen = true ∧ o.filetype = String.ofList [l] ∧ o.seltyp = t ∧ Once names o.recNames ∧
      Reads num f o := by
  obtain ⟨s', d, q1, q2, q3⟩ := open_sif_object hs F hstem he3 hfree hi hno F.class_first
  obtain ⟨sk, outs, ix, henc, j, c, hw⟩ := F.records
  obtain ⟨o, l1, l2, -, l3, l4, l5, l6⟩ := loads_struc j c rfl num
  simp only [Place.path] at l1
  rw [← F.group, ← loadStruc_congr F.same.1] at l1
  refine ⟨s', d, o, q1, q2, q3, ?_, l2, l3, l4, l5, l6⟩
  unfold struc
  rw [q3.group]
  exact l1

/-- **C62** `open_sif` on the file of a top level superelement: the object returned has the
hierarchy and the transformations the file describes. -/
theorem open_sif_top (hs : Reachable iter pi num cplx D B s)
    (F : SesamFile D s.conv filename dir fname fp l no ext b fp f names t n "TOPLEVEL"
      "STRUCTURAL" {} h1 h2 ms)
    (hstem : fname = stem ++ e3) (he3 : e3.length = 3)
    (hfree : stem ++ "h5".toList ∉ s.conv.memory ++ s.conv.leaked) (hi : Enumerates h2 (iter h2))
    (hno : no = (toString t).toList) :
    ∃ s' d o, openSif iter pi num cplx D B s filename = (s', .ok d) ∧
      OpenedSif pi num cplx s s' (stem ++ "h5".toList) h2 ms ∧
      IsObject s' s.life.files.length d .top h2 [n] ∧ top num s' d = .ok o ∧
      o.isOpen = true ∧ ReadsTop num f o := by
  obtain ⟨s', d, q1, q2, q3⟩ := open_sif_object hs F hstem he3 hfree hi hno F.class_top
  obtain ⟨sk, outs, ix, henc, j, c, hw⟩ := F.records
  obtain ⟨o, l1, l2, l3⟩ := loads_top j c num
  simp only [Place.path] at l1
  rw [← F.group, ← loadTop_congr F.same.1] at l1
  refine ⟨s', d, o, q1, q2, q3, ?_, l2, l3⟩
  unfold top
  rw [q3.group]
  exact l1

/-- **C62** `open_sif` on a hydrodynamic results file: the object returned is made from the records
of the file. -/
theorem open_sif_hydro (hs : Reachable iter pi num cplx D B s)
    (F : SesamFile D s.conv filename dir fname fp l no ext b fp f names t n lev
      "HYDRODYNAMIC" {} h1 h2 ms)
    (hstem : fname = stem ++ e3) (he3 : e3.length = 3)
    (hfree : stem ++ "h5".toList ∉ s.conv.memory ++ s.conv.leaked) (hi : Enumerates h2 (iter h2))
    (hno : no = (toString t).toList) {Dirs W : List K} {glob : GlobRow K}
    (hg : GridFile num f Dirs W glob) :
    ∃ s' d tabs o, openSif iter pi num cplx D B s filename = (s', .ok d) ∧
      OpenedSif pi num cplx s s' (stem ++ "h5".toList) h2 ms ∧
      IsObject s' s.life.files.length d .hydro h2 [n] ∧ hydro pi num cplx s' d = .ok o ∧
      Data.hydroInit pi tabs = .ok o ∧ ReadsHydro num cplx f tabs ∧
      getDirections pi o "radians" = .ok Dirs ∧ getAngularFreqs o = .ok W := by
  obtain ⟨tabs, o, l1, l2, l3, l4⟩ := F.tables_hydro (pi := pi) (cplx := cplx) hg
  obtain ⟨s', d, q1, q2, q3⟩ := open_sif_object hs F hstem he3 hfree hi hno l4
  rw [← loadHydro_congr F.same.1] at l1
  obtain ⟨k1, -⟩ := grid_of l2 hg
  refine ⟨s', d, tabs, o, q1, q2, q3, ?_, l3, l2, Hydro.grid_axes l3 k1⟩
  unfold hydro
  rw [q3.group]
  show (loadHydro num cplx h2 [n] >>= _) = _
  rw [l1]
  exact l3

/-- **C62** If the number in the file name is not the superelement type in the file, `open_sif`
raises `KeyError`; the File stays open (and registered). -/
theorem open_sif_other_number {c : Cls} (hs : Reachable iter pi num cplx D B s)
    (F : SesamFile D s.conv filename dir fname fp l no ext b fp f names t n lev dt {} h1 h2 ms)
    (hstem : fname = stem ++ e3) (he3 : e3.length = 3)
    (hfree : stem ++ "h5".toList ∉ s.conv.memory ++ s.conv.leaked) (hi : Enumerates h2 (iter h2))
    (hc : ClassAt pi num cplx h1 n c) (hno : no ≠ (toString t).toList) :
    ∃ s', openSif iter pi num cplx D B s filename = (s', .error .keyError) ∧
      OpenedSif pi num cplx s s' (stem ++ "h5".toList) h2 ms := by
  have i := inv_of hs
  obtain ⟨s', o1, o2⟩ := open_sif_opens (B := B) F hstem he3 hfree i.reading i.len i.cwd hi hc
  refine ⟨s', ?_, o2⟩
  rw [o1, o2.holds.only]
  · intro n' c' hc' e
    have hn : n' = n := by
      by_contra hne
      have hsame := F.same.2.1 n' hne
      have hc0 := (classAt_congr hsame).mp hc'
      cases hc0 with
      | top h => cases h
      | first h => cases h
      | hydro h => cases h
    subst hn
    rw [F.group, key_eq] at e
    exact hno e
  · intro n' m c' _ e
    exact join_ne (not_slash_key F.parts) e.symm

/-- **C62** A file name with a lower case file letter: the group gets no known data type and
`open_sif` raises `UnboundLocalError`. -/
theorem open_sif_lower_case (hs : Reachable iter pi num cplx D B s)
    (F : SesamFile D s.conv filename dir fname fp l no ext b fp f names t n lev dt {} h1 h2 ms)
    (hstem : fname = stem ++ e3) (he3 : e3.length = 3)
    (hfree : stem ++ "h5".toList ∉ s.conv.memory ++ s.conv.leaked) (hi : Enumerates h2 (iter h2))
    (hl : l ∈ ['r', 't', 'g', 'l']) :
    ∃ s', openSif iter pi num cplx D B s filename = (s', .error .unboundLocal) ∧
      s'.life.files = s.life.files ∧ s'.life.datas = s.life.datas ∧
      s'.life.registry = s.life.registry := by
  have i := inv_of hs
  obtain ⟨w', e1, e2, e3', e4, e5, -, -, e6⟩ := hierarchy_in_memory (B := B)
    (o := { inMemory := true }) (pre := []) F.path F.parts F.notSin F.bytes (gpre := fp) rfl rfl rfl
    hstem he3 (by rw [i.reading, List.append_nil]; exact hfree) F.conversion
  obtain ⟨dir', hp⟩ := pathOf_relative _ i.cwd F.path
  have hpath := sifname_parts hp F.parts
  obtain ⟨a, a1, a2, a3⟩ := F.top_group
  have hdt : dt = "UNKNOWN" := by
    obtain ⟨sk, outs, ix, henc, j, c, hw⟩ := F.records
    have hu : String.ofList [l] ∉ ["R", "T", "L", "G"] := by
      simp only [List.mem_cons, List.not_mem_nil, or_false] at hl
      rcases hl with rfl | rfl | rfl | rfl <;> decide +kernel
    exact classified_other j.classified hu
  subst hdt
  -- there is one group
  obtain ⟨subs, hiter⟩ : ∃ subs, iter h2 = [(n, subs)] := by
    have hone : ∀ p ∈ iter h2, p.1 = n := by
      intro p hp
      by_contra hne
      obtain ⟨a', ha'⟩ := (hi.groups p.1).mp (List.mem_map.mpr ⟨p, hp, rfl⟩)
      rw [(F.same.2.1 p.1 hne).1] at ha'
      cases ha'
    have hin : n ∈ (iter h2).map Prod.fst := (hi.groups n).mpr ⟨a, by rw [F.same.1.1]; exact a1⟩
    have hnd := hi.nodup
    match hit : iter h2 with
    | [] => rw [hit] at hin; simp at hin
    | [p] => exact ⟨p.2, by rw [← hone p (by rw [hit]; simp)]⟩
    | p :: q :: r =>
      rw [hit] at hnd hone
      simp only [List.map_cons, List.nodup_cons, List.mem_cons, not_or] at hnd
      exact absurd ((hone p (by simp)).trans (hone q (by simp)).symm) hnd.1.1
  have hsubs : ∀ m ∈ subs, ∃ b l, h2.groups [n, m] = some b ∧ b.level = some l := by
    intro m hm
    obtain ⟨b, hb⟩ := ((hi.subs (n, subs) (by rw [hiter]; simp)).2 m).mp hm
    rcases F.same.2.2.2 m b hb with h | ⟨l, hl⟩
    · cases h
    · exact ⟨b, l, hb, hl⟩
  have hg : h2.groups [n] = some a := by rw [F.same.1.1]; exact a1
  obtain ⟨ds, es, d1, -⟩ := subs_listed hg subs hsubs
    (hi.subs (n, subs) (by rw [hiter]; simp)).1
  have hdesc : ∃ g, (iter h2).mapM (describe pi num cplx h2) = .ok [g] ∧ g.datatype = "UNKNOWN" := by
    refine ⟨{ name := n, datatype := "UNKNOWN", level := lev, subs := ds
              hydroInit := do
                let t ← loadHydro num cplx h2 [n]
                let _ ← Data.hydroInit pi t
                .ok () }, ?_, rfl⟩
    rw [hiter, List.mapM_cons, List.mapM_nil]
    unfold describe
    have hu : ¬ ("UNKNOWN" = "STRUCTURAL" ∨ "UNKNOWN" = "HYDRODYNAMIC") := by decide
    have hu' : ¬ "UNKNOWN" = "HYDRODYNAMIC" := by decide
    simp only [hg, a2, a3, d1, attr, bind, Except.bind, if_neg hu, if_neg hu', pure, Except.pure,
      Option.getD_some]
  obtain ⟨g, g1, g2⟩ := hdesc
  have hcls : classOf g = .ok none := by
    unfold classOf
    rw [g2]
    rfl
  have hadd : ∀ fid base, addGroups fid base [g] {} = .error .unboundLocal := by
    intro fid base
    unfold addGroups
    rw [hcls]
    rfl
  refine ⟨(openTables iter pi num cplx { s with conv := w' } (.memory (stem ++ "h5".toList)) h2).1,
    ?_, ?_⟩
  · unfold openSif
    rw [e1]
    dsimp only
    rw [hpath]
    dsimp only
    unfold openTables
    rw [g1]
    dsimp only
    unfold openFile
    rw [hadd]
  · unfold openTables
    rw [g1]
    dsimp only
    unfold openFile
    rw [hadd]
    exact ⟨rfl, rfl, rfl⟩

/-! ### lower level files -/

/-- **C62** The lower level files of the hierarchy: if a row of the hierarchy asks for a file that
is on disk, the File has an object under `name/sub` that reads the group of that file, and if the
superelement is of the first level the object has what that file describes. -/
theorem lower_object {w : Conv.World} {s' : State} {k : Nat}
    (F : SesamFile D w filename dir fname fp l no ext b pre f names t n lev dt h0 h1 h2 ms)
    (hold : HoldsFile pi num cplx s' k h2) (hlet : l ∈ ['R', 'T', 'L'])
    {tab : Tab} (htab : h1.tabs ([n], "HIERARCH") = some tab) (hnew : h0.tabs ([n], "HIERARCH") = none)
    {row : List Cell} (hrow : row ∈ tab.rows.tail) {name : Str} {r : Int} {b' : Bytes}
    (hw : Wanted fp ext row name r) (hb' : w.disk (dir ++ name) = some b') :
    ∃ sk f' names' t' i hrec idx m lev' d,
      Encoded D sk f' (sourceOf (b.head? != some 75) b') ∧
      r = (i : Nat) + 1 ∧ tab.rows[i]? = some hrec ∧ IndexOf (String.ofList [l]) hrec idx ∧
      SubName l t' idx m ∧ LowLevel l hrec lev' ∧
      getItem s'.life k (n ++ "/" ++ m) = .ok d ∧
      (lev' = "INTERLEVEL" ∧ IsObject s' k d .inter h2 [n, m] ∨
        lev' = "FIRSTLEVEL" ∧ IsObject s' k d .first h2 [n, m] ∧
        ∃ o, struc num s' d = .ok o ∧ o.isOpen = true ∧
          o.filetype = String.ofList [l] ∧ o.seltyp = t' ∧ Once names' o.recNames ∧
          Reads num f' o) := by
  obtain ⟨a, a1, a2, a3⟩ := F.top_group
  have hsame := F.same
  obtain ⟨sk, outs, ix, henc, j, c, hl⟩ := F.records
  cases hl with
  | alone hno =>
    have hk := c.tables.2 ([n], "HIERARCH") (.inr hno)
    rw [htab, hnew] at hk
    cases hk
  | @lower tab' _ _ hh ht hl =>
    rw [htab] at ht
    cases ht
    have htop : ∃ a, h1.groups [String.ofList pre ++ String.ofList [l] ++ toString t] = some a := by
      rw [← F.group]
      exact ⟨a, a1⟩
    obtain ⟨i, hrec, idx, sk', f', outs', names', t', g0, g1, lev', dt', ix', q1, q2, q3, q4, q5, q6, q7⟩ :=
      lower_objects hl htop hrow hw hb'
    have hpath : ∃ m, (Place.low (String.ofList pre) (String.ofList [l]) t idx [n] hrec).path t' =
        [n, m] ∧ SubName l t' idx m := by
      have hp := low_path (String.ofList pre) l t t' idx [n] hrec
      rw [← F.group] at hp
      exact hp
    obtain ⟨m, hm, hm'⟩ := hpath
    rw [hm] at q7
    obtain ⟨recs, -, hg, -⟩ := q6.groups
    rw [hm, ← q7.1] at hg
    have hgn : h2.groups [n] = some a := by rw [hsame.1.1]; exact a1
    have hlow := classified_low q5.classified hlet
    have hlev : lev' = "INTERLEVEL" ∨ lev' = "FIRSTLEVEL" := by
      cases hlow with
      | results => exact .inr rfl
      | inter => exact .inl rfl
      | first => exact .inr rfl
    rcases hlev with rfl | rfl
    · obtain ⟨d, d1, d2⟩ := hold.sub n m .inter (.inter hgn hg rfl)
      exact ⟨sk', f', names', t', i, hrec, idx, m, _, d, q4, q1, q2, q3, hm', hlow, d1,
        .inl ⟨rfl, d2⟩⟩
    · obtain ⟨d, d1, d2⟩ := hold.sub n m .first (.first hgn hg rfl)
      refine ⟨sk', f', names', t', i, hrec, idx, m, _, d, q4, q1, q2, q3, hm', hlow, d1,
        .inr ⟨rfl, d2, ?_⟩⟩
      obtain ⟨o, l1, l2, -, l3, l4, l5, l6⟩ := loads_struc q5 q6 rfl num
      rw [hm, ← loadStruc_congr q7] at l1
      refine ⟨o, ?_, l2, l3, l4, l5, l6⟩
      unfold struc
      rw [d2.group]
      exact l1

/-! ### files on disk -/

/-- **C62** `open_hdf5` on an HDF5 file: the File holds an object for each group and subgroup,
reading that group. -/
theorem open_hdf5_holds (hs : Reachable iter pi num cplx D B s) {h : H5}
    (hout : s.conv.out (s.conv.fullPath filename) = some (.h5 h)) (hp : Proper pi num cplx h)
    (hi : Enumerates h (iter h)) :
    ∃ s', openHdf5 iter pi num cplx s filename = (s', .ok s.life.files.length) ∧
      HoldsFile pi num cplx s' s.life.files.length h ∧ s'.conv = s.conv ∧
      s'.life.registry = s.life.registry ++ [s.life.files.length] ∧
      HasOrigin s' s.life.files.length (.disk (s.conv.fullPath filename)) := by
  obtain ⟨s', o1, o2, o3, o4, o5, o6, o7⟩ := open_tables (iter := iter) s
    (.disk (s.conv.fullPath filename)) hp hi (inv_of hs).len
  obtain ⟨lst, o8⟩ := o7
  refine ⟨s', ?_, o5, o2, o6, lst, _, h, o8, ?_⟩
  swap
  · rw [o3, ← (inv_of hs).len]
    exact List.getElem?_concat_length
  unfold openHdf5
  rw [hout]
  exact o1

/-- **C62** `open_hdf5` on a file that a conversion has left open: `ValueError` if it was left open
under the full path, otherwise the File holds what the conversion has left. -/
theorem open_hdf5_left (hs : Reachable iter pi num cplx D B s)
    (hout : s.conv.out (s.conv.fullPath filename) = some (.left h)) :
    (s.conv.fullPath filename ∈ s.conv.leaked →
      openHdf5 iter pi num cplx s filename = (s, .error .valueError)) ∧
    (s.conv.fullPath filename ∉ s.conv.leaked → Proper pi num cplx h → Enumerates h (iter h) →
      ∃ s', openHdf5 iter pi num cplx s filename = (s', .ok s.life.files.length) ∧
        HoldsFile pi num cplx s' s.life.files.length h ∧ s'.conv = s.conv ∧
        s'.life.registry = s.life.registry ++ [s.life.files.length] ∧
        HasOrigin s' s.life.files.length (.disk (s.conv.fullPath filename))) := by
  constructor
  · intro h1
    unfold openHdf5
    simp only [hout]
    rw [if_pos (by simpa using h1)]
  · intro h1 hp hi
    obtain ⟨s', o1, o2, o3, o4, o5, o6, o7⟩ := open_tables (iter := iter) s
      (.disk (s.conv.fullPath filename)) hp hi (inv_of hs).len
    obtain ⟨lst, o8⟩ := o7
    refine ⟨s', ?_, o5, o2, o6, lst, _, h, o8, ?_⟩
    · unfold openHdf5
      simp only [hout]
      rw [if_neg (by simpa using h1)]
      exact o1
    · rw [o3, ← (inv_of hs).len]
      exact List.getElem?_concat_length

/-- The output file can be opened if it can be opened in a session without files on disk that are
open, and none of these has its name or path. -/
theorem before_session {s : State} {append : Bool} {given : Str} {h0 : H5}
    (hb : Before s.conv append given h0) (h1 : isOpen s s.life (.disk given) = false)
    (h2 : isOpen s s.life (.disk (s.conv.fullPath given)) = false) :
    Before { s.conv with reading := openPaths s } append given h0 where
  notRead h := by
    have := (mem_openPaths s given).mp h
    rw [h1] at this
    cases this
  notUsed := hb.notUsed
  contents := by
    have hc := hb.contents
    show (match s.conv.out (s.conv.fullPath given) with
      | none => h0 = {}
      | some (.h5 h) => s.conv.fullPath given ∉ openPaths s ∧ if append then h0 = h else h0 = {}
      | some (.left h) => append = true ∧ h0 = h)
    split
    · simp_all
    · rename_i h he
      rw [he] at hc
      refine ⟨?_, hc.2⟩
      rw [mem_openPaths, h2]
      simp
    · simp_all

/-- **C62** `sif2hdf5` into an HDF5 file that is not open, followed by `open_hdf5`: the File holds
the object of the file just converted, next to those of the files converted before with
`mode='a'`. -/
theorem convert_then_open (hs : Reachable iter pi num cplx D B s) {o : Options}
    {hdf5 given upre : Str} {c : Cls}
    (F : SesamFile D s.conv filename dir fname fp l no ext b pre f names t n lev dt h0 h1 h2 ms)
    (honly : o.only = none) (hpre : pre = if o.usefileprefix then upre ++ fp else upre)
    (happ : o.append = true → ∃ n, n ≠ [] ∧ o.hdf5name = some n)
    (hgiven : GivenName o fname given) (hpath : s.conv.fullPath hdf5 = s.conv.fullPath given)
    (hleft : ∀ h, s.conv.out (s.conv.fullPath given) ≠ some (.left h))
    (hclosed : ∀ p ∈ [given, s.conv.fullPath given], isOpen s s.life (.disk p) = false)
    (hbefore : Before s.conv o.append given h0) (h0p : Proper pi num cplx h0)
    (hc : ClassAt pi num cplx h1 n c) (hi : Enumerates h2 (iter h2)) :
    ∃ s1 s2 d, convert D B o s (.name filename) (.one upre) =
        (s1, .ok (.path (s.conv.fullPath given))) ∧
      s1.conv.out (s.conv.fullPath given) = some (.h5 h2) ∧
      (∀ p, p ≠ s.conv.fullPath given → s1.conv.out p = s.conv.out p) ∧
      s1.conv.printed = s.conv.printed ++ ms ∧ s1.life = s.life ∧
      s1.conv.disk = s.conv.disk ∧ s1.conv.cwd = s.conv.cwd ∧ s1.conv.leaked = s.conv.leaked ∧
      s2.conv = s1.conv ∧
      openHdf5 iter pi num cplx s1 hdf5 = (s2, .ok s.life.files.length) ∧
      HoldsFile pi num cplx s2 s.life.files.length h2 ∧
      getItem s2.life s.life.files.length n = .ok d ∧
      IsObject s2 s.life.files.length d c h2 [n] ∧
      HasOrigin s2 s.life.files.length (.disk (s.conv.fullPath given)) := by
  have hfull : ∀ p, ({ s.conv with reading := openPaths s } : Conv.World).fullPath p =
    s.conv.fullPath p := fun p => rfl
  obtain ⟨w', f, e1, e2, e2', e3, e4, e5, e6, e8, -, e7⟩ := hierarchy_converted (B := B)
    (w := { s.conv with reading := openPaths s })
    (o := { o with inMemory := false }) (pre := upre) (given := given) (h0 := h0) F.path F.parts
    F.notSin F.bytes hpre rfl happ hgiven
    (before_session hbefore (hclosed _ (by simp)) (hclosed _ (by simp)))
    (by rw [honly]; exact F.conversion)
  have hf : f = .h5 h2 := e2'.closed hleft
  subst hf
  rw [hfull] at e1 e2
  have hs1 : Reachable iter pi num cplx D B (convert D B o s (.name filename) (.one upre)).1 :=
    .step hs (.convert o s _ _)
  have hconv : convert D B o s (.name filename) (.one upre) =
      ({ s with conv := { w' with reading := [] } }, .ok (.path (s.conv.fullPath given))) := by
    unfold convert
    rw [e1]
  rw [hconv] at hs1
  obtain ⟨p1, p2⟩ := F.proper hc h0p
  have hfp : ({ w' with reading := [] } : Conv.World).fullPath hdf5 = s.conv.fullPath given := by
    rw [← hpath]
    unfold Conv.World.fullPath
    show (match hdf5 with | '/' :: _ => hdf5 | _ => w'.cwd ++ hdf5) = _
    rw [e5]
    rfl
  obtain ⟨s2, q1, q2, q3, q4, q5⟩ := open_hdf5_holds hs1 (filename := hdf5) (h := h2) (by
    rw [hfp]
    exact e2) p1 hi
  obtain ⟨d, d1, d2⟩ := q2.top n c p2
  exact ⟨_, s2, d, hconv, e2, e3, e7, rfl, e4, e5, e8, q3, q1, q2, d1, d2, by rw [← hfp]; exact q5⟩

end
end Verif.Session
