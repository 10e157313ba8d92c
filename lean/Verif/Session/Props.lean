import Verif.Session.Lower
import Verif.Conv.Props
/-!
# From SESAM files to data objects

`open_sif`, and `sif2hdf5` followed by `open_hdf5`: the objects obtained have what the files
describe.
-/

namespace Verif.Session
open Verif Verif.Seq Verif.Parse Verif.Conv Verif.Data Verif.Data.Life Verif.Data.Load

section
variable {K V : Type} [Field K] [LinearOrder K] {iter : H5 → List (String × List String)} {pi : K}
  {num : PyF → K} {cplx : PyF → PyF → V} {D : Dec} {B : Nat}
  {w : Conv.World} {filename dir fname fp : Str} {l : Char} {no ext : Str} {b : Bytes} {pre : Str}
  {f : List LRec} {names : List String} {t : Int} {n lev dt : String} {h0 h1 h2 : H5} {ms : List Str}

theorem SesamFile.conversion
    (F : SesamFile D w filename dir fname fp l no ext b pre f names t n lev dt h0 h1 h2 ms) :
    Conversion D none w.disk dir fp l ext pre b h0 h2 ms := by
  obtain ⟨sk, outs, ix, henc, j, c, hw⟩ := F.records
  cases hw with
  | alone h => exact .alone henc j c h
  | lower h ht hl =>
    rw [F.group] at ht hl
    exact .hierarchy henc j c h ht hl

/-- the group of the first file -/
theorem SesamFile.top_group
    (F : SesamFile D w filename dir fname fp l no ext b pre f names t n lev dt h0 h1 h2 ms) :
    ∃ a, h1.groups [n] = some a ∧ a.level = some lev ∧ a.datatype = some dt := by
  obtain ⟨sk, outs, ix, henc, j, c, hw⟩ := F.records
  obtain ⟨recs, -, hg, -⟩ := c.groups
  rw [F.group]
  exact ⟨_, hg, rfl, rfl⟩

/-- the first group is the same in the end, and the groups that were there before too -/
theorem SesamFile.same
    (F : SesamFile D w filename dir fname fp l no ext b pre f names t n lev dt h0 h1 h2 ms) :
    SameGroup h1 h2 [n] ∧ (∀ n', n' ≠ n → SameGroup h0 h2 [n']) ∧
    (∀ n' m, n' ≠ n → SameGroup h0 h2 [n', m]) ∧
    ∀ m a, h2.groups [n, m] = some a → h0.groups [n, m] = some a ∨ ∃ l, a.level = some l := by
  obtain ⟨a, ha, -⟩ := F.top_group
  obtain ⟨sk, outs, ix, henc, j, c, hw⟩ := F.records
  have e0 : ∀ q : Path, q ≠ [n] → q ≠ [] → SameGroup h0 h1 q := by
    intro q hq hne
    exact top_same c (by rw [← F.group]; exact hq) hne
  cases hw with
  | alone h =>
    refine ⟨.rfl', fun n' hn => e0 _ (by simpa using hn) (by simp),
      fun n' m hn => e0 _ (by simp) (by simp), fun m a hm => .inl ?_⟩
    rw [← (e0 [n, m] (by simp) (by simp)).1]
    exact hm
  | lower h ht hl =>
    have htop : ∃ a, h1.groups [String.ofList pre ++ String.ofList [l] ++ toString t] = some a := by
      rw [← F.group]
      exact ⟨a, ha⟩
    refine ⟨lower_same hl htop (by simp) (by simp), ?_, ?_, ?_⟩
    · intro n' hn
      exact (e0 _ (by simpa using hn) (by simp)).trans (lower_same hl htop (by simp) (by simp))
    · intro n' m hn
      refine (e0 _ (by simp) (by simp)).trans (lower_same hl htop (by simp) ?_)
      intro m' e
      rw [← F.group] at e
      simp only [List.cons.injEq] at e
      exact hn e.1
    · intro m a hm
      rcases lower_levels hl htop m with e | ⟨a', l', e, hl'⟩
      · left
        rw [← F.group] at e
        rw [← (e0 [n, m] (by simp) (by simp)).1, ← e]
        exact hm
      · right
        rw [← F.group, hm] at e
        cases e
        exact ⟨l', hl'⟩

theorem classAt_congr {h h' : H5} {n : String} {c : Cls} (e : SameGroup h h' [n]) :
    ClassAt pi num cplx h' n c ↔ ClassAt pi num cplx h n c := by
  constructor
  · intro hc
    cases hc with
    | top a1 a2 a3 => exact .top (e.1 ▸ a1) a2 a3
    | first a1 a2 a3 => exact .first (e.1 ▸ a1) a2 a3
    | hydro a1 a2 a3 a4 a5 => exact .hydro (e.1 ▸ a1) a2 a3 (loadHydro_congr e ▸ a4) a5
  · intro hc
    cases hc with
    | top a1 a2 a3 => exact .top (e.1.symm ▸ a1) a2 a3
    | first a1 a2 a3 => exact .first (e.1.symm ▸ a1) a2 a3
    | hydro a1 a2 a3 a4 a5 =>
      exact .hydro (e.1.symm ▸ a1) a2 a3 ((loadHydro_congr e).symm ▸ a4) a5

/-- a file converted into a proper HDF5 file leaves a proper one -/
theorem SesamFile.proper
    (F : SesamFile D w filename dir fname fp l no ext b pre f names t n lev dt h0 h1 h2 ms)
    {c : Cls} (hc : ClassAt pi num cplx h1 n c) (h0p : Proper pi num cplx h0) :
    Proper pi num cplx h2 ∧ ClassAt pi num cplx h2 n c := by
  obtain ⟨s1, s2, s3, s4⟩ := F.same
  refine ⟨⟨?_, ?_⟩, (classAt_congr s1).mpr hc⟩
  · intro n' a ha
    by_cases hn : n' = n
    · subst hn
      exact ⟨c, (classAt_congr s1).mpr hc⟩
    · have := s2 n' hn
      obtain ⟨c', hc'⟩ := h0p.groups n' a (by rw [← this.1]; exact ha)
      exact ⟨c', (classAt_congr this).mpr hc'⟩
  · intro n' m a ha
    by_cases hn : n' = n
    · subst hn
      rcases s4 m a ha with h | h
      · exact h0p.subs _ _ _ h
      · exact h
    · exact h0p.subs n' m a (by rw [← (s3 n' m hn).1]; exact ha)

theorem proper_empty : Proper pi num cplx {} where
  groups := fun n a h => by cases h
  subs := fun n m a h => by cases h

/-! ### classes -/

theorem SesamFile.class_top
    (F : SesamFile D w filename dir fname fp l no ext b pre f names t n "TOPLEVEL" "STRUCTURAL" h0 h1 h2 ms) :
    ClassAt pi num cplx h1 n .top := by
  obtain ⟨a, h1, h2, h3⟩ := F.top_group
  exact .top h1 h3 h2

theorem SesamFile.class_first
    (F : SesamFile D w filename dir fname fp l no ext b pre f names t n "FIRSTLEVEL" "STRUCTURAL" h0 h1 h2 ms) :
    ClassAt pi num cplx h1 n .first := by
  obtain ⟨a, h1, h2, h3⟩ := F.top_group
  exact .first h1 h3 h2

/-- the tables of a hydrodynamic file -/
theorem SesamFile.tables_hydro
    (F : SesamFile D w filename dir fname fp l no ext b pre f names t n lev "HYDRODYNAMIC" h0 h1 h2 ms)
    {Dirs W : List K} {glob : GlobRow K}
    (hg : GridFile num f Dirs W glob) :
    ∃ tabs o, loadHydro num cplx h1 [n] = .ok tabs ∧ ReadsHydro num cplx f tabs ∧
      Data.hydroInit pi tabs = .ok o ∧ ClassAt pi num cplx h1 n .hydro := by
  obtain ⟨a, g1, g2, g3⟩ := F.top_group
  obtain ⟨sk, outs, ix, henc, j, c, hw⟩ := F.records
  obtain ⟨tabs, l1, l2⟩ := loads_hydro j c num cplx
  simp only [Place.path] at l1
  rw [← F.group] at l1
  obtain ⟨k1, more, k2⟩ := grid_of l2 hg
  obtain ⟨o, ho⟩ := Hydro.opens pi tabs k1.refs k2
  exact ⟨tabs, o, l1, l2, ho, .hydro g1 g3 g2 l1 ho⟩

/-! ### opening -/

/-- every path has a directory and a name -/
theorem pathOf_exists (p : Str) : ∃ dir name, PathOf p dir name := by
  induction p with
  | nil => exact ⟨[], [], rfl, .inl rfl, by simp⟩
  | cons c p ih =>
    obtain ⟨dir, name, e, hd, hn⟩ := ih
    rcases hd with rfl | ⟨d, rfl⟩
    · by_cases hc : c = '/'
      · exact ⟨[c], name, by rw [e]; rfl, .inr ⟨[], by rw [hc]; rfl⟩, hn⟩
      · refine ⟨[], c :: name, by rw [e]; rfl, .inl rfl, ?_⟩
        simp only [List.mem_cons, not_or]
        exact ⟨fun h => hc h.symm, hn⟩
    · exact ⟨c :: d ++ ['/'], name, by rw [e]; rfl, .inr ⟨c :: d, rfl⟩, hn⟩

theorem pathOf_unique {p dir dir' name name' : Str} (h : PathOf p dir name)
    (h' : PathOf p dir' name') : dir = dir' ∧ name = name' := by
  have e1 := splitPath_eq h.2.1 h.2.2
  have e2 := splitPath_eq h'.2.1 h'.2.2
  rw [← h.1] at e1
  rw [← h'.1, e1] at e2
  injection e2 with e2 e3
  exact ⟨e2, e3⟩

/-- the name of a file is the last part of its path, relative or absolute -/
theorem pathOf_relative (w : Conv.World) (hcwd : ∃ d, w.cwd = d ++ ['/']) {filename dir name : Str}
    (h : PathOf (w.fullPath filename) dir name) : ∃ dir', PathOf filename dir' name := by
  unfold Conv.World.fullPath at h
  split at h
  · exact ⟨dir, h⟩
  · obtain ⟨dir', name', h'⟩ := pathOf_exists filename
    obtain ⟨d, hd⟩ := hcwd
    have : PathOf (w.cwd ++ filename) (w.cwd ++ dir') name' := by
      refine ⟨by rw [h'.1, List.append_assoc], ?_, h'.2.2⟩
      right
      rcases h'.2.1 with rfl | ⟨d', rfl⟩
      · exact ⟨d, by rw [List.append_nil, hd]⟩
      · exact ⟨w.cwd ++ d', by rw [List.append_assoc]⟩
    obtain ⟨-, e⟩ := pathOf_unique h this
    exact ⟨dir', e ▸ h'⟩

theorem not_slash_key (hn : SesamName fname fp l no ext) :
    '/' ∉ (String.ofList (fp ++ l :: no)).toList := by
  obtain ⟨⟨_, _, _, hp, hl, hno, _, _⟩, _⟩ := hn
  rw [String.toList_ofList]
  intro hin
  rcases List.mem_append.mp hin with h | h
  · have := hp _ h
    unfold PrefixChar at this
    revert this
    decide
  · rcases List.mem_cons.mp h with h | h
    · rw [← h] at hl
      unfold FileLetter at hl
      revert hl
      decide
    · have := isNumber_digits hno _ h
      revert this
      decide

theorem key_eq (fp no : Str) (l : Char) (t : Int) :
    String.ofList (fp ++ l :: no) = String.ofList fp ++ String.ofList [l] ++ toString t ↔
      no = (toString t).toList := by
  rw [← String.toList_inj, String.toList_append, String.toList_append, String.toList_ofList,
    String.toList_ofList, String.toList_ofList]
  constructor
  · intro h
    rw [List.append_assoc, List.append_cancel_left_eq] at h
    simpa using h
  · rintro rfl
    simp

/-- what a call of `open_sif` leaves: a new File with the contents of the HDF5 file `h2`, an
in-memory file with name `mem`, and the messages; nothing else changes -/
structure OpenedSif (pi : K) (num : PyF → K) (cplx : PyF → PyF → V) (s s' : State) (mem : Str) (h2 : H5)
    (ms : List Str) : Prop where
  holds : HoldsFile pi num cplx s' s.life.files.length h2
  registry : s'.life.registry = s.life.registry ++ [s.life.files.length]
  store : s'.store = s.store ++ [(.memory mem, h2)]
  handles : s'.life.handles = s.life.handles ++ [true]
  handle : ∃ l, s'.life.files[s.life.files.length]? = some (.opened l s.life.handles.length)
  memory : s'.conv.memory = mem :: s.conv.memory
  leaked : s'.conv.leaked = s.conv.leaked
  printed : s'.conv.printed = s.conv.printed ++ ms
  files : s'.conv.out = s.conv.out ∧ s'.conv.disk = s.conv.disk ∧ s'.conv.cwd = s.conv.cwd

theorem open_sif_opens {s : State} {stem e3 : Str} {c : Cls}
    (F : SesamFile D s.conv filename dir fname fp l no ext b fp f names t n lev dt {} h1 h2 ms)
    (hstem : fname = stem ++ e3) (he3 : e3.length = 3)
    (hfree : stem ++ "h5".toList ∉ s.conv.memory ++ s.conv.leaked)
    (hreading : s.conv.reading = []) (hlen : s.store.length = s.life.handles.length) (hcwd : ∃ d, s.conv.cwd = d ++ ['/'])
    (hi : Enumerates h2 (iter h2))
    (hc : ClassAt pi num cplx h1 n c) :
    ∃ s', openSif iter pi num cplx D B s filename =
        (s', getItem s'.life s.life.files.length (String.ofList (fp ++ l :: no))) ∧
      OpenedSif pi num cplx s s' (stem ++ "h5".toList) h2 ms := by
  obtain ⟨w', e1, e2, e3', e4, e5, e7, -, e6⟩ := hierarchy_in_memory (B := B)
    (o := { inMemory := true }) (pre := []) F.path F.parts F.notSin F.bytes (gpre := fp) rfl rfl rfl
    hstem he3 (by rw [hreading, List.append_nil]; exact hfree) F.conversion
  obtain ⟨hp2, -⟩ := F.proper hc proper_empty
  obtain ⟨s', o1, o2, o3, o4, o5, o6, o7⟩ := open_tables (iter := iter) { s with conv := w' }
    (.memory (stem ++ "h5".toList)) hp2 hi hlen
  have hpath : parseSifname filename = .ok ⟨fp, l, no, ext⟩ := by
    obtain ⟨dir', hp⟩ := pathOf_relative _ hcwd F.path
    exact sifname_parts hp F.parts
  refine ⟨s', ?_, ⟨o5, o6, o3, o4, o7, by rw [o2]; exact e5, by rw [o2]; exact e7, by rw [o2]; exact e6,
    by rw [o2]; exact ⟨e2, e3', e4⟩⟩⟩
  unfold openSif
  rw [e1]
  dsimp only
  rw [hpath]
  dsimp only
  rw [o1]

end
end Verif.Session
