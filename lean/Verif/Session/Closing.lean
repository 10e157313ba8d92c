import Verif.Session.Reads
import Verif.Conv.Paths
/-!
# Names, closing, and what open objects read during a session (property theorems)
-/

namespace Verif.Session
open Verif Verif.Seq Verif.Parse Verif.Conv Verif.Data Verif.Data.Life Verif.Data.Load

section
variable {K V : Type} [Field K] [LinearOrder K] {iter : H5 → List (String × List String)} {pi : K}
  {num : PyF → K} {cplx : PyF → PyF → V} {D : Dec} {B : Nat} {s : State}

/-! ### names of in-memory files -/

/-- after `open_sif` the new File is open, on an HDF5 file in memory -/
theorem opened_sif_memory {s' : State} {mem : Str} {h2 : H5} {ms : List Str}
    (hs : Reachable iter pi num cplx D B s) (h : OpenedSif pi num cplx s s' mem h2 ms) :
    HasOrigin s' s.life.files.length (.memory mem) := by
  obtain ⟨l, hl⟩ := h.handle
  refine ⟨l, _, h2, hl, ?_⟩
  rw [h.store, ← (inv_of hs).len]
  exact List.getElem?_concat_length

/-- a name in use: `open_sif` raises `ValueError` -/
theorem used_name_refused {stem e3 : Str}
    (hmem : stem ++ "h5".toList ∈ s.conv.memory ++ s.conv.leaked) {filename dir fname fp : Str}
    {l : Char} {no ext : Str} {b : Bytes} (hp : PathOf (s.conv.fullPath filename) dir fname)
    (hn : SesamName fname fp l no ext) (hstem : fname = stem ++ e3) (he3 : e3.length = 3)
    (hb : s.conv.disk (s.conv.fullPath filename) = some b) :
    ∃ s', openSif iter pi num cplx D B s filename = (s', .error .valueError) ∧
      s'.life = s.life ∧ s'.store = s.store ∧ s'.conv.memory = s.conv.memory ∧
      s'.conv.out = s.conv.out ∧ s'.conv.disk = s.conv.disk ∧ s'.conv.cwd = s.conv.cwd ∧
      s'.conv.printed = s.conv.printed := by
  have hsp := splitPath_eq hp.2.1 hp.2.2
  rw [← hp.1] at hsp
  have hm : convMatch fname = some ⟨fp, l, ext⟩ :=
    (names_agree (filename := fname) (dir := []) ⟨rfl, .inl rfl, hp.2.2⟩).1 _
      (sifname_parts (dir := []) ⟨rfl, .inl rfl, hp.2.2⟩ hn)
  have hname : fname.dropLast.dropLast.dropLast ++ ['h', '5'] = stem ++ "h5".toList := by
    rw [hstem, dropLast3 he3]; rfl
  have hconv : ∃ w', sif2hdf5 D B { inMemory := true } (.name filename) (.one []) s.conv =
      (.error .valueError, w') ∧ w'.memory = s.conv.memory ∧ w'.out = s.conv.out ∧
      w'.disk = s.conv.disk ∧ w'.cwd = s.conv.cwd ∧ w'.printed = s.conv.printed := by
    rw [single_eq]
    unfold convertFile
    rw [if_neg (by simp)]
    simp only [hsp, hm, hb, hname]
    split
    · exact ⟨_, rfl, rfl, rfl, rfl, rfl, rfl⟩
    · rw [if_pos trivial, if_pos (by
        unfold World.inUse
        rcases List.mem_append.mp hmem with h | h <;> rw [List.contains_iff_mem.mpr h] <;> simp)]
      exact ⟨_, rfl, rfl, rfl, rfl, rfl, rfl⟩
  obtain ⟨w', e1, e2⟩ := hconv
  refine ⟨{ s with conv := w' }, ?_, rfl, rfl, e2⟩
  unfold openSif
  rw [e1]

/-- **C63** While a file opened with `open_sif` is open, `open_sif` on another file (or the same) of
that name raises `ValueError`, wherever it is; no object, no file and no name changes. -/
theorem same_name_refused (hs : Reachable iter pi num cplx D B s) {g : Nat} {stem e3 : Str}
    (hg : HasOrigin s g (.memory (stem ++ "h5".toList))) {filename dir fname fp : Str} {l : Char}
    {no ext : Str} {b : Bytes} (hp : PathOf (s.conv.fullPath filename) dir fname)
    (hn : SesamName fname fp l no ext) (hstem : fname = stem ++ e3) (he3 : e3.length = 3)
    (hb : s.conv.disk (s.conv.fullPath filename) = some b) :
    ∃ s', openSif iter pi num cplx D B s filename = (s', .error .valueError) ∧
      s'.life = s.life ∧ s'.store = s.store ∧ s'.conv.memory = s.conv.memory ∧
      s'.conv.out = s.conv.out ∧ s'.conv.disk = s.conv.disk ∧ s'.conv.cwd = s.conv.cwd ∧
      s'.conv.printed = s.conv.printed := by
  have i := inv_of hs
  obtain ⟨lst, k, h, h1, h2⟩ := hg
  have hmem := i.mem k _ h h2 ((inv_reachable i.life).handle g lst k h1)
  exact used_name_refused (List.mem_append_left _ hmem) hp hn hstem he3 hb

/-- **C63** Closing the File makes its name free again, and no other name. -/
theorem name_free_after_close (hs : Reachable iter pi num cplx D B s) {g : Nat} {name : Str}
    (hg : HasOrigin s g (.memory name)) :
    name ∉ (closeFile s g).conv.memory ∧
    ∀ n, n ≠ name → (n ∈ (closeFile s g).conv.memory ↔ n ∈ s.conv.memory) := by
  have i := inv_of hs
  obtain ⟨lst, k, h, h1, h2⟩ := hg
  have hopen := (inv_reachable i.life).handle g lst k h1
  have hklt := (List.getElem?_eq_some_iff.mp hopen).1
  have hhand : (Life.closeFile s.life g).handles = s.life.handles.set k false := by
    unfold Life.closeFile
    rw [h1]
  have hmem : ∀ n, n ∈ (closeFile s g).conv.memory ↔ n ∈ s.conv.memory ∧
      (isOpen s s.life (.memory n) = true → isOpen s (Life.closeFile s.life g) (.memory n) = true) := by
    intro n
    show n ∈ s.conv.memory.filter _ ↔ _
    rw [List.mem_filter]
    refine and_congr_right fun _ => ?_
    cases isOpen s s.life (.memory n) <;> simp
  constructor
  · rw [hmem]
    rintro ⟨-, hx⟩
    obtain ⟨k', h', a1, a2⟩ := (isOpen_iff _ _ _).mp (hx ((isOpen_iff _ _ _).mpr ⟨k, h, h2, hopen⟩))
    rw [hhand, List.getElem?_set] at a2
    split at a2
    · simp at a2
    · rename_i hne
      exact hne (i.uniq k k' name h h' h2 a1 hopen a2)
  · intro n hn
    rw [hmem]
    refine ⟨fun h => h.1, fun hin => ⟨hin, ?_⟩⟩
    intro ho
    obtain ⟨k', h', a1, a2⟩ := (isOpen_iff _ _ _).mp ho
    refine (isOpen_iff _ _ _).mpr ⟨k', h', a1, ?_⟩
    rw [hhand, List.getElem?_set]
    split
    · rename_i e
      subst e
      rw [h2] at a1
      cases a1
      exact absurd rfl hn
    · exact a2

/-- **C63** Closing a data object closes its File. -/
theorem close_object_closes_file (hs : Reachable iter pi num cplx D B s) {d : Nat}
    (hd : dataOpen s.life d = true) :
    ∃ g lst, items s.life g = .ok lst ∧ d ∈ lst.map (·.2) ∧ closeData s d = closeFile s g := by
  obtain ⟨g, lst, h1, h2, h3⟩ := close_via_data (inv_of hs).life hd
  refine ⟨g, lst, h1, h2, ?_⟩
  show afterClose s (Life.closeData s.life d) = afterClose s (Life.closeFile s.life g)
  rw [h3]

/-! ### what objects read -/

/-- objects that exist stay as they are or are closed; HDF5 files stay as they are -/
structure Kept (s s' : State) : Prop where
  datas : ∀ (d : Nat) x, s.life.datas[d]? = some x →
    s'.life.datas[d]? = some x ∨ s'.life.datas[d]? = some .closed
  files : ∀ (g : Nat) x, s.life.files[g]? = some x →
    s'.life.files[g]? = some x ∨ s'.life.files[g]? = some .closed
  store : ∀ (k : Nat) x, s.store[k]? = some x → s'.store[k]? = some x

theorem Kept.refl (s : State) : Kept s s :=
  ⟨fun _ _ h => .inl h, fun _ _ h => .inl h, fun _ _ h => h⟩

theorem Kept.trans {s1 s2 s3 : State} (a : Kept s1 s2) (b : Kept s2 s3) : Kept s1 s3 := by
  refine ⟨?_, ?_, fun k x h => b.store k x (a.store k x h)⟩
  · intro d x h
    rcases a.datas d x h with h | h
    · exact b.datas d x h
    · rcases b.datas d _ h with h | h <;> exact .inr h
  · intro d x h
    rcases a.files d x h with h | h
    · exact b.files d x h
    · rcases b.files d _ h with h | h <;> exact .inr h

theorem kept_conv (s : State) (cw : Conv.World) : Kept s { s with conv := cw } :=
  ⟨fun _ _ h => .inl h, fun _ _ h => .inl h, fun _ _ h => h⟩

theorem kept_opened (s : State) (name : Origin) (h : H5) :
    Kept s (openTables iter pi num cplx s name h).1 := by
  obtain ⟨-, e2, gs, e3⟩ := openTables_life (iter := iter) (pi := pi) (num := num) (cplx := cplx) s
    name h
  refine ⟨?_, ?_, ?_⟩
  · intro d x hd
    rw [e3]
    left
    unfold openFile
    split
    · exact get_append_of_some hd
    · exact hd
  · intro d x hd
    rw [e3]
    left
    unfold openFile
    split
    · exact get_append_of_some hd
    · exact hd
  · intro k x hk
    rw [e2]
    exact get_append_of_some hk

theorem kept_closeFile (s : State) (g : Nat) : Kept s (afterClose s (Life.closeFile s.life g)) := by
  refine ⟨?_, ?_, fun _ _ h => h⟩
  · intro d x hd
    show (Life.closeFile s.life g).datas[d]? = _ ∨ (Life.closeFile s.life g).datas[d]? = _
    unfold Life.closeFile
    split
    · dsimp only
      rw [closeDatas_get]
      split
      · rw [hd]; exact .inr rfl
      · exact .inl hd
    · exact .inl hd
  · intro d x hd
    show (Life.closeFile s.life g).files[d]? = _ ∨ (Life.closeFile s.life g).files[d]? = _
    unfold Life.closeFile
    split
    · dsimp only
      rw [List.getElem?_set]
      split
      · rename_i e
        subst e
        right
        rw [if_pos (List.getElem?_eq_some_iff.mp hd).1]
      · exact .inl hd
    · exact .inl hd

theorem kept_same (s : State) : Kept s (afterClose s s.life) :=
  ⟨fun _ _ h => .inl h, fun _ _ h => .inl h, fun _ _ h => h⟩

theorem kept_step {s s' : State} (i : Inv s) (h : Step iter pi num cplx D B s s') : Kept s s' := by
  cases h with
  | openHdf5 _ filename =>
    unfold openHdf5
    split
    · exact kept_opened ..
    · split
      · exact .refl _
      · exact kept_opened ..
    · exact .refl _
  | openSif _ filename =>
    unfold openSif
    split
    · split
      · exact kept_conv ..
      · split
        · rename_i nm h0 cw _ _ m _ _ s' f hs
          have := kept_opened (iter := iter) (pi := pi) (num := num) (cplx := cplx)
            { s with conv := cw } (.memory nm) h0
          rw [hs] at this
          exact (kept_conv s cw).trans this
        · rename_i nm h0 cw _ _ m _ _ s' f hs
          have := kept_opened (iter := iter) (pi := pi) (num := num) (cplx := cplx)
            { s with conv := cw } (.memory nm) h0
          rw [hs] at this
          exact (kept_conv s cw).trans this
    · exact kept_conv ..
    · exact kept_conv ..
  | convert o _ arg pre => exact kept_conv ..
  | elsewhere _ dir disk => exact kept_conv ..
  | closeFile _ f => exact kept_closeFile s f
  | closeData _ d =>
    show Kept s (afterClose s (Life.closeData s.life d))
    unfold Life.closeData
    rcases closeDataAux_cases (s.life.datas.length + 1) s.life d with e | ⟨f, e⟩ <;> rw [e]
    · exact kept_same s
    · exact kept_closeFile s f
  | closeAll _ order ho =>
    show Kept s (afterClose s (Life.closeAll s.life order).1)
    rcases closeAll_cases (inv_reachable i.life) ho with ⟨-, e⟩ | ⟨f, -, e⟩ <;> rw [e]
    · exact kept_same s
    · exact kept_closeFile s f

theorem reach_steps {s s' : State} (hs : Reachable iter pi num cplx D B s)
    (h : Steps iter pi num cplx D B s s') : Reachable iter pi num cplx D B s' := by
  induction h with
  | refl => exact hs
  | snoc _ h ih => exact .step ih h

theorem kept_steps {s s' : State} (hs : Reachable iter pi num cplx D B s)
    (h : Steps iter pi num cplx D B s s') : Kept s s' := by
  induction h with
  | refl => exact .refl _
  | snoc h1 h ih => exact ih.trans (kept_step (inv_of (reach_steps hs h1)) h)

/-- **C63** An open data object reads the same group of the same contents, whatever is called,
until it is closed: other files opened, converted or closed do not matter. -/
theorem object_reads_same (hs : Reachable iter pi num cplx D B s) {s' : State}
    (h : Steps iter pi num cplx D B s s') {d : Nat} (hd : d < s.life.datas.length)
    (hopen : dataOpen s'.life d = true) :
    groupOf s' d = groupOf s d ∧ ∃ x, groupOf s d = .ok x := by
  have i' := inv_of (reach_steps hs h)
  have g' := inv_reachable i'.life
  have kp := kept_steps hs h
  have old : ∀ (e : Nat) c p o, e < s.life.datas.length →
      s'.life.datas[e]? = some (.opened c p o) → s.life.datas[e]? = some (.opened c p o) := by
    intro e c p o hlt he
    obtain ⟨x, hx⟩ : ∃ x, s.life.datas[e]? = some x := ⟨_, List.getElem?_eq_getElem hlt⟩
    rcases kp.datas e x hx with h1 | h1
    · rw [h1] at he; cases he; exact hx
    · rw [h1] at he; cases he
  have gs := inv_reachable (inv_of hs).life
  obtain ⟨c, p, o, hd'⟩ : ∃ c p o, s'.life.datas[d]? = some (.opened c p o) := by
    unfold dataOpen at hopen
    split at hopen
    · exact ⟨_, _, _, by assumption⟩
    · cases hopen
  have hdo := old d c p o hd hd'
  obtain ⟨f', lst', k', hf', hin'⟩ := g'.listed d c p o hd'
  obtain ⟨f, lst, k, hf, hin⟩ := gs.listed d c p o hdo
  obtain ⟨q, hq, hqd⟩ := List.mem_map.mp hin
  obtain ⟨q', hq', hqd'⟩ := List.mem_map.mp hin'
  have ch := gs.chain f lst k hf q hq
  have ch' := g'.chain f' lst' k' hf' q' hq'
  rw [hqd] at ch
  rw [hqd'] at ch'
  -- the contents of an open file
  have conts : ∀ (g : Nat) lst k, s.life.files[g]? = some (.opened lst k) →
      (∃ lst' k', s'.life.files[g]? = some (.opened lst' k')) →
      contentsOf s' g = contentsOf s g ∧ ∃ x, contentsOf s g = .ok x := by
    rintro g lst k hg ⟨lst', k', hg'⟩
    have hkk : s'.life.files[g]? = some (.opened lst k) := by
      rcases kp.files g _ hg with h1 | h1
      · exact h1
      · rw [h1] at hg'; cases hg'
    have hlt : k < s.store.length := by
      rw [(inv_of hs).len]
      exact (List.getElem?_eq_some_iff.mp (gs.handle g lst k hg)).1
    have hst : s.store[k]? = some s.store[k] := List.getElem?_eq_getElem hlt
    unfold contentsOf
    rw [hg, hkk]
    dsimp only
    rw [hst, kp.store k _ hst]
    exact ⟨rfl, _, rfl⟩
  rcases ch with ⟨c1, p1, e1⟩ | ⟨c1, p1, d1, c1', p1', e1, e2⟩
  · rw [hdo] at e1
    cases e1
    rcases ch' with ⟨c2, p2, e2⟩ | ⟨c2, p2, d2, c2', p2', e2, e3⟩
    · rw [hd'] at e2
      cases e2
      obtain ⟨q1, x, q2⟩ := conts _ lst k hf ⟨lst', k', hf'⟩
      unfold groupOf
      rw [hdo, hd']
      dsimp only
      rw [q1, q2]
      exact ⟨rfl, _, rfl⟩
    · rw [hd'] at e2; cases e2
  · rw [hdo] at e1
    cases e1
    rcases ch' with ⟨c2, p2, e3⟩ | ⟨c2, p2, d2, c2', p2', e3, e4⟩
    · rw [hd'] at e3; cases e3
    · rw [hd'] at e3
      cases e3
      have := old d1 c2' p2' (.file f') (List.getElem?_eq_some_iff.mp e2).1 e4
      rw [e2] at this
      cases this
      obtain ⟨q1, x, q2⟩ := conts _ lst k hf ⟨lst', k', hf'⟩
      unfold groupOf
      rw [hdo, hd']
      dsimp only
      rw [e2, e4]
      dsimp only
      rw [q1, q2]
      exact ⟨rfl, _, rfl⟩

/-- **C63** The objects of a closed File raise `ClosedFileError` when they are to read anything,
whatever is called later. -/
theorem closed_object_raises (hs : Reachable iter pi num cplx D B s) {g : Nat}
    {lst : List (String × Nat)} (hl : items s.life g = .ok lst) {s' : State}
    (h : Steps iter pi num cplx D B (closeFile s g) s') {p : String × Nat} (hp : p ∈ lst) :
    struc num s' p.2 = .error .closedFile ∧ top num s' p.2 = .error .closedFile ∧
    hydro pi num cplx s' p.2 = .error .closedFile := by
  have hc : (closeFile s g).life.datas[p.2]? = some .closed := by
    have hr : Life.Reachable (Life.closeFile s.life g) := .snoc (inv_of hs).life (.closeFile _ _)
    obtain ⟨-, h2, -⟩ := closed_forever (inv_of hs).life hl (.refl _)
    have h3 := (open_file (inv_of hs).life hl).1 p hp
    have h4 := h2 p hp
    unfold dataOpen at h3 h4
    show (Life.closeFile s.life g).datas[p.2]? = _
    cases hx : s.life.datas[p.2]? with
    | none => rw [hx] at h3; cases h3
    | some x =>
      rcases (kept_closeFile s g).datas p.2 x hx with h5 | h5
      · rw [hx] at h3
        cases x with
        | closed => cases h3
        | opened c q o =>
          have h6 : (Life.closeFile s.life g).datas[p.2]? = some (.opened c q o) := h5
          rw [h6] at h4
          cases h4
      · exact h5
  have hc' : s'.life.datas[p.2]? = some .closed := by
    rcases (kept_steps (.step hs (.closeFile s g)) h).datas _ _ hc with h | h <;> exact h
  have hg : groupOf s' p.2 = .error .closedFile := by
    unfold groupOf
    rw [hc']
  refine ⟨?_, ?_, ?_⟩
  · unfold struc; rw [hg]; rfl
  · unfold top; rw [hg]; rfl
  · unfold hydro; rw [hg]; rfl

/-- **C63** `sif2hdf5` refuses to write into an HDF5 file that is open for reading, and nothing
changes: `ValueError` if a file is open under the name that is given, or, when the file is to be
overwritten, some file is; otherwise HDF5ExtError. -/
theorem open_output_refused (hs : Reachable iter pi num cplx D B s) {g : Nat} {o : Options}
    {filename dir fname fp no ext given upre : Str} {l : Char}
    {b : Bytes} {h : H5} (hp : PathOf (s.conv.fullPath filename) dir fname)
    (hn : SesamName fname fp l no ext)
    (hsin : ext.getLast? ≠ some 'n' ∧ ext.getLast? ≠ some 'N')
    (hb : s.conv.disk (s.conv.fullPath filename) = some b)
    (happ : o.append = true → ∃ n, n ≠ [] ∧ o.hdf5name = some n)
    (hgiven : GivenName o fname given)
    (hfile : s.conv.out (s.conv.fullPath given) = some (.h5 h))
    (hopen : HasOrigin s g (.disk (s.conv.fullPath given))) :
    ∃ s' e, convert D B o s (.name filename) (.one upre) = (s', .error e) ∧
      (given = s.conv.fullPath given ∨
        (o.append = false ∧ given ∈ s.conv.memory ++ s.conv.leaked) → e = .valueError) ∧
      ((∀ (k : Nat) (p : Str) (h : H5), s.store[k]? = some (Origin.disk p, h) → p ≠ given) →
        (o.append = false → given ∉ s.conv.memory ++ s.conv.leaked) → e = .hdf5Error) ∧
      s'.conv.out = s.conv.out ∧ s'.conv.memory = s.conv.memory ∧
      s'.conv.leaked = s.conv.leaked ∧ s'.life = s.life ∧ s'.store = s.store ∧
      s'.conv.printed = s.conv.printed := by
  obtain ⟨lst, k, h', ho0, ho2⟩ := hopen
  have ho1 := (inv_reachable (inv_of hs).life).handle g lst k ho0
  have ho : s.conv.fullPath given ∈ openPaths s :=
    (mem_openPaths _ _).mpr ((isOpen_iff _ _ _).mpr ⟨k, h', ho2, ho1⟩)
  by_cases ht : given ∈ openPaths s ∨ o.append = false ∧ given ∈ s.conv.memory ++ s.conv.leaked
  · obtain ⟨st, e, -⟩ := output_name_taken (D := D) (B := B) (pre := upre)
      (o := { o with inMemory := false })
      (w := { s.conv with reading := openPaths s }) hp hn hsin hb happ rfl hgiven ht
    refine ⟨{ s with conv := { s.conv with st := st, reading := [] } }, _, ?_, fun _ => rfl, ?_,
      rfl, rfl, rfl, rfl, rfl, rfl⟩
    · unfold convert
      rw [e]
    · intro h1 h2
      rcases ht with ht | ⟨ht, h3⟩
      · obtain ⟨k', h'', h3, -⟩ := (isOpen_iff _ _ _).mp ((mem_openPaths _ _).mp ht)
        exact absurd rfl (h1 _ _ _ h3)
      · exact absurd h3 (h2 ht)
  · push Not at ht
    obtain ⟨st, e, -⟩ := output_file_open (D := D) (B := B) (pre := upre)
      (o := { o with inMemory := false })
      (w := { s.conv with reading := openPaths s }) hp hn hsin hb happ rfl hgiven ht.1 ht.2
      (.inl ⟨h, hfile, ho⟩)
    refine ⟨{ s with conv := { s.conv with st := st, reading := [] } }, _, ?_, ?_, fun _ _ => rfl,
      rfl, rfl, rfl, rfl, rfl, rfl⟩
    · unfold convert
      rw [e]
    · rintro (h1 | ⟨h1, h2⟩)
      · exact absurd (h1 ▸ ho) ht.1
      · exact absurd h2 (ht.2 h1)

end
end Verif.Session
