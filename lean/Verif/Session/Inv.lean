import Verif.Session.Model
import Verif.Data.LifeProps
/-!
# Invariants of a session
-/

namespace Verif.Session
open Verif Verif.Seq Verif.Parse Verif.Conv Verif.Data Verif.Data.Life Verif.Data.Load

/-! ### files -/

section
variable {D : Dec} {B : Nat}

/-- what a conversion does to the directory, the input files and the in-memory files -/
theorem convertFile_world (o : Options) (name pre : Str) (w : Conv.World) :
    (convertFile D B o name pre w).2.cwd = w.cwd ∧ (convertFile D B o name pre w).2.disk = w.disk ∧
    (convertFile D B o name pre w).2.reading = w.reading ∧
    ((convertFile D B o name pre w).2.memory = w.memory ∧
        (∀ n h, (convertFile D B o name pre w).1 ≠ .ok (.memory n h)) ∨
      o.inMemory = true ∧ ∃ n, n ∉ w.memory ∧
        (convertFile D B o name pre w).2.memory = n :: w.memory ∧
        ∀ n' h, (convertFile D B o name pre w).1 = .ok (.memory n' h) → n' = n) := by
  unfold convertFile
  split
  · exact ⟨rfl, rfl, rfl, .inl ⟨rfl, by simp⟩⟩
  dsimp only
  split
  · exact ⟨rfl, rfl, rfl, .inl ⟨rfl, by simp⟩⟩
  split
  · exact ⟨rfl, rfl, rfl, .inl ⟨rfl, by simp⟩⟩
  split
  · exact ⟨rfl, rfl, rfl, .inl ⟨rfl, by simp⟩⟩
  split
  · rename_i hm
    split
    · exact ⟨rfl, rfl, rfl, .inl ⟨rfl, by simp⟩⟩
    · rename_i hc
      have hc' : (splitPath (w.fullPath name)).2.dropLast.dropLast.dropLast ++ ['h', '5'] ∉
          w.memory := by
        intro h
        exact hc (by unfold World.inUse; simp [h])
      split
      · exact ⟨rfl, rfl, rfl, .inr ⟨hm, _, hc', rfl, by simp⟩⟩
      · refine ⟨rfl, rfl, rfl, .inr ⟨hm, _, hc', rfl, ?_⟩⟩
        intro n' h e
        injection e with e
        injection e with e
        exact e.symm
  · split
    · exact ⟨rfl, rfl, rfl, .inl ⟨rfl, by simp⟩⟩
    split
    · exact ⟨rfl, rfl, rfl, .inl ⟨rfl, by simp⟩⟩
    · exact ⟨rfl, rfl, rfl, .inl ⟨rfl, by simp⟩⟩

theorem convertEach_world {o : Options} (ho : o.inMemory = false) :
    ∀ (l : List (Str × Str)) (w : Conv.World),
    (convertEach D B o l w).2.cwd = w.cwd ∧ (convertEach D B o l w).2.disk = w.disk ∧
    (convertEach D B o l w).2.memory = w.memory ∧
    (convertEach D B o l w).2.reading = w.reading
  | [], w => ⟨rfl, rfl, rfl, rfl⟩
  | (n, p) :: more, w => by
    have h := convertFile_world (D := D) (B := B) o n p w
    have hm : (convertFile D B o n p w).2.memory = w.memory := by
      rcases h.2.2.2 with ⟨h, -⟩ | ⟨h, -⟩
      · exact h
      · rw [ho] at h; cases h
    unfold convertEach
    cases hr : convertFile D B o n p w with
    | mk r w' =>
      rw [hr] at h hm
      cases r with
      | ok r =>
        obtain ⟨i1, i2, i3, i4⟩ := convertEach_world ho more w'
        exact ⟨i1.trans h.1, i2.trans h.2.1, i3.trans hm, i4.trans h.2.2.1⟩
      | error e => exact ⟨h.1, h.2.1, hm, h.2.2.1⟩

/-- conversions to disk leave the directory, the input files and the in-memory files alone -/
theorem sif2hdf5_world {o : Options} (ho : o.inMemory = false) (arg : SifArg) (pre : PrefixArg)
    (w : Conv.World) :
    (sif2hdf5 D B o arg pre w).2.cwd = w.cwd ∧ (sif2hdf5 D B o arg pre w).2.disk = w.disk ∧
    (sif2hdf5 D B o arg pre w).2.memory = w.memory ∧
    (sif2hdf5 D B o arg pre w).2.reading = w.reading := by
  have one : ∀ n p w, (convertFile D B o n p w).2.cwd = w.cwd ∧
      (convertFile D B o n p w).2.disk = w.disk ∧ (convertFile D B o n p w).2.memory = w.memory ∧
      (convertFile D B o n p w).2.reading = w.reading := by
    intro n p w
    have h := convertFile_world (D := D) (B := B) o n p w
    refine ⟨h.1, h.2.1, ?_, h.2.2.1⟩
    rcases h.2.2.2 with ⟨h, -⟩ | ⟨h, -⟩
    · exact h
    · rw [ho] at h; cases h
  unfold sif2hdf5
  split
  · split
    · exact one _ _ _
    · unfold convertListed
      split
      · exact ⟨rfl, rfl, rfl, rfl⟩
      dsimp only
      split
      · exact ⟨rfl, rfl, rfl, rfl⟩
      split
      · exact ⟨rfl, rfl, rfl, rfl⟩
      split
      · exact ⟨rfl, rfl, rfl, rfl⟩
      split
      · exact ⟨rfl, rfl, rfl, rfl⟩
      rw [if_neg (by rw [ho]; simp)]
      split <;> exact ⟨rfl, rfl, rfl, rfl⟩
  · exact ⟨rfl, rfl, rfl, rfl⟩
  · rename_i ns
    rw [if_neg (by rw [ho]; simp)]
    split
    · split
      · rename_i n ns' p ps _
        have h := one n p w
        cases hr : convertFile D B o n p w with
        | mk r w' =>
          rw [hr] at h
          cases r with
          | ok r =>
            obtain ⟨i1, i2, i3, i4⟩ := convertEach_world (D := D) (B := B)
              (o := { o with append := true }) ho (ns'.zip ps) w'
            exact ⟨i1.trans h.1, i2.trans h.2.1, i3.trans h.2.2.1, i4.trans h.2.2.2⟩
          | error e => exact h
      · exact ⟨rfl, rfl, rfl, rfl⟩
    · exact convertEach_world ho _ _
end

/-! ### open files -/

theorem isOpen_iff (s : State) (w : Life.World) (o : Origin) : isOpen s w o = true ↔
    ∃ (k : Nat) (h : H5), s.store[k]? = some (o, h) ∧ w.handles[k]? = some true := by
  unfold isOpen
  rw [List.any_eq_true]
  constructor
  · rintro ⟨k, -, hk⟩
    simp only [Bool.and_eq_true, beq_iff_eq] at hk
    cases hs : s.store[k]? with
    | none => rw [hs] at hk; simp at hk
    | some x =>
      rw [hs] at hk
      simp only [Option.map_some, Option.some.injEq] at hk
      exact ⟨k, x.2, by rw [hs, ← hk.1], hk.2⟩
  · rintro ⟨k, h, h1, h2⟩
    refine ⟨k, List.mem_range.mpr (List.getElem?_eq_some_iff.mp h1).1, ?_⟩
    rw [h1, h2]
    simp

theorem mem_openPaths (s : State) (p : Str) :
    p ∈ openPaths s ↔ isOpen s s.life (.disk p) = true := by
  rw [isOpen_iff]
  unfold openPaths
  rw [List.mem_filterMap]
  constructor
  · rintro ⟨k, -, hk⟩
    split at hk
    · rename_i q h h1 h2
      cases hk
      exact ⟨k, h, h1, h2⟩
    · cases hk
  · rintro ⟨k, h, h1, h2⟩
    refine ⟨k, List.mem_range.mpr (List.getElem?_eq_some_iff.mp h1).1, ?_⟩
    rw [h1, h2]

/-- the invariant -/
structure Inv (s : State) : Prop where
  life : Life.Reachable s.life
  len : s.store.length = s.life.handles.length
  cwd : ∃ d, s.conv.cwd = d ++ ['/']
  nodup : s.conv.memory.Nodup
  reading : s.conv.reading = []
  mem : ∀ (k : Nat) n h, s.store[k]? = some (Origin.memory n, h) → s.life.handles[k]? = some true →
    n ∈ s.conv.memory
  uniq : ∀ (k k' : Nat) n h h', s.store[k]? = some (Origin.memory n, h) →
    s.store[k']? = some (Origin.memory n, h') → s.life.handles[k]? = some true →
    s.life.handles[k']? = some true → k = k'

theorem handles_openFile (w : Life.World) (gs : List GroupDesc) :
    (openFile w gs).1.handles = w.handles ++ [true] := by
  unfold openFile
  split <;> rfl

/-- a failing group -/
def badGroup : GroupDesc := { name := "", datatype := "", level := "" }

theorem openFile_bad (w : Life.World) :
    (openFile w [badGroup]).1 = { w with handles := w.handles ++ [true] } := rfl

section
variable {K V : Type} [Field K] [LinearOrder K] {iter : H5 → List (String × List String)} {pi : K}
  {num : PyF → K} {cplx : PyF → PyF → V} {D : Dec} {B : Nat}

/-- opening contents is opening a File on some list of groups -/
theorem openTables_life (s : State) (name : Origin) (h : H5) :
    (openTables iter pi num cplx s name h).1.conv = s.conv ∧
    (openTables iter pi num cplx s name h).1.store = s.store ++ [(name, h)] ∧
    ∃ gs, (openTables iter pi num cplx s name h).1.life = (openFile s.life gs).1 := by
  unfold openTables
  split
  · exact ⟨rfl, rfl, [badGroup], rfl⟩
  · exact ⟨rfl, rfl, _, rfl⟩

theorem Inv.opened {s : State} (i : Inv s) {name : Origin} {h : H5}
    (hnew : ∀ n, name = .memory n → n ∈ s.conv.memory ∧
      ∀ (k : Nat) h, s.store[k]? = some (Origin.memory n, h) → s.life.handles[k]? ≠ some true) :
    Inv (openTables iter pi num cplx s name h).1 := by
  obtain ⟨e1, e2, gs, e3⟩ := openTables_life (iter := iter) (pi := pi) (num := num) (cplx := cplx) s
    name h
  generalize openTables iter pi num cplx s name h = r at *
  have hh : r.1.life.handles = s.life.handles ++ [true] := by rw [e3, handles_openFile]
  refine ⟨?_, ?_, ?_, ?_, by rw [e1]; exact i.reading, ?_, ?_⟩
  · rw [e3]
    exact .snoc i.life (.openFile _ _)
  · rw [e2, hh, List.length_append, List.length_append, i.len]
    rfl
  · rw [e1]; exact i.cwd
  · rw [e1]; exact i.nodup
  · intro k n h' h1 h2
    rw [e2] at h1
    rw [hh] at h2
    rw [e1]
    rcases get_snoc_inv h1 with h1 | ⟨-, e⟩
    · rcases get_snoc_inv h2 with h2 | ⟨hk, -⟩
      · exact i.mem k n h' h1 h2
      · have := (List.getElem?_eq_some_iff.mp h1).1
        rw [i.len] at this
        omega
    · injection e with e
      exact (hnew n e.symm).1
  · intro k k' n a b h1 h2 h3 h4
    rw [e2] at h1 h2
    rw [hh] at h3 h4
    have old : ∀ (k : Nat) a, s.store[k]? = some (Origin.memory n, a) →
        (s.life.handles ++ [true])[k]? = some true → s.life.handles[k]? = some true := by
      intro k a h1 h3
      have hk := (List.getElem?_eq_some_iff.mp h1).1
      rw [i.len] at hk
      rw [List.getElem?_append_left hk] at h3
      exact h3
    rcases get_snoc_inv h1 with h1 | ⟨hk1, e1'⟩ <;> rcases get_snoc_inv h2 with h2 | ⟨hk2, e2'⟩
    · exact i.uniq k k' n a b h1 h2 (old k a h1 h3) (old k' b h2 h4)
    · injection e2' with e2'
      exact absurd (old k a h1 h3) ((hnew n e2'.symm).2 k a h1)
    · injection e1' with e1'
      exact absurd (old k' b h2 h4) ((hnew n e1'.symm).2 k' b h2)
    · rw [hk1, hk2]

theorem Inv.conv {s : State} (i : Inv s) {cw : Conv.World} (h1 : cw.cwd = s.conv.cwd)
    (h2 : cw.memory.Nodup) (h3 : ∀ n ∈ s.conv.memory, n ∈ cw.memory) (h4 : cw.reading = []) :
    Inv { s with conv := cw } :=
  ⟨i.life, i.len, by rw [h1]; exact i.cwd, h2, h4, fun k n h a b => h3 n (i.mem k n h a b), i.uniq⟩

/-- closing: the handles of files are closed, never opened -/
theorem Inv.closed {s : State} (i : Inv s) {w : Life.World} (hs : Life.Step s.life w)
    (hlen : w.handles.length = s.life.handles.length)
    (hmono : ∀ k : Nat, w.handles[k]? = some true → s.life.handles[k]? = some true) :
    Inv (afterClose s w) := by
  refine ⟨.snoc i.life hs, i.len.trans hlen.symm, i.cwd, i.nodup.filter _, i.reading, ?_, ?_⟩
  · intro k n h h1 h2
    show n ∈ s.conv.memory.filter _
    rw [List.mem_filter]
    refine ⟨i.mem k n h h1 (hmono k h2), ?_⟩
    rw [Bool.or_eq_true]
    exact .inr ((isOpen_iff _ _ _).mpr ⟨k, h, h1, h2⟩)
  · intro k k' n h h' h1 h2 h3 h4
    exact i.uniq k k' n h h' h1 h2 (hmono k h3) (hmono k' h4)

theorem closeFile_handles (w : Life.World) (f : Nat) :
    (Life.closeFile w f).handles.length = w.handles.length ∧
    ∀ k : Nat, (Life.closeFile w f).handles[k]? = some true → w.handles[k]? = some true := by
  unfold Life.closeFile
  split
  · refine ⟨List.length_set .., ?_⟩
    intro k hk
    dsimp only at hk
    rw [List.getElem?_set] at hk
    split at hk
    · split at hk <;> simp at hk
    · exact hk
  · exact ⟨rfl, fun _ h => h⟩

theorem closeData_handles (w : Life.World) (d : Nat) :
    (Life.closeData w d).handles.length = w.handles.length ∧
    ∀ k : Nat, (Life.closeData w d).handles[k]? = some true → w.handles[k]? = some true := by
  unfold Life.closeData
  rcases closeDataAux_cases (w.datas.length + 1) w d with e | ⟨f, e⟩
  · rw [e]; exact ⟨rfl, fun _ h => h⟩
  · rw [e]; exact closeFile_handles w f

theorem inv_start (dir : Str) (disk : Str → Option Bytes) (out : Str → Option H5) :
    Inv { conv := { cwd := dir ++ ['/'], disk := disk, out := fun p => (out p).map .h5 } } where
  life := .refl _
  len := rfl
  cwd := ⟨dir, rfl⟩
  nodup := List.nodup_nil
  reading := rfl
  mem := by intro k n h h1; simp at h1
  uniq := by intro k k' n h h' h1; simp at h1

theorem inv_step {s s' : State} (i : Inv s) (h : Step iter pi num cplx D B s s') : Inv s' := by
  cases h with
  | openHdf5 _ filename =>
    unfold openHdf5
    split
    · exact i.opened (by intro n h; cases h)
    · split
      · exact i
      · exact i.opened (by intro n h; cases h)
    · exact i
  | openSif _ filename =>
    have hw := convertFile_world (D := D) (B := B) { inMemory := true } filename [] s.conv
    have he : sif2hdf5 D B { inMemory := true } (.name filename) (.one []) s.conv =
      convertFile D B { inMemory := true } filename [] s.conv := rfl
    have hnod : (convertFile D B { inMemory := true } filename [] s.conv).2.memory.Nodup ∧
        ∀ n ∈ s.conv.memory, n ∈ (convertFile D B { inMemory := true } filename [] s.conv).2.memory := by
      rcases hw.2.2.2 with ⟨e, -⟩ | ⟨-, n, hn, e, -⟩
      · rw [e]; exact ⟨i.nodup, fun _ h => h⟩
      · rw [e]; exact ⟨List.nodup_cons.mpr ⟨hn, i.nodup⟩, fun _ h => List.mem_cons_of_mem _ h⟩
    have ic := i.conv hw.1 hnod.1 hnod.2 (hw.2.2.1.trans i.reading)
    unfold openSif
    rw [he]
    cases hr : convertFile D B { inMemory := true } filename [] s.conv with
    | mk r cw =>
      rw [hr] at ic hw
      dsimp only at ic hw ⊢
      cases r with
      | error e => exact ic
      | ok r =>
        cases r with
        | none => exact ic
        | path p => exact ic
        | memory name h =>
          dsimp only
          cases hp : parseSifname filename with
          | error e => exact ic
          | ok m =>
            dsimp only
            have := ic.opened (iter := iter) (pi := pi) (num := num) (cplx := cplx)
              (name := .memory name) (h := h) (by
                intro n e
                injection e with e
                subst e
                rcases hw.2.2.2 with ⟨-, e⟩ | ⟨-, n, hn, e, e'⟩
                · exact absurd rfl (e name h)
                · cases e' name h rfl
                  refine ⟨by show name ∈ cw.memory; rw [e]; simp, ?_⟩
                  intro k h' h1 h2
                  exact hn (i.mem k name h' h1 h2))
            split
            · rename_i s' f hs
              rw [hs] at this
              exact this
            · rename_i s' e hs
              rw [hs] at this
              exact this
  | convert o _ arg pre =>
    have hw := sif2hdf5_world (D := D) (B := B) (o := { o with inMemory := false }) rfl arg pre
      { s.conv with reading := openPaths s }
    unfold convert
    dsimp only
    refine i.conv hw.1 ?_ ?_ rfl
    · show (List.Nodup _)
      rw [hw.2.2.1]
      exact i.nodup
    · intro n hn
      show n ∈ _
      rw [hw.2.2.1]
      exact hn
  | elsewhere _ dir disk => exact ⟨i.life, i.len, ⟨dir, rfl⟩, i.nodup, i.reading, i.mem, i.uniq⟩
  | closeFile _ f =>
    exact i.closed (.closeFile _ _) (closeFile_handles _ _).1 (closeFile_handles _ _).2
  | closeData _ d =>
    exact i.closed (.closeData _ _) (closeData_handles _ _).1 (closeData_handles _ _).2
  | closeAll _ order ho =>
    refine i.closed (.closeAll _ _ ho) ?_ ?_
    · rcases closeAll_cases (inv_reachable i.life) ho with ⟨-, e⟩ | ⟨f, -, e⟩ <;> rw [e]
      exact (closeFile_handles _ _).1
    · rcases closeAll_cases (inv_reachable i.life) ho with ⟨-, e⟩ | ⟨f, -, e⟩ <;> rw [e]
      · exact fun _ h => h
      · exact (closeFile_handles _ _).2

theorem inv_of {s : State} (h : Reachable iter pi num cplx D B s) : Inv s := by
  induction h with
  | start dir disk out => exact inv_start dir disk out
  | step _ hs ih => exact inv_step ih hs

end
end Verif.Session
