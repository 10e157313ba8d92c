import Verif.Conv.Driver
/-!
# Calls of `sif2hdf5` after others: property C73
-/

namespace Verif.Conv
open Verif Verif.Seq Verif.Parse

/-- two sessions with the same files, in the same directory, that know the same element types; they
may differ in everything else that earlier calls of `sif2hdf5` have left behind -/
structure SameSession (w w' : World) : Prop where
  cwd : w.cwd = w'.cwd
  disk : w.disk = w'.disk
  out : w.out = w'.out
  memory : w.memory = w'.memory
  leaked : w.leaked = w'.leaked
  reading : w.reading = w'.reading
  printed : w.printed = w'.printed
  elements : w.st.env.elem = w'.st.env.elem

/-- the same outcome: result or exception, and the session afterwards -/
def SameOutcome (a b : Except Err Result × World) : Prop := a.1 = b.1 ∧ SameSession a.2 b.2

theorem reset_same {st st' : St} (h : st.env.elem = st'.env.elem) (p : String) (h0 : H5) :
    ({ reset true st with g := { (reset true st).g with groupnamePrefix := p }, h5 := h0 } : St) =
      { reset true st' with g := { (reset true st').g with groupnamePrefix := p }, h5 := h0 } := by
  simp [reset, h]

theorem convertFile_same (D : Dec) (B : Nat) (o : Options) (name pre : Str) {w w' : World}
    (h : SameSession w w') :
    SameOutcome (convertFile D B o name pre w) (convertFile D B o name pre w') := by
  obtain ⟨cwd, disk, out, memory, leaked, reading, printed, st⟩ := w
  obtain ⟨cwd', disk', out', memory', leaked', reading', printed', st'⟩ := w'
  obtain ⟨h1, h2, h3, h4, h7, h8, h5, h6⟩ := h
  simp only at h1 h2 h3 h4 h5 h6 h7 h8
  subst h1 h2 h3 h4 h5 h7 h8
  have key := reset_same h6
  have same : ∀ {r : Except Err Result} {m lk pr ou} {x x' : St}, x.env.elem = x'.env.elem →
      SameOutcome (r, ⟨cwd, disk, ou, m, lk, reading, pr, x⟩)
        (r, ⟨cwd, disk, ou, m, lk, reading, pr, x'⟩) :=
    fun h => ⟨rfl, rfl, rfl, rfl, rfl, rfl, rfl, rfl, h⟩
  unfold convertFile
  by_cases c1 : o.outName = none ∧ o.append
  · rw [if_pos c1, if_pos c1]; exact same h6
  rw [if_neg c1, if_neg c1]
  dsimp only [World.fullPath]
  generalize splitPath _ = sp
  obtain ⟨dir, fname⟩ := sp
  dsimp only
  cases convMatch fname with
  | none => exact same h6
  | some info =>
    dsimp only
    by_cases c2 : upper info.ext = ['S', 'I', 'N']
    · rw [if_pos c2, if_pos c2]; exact same h6
    rw [if_neg c2, if_neg c2]
    generalize disk _ = db
    cases db with
    | none => exact same h6
    | some bytes =>
      dsimp only
      by_cases c3 : o.inMemory = true
      · rw [if_pos c3, if_pos c3]
        have hu : ∀ x, World.inUse ⟨cwd, disk, out, memory, leaked, reading, printed, st'⟩ x =
            World.inUse ⟨cwd, disk, out, memory, leaked, reading, printed, st⟩ x := fun _ => rfl
        rw [hu]
        by_cases c4 : World.inUse ⟨cwd, disk, out, memory, leaked, reading, printed, st⟩
            (fname.dropLast.dropLast.dropLast ++ ['h', '5']) = true
        · rw [if_pos c4, if_pos c4]; exact same h6
        rw [if_neg c4, if_neg c4, key _ {}]
        generalize parseAll D B o.only disk dir info _ bytes _ = r
        obtain ⟨r, ms⟩ := r
        cases r with
        | error e => exact same rfl
        | ok r => exact same rfl
      · rw [if_neg c3, if_neg c3]
        have hu : ∀ x b, openOutput ⟨cwd, disk, out, memory, leaked, reading, printed, st'⟩ x b =
            openOutput ⟨cwd, disk, out, memory, leaked, reading, printed, st⟩ x b := fun _ _ => rfl
        rw [hu]
        generalize openOutput _ _ _ = oo
        cases oo with
        | error e => exact same h6
        | ok h0 =>
          dsimp only
          rw [key _ h0]
          generalize parseAll D B o.only disk dir info _ bytes _ = r
          obtain ⟨r, ms⟩ := r
          cases r with
          | error e => exact same rfl
          | ok r => exact same rfl

theorem convertListed_same (o : Options) (name : Str) {w w' : World} (h : SameSession w w') :
    SameOutcome (convertListed o name w) (convertListed o name w') := by
  obtain ⟨cwd, disk, out, memory, leaked, reading, printed, st⟩ := w
  obtain ⟨cwd', disk', out', memory', leaked', reading', printed', st'⟩ := w'
  obtain ⟨h1, h2, h3, h4, h7, h8, h5, h6⟩ := h
  simp only at h1 h2 h3 h4 h5 h6 h7 h8
  subst h1 h2 h3 h4 h5 h7 h8
  have same : ∀ {r : Except Err Result} {m lk pr ou} {x x' : St}, x.env.elem = x'.env.elem →
      SameOutcome (r, ⟨cwd, disk, ou, m, lk, reading, pr, x⟩)
        (r, ⟨cwd, disk, ou, m, lk, reading, pr, x'⟩) :=
    fun h => ⟨rfl, rfl, rfl, rfl, rfl, rfl, rfl, rfl, h⟩
  have h1 : ∀ x, World.fullPath ⟨cwd, disk, out, memory, leaked, reading, printed, st'⟩ x =
      World.fullPath ⟨cwd, disk, out, memory, leaked, reading, printed, st⟩ x := fun _ => rfl
  have h2 : ∀ x, World.inUse ⟨cwd, disk, out, memory, leaked, reading, printed, st'⟩ x =
      World.inUse ⟨cwd, disk, out, memory, leaked, reading, printed, st⟩ x := fun _ => rfl
  have h3 : ∀ x b, openOutput ⟨cwd, disk, out, memory, leaked, reading, printed, st'⟩ x b =
      openOutput ⟨cwd, disk, out, memory, leaked, reading, printed, st⟩ x b := fun _ _ => rfl
  unfold convertListed
  simp only [h1, h2, h3]
  split
  · exact same h6
  split
  · exact same h6
  split
  · exact same h6
  split
  · exact same h6
  split
  · exact same h6
  split
  · split <;> exact same h6
  · split <;> exact same h6

theorem convertEach_same (D : Dec) (B : Nat) (o : Options) (l : List (Str × Str)) {w w' : World}
    (h : SameSession w w') :
    SameOutcome (convertEach D B o l w) (convertEach D B o l w') := by
  induction l generalizing w w' with
  | nil => exact ⟨rfl, h⟩
  | cons np l ih =>
    obtain ⟨n, p⟩ := np
    unfold convertEach
    have h1 := convertFile_same D B o n p h
    generalize convertFile D B o n p w = a at h1
    generalize convertFile D B o n p w' = b at h1
    obtain ⟨a1, a2⟩ := a
    obtain ⟨b1, b2⟩ := b
    obtain ⟨rfl, h2⟩ := h1
    cases a1 with
    | ok _ => exact ih h2
    | error e => exact ⟨rfl, h2⟩

/-- **C73** Of all that earlier calls have left behind in the module, successful or not, a call
depends on the element types only: in two sessions with the same files and the same element types
it returns or raises the same, for any arguments, and the sessions are the same in this sense
afterwards.  So no later call can tell them apart either. -/
theorem history_is_elements (D : Dec) (B : Nat) (o : Options) (arg : SifArg) (pre : PrefixArg)
    {w w' : World} (h : SameSession w w') :
    SameOutcome (sif2hdf5 D B o arg pre w) (sif2hdf5 D B o arg pre w') := by
  unfold sif2hdf5
  cases arg with
  | name n =>
    cases pre with
    | one p => exact convertFile_same D B o n p h
    | many _ => exact convertListed_same o n h
  | other => exact ⟨rfl, h⟩
  | names ns =>
    dsimp only
    by_cases c1 : o.inMemory = true
    · rw [if_pos c1, if_pos c1]; exact ⟨rfl, h⟩
    rw [if_neg c1, if_neg c1]
    cases o.outName with
    | none => exact convertEach_same D B o _ h
    | some _ =>
      dsimp only
      generalize prefixList ns pre = ps
      cases ns with
      | nil => exact ⟨rfl, h⟩
      | cons n ns =>
        cases ps with
        | nil => exact ⟨rfl, h⟩
        | cons p ps =>
          have h1 := convertFile_same D B o n p h
          dsimp only
          generalize convertFile D B o n p w = a at h1
          generalize convertFile D B o n p w' = b at h1
          obtain ⟨a1, a2⟩ := a
          obtain ⟨b1, b2⟩ := b
          obtain ⟨rfl, h2⟩ := h1
          cases a1 with
          | ok _ => exact convertEach_same D B _ _ h2
          | error e => exact ⟨rfl, h2⟩

/-- a session in which a conversion was interrupted half-way, and a new one -/
example : SameSession
    { st := { g := { currentSeltyp := some 3, hasHierarch := true, hierarchTable := some ["T3"],
                     recordNames := ["IDENT"], attoplevel := true },
              env := { rdresref := fun _ => some 1 } } } {} :=
  ⟨rfl, rfl, rfl, rfl, rfl, rfl, rfl, rfl⟩

end Verif.Conv
