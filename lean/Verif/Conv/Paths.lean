import Verif.Conv.RefuseDemo
/-!
# Paths, line ends and outputs that are in use
-/

namespace Verif.Conv
open Verif Verif.Seq Verif.Parse

section
variable {D : Dec} {B : Nat} {o : Options} {w : World}

/-! ## paths -/

/-- **C23** A relative name is looked up in the current directory. -/
theorem relative_name {c n : Str} {pre : PrefixArg} (hc : w.cwd = '/' :: c)
    (hn : n.head? ≠ some '/') :
    sif2hdf5 D B o (.name n) pre w = sif2hdf5 D B o (.name (w.cwd ++ n)) pre w := by
  have h1 : w.fullPath n = w.cwd ++ n := by
    unfold World.fullPath
    split
    · exact absurd rfl hn
    · rfl
  have h2 : w.fullPath (w.cwd ++ n) = w.cwd ++ n := by
    rw [hc]; rfl
  cases pre with
  | many ps =>
    rw [listed_eq, listed_eq]
    unfold convertListed
    rw [h1, h2]
  | one p =>
    rw [single_eq, single_eq]
    unfold convertFile
    rw [h1, h2]

/-- **C23** An absolute name does not depend on the current directory, nor does an absolute name of
the output file. -/
theorem absolute_name {c n : Str} {pre : PrefixArg}
    (h : o.inMemory = true ∨ ∃ m, o.hdf5name = some ('/' :: m)) :
    sif2hdf5 D B o (.name ('/' :: n)) pre { w with cwd := c } =
      ((sif2hdf5 D B o (.name ('/' :: n)) pre w).1,
        { (sif2hdf5 D B o (.name ('/' :: n)) pre w).2 with cwd := c }) := by
  cases pre with
  | many ps =>
    rw [listed_eq, listed_eq]
    have h1 : ∀ a x, World.fullPath { w with cwd := a } ('/' :: x) = '/' :: x := fun _ _ => rfl
    have h4 : ∀ x, World.inUse { w with cwd := c } x = w.inUse x := fun _ => rfl
    have h5 : ∀ x a, openOutput { w with cwd := c } ('/' :: x) a = openOutput w ('/' :: x) a :=
      fun _ _ => rfl
    unfold convertListed
    simp only [h1, h4]
    split
    · rfl
    split
    · rfl
    split
    · rfl
    split
    · rfl
    split
    · rfl
    rcases h with h | ⟨m, h⟩
    · rw [if_pos h, if_pos h]
      split <;> rfl
    · split
      · split <;> rfl
      · rw [outName_some h (by simp)]
        simp only [Option.getD_some, h1, h5]
        split <;> rfl
  | one p =>
    rw [single_eq, single_eq]
    have h1 : ∀ v : World, v.fullPath ('/' :: n) = '/' :: n := fun _ => rfl
    have h4 : ∀ x, World.inUse { w with cwd := c } x = w.inUse x := fun _ => rfl
    have h5 : ∀ x a, openOutput { w with cwd := c } ('/' :: x) a = openOutput w ('/' :: x) a :=
      fun _ _ => rfl
    unfold convertFile
    simp only [h1, h4]
    split
    · rfl
    split
    · rfl
    split
    · rfl
    split
    · rfl
    split
    · split
      · rfl
      split <;> rfl
    rename_i hm
    obtain ⟨m, hm'⟩ := h.resolve_left hm
    have h2 : o.outName = some ('/' :: m) := by unfold Options.outName; rw [hm']
    rw [h2]
    have h3 : ∀ v : World, v.fullPath ('/' :: m) = '/' :: m := fun _ => rfl
    simp only [Option.getD_some, h3, h5]
    split
    · rfl
    split <;> rfl

/-! ## line ends -/

/-- a part of a line -/
def InLine (l : Str) : Prop := '\r' ∉ l ∧ '\n' ∉ l

/-- A text with lines `ls` and the rest `last` without line end.  A line ends with line feed, with
carriage return and line feed, or with carriage return. -/
inductive Text : List Str → Str → Str → Prop
  | last {last} : InLine last → Text [] last last
  | lf {l ls last t} : InLine l → Text ls last t → Text (l :: ls) last (l ++ '\n' :: t)
  | crlf {l ls last t} : InLine l → Text ls last t → Text (l :: ls) last (l ++ '\r' :: '\n' :: t)
  | cr {l ls last t} : InLine l → t.head? ≠ some '\n' → Text ls last t →
      Text (l :: ls) last (l ++ '\r' :: t)

theorem newlines_line {l t : Str} (h : InLine l) : newlines (l ++ t) = l ++ newlines t := by
  induction l with
  | nil => rfl
  | cons c l ih =>
    have h1 : c ≠ '\r' := by rintro rfl; exact h.1 (by simp)
    have h2 : InLine l := ⟨fun hh => h.1 (by simp [hh]), fun hh => h.2 (by simp [hh])⟩
    rw [List.cons_append, List.cons_append, ← ih h2]
    exact newlines.eq_3 _ _ (fun _ hc _ => h1 hc) h1

theorem newlines_text {ls : List Str} {last t : Str} (h : Text ls last t) :
    newlines t = (ls.flatMap fun l => l ++ ['\n']) ++ last := by
  induction h with
  | @last l h =>
    have := newlines_line (t := []) h
    rw [List.append_nil] at this
    rw [this]
    simp [newlines]
  | lf h _ ih =>
    rw [newlines_line h, newlines.eq_3 _ _ (by intro r h; cases h) (by decide), ih]
    simp
  | crlf h _ ih => rw [newlines_line h, newlines, ih]; simp
  | @cr l ls last t h hh _ ih =>
    rw [newlines_line h, newlines, ih]
    · simp
    · intro r hr; rw [hr] at hh; simp at hh

/-- two contents of a file with the same lines -/
def SameLines (a b : Bytes) : Prop :=
  ∃ ls last, Text ls last (a.map latin1) ∧ Text ls last (b.map latin1)

theorem SameLines.source {a b : Bytes} (h : SameLines a b) :
    sourceOf true a = sourceOf true b := by
  obtain ⟨ls, last, h1, h2⟩ := h
  unfold sourceOf
  rw [newlines_text h1, newlines_text h2]
  rfl

theorem Text.head {ls : List Str} {last t : Str} (h : Text ls last t) (c : Char)
    (h1 : c ≠ '\r') (h2 : c ≠ '\n') : t.head? = some c ↔
      ((ls.flatMap fun l => l ++ ['\n']) ++ last).head? = some c := by
  cases h with
  | last _ => simp
  | @lf l => cases l <;> simp
  | @crlf l => cases l <;> simp [Ne.symm h1, Ne.symm h2]
  | @cr l => cases l <;> simp [Ne.symm h1, Ne.symm h2]

theorem latin1_75 (x : UInt8) : latin1 x = 'K' ↔ x = 75 := by
  have h : ∀ n < 256, Char.ofNat n = 'K' ↔ n = 75 := by decide +kernel
  unfold latin1
  rw [h _ x.toNat_lt, ← UInt8.toNat_inj]
  rfl

theorem SameLines.head {a b : Bytes} (h : SameLines a b) :
    a.head? = some 75 ↔ b.head? = some 75 := by
  obtain ⟨ls, last, h1, h2⟩ := h
  have key : ∀ x : Bytes, x.head? = some 75 ↔ (x.map latin1).head? = some 'K' := by
    intro x
    cases x with
    | nil => simp
    | cons y x => simp [latin1_75]
  rw [key, key, h1.head _ (by decide) (by decide), h2.head _ (by decide) (by decide)]

/-- the same files but for line ends -/
def SameFiles (d d' : Str → Option Bytes) : Prop :=
  ∀ p, (d p = none ∧ d' p = none) ∨ ∃ a b, d p = some a ∧ d' p = some b ∧ SameLines a b

theorem readLower_lines {disk disk' : Str → Option Bytes} (hd : SameFiles disk disk')
    (only : Option (List String)) (dir : Str) : ∀ (files : List (Str × Int)) (st : St),
    readLower D B only disk dir true files st = readLower D B only disk' dir true files st
  | [], _ => rfl
  | (name, ihref) :: more, st => by
    have ih := readLower_lines hd only dir more
    unfold readLower
    rcases hd (dir ++ name) with ⟨h1, h2⟩ | ⟨a, b, h1, h2, h3⟩
    · rw [h1, h2]
      simp only [ih]
    · rw [h1, h2]
      simp only [ih, h3.source]

theorem lowerLeft_lines {disk disk' : Str → Option Bytes} (hd : SameFiles disk disk')
    (only : Option (List String)) (dir : Str) : ∀ (files : List (Str × Int)) (st : St),
    lowerLeft D B only disk dir true files st = lowerLeft D B only disk' dir true files st
  | [], _ => rfl
  | (name, ihref) :: more, st => by
    have ih := lowerLeft_lines hd only dir more
    unfold lowerLeft
    rcases hd (dir ++ name) with ⟨h1, h2⟩ | ⟨a, b, h1, h2, h3⟩
    · rw [h1, h2]
      simp only [ih]
    · rw [h1, h2]
      simp only [ih, h3.source]

/-- **C12** The conversion of text files does not depend on the convention for line ends: on disks
with the same files but for line ends it has the same result, output file and messages. -/
theorem line_ends {disk : Str → Option Bytes} {n : Str} {pre : PrefixArg}
    (hd : SameFiles w.disk disk) (hf : ∀ b, w.disk (w.fullPath n) = some b → b.head? ≠ some 75) :
    sif2hdf5 D B o (.name n) pre { w with disk := disk } =
      ((sif2hdf5 D B o (.name n) pre w).1,
        { (sif2hdf5 D B o (.name n) pre w).2 with disk := disk }) := by
  cases pre with
  | many ps =>
    rw [listed_eq, listed_eq]
    have h1 : ∀ x, World.fullPath { w with disk := disk } x = w.fullPath x := fun _ => rfl
    have h4 : ∀ x, World.inUse { w with disk := disk } x = w.inUse x := fun _ => rfl
    have h5 : ∀ x a, openOutput { w with disk := disk } x a = openOutput w x a := fun _ _ => rfl
    unfold convertListed
    simp only [h1, h4, h5]
    split
    · rfl
    split
    · rfl
    split
    · rfl
    split
    · rfl
    rcases hd (w.fullPath n) with ⟨e1, e2⟩ | ⟨a, b, e1, e2, -⟩
    · rw [e1, e2]
    · rw [e1, e2]
      dsimp only
      split
      · split <;> rfl
      · split <;> rfl
  | one p =>
    rw [single_eq, single_eq]
    have h1 : ∀ x, World.fullPath { w with disk := disk } x = w.fullPath x := fun _ => rfl
    have h4 : ∀ x, World.inUse { w with disk := disk } x = w.inUse x := fun _ => rfl
    have h5 : ∀ x a, openOutput { w with disk := disk } x a = openOutput w x a := fun _ _ => rfl
    unfold convertFile
    simp only [h1, h4, h5]
    split
    · rfl
    split
    · rfl
    rename_i info _
    split
    · rfl
    rcases hd (w.fullPath n) with ⟨e1, e2⟩ | ⟨a, b, e1, e2, e3⟩
    · rw [e1, e2]
    have ha := hf a e1
    have hb : b.head? ≠ some 75 := mt e3.head.mpr ha
    have pa : ∀ st, parseAll D B o.only disk (splitPath (w.fullPath n)).1 info true b st =
        parseAll D B o.only w.disk (splitPath (w.fullPath n)).1 info true a st := by
      intro st
      unfold parseAll
      simp only [e3.source, readLower_lines hd]
    have pl : ∀ st, allLeft D B o.only disk (splitPath (w.fullPath n)).1 info true b st =
        allLeft D B o.only w.disk (splitPath (w.fullPath n)).1 info true a st := by
      intro st
      unfold allLeft
      simp only [e3.source, lowerLeft_lines hd]
    have ha' : (a.head? != some 75) = true := by simpa using ha
    have hb' : (b.head? != some 75) = true := by simpa using hb
    rw [e1, e2]
    simp only [ha', hb', pa, pl]
    split
    · split
      · rfl
      split <;> rfl
    split
    · rfl
    split <;> rfl

/-! ## outputs in use -/

/-- what `sif2hdf5` finds before it opens the output file -/
theorem opened_name {name dir fname fp no ext pre : Str} {l : Char} {b : Bytes} {e : Err}
    (hp : PathOf (w.fullPath name) dir fname) (hn : SesamName fname fp l no ext)
    (hsin : ext.getLast? ≠ some 'n' ∧ ext.getLast? ≠ some 'N')
    (hb : w.disk (w.fullPath name) = some b)
    (happ : o.append = true → ∃ n, n ≠ [] ∧ o.hdf5name = some n)
    (hin : (o.inMemory = true ∧ e = .valueError ∧
        w.inUse (fname.dropLast.dropLast.dropLast ++ ['h', '5']) = true) ∨
      (o.inMemory = false ∧ ∃ given, GivenName o fname given ∧
        openOutput w given o.append = .error e)) :
    ∃ st, sif2hdf5 D B o (.name name) (.one pre) w = (.error e, { w with st := st }) ∧
      st.env.elem = w.st.env.elem := by
  have hsp := splitPath_eq hp.2.1 hp.2.2
  rw [← hp.1] at hsp
  have hm : convMatch fname = some ⟨fp, l, ext⟩ :=
    (names_agree (filename := fname) (dir := []) ⟨rfl, .inl rfl, hp.2.2⟩).1 _
      (sifname_parts (dir := []) ⟨rfl, .inl rfl, hp.2.2⟩ hn)
  have hext : IsExt ext := by obtain ⟨⟨_, _, _, _, _, _, _, h⟩, _⟩ := hn; exact h
  have hns : ¬ upper ext = ['S', 'I', 'N'] := by rw [upper_sin hext]; tauto
  have hno : ¬ (o.outName = none ∧ o.append = true) := by
    rintro ⟨h1, h2⟩
    obtain ⟨n, hn1, hn2⟩ := happ h2
    rw [outName_some hn2 hn1] at h1
    cases h1
  rw [single_eq]
  unfold convertFile
  rw [if_neg hno]
  simp only [hsp, hm, if_neg hns, hb]
  rcases hin with ⟨h1, rfl, h2⟩ | ⟨h1, given, h2, h3⟩
  · simp only [h1, if_true]
    rw [if_pos h2]
    exact ⟨_, rfl, rfl⟩
  · simp only [h1, h2.eq, h3, Bool.false_eq_true, if_false]
    exact ⟨_, rfl, rfl⟩

/-- **C24** While an HDF5 file is open under the name that an in-memory file would get, a conversion
in memory raises ValueError and changes nothing. -/
theorem memory_name_taken {name dir fname fp no ext pre stem e3 : Str} {l : Char} {b : Bytes}
    (hp : PathOf (w.fullPath name) dir fname) (hn : SesamName fname fp l no ext)
    (hsin : ext.getLast? ≠ some 'n' ∧ ext.getLast? ≠ some 'N')
    (hb : w.disk (w.fullPath name) = some b)
    (happ : o.append = true → ∃ n, n ≠ [] ∧ o.hdf5name = some n) (hmem : o.inMemory = true)
    (hstem : fname = stem ++ e3) (h3 : e3.length = 3)
    (htaken : stem ++ "h5".toList ∈ w.memory ++ w.leaked ++ w.reading) :
    ∃ st, sif2hdf5 D B o (.name name) (.one pre) w = (.error .valueError, { w with st := st }) ∧
      st.env.elem = w.st.env.elem :=
  opened_name hp hn hsin hb happ (.inl ⟨hmem, rfl, by
    rw [hstem, dropLast3 h3]
    simpa [World.inUse, or_assoc] using htaken⟩)

/-- **C24** While an HDF5 file is open for reading under the name of the output file, or open at all
under this name and the call does not append, `sif2hdf5` raises ValueError and changes nothing. -/
theorem output_name_taken {name dir fname fp no ext pre given : Str} {l : Char} {b : Bytes}
    (hp : PathOf (w.fullPath name) dir fname) (hn : SesamName fname fp l no ext)
    (hsin : ext.getLast? ≠ some 'n' ∧ ext.getLast? ≠ some 'N')
    (hb : w.disk (w.fullPath name) = some b)
    (happ : o.append = true → ∃ n, n ≠ [] ∧ o.hdf5name = some n) (hmem : o.inMemory = false)
    (hgiven : GivenName o fname given)
    (htaken : given ∈ w.reading ∨ o.append = false ∧ given ∈ w.memory ++ w.leaked) :
    ∃ st, sif2hdf5 D B o (.name name) (.one pre) w = (.error .valueError, { w with st := st }) ∧
      st.env.elem = w.st.env.elem := by
  refine opened_name hp hn hsin hb happ (.inr ⟨hmem, given, hgiven, ?_⟩)
  unfold openOutput World.inUse
  rw [if_pos]
  rcases htaken with h | ⟨h1, h2⟩
  · simp [h]
  · rcases List.mem_append.mp h2 with h2 | h2 <;> simp [h1, h2]

/-- **C16**, **C24** While the output file is open, but under another name, for reading, or left open
by a conversion that raised and the call does not append, `sif2hdf5` raises HDF5ExtError and changes
nothing. -/
theorem output_file_open {name dir fname fp no ext pre given : Str} {l : Char} {b : Bytes}
    (hp : PathOf (w.fullPath name) dir fname) (hn : SesamName fname fp l no ext)
    (hsin : ext.getLast? ≠ some 'n' ∧ ext.getLast? ≠ some 'N')
    (hb : w.disk (w.fullPath name) = some b)
    (happ : o.append = true → ∃ n, n ≠ [] ∧ o.hdf5name = some n) (hmem : o.inMemory = false)
    (hgiven : GivenName o fname given) (h1 : given ∉ w.reading)
    (h2 : o.append = false → given ∉ w.memory ++ w.leaked)
    (hopen : (∃ h, w.out (w.fullPath given) = some (.h5 h) ∧ w.fullPath given ∈ w.reading) ∨
      ∃ h, w.out (w.fullPath given) = some (.left h) ∧ o.append = false) :
    ∃ st, sif2hdf5 D B o (.name name) (.one pre) w = (.error .hdf5Error, { w with st := st }) ∧
      st.env.elem = w.st.env.elem := by
  refine opened_name hp hn hsin hb happ (.inr ⟨hmem, given, hgiven, ?_⟩)
  unfold openOutput World.inUse
  rw [if_neg]
  · rcases hopen with ⟨h, h3, h4⟩ | ⟨h, h3, h4⟩
    · simp only [h3]
      rw [if_pos (by simpa using h4)]
    · simp only [h3, h4, Bool.false_eq_true, if_false]
  · cases ha : o.append <;> simp_all

end

/-! ## cases -/

namespace Demo

example := relative_name (D := Dec.std) (B := 10000) (o := {}) (w := world) (n := "T9.FEM".toList)
  (pre := .one []) rfl (by decide)

example := absolute_name (D := Dec.std) (B := 10000) (w := world) (n := "m/T9.FEM".toList)
  (c := "/x/".toList) (o := { hdf5name := some "/m/a.h5".toList }) (pre := .one []) (.inr ⟨_, rfl⟩)

/-- two lines, with line feeds and as usual on Windows -/
example : SameLines [73, 10, 68, 10] [73, 13, 10, 68, 13, 10] :=
  ⟨[['I'], ['D']], [], .lf ⟨by decide, by decide⟩ (.lf ⟨by decide, by decide⟩ (.last ⟨by decide, by decide⟩)),
    .crlf ⟨by decide, by decide⟩ (.crlf ⟨by decide, by decide⟩ (.last ⟨by decide, by decide⟩))⟩

example := line_ends (D := Dec.std) (B := 10000) (o := {}) (n := "T1.FEM".toList) (pre := .one [])
  (w := { disk := fun p => if p = "/T1.FEM".toList then some [73, 10, 68] else none })
  (disk := fun p => if p = "/T1.FEM".toList then some [73, 13, 68] else none)
  (fun p => by
    by_cases h : p = "/T1.FEM".toList
    · exact .inr ⟨_, _, if_pos h, if_pos h, [['I']], ['D'],
        .lf ⟨by decide, by decide⟩ (.last ⟨by decide, by decide⟩),
        .cr ⟨by decide, by decide⟩ (by decide) (.last ⟨by decide, by decide⟩)⟩
    · exact .inl ⟨if_neg h, if_neg h⟩)
  (fun b hb => by
    have : some [(73 : UInt8), 10, 68] = some b := hb
    cases this
    decide)

example := memory_name_taken (D := Dec.std) (B := 10000) (o := { inMemory := true })
  (w := { world with memory := ["T9.h5".toList] }) (name := "T9.FEM".toList) (dir := "/m/".toList)
  (pre := []) (stem := "T9.".toList) (e3 := "FEM".toList) (no := "9".toList)
  (b := 75 :: Parse.Demo.bytes topFile)
  ⟨rfl, .inr ⟨"/m".toList, rfl⟩, by decide⟩ topName (by decide) (by decide +kernel) (by simp) rfl rfl
  rfl (by simp)

/-- under the name given, as an absolute path -/
example := output_name_taken (D := Dec.std) (B := 10000)
  (o := { hdf5name := some "/m/a.h5".toList, append := true })
  (w := { world with reading := ["/m/a.h5".toList] }) (name := "T9.FEM".toList)
  (dir := "/m/".toList) (pre := []) (no := "9".toList) (given := "/m/a.h5".toList)
  (b := 75 :: Parse.Demo.bytes topFile)
  ⟨rfl, .inr ⟨"/m".toList, rfl⟩, by decide⟩ topName (by decide) (by decide +kernel)
  (fun _ => ⟨_, by simp, rfl⟩) rfl (.inl ⟨by decide, rfl⟩) (.inl (by simp [world]))

/-- after a conversion to `T9.h5` that raised -/
example := output_name_taken (D := Dec.std) (B := 10000) (o := {})
  (w := { world with leaked := ["T9.h5".toList] }) (name := "T9.FEM".toList)
  (dir := "/m/".toList) (pre := []) (no := "9".toList) (given := "T9.h5".toList)
  (b := 75 :: Parse.Demo.bytes topFile)
  ⟨rfl, .inr ⟨"/m".toList, rfl⟩, by decide⟩ topName (by decide) (by decide +kernel) (by simp) rfl
  (.inr ⟨.inl rfl, "T9.".toList, "FEM".toList, rfl, rfl, rfl⟩) (.inr ⟨rfl, by simp [world]⟩)

/-- while `T9.h5` is open -/
example := output_file_open (D := Dec.std) (B := 10000) (o := {})
  (w := { world with out := fun _ => some (.h5 {}), reading := ["/m/T9.h5".toList] })
  (name := "T9.FEM".toList) (dir := "/m/".toList) (pre := []) (no := "9".toList)
  (given := "T9.h5".toList) (b := 75 :: Parse.Demo.bytes topFile)
  ⟨rfl, .inr ⟨"/m".toList, rfl⟩, by decide⟩ topName (by decide) (by decide +kernel) (by simp) rfl
  (.inr ⟨.inl rfl, "T9.".toList, "FEM".toList, rfl, rfl, rfl⟩) (by decide) (by simp [world])
  (.inl ⟨_, rfl, by decide⟩)

/-- after a conversion to `/m/T9.h5` that raised -/
example := output_file_open (D := Dec.std) (B := 10000) (o := {})
  (w := { world with out := fun _ => some (.left {}), leaked := ["/m/T9.h5".toList] })
  (name := "T9.FEM".toList) (dir := "/m/".toList) (pre := []) (no := "9".toList)
  (given := "T9.h5".toList) (b := 75 :: Parse.Demo.bytes topFile)
  ⟨rfl, .inr ⟨"/m".toList, rfl⟩, by decide⟩ topName (by decide) (by decide +kernel) (by simp) rfl
  (.inr ⟨.inl rfl, "T9.".toList, "FEM".toList, rfl, rfl, rfl⟩) (by decide)
  (fun _ => by decide) (.inr ⟨_, rfl, rfl⟩)

end Demo

end Verif.Conv
